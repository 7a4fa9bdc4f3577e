import Verif.Relative.PNFile
import Verif.Relative.XformProgram

/-!
# Examples for C122 to C127
-/

namespace Verif.Relative.ConvertersExamples
open Verif Verif.H2 Verif.Mixer.Control

noncomputable def nm : Numbers :=
  ⟨fun w => if w = "4" then some 4 else if w = "1" then some 1 else if w = "0" then some 0 else if w = "2" then some 2 else none,
    fun w => if w = "1.5" then some (3 / 2) else if w = "1.0" then some 1 else if w = "-1" then some (-1) else none⟩

/-! ## `jpv2rel` -/

section
open Jpv2Rel

/-- The section of the channel `3S1-3D1` with two states on each side. -/
noncomputable def sd : Section := ⟨1, 1, 2, 0, 2, fun i j => 11 + 10 * i + j⟩

noncomputable def sdFile : List Line :=
  [[.int 1, .int 1, .int 2, .int 0, .int 10, .int 2, .dbl 938, .dbl 20, .int 7], [.int 11, .int 12], [.int 22], [.int 99999]]

theorem sd_lines : IsFile [sd] sdFile := by
  refine ⟨[[[.int 1, .int 1, .int 2, .int 0, .int 10, .int 2, .dbl 938, .dbl 20, .int 7], [.int 11, .int 12], [.int 22]]], [], [], ?_, rfl⟩
  refine .cons (.mk 10 7 938 20 [] [[.int 11, .int 12], [.int 22]] (by simp [sd]) ?_ ?_) .nil
  · constructor
    · simp [allValues, lineValues, Tok.toReal, sd]
    · intro k hk
      simp only [List.length_cons, List.length_nil] at hk
      have : k = 0 ∨ k = 1 := by omega
      rcases this with rfl | rfl <;> simp [allValues, lineValues, Tok.toReal, sd]
  · intro r c h1 h2
    have h2 : c < 2 := h2
    have : (r = 0 ∧ c = 0) ∨ (r = 0 ∧ c = 1) ∨ (r = 1 ∧ c = 1) := by omega
    rcases this with ⟨rfl, rfl⟩ | ⟨rfl, rfl⟩ | ⟨rfl, rfl⟩ <;> simp [allValues, lineValues, Tok.toReal, sd, pos, triangular] <;> norm_num

theorem control (N : ℕ) (w : String) (h : nm.int? w = some (N : Int)) :
    ControlFile nm ⟨[[w, "1", "0"], ["a"], ["b"]], true⟩ ⟨N, 1, .one "a", "b"⟩ :=
  ⟨⟨w, "1", "0", [], 0, rfl, h, by simp [nm], by simp [nm], .inl ⟨rfl, "a", [], rfl, rfl⟩⟩, ⟨[], rfl⟩⟩

/-- The element between the lowest `S` and the second `D` state; and nothing between `S` states. -/
example : ∃ out : RelFile, run nm (fun _ => some sdFile) ⟨[["4", "1", "0"], ["a"], ["b"]], true⟩ = .ok ("b", out) ∧
    (∃ k, (out.sectors 0)[k]? = some (relSub 4 0 1 1, relSub 4 2 1 1) ∧ out.blocks 0 k 0 1 = 12) ∧
    (∃ k, (out.sectors 0)[k]? = some (relSub 4 0 1 1, relSub 4 0 1 1) ∧ out.blocks 0 k 0 1 = 0) := by
  obtain ⟨out, h1, h2, h3, h4, h5⟩ := isoscalar_written (control 4 "4" (by simp [nm])) (file? := fun _ => some sdFile) rfl sd_lines
    (by simp only [List.mem_singleton, forall_eq]; unfold Section.In sd; decide)
  refine ⟨out, h1, ⟨2, ?_, ?_⟩, ⟨1, ?_, ?_⟩⟩
  · rw [RelFile.sectors, h2, h3, h4]; decide
  · refine h5 2 (relSub 4 0 1 1) (relSub 4 2 1 1) (by rw [RelFile.sectors, h2, h3, h4]; decide) 0 1 (by unfold Stored; decide) 12 (.inl ⟨⟨sd, by simp, ?_⟩, ?_⟩)
    · refine ⟨by decide, .inl ⟨rfl, rfl, by omega, by decide, ?_⟩⟩
      simp [sd]; norm_num
    · intro s hs v' h
      rw [List.mem_singleton] at hs
      subst hs
      obtain ⟨-, ⟨-, -, -, -, rfl⟩ | ⟨h, -⟩⟩ := h
      · simp [sd]; norm_num
      · simp [sd, relSub] at h
  · rw [RelFile.sectors, h2, h3, h4]; decide
  · refine h5 1 (relSub 4 0 1 1) (relSub 4 0 1 1) (by rw [RelFile.sectors, h2, h3, h4]; decide) 0 1 (by unfold Stored; decide) 0 (.inr ⟨rfl, ?_⟩)
    intro s hs v' h
    rw [List.mem_singleton] at hs
    subst hs
    obtain ⟨-, ⟨-, h, -⟩ | ⟨h, h', -⟩⟩ := h
    · simp [sd, relSub] at h
    · simp [sd, relSub] at h'

/-- The same file for a space without `D` states. -/
example (r : String × RelFile) : run nm (fun _ => some sdFile) ⟨[["1", "1", "0"], ["a"], ["b"]], true⟩ ≠ .ok r :=
  isoscalar_outside_refused (control 1 "1" (by simp [nm])) (file? := fun _ => some sdFile) rfl sd_lines (s := sd) (by simp) (by unfold Section.In sd; decide) r

/-- A file with one value, for the lowest states of `1S0`. -/
noncomputable def s0 (c : Int) : Section := ⟨0, 0, 0, 0, 1, fun _ _ => c⟩
noncomputable def s0File (c : Int) : List Line :=
  [[.int 0, .int 0, .int 0, .int 0, .int 10, .int 1, .dbl 938, .dbl 20, .int 7], [.int c], [.int 99999]]

theorem s0_lines (c : Int) : IsFile [s0 c] (s0File c) := by
  refine ⟨[[[.int 0, .int 0, .int 0, .int 0, .int 10, .int 1, .dbl 938, .dbl 20, .int 7], [.int c]]], [], [], ?_, rfl⟩
  refine .cons (.mk 10 7 938 20 [] [[.int c]] (by simp [s0]) ?_ ?_) .nil
  · constructor
    · simp [allValues, lineValues, Tok.toReal, s0]
    · intro k hk
      simp only [List.length_cons, List.length_nil] at hk
      obtain rfl : k = 0 := by omega
      simp [allValues, s0]
  · intro r c' h1 h2
    have h2 : c' < 1 := h2
    obtain ⟨rfl, rfl⟩ : r = 0 ∧ c' = 0 := by omega
    simp [allValues, lineValues, Tok.toReal, s0, pos, triangular]

def species (c : Sp) : Int := match c with
  | .pp => 1
  | .nn => 2
  | .pn => 5

/-- pp, nn and pn files with the values 1, 2 and 5: the operator written has these projections. -/
example : ∃ out : RelFile, run nm (fun w => some (if w = "pp" then s0File 1 else if w = "nn" then s0File 2 else s0File 5))
      ⟨[["4", "1", "2"], ["pp", "nn", "pn"], ["b"]], true⟩ = .ok ("b", out) ∧
    ∃ t : ℕ → ℕ, (∀ T0 ≤ 2, (out.sectors T0)[t T0]? = some (relSub 4 0 0 0, relSub 4 0 0 0)) ∧
      projected out t 1 0 0 = 1 ∧ projected out t (-1) 0 0 = 2 ∧ projected out t 0 0 0 = 5 := by
  obtain ⟨out, h1, h2, h3, h4, h5, -, -⟩ := charge_dependent_written (nm := nm)
    (file? := fun w => some (if w = "pp" then s0File 1 else if w = "nn" then s0File 2 else s0File 5))
    (f := ⟨[["4", "1", "2"], ["pp", "nn", "pn"], ["b"]], true⟩) (N := 4) (J := 1) (pp := "pp") (nn := "nn") (pn := "pn") (tgt := "b")
    ⟨⟨"4", "1", "2", [], 2, rfl, by simp [nm], by simp [nm], by simp [nm], .inr ⟨rfl, "pp", "nn", "pn", [], rfl, rfl⟩⟩, ⟨[], rfl⟩⟩
    (fun c => match c with | .pp => "pp" | .nn => "nn" | .pn => "pn") rfl rfl rfl (lines := fun c => s0File (species c))
    (by intro s; cases s <;> simp [species]) (secs := fun c => [s0 (species c)]) (fun s => s0_lines _)
    (by intro s; simp only [List.mem_singleton, forall_eq]; cases s <;> (unfold Section.In s0; decide))
  obtain ⟨t, ht, hv⟩ := h5 (relSub 4 0 0 0) (relSub 4 0 0 0) (by rw [RelFile.sectors, h2, h3, h4]; decide) rfl
  have hsay : ∀ s, Says [s0 (species s)] (relSub 4 0 0 0) (relSub 4 0 0 0) 0 0 (species s) := by
    intro s
    refine .inl ⟨⟨s0 (species s), by simp, by simp [s0, relSub], .inl ⟨rfl, rfl, by omega, by simp [s0], by simp [s0]⟩⟩, ?_⟩
    intro c hc v h
    rw [List.mem_singleton] at hc
    subst hc
    obtain ⟨-, ⟨-, -, -, -, rfl⟩ | ⟨-, -, -, -, rfl⟩⟩ := h <;> simp [s0]
  refine ⟨out, h1, t, ht, ?_, ?_, ?_⟩
  · have := hv 0 0 (by unfold Stored; decide) .pp _ (hsay .pp)
    simpa [Sp.Tz, species] using this
  · have := hv 0 0 (by unfold Stored; decide) .nn _ (hsay .nn)
    simpa [Sp.Tz, species] using this
  · have := hv 0 0 (by unfold Stored; decide) .pn _ (hsay .pn)
    simpa [Sp.Tz, species] using this

end

/-! ## `pn2rel` -/

section
open Pn2Rel

def int? (w : String) : Option Int := if w = "4" then some 4 else if w = "1" then some 1 else none

/-- The first two states of `1S0` in pp and nn, and the channel `3S1-3D1`. -/
noncomputable def rows : List Row := [⟨0, 0, 1, 0, 0, 0, -1, 3⟩, ⟨0, 0, 1, 0, 0, 0, 1, 4⟩, ⟨1, 2, 0, 0, 1, 1, 0, 5⟩]

noncomputable def lines : List Line :=
  [[.int 0, .int 0, .int 1, .int 0, .int 0, .int 0, .int (-1), .int 3], [.int 0, .int 0, .int 1, .int 0, .int 0, .int 0, .int 1, .dbl 4, .bad],
    [.int 1, .int 2, .int 0, .int 0, .int 1, .int 1, .int 0, .dbl 5]]

theorem rows_lines : List.Forall₂ RowLine rows lines :=
  .cons ⟨_, _, rfl, by simp [Tok.toReal]⟩ (.cons ⟨_, _, rfl, by simp [Tok.toReal]⟩ (.cons ⟨_, _, rfl, by simp [Tok.toReal]⟩ .nil))

theorem rows_in : ∀ r ∈ rows, r.In 4 1 := by
  simp only [rows, List.mem_cons, List.not_mem_nil, or_false, forall_eq_or_imp, forall_eq]
  unfold Row.In Row.Channels
  decide

example : ∃ out : RelFile, run int? (fun _ => some lines) ["4", "1", "a", "b"] = .ok ("b", out) ∧
    (∃ t : ℕ → ℕ, (∀ T0 ≤ 2, (out.sectors T0)[t T0]? = some (relSub 4 0 0 0, relSub 4 0 0 0)) ∧
      projected out t 1 0 1 = 3 ∧ projected out t 1 1 0 = 3 ∧ projected out t (-1) 0 1 = 4 ∧ projected out t 0 0 1 = 0) ∧
    ∃ k, (out.sectors 0)[k]? = some (relSub 4 0 1 1, relSub 4 2 1 1) ∧ out.blocks 0 k 0 1 = 5 := by
  obtain ⟨out, h1, h2, h3, h4, h5, h6, -⟩ := written (int? := int?) (file? := fun _ => some lines) (a := "4") (b := "1") (src := "a")
    (tgt := "b") (more := []) (N := 4) (J := 1) rfl rfl rfl rows_lines rows_in
  refine ⟨out, h1, ?_, ?_⟩
  · obtain ⟨t, ht, hv⟩ := h5 (relSub 4 0 0 0) (relSub 4 0 0 0) (by rw [RelFile.sectors, h2, h3, h4]; decide) rfl
    refine ⟨t, ht, ?_, ?_, ?_, ?_⟩
    · have := hv 0 1 (by decide) (by decide) .pp 3
      exact this (.inl ⟨⟨⟨0, 0, 1, 0, 0, 0, -1, 3⟩, by simp [rows], rfl, rfl, by simp [relSub], by simp [relSub]⟩, by simp [rows, Row.Gives, fileTz]⟩)
    · have := hv 1 0 (by decide) (by decide) .pp 3
      exact this (.inl ⟨⟨⟨0, 0, 1, 0, 0, 0, -1, 3⟩, by simp [rows], rfl, rfl, by simp [relSub], by simp [relSub]⟩, by simp [rows, Row.Gives, fileTz]⟩)
    · have := hv 0 1 (by decide) (by decide) .nn 4
      exact this (.inl ⟨⟨⟨0, 0, 1, 0, 0, 0, 1, 4⟩, by simp [rows], rfl, rfl, by simp [relSub], by simp [relSub]⟩, by simp [rows, Row.Gives, fileTz]⟩)
    · have := hv 0 1 (by decide) (by decide) .pn 0
      exact this (.inr ⟨rfl, by simp [rows, Row.Gives, fileTz, relSub]⟩)
  · refine ⟨2, by rw [RelFile.sectors, h2, h3, h4]; decide, h6 2 (relSub 4 0 1 1) (relSub 4 2 1 1) (by rw [RelFile.sectors, h2, h3, h4]; decide) rfl 0 1 (by decide) (by decide) 5 ?_⟩
    exact .inl ⟨⟨⟨1, 2, 0, 0, 1, 1, 0, 5⟩, by simp [rows], rfl, rfl, by simp [relSub], by simp [relSub]⟩, by simp [rows, Row.Gives, fileTz]⟩

/-- A line between `S` and `P` states. -/
example : run int? (fun _ => some (lines ++ [[.int 0, .int 0, .int 0, .int 1, .int 1, .int 1, .int 0, .dbl 1]])) ["4", "1", "a", "b"] =
    .error .undefinedBehaviour :=
  parity_unchecked (more := []) (N := 4) (J := 1) rfl rfl (pre := lines) (post := []) rfl rows_lines rows_in (r := ⟨0, 0, 0, 1, 1, 1, 0, 1⟩)
    ⟨_, _, rfl, by simp [Tok.toReal]⟩ (by unfold Row.Channels; decide) rfl

/-- A line for `G` states with `J = 4`, in a space up to `J = 1`. -/
example : run int? (fun _ => some (lines ++ [[.int 0, .int 4, .int 0, .int 4, .int 0, .int 4, .int 0, .dbl 1]])) ["4", "1", "a", "b"] =
    .error .exitFailure :=
  outside_refused (more := []) (N := 4) (J := 1) rfl rfl (pre := lines) (post := []) rfl rows_lines rows_in (r := ⟨0, 4, 0, 4, 0, 4, 0, 1⟩)
    ⟨_, _, rfl, by simp [Tok.toReal]⟩ (by unfold Row.Channels; decide)

example : run int? (fun _ => some lines) ["4", "1", "a"] = .error .undefinedBehaviour :=
  (missing_arguments_unchecked (N := 4) (J := 1) rfl rfl).2 "a"

example : run int? (fun _ => some lines) ["4"] = .error .exitFailure := arguments_missing (by decide)

end

/-! ## `relative-xform` -/

section
open XformProgram

/-- An operator on `1S0` up to two quanta: `10 + n + 3 n'` for `n ≤ n'`. -/
noncomputable def op : RelFile := ⟨⟨0, 0, 0, 0⟩, 2, 0, fun _ k i j => if k = 0 ∧ i ≤ j then 10 + i + 3 * j else 0⟩

theorem control_xf (w r : String) (N : ℕ) (x : ℝ) (h : nm.int? w = some (N : Int)) (h' : nm.num? r = some x) :
    ControlFile nm (fun _ => some op) ⟨[["a"], [w, r, "4"], ["b"]], true⟩ ⟨"a", N, x, 4, "b"⟩ :=
  ⟨⟨⟨[], rfl⟩, rfl⟩, ⟨w, r, "4", [], rfl, h, h', by simp [nm]⟩, ⟨[], rfl⟩⟩

/-- Extended to four quanta. -/
example : ∃ out, run nm (fun _ _ _ _ _ => 0) (fun _ => some op) ⟨[["a"], ["4", "1.0", "4"], ["b"]], true⟩ = .ok ("b", out) ∧
    (out.sectors 0)[0]? = some (relSub 4 0 0 0, relSub 4 0 0 0) ∧ out.blocks 0 0 0 1 = 13 ∧ out.blocks 0 0 1 0 = 13 ∧ out.blocks 0 0 1 2 = 0 := by
  obtain ⟨out, h1, h2, h3, h4, h5⟩ := unit_ratio (overlap := fun _ _ _ _ _ => 0) (control_xf "4" "1.0" 4 1 (by simp [nm]) (by simp [nm])) rfl rfl rfl
  have hs : (out.sectors 0)[0]? = some (relSub 4 0 0 0, relSub 4 0 0 0) := by rw [RelFile.sectors, h2, h3, h4]; decide
  have hs' : (op.sectors 0)[0]? = some (relSub 2 0 0 0, relSub 2 0 0 0) := by decide
  refine ⟨out, h1, hs, ?_, ?_, ?_⟩
  · rw [(h5 0 0 _ _ hs 0 1).1 0 _ _ hs' ⟨rfl, rfl, rfl⟩ ⟨rfl, rfl, rfl⟩]
    simp [relSub, element, op]; norm_num
  · rw [(h5 0 0 _ _ hs 1 0).1 0 _ _ hs' ⟨rfl, rfl, rfl⟩ ⟨rfl, rfl, rfl⟩]
    simp [relSub, element, op]; norm_num
  · rw [(h5 0 0 _ _ hs 1 2).1 0 _ _ hs' ⟨rfl, rfl, rfl⟩ ⟨rfl, rfl, rfl⟩]
    simp [relSub]

/-- With overlaps `a + 2 i`, truncated to one state. -/
example : ∃ out, run nm (fun _ _ _ a i => a + 2 * i) (fun _ => some op) ⟨[["a"], ["0", "1.5", "4"], ["b"]], true⟩ = .ok ("b", out) ∧
    (out.sectors 0)[0]? = some (relSub 0 0 0 0, relSub 0 0 0 0) ∧ out.blocks 0 0 0 0 = 14 := by
  obtain ⟨out, h1, h2, h3, h4, h5⟩ := written (overlap := fun _ _ _ a i => a + 2 * i) (control_xf "0" "1.5" 0 (3 / 2) (by simp [nm]) (by simp [nm]))
    rfl (by norm_num) rfl
  have hs : (out.sectors 0)[0]? = some (relSub 0 0 0 0, relSub 0 0 0 0) := by rw [RelFile.sectors, h2, h3, h4]; decide
  have hs' : (op.sectors 0)[0]? = some (relSub 2 0 0 0, relSub 2 0 0 0) := by decide
  refine ⟨out, h1, hs, ?_⟩
  rw [(h5 0 0 _ _ hs 0 0).1 0 _ _ hs' ⟨rfl, rfl, rfl⟩ ⟨rfl, rfl, rfl⟩]
  have : (3 / 2 : ℝ) ≠ 1 := by norm_num
  simp [relSub, element, op, change, Finset.sum_range_succ, this]; norm_num

example : run nm (fun _ _ _ _ _ => 0) (fun _ => some op) ⟨[["a"], ["4", "-1", "4"], ["b"]], true⟩ = .error .assertFail :=
  bad_ratio (control_xf "4" "-1" 4 (-1) (by simp [nm]) (by simp [nm])) rfl (by norm_num)

end

/-! ## `relative-filter` -/

example : ∃ out, Filter.run (fun _ => some op) ⟨[["a", "b"], ["identity"]], true⟩ = .ok ("b", out) ∧ out.blocks 0 0 0 1 = 13 := by
  obtain ⟨out, h1, h2, h3, h4, h5⟩ := Filter.written_partial (file? := fun _ => some op) (f := ⟨[["a", "b"], ["identity"]], true⟩) rfl rfl
  refine ⟨out, h1, ?_⟩
  rw [h5 0 0 (relSub 2 0 0 0) (relSub 2 0 0 0) (by rw [RelFile.sectors, h2, h3, h4]; decide) 0 1 (by decide) (by decide) (fun _ => by omega)]
  simp [op]; norm_num

example : Filter.run (fun _ => some op) ⟨[["a", "b"], ["Nrelmax", "2"]], true⟩ = Filter.run (fun _ => some op) ⟨[["a", "b"]], false⟩ :=
  Filter.filter_line_unread rfl

end Verif.Relative.ConvertersExamples
