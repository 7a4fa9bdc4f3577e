import Verif.Moshinsky.NucleonInteraction
import Verif.Moshinsky.NucleonGenExample
import Verif.Relative.ConvertersExamples

/-!
# An interaction, from its three files to the H2 file

A run of `jpv2rel` and one of `moshinsky` for which all hypotheses of C180 are met.
-/

namespace Verif.Moshinsky
open Verif MvPolynomial Osc Program
open Verif.SU2 hiding couple
open Verif.H2 (Mode Desc Sector Species)
open Verif.Relative (RelFile RelSub Sp relSpace)
open Verif.Relative.Gen (Input)
open Verif.Relative.ConvertersExamples (s0 s0File s0_lines)

/-- There are interactions with any elements. -/
theorem interaction_exists (Nmax : ℕ) (Jmax : Int) (v : Sp → RelRME) : ∃ V : Nucl →ₗ[ℝ] Nucl, IsInteraction V Nmax Jmax v := by
  obtain ⟨O0, h0⟩ := relative_exists Nmax Jmax 0 0 0 0 (partRME v 0)
  obtain ⟨O1, h1⟩ := relative_exists Nmax Jmax 0 1 0 0 (partRME v 1)
  obtain ⟨O2, h2⟩ := relative_exists Nmax Jmax 0 2 0 0 (partRME v 2)
  refine ⟨O0 + O1 + O2, ?_⟩
  intro r r' S Jr T S' Jr' T' mr mc MT mr' mc' MT' h h' hN hN' hm hc hMT hm' hc' hMT'
  have e0 := h0 r r' S Jr T S' Jr' T' mr mc MT mr' mc' MT' h h' hN hN' hm hc hMT hm' hc' hMT'
  have e1 := h1 r r' S Jr T S' Jr' T' mr mc MT mr' mc' MT' h h' hN hN' hm hc hMT hm' hc' hMT'
  have e2 := h2 r r' S Jr T S' Jr' T' mr mc MT mr' mc' MT' h h' hN hN' hm hc hMT hm' hc' hMT'
  rw [← innerL_apply] at e0 e1 e2 ⊢
  rw [LinearMap.add_apply, LinearMap.add_apply, map_add, map_add, e0, e1, e2]
  by_cases k : (r.2.2, mc) = (r'.2.2, mc') ∧ (Jr : Int) ≤ Jmax ∧ (Jr' : Int) ≤ Jmax
  · rw [if_pos k, if_pos k, if_pos k]
    by_cases kJ : (Jr, T) = (Jr', T')
    · simp only [Prod.mk.injEq] at kJ
      obtain ⟨rfl, rfl⟩ := kJ
      by_cases km : mr = mr' ∧ MT = MT'
      · obtain ⟨rfl, rfl⟩ := km
        rw [if_pos ⟨by simpa using k.1, k.2.1⟩, cg_same Jr hm, ← partRME_sum v h.isospin hMT r.2.1 S Jr r.1 r'.2.1 S' r'.1]
        ring
      · rw [if_neg fun x => km (by simp only [Prod.mk.injEq] at x; tauto)]
        by_cases k3 : mr = mr'
        · have k4 : MT ≠ MT' := fun x => km ⟨k3, x⟩
          rw [cg_other k4, cg_other k4, cg_other k4]
          ring
        · rw [cg_other (J := Jr) k3]
          ring
    · have z : ∀ T0, partRME v T0 (r.2.1, S, Jr, T) r.1 (r'.2.1, S', Jr', T') r'.1 = 0 := fun T0 => by
        unfold partRME
        rw [if_neg]
        intro x
        simp only [Prod.mk.injEq, Nat.cast_inj] at x
        exact kJ (Prod.ext x.1 x.2)
      rw [z, z, z, if_neg]
      · ring
      · intro x
        simp only [Prod.mk.injEq] at x
        exact kJ (Prod.ext x.1.2.2.1 x.1.2.2.2.2.1)
  · rw [if_neg k, if_neg k, if_neg k, if_neg]
    · ring
    · rintro ⟨x, y⟩
      simp only [Prod.mk.injEq] at x
      obtain ⟨x1, x2, x3, -⟩ := x
      exact k ⟨Prod.ext x1 x2, y, x3 ▸ y⟩

/-! ## The files -/

/-- An interaction between the lowest states of `1S0`, of another strength for every kind of pair. -/
noncomputable def lowest (c : Sp → Int) : Sp → RelRME := fun s b N b' N' =>
  if b = (0, 0, 0, 1) ∧ N = 0 ∧ b' = (0, 0, 0, 1) ∧ N' = 0 then c s else 0

theorem lowest_hermitian (c : Sp → Int) : Hermitian (lowest c) := by
  intro s l S J T N l' S' N'
  unfold lowest
  exact if_congr (by tauto) rfl rfl

theorem lowest_told (c : Sp → Int) : Tells (fun s => Relative.Jpv2Rel.Says [s0 (c s)]) (lowest c) 4 1 := by
  intro s x y hx hy hJ hT _ _ i j ⟨hi, hj, hij⟩
  have ex := Relative.relSub_eq hx
  have ey := Relative.relSub_eq hy
  by_cases k : x.L = 0 ∧ x.S = 0 ∧ x.J = 0 ∧ y.L = 0 ∧ y.S = 0 ∧ i = 0 ∧ j = 0
  · obtain ⟨k1, k2, k3, k4, k5, rfl, rfl⟩ := k
    have t : x.T = 1 := by rw [ex, k1, k2, k3]; rfl
    have hv : elementOf (lowest c s) x y 0 0 = c s := by
      unfold elementOf lowest
      rw [← hT, ← hJ, k1, k2, k3, k4, k5, t]
      exact if_pos ⟨rfl, rfl, rfl, rfl⟩
    rw [hv]
    refine .inl ⟨⟨s0 (c s), by simp, ?_⟩, ?_⟩
    · refine ⟨⟨k2.symm, k5.symm, k3.symm, ?_⟩, .inl ⟨k1.symm, k4.symm, le_refl 0, Nat.one_pos, rfl⟩⟩
      rw [← hJ]
      exact k3.symm
    · intro a ha v h
      rw [List.mem_singleton] at ha
      subst ha
      obtain ⟨-, ⟨-, -, -, -, rfl⟩ | ⟨-, -, -, -, rfl⟩⟩ := h <;> rfl
  · refine .inr ⟨?_, ?_⟩
    · unfold elementOf lowest
      refine if_neg ?_
      rintro ⟨h1, h2, h3, h4⟩
      simp only [Prod.mk.injEq] at h1 h3
      refine k ⟨?_, ?_, ?_, ?_, ?_, ?_, ?_⟩ <;> omega
    · intro a ha v h
      rw [List.mem_singleton] at ha
      subst ha
      obtain ⟨⟨q1, q2, q3, -⟩, ⟨q4, q5, q6, q7, -⟩ | ⟨q4, q5, q6, q7, -⟩⟩ := h <;> simp only [s0] at q1 q2 q3 q4 q5 q7 <;>
        exact k ⟨by omega, by omega, by omega, by omega, by omega, by omega, by omega⟩

/-- The control file of `jpv2rel`. -/
def jpvControl : Input := ⟨[["4", "1", "2"], ["pp", "nn", "pn"], ["op.rel"]], true⟩

/-- The names of the files. -/
def nameOf : Sp → String
  | .pp => "pp"
  | .nn => "nn"
  | .pn => "pn"

/-- The files. -/
noncomputable def filesOf (c : Sp → Int) : String → Option (List Relative.Line) := fun w =>
  some (s0File (if w = "pp" then c .pp else if w = "nn" then c .nn else c .pn))

/-- C180 for a run, whatever the strengths: there is an interaction with the elements of the three files, `jpv2rel` writes a relative file,
`moshinsky` writes an H2 file, and that holds the elements of the interaction between the states of two nucleons with up to two quanta. -/
theorem interaction_file (hf : H2.HeaderFloat) (c : Sp → Int) :
    ∃ f file V, Relative.Jpv2Rel.run Relative.ConvertersExamples.nm
        (filesOf c) jpvControl = .ok ("op.rel", f) ∧
      Program.run (worldC hf numbersC (fun w => if w = "op.rel" then some f else none) fun _ => none) controlC = .ok (.h2 "op.bin" file) ∧
      IsInteraction V 2 1 (lowest c) ∧
      HoldsInteraction (worldC hf numbersC (fun w => if w = "op.rel" then some f else none) fun _ => none) .binary .v0 scalarDesc id "op.bin" 2 1
        (lowest c) (.h2 "op.bin" file) := by
  have hc : Relative.Jpv2Rel.ControlFile Relative.ConvertersExamples.nm jpvControl ⟨(4 : ℕ), (1 : ℕ), .three "pp" "nn" "pn", "op.rel"⟩ :=
    ⟨⟨"4", "1", "2", [], 2, rfl, by simp [Relative.ConvertersExamples.nm], by simp [Relative.ConvertersExamples.nm],
      by simp [Relative.ConvertersExamples.nm], .inr ⟨rfl, "pp", "nn", "pn", [], rfl, rfl⟩⟩, ⟨[], rfl⟩⟩
  have hsrc : ∀ s : Sp, (filesOf c)
      (nameOf s) = some (s0File (c s)) := by
    intro s
    cases s <;> simp [nameOf, filesOf]
  have hin : ∀ s, ∀ a ∈ [s0 (c s)], a.In 4 1 := by
    intro s
    simp only [List.mem_singleton, forall_eq]
    show 0 ≤ 4 ∧ 0 ≤ 4 ∧ 0 ≤ 1 ∧ 0 ≤ 1 ∧ Relative.tri 0 0 0 = true ∧ Relative.tri 0 0 0 = true ∧ (0 + 0) % 2 = 0
    decide
  obtain ⟨f, hrun, hch⟩ := files_charged hc nameOf rfl rfl rfl hsrc
    (secs := fun s => [s0 (c s)]) (fun s => s0_lines (c s)) hin (lowest_told c)
  have hrel : (worldC hf numbersC (fun w => if w = "op.rel" then some f else none) fun _ => none).rel? paramsC.input = some f :=
    rfl
  have hout : ∃ out, Program.run (worldC hf numbersC (fun w => if w = "op.rel" then some f else none) fun _ => none) controlC = .ok out := by
    have hg := charged_given (w := worldC hf numbersC (fun w => if w = "op.rel" then some f else none) fun _ => none) hch (lowest_hermitian c) rfl
      fun T0 => swapLaw_envC _ T0
    rw [moshinsky_h2 (p := paramsC) asksC (by decide) rfl rfl hrel hg (worldC_spaces hf numbersC _ _ (truncOf paramsC)) (by decide)
      (by rw [hch.Nmax]; decide) (fun fmt _ => pnLib_basis rfl paramsC _ _ fmt (by decide))]
    exact scalar_result rfl ⟨rfl, rfl, rfl⟩ (by rw [hch.labels]) (by rw [hch.labels]) _
  obtain ⟨out, ho⟩ := hout
  obtain ⟨f', hrun', h⟩ := interaction_moshinsky hc nameOf rfl rfl rfl hsrc
    (secs := fun s => [s0 (c s)]) (fun s => s0_lines (c s)) hin (lowest_hermitian c) (lowest_told c)
  obtain rfl : f = f' := (Prod.mk.inj (Except.ok.inj (hrun.symm.trans hrun'))).2
  have hh := h (p := paramsC) (mode := .binary) (fmt := .v0) (d := scalarDesc) (r := id)
    ⟨coefficients_envC _, rfl, fun T0 => swapLaw_envC _ T0, asksC, by decide, rfl, rfl, hrel, worldC_spaces hf numbersC _ _ (truncOf paramsC),
      by decide, by decide, fun fmt _ => pnLib_basis rfl paramsC _ _ fmt (by decide), rfl, by decide, by decide, rfl, scalar_expressible hf _, scalar_wf,
      by simp, fun _ => rfl, ho⟩
  obtain ⟨V, hV⟩ := interaction_exists 2 1 (lowest c)
  obtain ⟨file, rfl, hh'⟩ := hh
  exact ⟨f, file, V, hrun, ho, hV, file, rfl, hh'⟩

end Verif.Moshinsky
