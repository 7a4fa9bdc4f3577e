import Verif.Daejeon.Props
import Verif.Relative.GenOperators
import Verif.Relative.GenExamples

/-!
# What `relative-gen` writes for Daejeon16 (C162)
-/

namespace Verif.Daejeon
open Verif Verif.H2 Verif.Relative Verif.Mixer.Control

/-! ## Specification -/

/-- `v` is the element of the interaction between the states `n L` and `n' L'` of the channel `J S`: the number in the table of the channel,
for states of up to 60 quanta, and otherwise zero. -/
def IsElement (single : ℚ → ℝ) (J S L L' n n' : ℕ) (v : ℝ) : Prop :=
  ∃ t, named.lookup (symbol J S L) = some t ∧
    (2 * n + L ≤ 60 ∧ 2 * n' + L' ≤ 60 → ∃ x, entry t (place J L n) (place J L' n') = some x ∧ v = single x.value) ∧
    (¬ (2 * n + L ≤ 60 ∧ 2 * n' + L' ≤ 60) → v = 0)

/-- The largest total angular momentum written. -/
def largest (N : ℕ) : ℕ := if N + 1 ≤ 6 then N + 1 else 6

/-- The sectors written. -/
abbrev channels (o : OpLabels) (N : ℕ) : ℕ → List RSec := relSectors o (relSpace N (largest N))

/-! ## Lemmas -/

theorem element_of {single : ℚ → ℝ} (hz : single 0 = 0) {J S L L' : ℕ} (h : Channel J S L L') (n n' : ℕ) :
    ∃ v, V single n n' L L' J S 1 0 = .ok v ∧ IsElement single J S L L' n n' v := by
  obtain ⟨t, ht, hv⟩ := daejeon_element hz h
  by_cases hq : 2 * n + L ≤ 60 ∧ 2 * n' + L' ≤ 60
  · obtain ⟨x, hx, e⟩ := (hv n n').1 hq
    exact ⟨_, e, t, ht, fun _ => ⟨x, hx, rfl⟩, fun h => absurd hq h⟩
  · exact ⟨0, (hv n n').2 hq, t, ht, fun h => absurd h hq, fun _ => rfl⟩

theorem run_daejeon {single : ℚ → ℝ} {nm : Numbers} {lib : Gen.Lib} {f : Gen.Input} {o : OpLabels} {N : ℕ} {file : String}
    (h : Gen.Request nm f o N (.interaction "Daejeon16") file) :
    run single nm lib f = constructDaejeon single o (channels o N) >>= fun op =>
      .ok ⟨file, o, N, largest N, channels o N, op⟩ := by
  have e : (min ((N : Int) + 1) 6).toNat = largest N := by
    unfold largest
    split <;> omega
  have hn : ¬ ((o.J0 : Int) < 0 ∨ (o.g0 : Int) < 0 ∨ (o.T0min : Int) < 0 ∨ (o.T0max : Int) < 0 ∨ (N : Int) < 0) := by omega
  have h3 := h.three
  have h3' : (known (.interaction "Daejeon16") && decide (2 < o.T0max)) = false := by simp [h3]
  rw [run, Gen.control_file.mpr h.params, Except.ok_bind']
  simp only [limit, if_true, if_neg hn, Int.toNat_natCast, e, h3', dispatch]
  rfl

/-- The states of a sector of a scalar operator, with isospin conserved, are of one channel. -/
theorem sector_channel {o : OpLabels} {N : ℕ} (hJ : o.J0 = 0) (hg : o.g0 = 0) {p : RSec} (h : p ∈ channels o N 0) :
    p.1.J = p.2.J ∧ p.1.S = p.2.S ∧ p.1.T = p.2.T ∧ Channel p.1.J p.1.S p.1.L p.2.L := by
  obtain ⟨-, h1, h2, -, ha⟩ := mem_sectors.mp h
  obtain ⟨a1, a2, a3, a4, a5, a6, -, -⟩ := mem_space.mp h1
  obtain ⟨b1, b2, b3, b4, b5, b6, -, -⟩ := mem_space.mp h2
  simp only [allowed, Bool.and_eq_true, decide_eq_true_eq, hJ, hg] at ha
  obtain ⟨⟨c1, c2⟩, c3⟩ := ha
  simp only [tri, decide_eq_true_eq] at c1 c2 a4 b4
  have hl : largest N ≤ 6 := by unfold largest; split <;> omega
  have eJ : p.1.J = p.2.J := by omega
  have eT : p.1.T = p.2.T := by omega
  have eS : p.1.S = p.2.S := by omega
  refine ⟨eJ, eS, eT, by omega, a2, ?_, ?_, by omega⟩
  · simp only [tri, decide_eq_true_eq]; omega
  · simp only [tri, decide_eq_true_eq]; omega

theorem mapM_ok_of {α β : Type} {f : α → Except Err β} {g : α → β} : ∀ {l : List α}, (∀ a ∈ l, f a = .ok (g a)) →
    l.mapM f = .ok (l.map g)
  | [], _ => rfl
  | a :: l, h => by
    rw [List.mapM_cons, h a (by simp), Except.ok_bind', mapM_ok_of (l := l) fun b hb => h b (by simp [hb]), Except.ok_bind']
    rfl

/-! ## Properties -/

/-- **C162.** With the labels of a scalar operator the program writes the interaction: the isoscalar component consists of the elements of
the interaction and the others are zero. -/
theorem daejeon_written {single : ℚ → ℝ} (hz : single 0 = 0) {nm : Numbers} {lib : Gen.Lib} {f : Gen.Input} {o : OpLabels} {N : ℕ}
    {file : String} (h : Gen.Request nm f o N (.interaction "Daejeon16") file) (hJ : o.J0 = 0) (hg : o.g0 = 0) (h0 : o.T0min = 0) :
    ∃ op, run single nm lib f = .ok ⟨file, o, N, largest N, channels o N, op⟩ ∧
      List.Forall₂ (fun p b => p.1.J = p.2.J ∧ p.1.S = p.2.S ∧ p.1.T = p.2.T ∧ ∀ n n' : ℕ, ∃ v, b n n' = .ok v ∧
        IsElement single p.1.J p.1.S p.1.L p.2.L n n' v) (channels o N 0) (op 0) ∧
      ∀ t, 0 < t → List.Forall₂ (fun _ b => ∀ i j, b i j = .ok 0) (channels o N t) (op t) := by
  have hm : ∀ p ∈ channels o N 0, block single p.1 p.2 = .ok fun n' n => V single n' n p.1.L p.2.L p.1.J p.1.S 1 0 := by
    intro p hp
    obtain ⟨-, hS, -, -⟩ := sector_channel hJ hg hp
    simp only [block, ne_eq, hS, not_true, if_false]
  have hc : constructDaejeon single o (channels o N) = .ok fun t => if t = 0 then
      (channels o N 0).map fun p n' n => V single n' n p.1.L p.2.L p.1.J p.1.S 1 0 else (channels o N t).map fun _ => zeroE := by
    simp only [constructDaejeon, hJ, hg, h0, decide_true, Bool.and_self, construct]
    rw [mapM_ok_of hm]
    rfl
  refine ⟨_, by rw [run_daejeon h, hc]; rfl, ?_, ?_⟩
  · rw [if_pos rfl, List.forall₂_map_right_iff, List.forall₂_same]
    intro p hp
    obtain ⟨k1, k2, k3, k4⟩ := sector_channel hJ hg hp
    exact ⟨k1, k2, k3, fun n n' => element_of hz k4 n n'⟩
  · intro t ht
    rw [if_neg (by omega), List.forall₂_map_right_iff, List.forall₂_same]
    intro p _ i j
    rfl

/-- **C162, coverage.** Every pair of states with `J` up to 6 and up to `N` quanta has its sector, once, in the order of the file. -/
theorem daejeon_complete {o : OpLabels} {N J S L L' : ℕ} (hJ : o.J0 = 0) (hg : o.g0 = 0) (h0 : o.T0min = 0) (h : Channel J S L L')
    (hL : L ≤ L') (hN : L' ≤ N) : ∃ T, T ≤ 1 ∧ (L + S + T) % 2 = 1 ∧
      (⟨L, S, J, T, N, (N - L) / 2 + 1⟩, ⟨L', S, J, T, N, (N - L') / 2 + 1⟩) ∈ channels o N 0 ∧ (channels o N 0).Nodup := by
  obtain ⟨h1, h2, h3, h4, h5⟩ := h
  simp only [tri, decide_eq_true_eq] at h3 h4
  have hl : J ≤ largest N := by unfold largest; split <;> omega
  refine ⟨(L + S + 1) % 2, by omega, by omega, mem_sectors.mpr ⟨by omega, mem_space.mpr ?_, mem_space.mpr ?_, ?_, ?_⟩, sectors_nodup _ _ _ _⟩
  · exact ⟨by simp only; omega, h2, hl, by simp [tri]; omega, by simp only; omega, by simp only; omega, rfl, rfl⟩
  · exact ⟨hN, h2, hl, by simp [tri]; omega, by simp only; omega, by simp only; omega, rfl, rfl⟩
  · by_cases e : L = L'
    · subst e; exact .inl rfl
    · right
      simp only [SubLt]
      omega
  · simp only [allowed, tri, hJ, hg, Bool.and_eq_true, decide_eq_true_eq]
    omega

/-- **C162, refusal.** With other labels the program stops at an assertion. -/
theorem daejeon_labels_refused {single : ℚ → ℝ} {nm : Numbers} {lib : Gen.Lib} {f : Gen.Input} {o : OpLabels} {N : ℕ}
    {file : String} (h : Gen.Request nm f o N (.interaction "Daejeon16") file) (ho : ¬ (o.J0 = 0 ∧ o.g0 = 0 ∧ o.T0min = 0)) :
    run single nm lib f = .error .assertFail := by
  have e : (decide (o.J0 = 0) && decide (o.g0 = 0) && decide (o.T0min = 0)) = false := by
    simp only [Bool.and_eq_false_iff, decide_eq_false_iff_not]
    tauto
  rw [run_daejeon h, constructDaejeon, construct, e]
  rfl

/-- **C162, other operators.** This build does the same as the one without Daejeon16 for every control file with another operator, also
another interaction, and for those that cannot be read. -/
theorem daejeon_others (single : ℚ → ℝ) (nm : Numbers) (lib : Gen.Lib) (f : Gen.Input)
    (h : ∀ p, Gen.ControlFile nm f p → p.choice ≠ .interaction "Daejeon16") : run single nm lib f = Gen.run nm lib f := by
  rw [run, Gen.run]
  cases e : Gen.readParams nm f with
  | error e' => rfl
  | ok p =>
    have hp := h p (Gen.control_file.mp e)
    rw [Except.ok_bind', Except.ok_bind']
    obtain ⟨J0, g0, T0, T1, Nm, Jm, c, file⟩ := p
    cases c with
    | interaction name =>
      have hn : name ≠ "Daejeon16" := fun e => hp (by rw [e])
      have e1 : limit ⟨J0, g0, T0, T1, Nm, Jm, .interaction name, file⟩ = ⟨J0, g0, T0, T1, Nm, Jm, .interaction name, file⟩ :=
        if_neg hn
      have e2 : known (.interaction name) = false := decide_eq_false hn
      have e3 : ∀ o N sp sectors, dispatch single lib o N sp sectors (.interaction name) = .error .exitFailure :=
        fun _ _ _ _ => if_neg hn
      simp only [e1, e2, e3, Gen.known, Gen.dispatch]
      rfl
    | _ => rfl

/-- **C162, without Daejeon16.** The default build refuses the interaction. -/
theorem default_refused {nm : Numbers} {lib : Gen.Lib} {f : Gen.Input} {o : OpLabels} {N : ℕ} {name file : String}
    (h : Gen.Request nm f o N (.interaction name) file) : Gen.run nm lib f = .error .exitFailure := by
  rw [Gen.run_request h]
  rfl

/-! ## Examples -/

/-- A control file for `Nmax = 2`. -/
theorem ex_request : Gen.Request Gen.Ex.nm ⟨[["0", "0", "0", "0"], ["2"], ["interaction", "Daejeon16"], ["V.dat"]], true⟩
    ⟨0, 0, 0, 0⟩ 2 (.interaction "Daejeon16") "V.dat" :=
  ⟨Gen.control_file.mp (by simp [Gen.readParams, Gen.Input.line, int, word, Gen.Ex.nm, Gen.readChoice, Except.ok_bind']), by decide⟩

/-- The interaction is written, in the default build it is refused. -/
example (single : ℚ → ℝ) (hz : single 0 = 0) : (∃ op, run single Gen.Ex.nm Gen.Ex.lib
      ⟨[["0", "0", "0", "0"], ["2"], ["interaction", "Daejeon16"], ["V.dat"]], true⟩ =
        .ok ⟨"V.dat", ⟨0, 0, 0, 0⟩, 2, 3, channels ⟨0, 0, 0, 0⟩ 2, op⟩) ∧
    Gen.run Gen.Ex.nm Gen.Ex.lib ⟨[["0", "0", "0", "0"], ["2"], ["interaction", "Daejeon16"], ["V.dat"]], true⟩ = .error .exitFailure := by
  obtain ⟨op, h, -⟩ := daejeon_written hz (lib := Gen.Ex.lib) ex_request rfl rfl rfl
  exact ⟨⟨op, h⟩, default_refused ex_request⟩

/-- `³S₁`-`³D₁` is one of the sectors. -/
example : ∃ T, T ≤ 1 ∧ (0 + 1 + T) % 2 = 1 ∧ (⟨0, 1, 1, T, 2, 2⟩, ⟨2, 1, 1, T, 2, 1⟩) ∈ channels ⟨0, 0, 0, 0⟩ 2 0 ∧
    (channels ⟨0, 0, 0, 0⟩ 2 0).Nodup :=
  daejeon_complete (o := ⟨0, 0, 0, 0⟩) (N := 2) (J := 1) (S := 1) (L := 0) (L' := 2) rfl rfl rfl
    ⟨by decide, by decide, by decide, by decide, by decide⟩ (by decide) (by decide)

/-- For `Nmax = 20` channels with `J = 7` are left out, which the header says. -/
example : largest 20 = 6 ∧ ∀ p ∈ channels ⟨0, 0, 0, 0⟩ 20 0, p.1.J ≠ 7 := by
  refine ⟨rfl, fun p hp h => ?_⟩
  obtain ⟨-, -, -, h4⟩ := sector_channel rfl rfl hp
  have := h4.momentum
  omega

/-- A vector operator is refused. -/
example (single : ℚ → ℝ) : run single Gen.Ex.nm Gen.Ex.lib
    ⟨[["0", "0", "1", "1"], ["2"], ["interaction", "Daejeon16"], ["V.dat"]], true⟩ = .error .assertFail :=
  daejeon_labels_refused (o := ⟨0, 0, 1, 1⟩) (N := 2) (file := "V.dat")
    ⟨Gen.control_file.mp (by simp [Gen.readParams, Gen.Input.line, int, word, Gen.Ex.nm, Gen.readChoice, Except.ok_bind']), by decide⟩
    (by decide)

/-- Another interaction is not known to either build. -/
example (single : ℚ → ℝ) : run single Gen.Ex.nm Gen.Ex.lib
    ⟨[["0", "0", "0", "0"], ["2"], ["interaction", "JISP16"], ["V.dat"]], true⟩ = .error .exitFailure := by
  have hr : Gen.Request Gen.Ex.nm ⟨[["0", "0", "0", "0"], ["2"], ["interaction", "JISP16"], ["V.dat"]], true⟩
      ⟨0, 0, 0, 0⟩ 2 (.interaction "JISP16") "V.dat" :=
    ⟨Gen.control_file.mp (by simp [Gen.readParams, Gen.Input.line, int, word, Gen.Ex.nm, Gen.readChoice, Except.ok_bind']), by decide⟩
  rw [daejeon_others, default_refused hr]
  intro p hp hc
  have e := (Gen.control_file.mpr hp).symm.trans (Gen.control_file.mpr hr.params)
  rw [Except.ok.inj e] at hc
  exact absurd hc (by simp)

end Verif.Daejeon
