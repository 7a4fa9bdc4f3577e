import Verif.Relative.ConstructAm

/-!
# SU(4) Casimir and Coulomb operators in relative motion
-/

namespace Verif.Relative
open Verif Verif.H2 Verif.Osc MeasureTheory Set

/-! ## Property C110: Casimir operator of SU(4) -/

/-- `s1·s2`, or `t1·t2`, from spherical components. -/
noncomputable def dotPair (a' b' a b : Int) : ℝ :=
  jmat 1 0 a' a * jmat 1 0 b' b - jmat 1 2 a' a * jmat 1 (-2) b' b - jmat 1 (-2) a' a * jmat 1 2 b' b

/-- The Casimir operator of two nucleons: `C = C1 + C2 + 2 (s1·s2 + t1·t2 + 4 (s1·s2)(t1·t2))`, where a single nucleon
has `C1 = s² + t² + 4 s² t² = 15/4`. -/
noncomputable def casimirOp (_q _p : Int) (c' c : Cfg) : ℝ :=
  if c'.L = c.L then
    same c'.n c.n * δ c'.mL c.mL *
      ((15 / 4 + 15 / 4) * (idPair c'.m1 c'.m2 c.m1 c.m2 * idPair c'.t1 c'.t2 c.t1 c.t2)
        + 2 * (dotPair c'.m1 c'.m2 c.m1 c.m2 * idPair c'.t1 c'.t2 c.t1 c.t2
          + idPair c'.m1 c'.m2 c.m1 c.m2 * dotPair c'.t1 c'.t2 c.t1 c.t2
          + 4 * (dotPair c'.m1 c'.m2 c.m1 c.m2 * dotPair c'.t1 c'.t2 c.t1 c.t2)))
  else 0

/-- Symmetry of the coupling of two spins one-half. -/
def HalfSym (cg : Cg) : Prop :=
  ∀ S : ℕ, S ≤ 1 → ∀ x ∈ ms 1, ∀ y ∈ ms 1, ∀ M ∈ ms (2 * S), cg 1 x 1 y (2 * S : ℕ) M = (-1) ^ (1 + S) * cg 1 y 1 x (2 * S : ℕ) M

theorem mem_ms_one {x : Int} : x ∈ ms 1 ↔ x = -1 ∨ x = 1 := by
  simp only [ms, Finset.mem_image, Finset.mem_range]
  constructor
  · rintro ⟨k, hk, rfl⟩
    omega
  · rintro (rfl | rfl)
    · exact ⟨0, by omega, by norm_num⟩
    · exact ⟨1, by omega, by norm_num⟩

/-- The product of two spins one-half exchanges them. -/
theorem dot_exchange {a' b' a b : Int} (ha' : a' ∈ ms 1) (hb' : b' ∈ ms 1) (ha : a ∈ ms 1) (hb : b ∈ ms 1) :
    dotPair a' b' a b = 1 / 2 * (δ a' b * δ b' a) - 1 / 4 * (δ a' a * δ b' b) := by
  have h4 : Real.sqrt 4 = 2 := by rw [show (4 : ℝ) = 2 ^ 2 by norm_num, Real.sqrt_sq (by norm_num)]
  have q2 : Real.sqrt 2 * Real.sqrt 2 = 2 := Real.mul_self_sqrt (by norm_num)
  have n2 : Real.sqrt 2 ≠ 0 := by positivity
  have q : (Real.sqrt 2)⁻¹ * (Real.sqrt 2)⁻¹ = 1 / 2 := by
    rw [← mul_inv, q2]; norm_num
  rw [mem_ms_one] at ha' hb' ha hb
  rcases ha' with rfl | rfl <;> rcases hb' with rfl | rfl <;> rcases ha with rfl | rfl <;> rcases hb with rfl | rfl <;>
    norm_num [dotPair, jmat, δ, h4, q, div_eq_mul_inv]

theorem couple_exchange {cg : Cg} (hs : HalfSym cg) {S' S : ℕ} (hS : S ≤ 1) {y' y : Int}
    (hy : y ∈ ms (2 * S)) :
    couple cg 1 1 (2 * S') 1 1 (2 * S) (fun a' b' a b => δ a' b * δ b' a) y' y =
      (-1) ^ (1 + S) * couple cg 1 1 (2 * S') 1 1 (2 * S) idPair y' y := by
  rw [← couple_smul]
  unfold couple
  refine Finset.sum_congr rfl fun x' _ => Finset.sum_congr rfl fun w' _ => ?_
  rw [Finset.sum_comm]
  refine Finset.sum_congr rfl fun x hx => Finset.sum_congr rfl fun w hw => ?_
  push_cast
  have := hs S hS w hw x hx y hy
  push_cast at this
  rw [this, idPair]
  ring

/-- Value of `s1·s2` in total spin `S`. -/
noncomputable def dotValue (S : ℕ) : ℝ := 1 / 2 * (-1) ^ (1 + S) - 1 / 4

theorem dot_couple {cg : Cg} (hs : HalfSym cg) {S' S : ℕ} (hS : S ≤ 1) {y' y : Int} (hy : y ∈ ms (2 * S)) :
    couple cg 1 1 (2 * S') 1 1 (2 * S) dotPair y' y = dotValue S * couple cg 1 1 (2 * S') 1 1 (2 * S) idPair y' y := by
  rw [couple_congr (B := fun a' b' a b => 1 / 2 * (δ a' b * δ b' a) + (-(1 / 4)) * idPair a' b' a b)
    fun a' ha' b' hb' a ha b hb => by rw [dot_exchange ha' hb' ha hb, idPair]; ring]
  rw [couple_add, couple_smul, couple_smul, couple_exchange hs hS hy, dotValue]
  ring

theorem casimir_reduced {cg : Cg} {am : Am} (hh : HalfLaws cg am) (hs : HalfSym cg) {N : ℕ} {o : OpLabels}
    {s' s : RelSub} (ok : SecOK N o 0 s' s) (ls : LSLaws cg am s' s) (hJ0 : o.J0 = 0) (n' n : ℕ) :
    Reduced cg 0 0 casimirOp s' s n' n
      (if s'.L = s.L ∧ s'.S = s.S ∧ s'.T = s.T then same n' n * ((casimir s.S s.T : Int) : ℝ) else 0) := by
  have hJ : s'.J = s.J := by
    have := ok.J
    rw [hJ0] at this
    exact tri_zero.mp this
  by_cases hL : s'.L = s.L
  swap
  · rw [if_neg (by tauto)]
    exact Reduced.zero fun q p c' c _ h2 _ h4 => by simp [casimirOp, h2, h4, hL]
  have hS := scalar_ls hh ls ok.bra.S ok.ket.S hL hJ
  have hT := id_we hh ok.bra.T ok.ket.T
  have hSd : WE cg (2 * s'.J) (2 * 0) (2 * s.J) (fun _ => couple cg (2 * s'.L) (2 * s'.S) (2 * s'.J) (2 * s.L) (2 * s.S)
      (2 * s.J) fun x' y' x y => δ x' x * couple cg 1 1 (2 * s'.S) 1 1 (2 * s.S) dotPair y' y)
      (dotValue s.S * if s'.S = s.S then 1 else 0) := by
    refine (hS.smul (dotValue s.S)).congr fun M' _ q _ M _ => ?_
    rw [← couple_smul]
    refine couple_congr fun x' _ y' _ x _ y hy => ?_
    rw [dot_couple hs ok.ket.S hy]
    ring
  have hTd : WE cg (2 * s'.T) (2 * 0) (2 * s.T) (fun _ => couple cg 1 1 (2 * s'.T) 1 1 (2 * s.T) dotPair)
      (dotValue s.T * if s'.T = s.T then 1 else 0) := by
    refine (hT.smul (dotValue s.T)).congr fun M' _ q _ M hM => ?_
    rw [dot_couple hs ok.ket.T hM]
  have r1 := reduced_prod (A := fun _ _ c' c => same n' n * 15 / 2 * (δ c'.mL c.mL * idPair c'.m1 c'.m2 c.m1 c.m2)
    * idPair c'.t1 c'.t2 c.t1 c.t2) (n' := n') (n := n) (fun _ => δ) (fun _ => idPair) (fun _ => idPair)
    (fun _ _ _ _ _ _ _ _ => rfl) hS hT
  have r2 := reduced_prod (A := fun _ _ c' c => same n' n * 2 * (δ c'.mL c.mL * dotPair c'.m1 c'.m2 c.m1 c.m2)
    * idPair c'.t1 c'.t2 c.t1 c.t2) (n' := n') (n := n) (fun _ => δ) (fun _ => dotPair) (fun _ => idPair)
    (fun _ _ _ _ _ _ _ _ => rfl) hSd hT
  have r3 := reduced_prod (A := fun _ _ c' c => same n' n * 2 * (δ c'.mL c.mL * idPair c'.m1 c'.m2 c.m1 c.m2)
    * dotPair c'.t1 c'.t2 c.t1 c.t2) (n' := n') (n := n) (fun _ => δ) (fun _ => idPair) (fun _ => dotPair)
    (fun _ _ _ _ _ _ _ _ => rfl) hS hTd
  have r4 := reduced_prod (A := fun _ _ c' c => same n' n * 8 * (δ c'.mL c.mL * dotPair c'.m1 c'.m2 c.m1 c.m2)
    * dotPair c'.t1 c'.t2 c.t1 c.t2) (n' := n') (n := n) (fun _ => δ) (fun _ => dotPair) (fun _ => dotPair)
    (fun _ _ _ _ _ _ _ _ => rfl) hSd hTd
  have h := (((r1.add r2).add r3).add r4).congr (B := casimirOp) fun q p c' c h1 h2 h3 h4 => by
    simp only [casimirOp, h1, h2, h3, h4, hL, if_true]
    ring
  refine (show (if s'.L = s.L ∧ s'.S = s.S ∧ s'.T = s.T then same n' n * ((casimir s.S s.T : Int) : ℝ) else 0) = _
    from ?_) ▸ h
  by_cases hSS : s'.S = s.S
  · by_cases hTT : s'.T = s.T
    · rw [if_pos ⟨hL, hSS, hTT⟩, if_pos hSS, if_pos hTT]
      have a := ok.ket.S
      have b := ok.ket.T
      have a' : s.S = 0 ∨ s.S = 1 := by omega
      have b' : s.T = 0 ∨ s.T = 1 := by omega
      rcases a' with a' | a' <;> rcases b' with b' | b' <;> rw [a', b'] <;> norm_num [dotValue, casimir] <;> ring
    · simp [hTT]
  · simp [hSS]

/-- **C110.** The SU(4) Casimir operator: reduced matrix elements of the Casimir operator of two nucleons, in
component 0. -/
theorem casimir_stored {cg : Cg} {am : Am} (hh : HalfLaws cg am) (hsym : HalfSym cg) {N : ℕ} {o : OpLabels}
    {sectors : ℕ → List RSec} (hs : ∀ p ∈ sectors 0, SecOK N o 0 p.1 p.2 ∧ LSLaws cg am p.1 p.2) :
    (o.J0 = 0 ∧ o.g0 = 0 ∧ o.T0min = 0 →
      ∃ op, constructCasimir o sectors = .ok op ∧ Stores cg 0 0 casimirOp sectors op) ∧
    (¬ (o.J0 = 0 ∧ o.g0 = 0 ∧ o.T0min = 0) → constructCasimir o sectors = .error .assertFail) := by
  constructor
  · rintro ⟨h1, h2, h4⟩
    refine construct_stores (by simp [h1, h2, h4]) fun p hp => ?_
    obtain ⟨ok, ls⟩ := hs p hp
    obtain ⟨s', s⟩ := p
    simp only at ok ls ⊢
    by_cases h : s'.L = s.L ∧ s'.S = s.S ∧ s'.T = s.T
    · have hz : s'.size = s.size := by rw [ok.bra.size, ok.ket.size, h.1]
      refine ⟨diagE ((casimir s.S s.T : Int) : ℝ), ?_, fun n' _ n _ => ?_⟩
      · rw [casimirBlock, tri_zero.mpr h.1, tri_zero.mpr h.2.1, tri_zero.mpr h.2.2, decide_eq_true hz]
        rfl
      · have := casimir_reduced hh hsym ok ls h1 n' n
        rw [if_pos h] at this
        refine ⟨_, ?_, this⟩
        simp only [diagE, same]
        congr 1
        split <;> ring
    · refine ⟨zeroE, ?_, fun n' _ n _ => ⟨0, rfl, ?_⟩⟩
      · rw [casimirBlock, if_pos]
        rw [Bool.not_eq_true', Bool.eq_false_iff]
        simp only [ne_eq, Bool.and_eq_true, tri_zero]
        tauto
      · have := casimir_reduced hh hsym ok ls h1 n' n
        rw [if_neg h] at this
        exact this
  · intro h
    refine construct_reject ?_
    rw [Bool.eq_false_iff]
    simpa [and_assoc] using h

/-! ## Property C111: Coulomb operator -/

/-- The scaled spline value approximates the integral of `1/r` at relative length `√2` as well as the spline value
approximates the integral at unit length. -/
theorem coulomb_scale {radial : ℕ → ℕ → ℕ → ℝ} {ε : ℝ} {n' n L : ℕ}
    (h : |radial n' n L - ∫ x in Ioi (0 : ℝ), oscFn n' L 1 x * (x⁻¹ * oscFn n L 1 x)| ≤ ε) :
    |1 / Real.sqrt 2 * radial n' n L - rInv n' L n L| ≤ ε / Real.sqrt 2 := by
  rw [rInv_unit, ← mul_sub, abs_mul, abs_of_pos (by positivity), div_mul_eq_mul_div, one_mul]
  exact div_le_div_of_nonneg_right h (by positivity)

theorem sub_eq {N : ℕ} {s' s : RelSub} (h' : SubOK N s') (h : SubOK N s) (hL : s'.L = s.L) (hS : s'.S = s.S)
    (hJ : s'.J = s.J) (hT : s'.T = s.T) : s' = s := by
  cases s'
  cases s
  have := h'.Nmax
  have := h.Nmax
  have := h'.size
  have := h.size
  simp_all

/-- Component `T0` of the Coulomb operator of type `t`: `1/r` times the factor of the channel. -/
noncomputable def coulombValue (radial : ℕ → ℕ → ℕ → ℝ) (t : OpType) (T0 : ℕ) (s' s : RelSub) (n' n : ℕ) : ℝ :=
  if s' = s then (coulombFactor t s.T T0).getD 0 * (1 / Real.sqrt 2 * radial n' n s.L) else 0

theorem coulomb_block (radial : ℕ → ℕ → ℕ → ℝ) (t : OpType) {N T0 : ℕ} {s' s : RelSub} (h : SubOK N s) :
    ∃ b, coulombBlock radial t T0 s' s = .ok b ∧ ∀ i j, b i j = .ok (coulombValue radial t T0 s' s i j) := by
  by_cases e : s' = s
  · have hN : ((s.Nmax : Int) - s.L).tdiv 2 = (s.size : Int) - 1 := by
      rw [h.size, h.Nmax, Int.tdiv_eq_ediv_of_nonneg (by have := h.L; omega)]
      have := h.L
      push_cast
      omega
    rw [coulombBlock, if_neg (by simpa using e)]
    simp only [hN, decide_true, assertE, if_true, Except.ok_bind']
    cases hf : coulombFactor t s.T T0 with
    | none => exact ⟨_, rfl, fun i j => by simp [zeroE, coulombValue, e, hf]⟩
    | some f =>
      refine ⟨_, rfl, fun i j => ?_⟩
      simp only [coulombValue, e, if_true, hf, Option.getD_some]
      congr 1
      ring
  · exact ⟨zeroE, by rw [coulombBlock, if_pos e], fun i j => by simp [zeroE, coulombValue, e]⟩

theorem coulomb_fill (radial : ℕ → ℕ → ℕ → ℝ) (t : OpType) {N T0 : ℕ} :
    ∀ l : List RSec, (∀ p ∈ l, SubOK N p.2) → ∃ bs, (l.mapM fun p => coulombBlock radial t T0 p.1 p.2) = .ok bs ∧
      List.Forall₂ (fun p b => ∀ i j, b i j = .ok (coulombValue radial t T0 p.1 p.2 i j)) l bs := by
  intro l
  induction l with
  | nil => exact fun _ => ⟨[], rfl, .nil⟩
  | cons p l ih =>
    intro hl
    obtain ⟨b, hb, hp⟩ := coulomb_block (s' := p.1) (T0 := T0) radial t (hl p (by simp))
    obtain ⟨bs, hbs, hps⟩ := ih fun x hx => hl x (by simp [hx])
    refine ⟨b :: bs, ?_, .cons hp hps⟩
    rw [List.mapM_cons, hb, Except.ok_bind', hbs, Except.ok_bind']
    rfl

/-- **C111.** Every component in the range of the operator holds the factor of its channel times the scaled radial
value, in the sectors whose subspaces agree, and zero in the others; components out of range are zero. -/
theorem coulomb_components (radial : ℕ → ℕ → ℕ → ℝ) (t : OpType) {N : ℕ} {o : OpLabels} {sectors : ℕ → List RSec}
    (hs : ∀ T0 ≤ 2, ∀ p ∈ sectors T0, SubOK N p.2) (hJ : o.J0 = 0) (hg : o.g0 = 0) :
    ∃ op, constructCoulomb radial o sectors t = .ok op ∧ ∀ T0 ≤ 2,
      List.Forall₂ (fun p b => ∀ i j, b i j =
        .ok (if o.T0min ≤ T0 ∧ T0 ≤ o.T0max then coulombValue radial t T0 p.1 p.2 i j else 0)) (sectors T0) (op T0) := by
  have fill : ∀ T0 ≤ 2, ∃ bs, (if o.T0min ≤ T0 ∧ T0 ≤ o.T0max then
        ((sectors T0).mapM fun p => coulombBlock radial t T0 p.1 p.2 : Except Err (List Entries))
      else .ok ((sectors T0).map fun _ => zeroE)) = .ok bs ∧
      List.Forall₂ (fun p b => ∀ i j, b i j =
        .ok (if o.T0min ≤ T0 ∧ T0 ≤ o.T0max then coulombValue radial t T0 p.1 p.2 i j else 0)) (sectors T0) bs := by
    intro T0 hT0
    by_cases h : o.T0min ≤ T0 ∧ T0 ≤ o.T0max
    · simp only [h, and_self, if_true]
      exact coulomb_fill radial t _ (hs T0 hT0)
    · simp only [h, if_false]
      exact ⟨_, rfl, by rw [List.forall₂_map_right_iff]; exact List.forall₂_same.mpr fun _ _ _ _ => rfl⟩
  obtain ⟨b0, h0, f0⟩ := fill 0 (by omega)
  obtain ⟨b1, h1, f1⟩ := fill 1 (by omega)
  obtain ⟨b2, h2, f2⟩ := fill 2 (by omega)
  refine ⟨fun T0 => if T0 = 0 then b0 else if T0 = 1 then b1 else if T0 = 2 then b2 else [], ?_, ?_⟩
  · simp only [constructCoulomb, hJ, hg, decide_true, Bool.and_self, assertE, if_true, Except.ok_bind', h0, h1, h2,
      Except.pure_ok]
  · intro T0 hT0
    have : T0 = 0 ∨ T0 = 1 ∨ T0 = 2 := by omega
    rcases this with rfl | rfl | rfl
    · simpa using f0
    · simpa using f1
    · simpa using f2

/-- **C111**, refusal: an operator that is not a scalar of even parity ends the program at an assertion. -/
theorem coulomb_refused (radial : ℕ → ℕ → ℕ → ℝ) (t : OpType) {o : OpLabels} (sectors : ℕ → List RSec)
    (h : ¬ (o.J0 = 0 ∧ o.g0 = 0)) : constructCoulomb radial o sectors t = .error .assertFail := by
  have : (decide (o.J0 = 0) && decide (o.g0 = 0)) = false := by
    rw [Bool.eq_false_iff]
    simpa using h
  rw [constructCoulomb, this]
  rfl

/-- **C111**, both species: the isoscalar component holds the reduced matrix elements of the central operator with the
scaled radial values (by `coulomb_scale`, of `1/r` up to the accuracy of the spline); the other components vanish. -/
theorem coulomb_total_stored {cg : Cg} {am : Am} (hh : HalfLaws cg am) (radial : ℕ → ℕ → ℕ → ℝ) {N : ℕ} {o : OpLabels}
    {sectors : ℕ → List RSec}
    (hs : ∀ T0 ≤ 2, ∀ p ∈ sectors T0, SecOK N o T0 p.1 p.2) (hl : ∀ p ∈ sectors 0, LSLaws cg am p.1 p.2)
    (hJ : o.J0 = 0) (hg : o.g0 = 0) (h0 : o.T0min = 0) :
    ∃ op, constructCoulomb radial o sectors .total = .ok op ∧
      List.Forall₂ (Holds cg 0 0 (centralOp (fun n' n L => 1 / Real.sqrt 2 * radial n' n L) 0)) (sectors 0) (op 0) ∧
      ∀ t, (t = 1 ∨ t = 2) → List.Forall₂ (fun _ b => ∀ i j, b i j = .ok 0) (sectors t) (op t) := by
  obtain ⟨op, hop, h⟩ := coulomb_components radial .total (fun T0 h p hp => (hs T0 h p hp).ket) hJ hg
  refine ⟨op, hop, ?_, ?_⟩
  · have h0' := h 0 (by omega)
    simp only [h0, le_refl, Nat.zero_le, and_self, if_true] at h0'
    have hm : ∀ p ∈ sectors 0, SecOK N o 0 p.1 p.2 ∧ LSLaws cg am p.1 p.2 :=
      fun p hp => ⟨hs 0 (by omega) p hp, hl p hp⟩
    clear hl h hs
    generalize sectors 0 = l at h0' hm ⊢
    generalize op 0 = bs at h0' ⊢
    revert hm
    induction h0' with
    | nil => exact fun _ => .nil
    | @cons p b l bs hb _ ih =>
      intro hm
      refine .cons (fun n' _ n _ => ?_) (ih fun x hx => hm x (by simp [hx]))
      obtain ⟨ok, ls⟩ := hm p (by simp)
      refine ⟨_, hb n' n, ?_⟩
      have := central_reduced hh ok ls hJ (Or.inl rfl) (fun n' n L => 1 / Real.sqrt 2 * radial n' n L) n' n
      refine (show coulombValue radial .total 0 p.1 p.2 n' n = _ from ?_) ▸ this
      have hJ' : p.1.J = p.2.J := by
        have := ok.J
        rw [hJ] at this
        exact tri_zero.mp this
      by_cases e : p.1.L = p.2.L ∧ p.1.S = p.2.S ∧ p.1.T = p.2.T
      · rw [if_pos e, coulombValue, if_pos (sub_eq ok.bra ok.ket e.1 e.2.1 hJ' e.2.2)]
        simp [coulombFactor, isoFactor]
      · rw [if_neg e, coulombValue, if_neg]
        intro e2
        rw [e2] at e
        simp at e
  · rintro t ht
    refine (h t (by omega)).imp fun p b hb i j => ?_
    rw [hb i j]
    congr 1
    have : t ≠ 0 := by omega
    simp [coulombValue, coulombFactor, this]

/-- Laws of the isospin coefficients of the three components in the triplet. -/
structure TripletLaws (cg : Cg) : Prop where
  zero : ∀ P ∈ ms 2, cg 2 P 0 0 2 P = 1
  one : ∀ P ∈ ms 2, cg 2 P 2 0 2 P = (P : ℝ) / 2 / Real.sqrt 2
  two : ∀ P ∈ ms 2, cg 2 P 4 0 2 P = (3 * ((P : ℝ) / 2) ^ 2 - 2) / Real.sqrt 10

/-- **C111**, one species: in the triplet the three components combine, with the Wigner-Eckart coefficients, to the
scaled radial value for the pair of that species and to zero for the others; in the singlet they vanish. -/
theorem coulomb_species {cg : Cg} (ht : TripletLaws cg) (radial : ℕ → ℕ → ℕ → ℝ) (proton : Bool) {s : RelSub}
    (n' n : ℕ) :
    (s.T = 1 → ∀ P ∈ ms 2, ∑ T0 ∈ Finset.range 3, cg 2 P (2 * T0 : ℕ) 0 2 P *
        coulombValue radial (if proton then .p else .n) T0 s s n' n =
      if P = (if proton then 2 else -2) then 1 / Real.sqrt 2 * radial n' n s.L else 0) ∧
    (s.T = 0 → ∀ T0, coulombValue radial (if proton then .p else .n) T0 s s n' n = 0) := by
  constructor
  · intro hT P hP
    have a := ht.zero P hP
    have b := ht.one P hP
    have c := ht.two P hP
    have hP' : P = -2 ∨ P = 0 ∨ P = 2 := by
      simp only [ms, Finset.mem_image, Finset.mem_range] at hP
      obtain ⟨k, hk, rfl⟩ := hP
      omega
    have q2 : Real.sqrt 2 * Real.sqrt 2 = 2 := Real.mul_self_sqrt (by norm_num)
    have q10 : Real.sqrt 10 * Real.sqrt 10 = 10 := Real.mul_self_sqrt (by norm_num)
    have n2 : Real.sqrt 2 ≠ 0 := by positivity
    have n10 : Real.sqrt 10 ≠ 0 := by positivity
    simp only [Finset.sum_range_succ, Finset.range_zero, Finset.sum_empty, zero_add, Nat.cast_mul, Nat.cast_zero, mul_zero,
      Nat.cast_one, mul_one, Nat.cast_ofNat, show (2 : Int) * 2 = 4 from rfl, a, b, c]
    have i2 : (Real.sqrt 2)⁻¹ * (Real.sqrt 2)⁻¹ = 1 / 2 := by rw [← mul_inv, q2]; norm_num
    have i10 : (Real.sqrt 10)⁻¹ * Real.sqrt 10 = 1 := inv_mul_cancel₀ n10
    cases proton <;> rcases hP' with rfl | rfl | rfl <;>
      simp only [coulombValue, if_true, coulombFactor, hT, Option.getD_some, singleSpecies, Bool.false_eq_true, if_false,
        div_eq_mul_inv] <;> norm_num
    · linear_combination ((Real.sqrt 2)⁻¹ * radial n' n s.L) * i2 + (1 / 6 * (Real.sqrt 2)⁻¹ * radial n' n s.L) * i10
    · linear_combination (-(1 / 3) * (Real.sqrt 2)⁻¹ * radial n' n s.L) * i10
    · linear_combination (-(Real.sqrt 2)⁻¹ * radial n' n s.L) * i2 + (1 / 6 * (Real.sqrt 2)⁻¹ * radial n' n s.L) * i10
    · linear_combination (-(Real.sqrt 2)⁻¹ * radial n' n s.L) * i2 + (1 / 6 * (Real.sqrt 2)⁻¹ * radial n' n s.L) * i10
    · linear_combination (-(1 / 3) * (Real.sqrt 2)⁻¹ * radial n' n s.L) * i10
    · linear_combination ((Real.sqrt 2)⁻¹ * radial n' n s.L) * i2 + (1 / 6 * (Real.sqrt 2)⁻¹ * radial n' n s.L) * i10
  · intro hT T0
    cases proton <;> simp [coulombValue, coulombFactor, hT]

end Verif.Relative
