import Verif.Relative.ConstructProps

/-!
# Angular momentum, spin, isospin and Gamow-Teller operators in relative motion
-/

namespace Verif.Relative
open Verif Verif.H2 Verif.Osc MeasureTheory Set

/-- The labels `ConstructOrbitalAMOperator` and `ConstructSpinAMOperator` accept. -/
def AmLabels (o : OpLabels) (T0 : ℕ) : Prop :=
  o.J0 = 1 ∧ o.g0 = 0 ∧ (T0 = 0 ∨ T0 = 1) ∧ o.T0min ≤ T0 ∧ T0 ≤ o.T0max

theorem vector_int {cg : Cg} {L : ℕ} (h : VectorLaw cg (2 * L)) :
    WE cg (2 * L) 2 (2 * L) (jmat (2 * L)) (Real.sqrt (((L * (L + 1) : ℕ) : ℝ))) := by
  have e : (((2 * L : ℕ) : ℝ) * (((2 * L : ℕ) : ℝ) + 2) / 4) = ((L * (L + 1) : ℕ) : ℝ) := by push_cast; ring
  rw [VectorLaw, e] at h
  exact h

/-! ## Property C107: orbital angular momentum -/

theorem orbital_reduced {cg : Cg} {am : Am} (hh : HalfLaws cg am) {N : ℕ} {o : OpLabels} {T0 : ℕ} {s' s : RelSub}
    (ok : SecOK N o T0 s' s) (ls : LSLaws cg am s' s) (hJ0 : o.J0 = 1) (hT0 : T0 = 0 ∨ T0 = 1) (n' n : ℕ) :
    Reduced cg 1 T0 (orbitalOp T0) s' s n' n
      (if s'.L = s.L ∧ s'.S = s.S ∧ s'.T = s.T then
        same n' n * (am.rose1 (2 * s'.L) (2 * s'.S) (2 * s'.J) (2 * s.L) (2 * s.S) (2 * s.J) 2
          * Real.sqrt (((s.L * (s.L + 1) : ℕ) : ℝ))) * isoFactor T0 s.T else 0) := by
  have hJ : tri s'.J 1 s.J := by
    have := ok.J
    rwa [hJ0] at this
  by_cases hL : s'.L = s.L
  · have hU : WE cg (2 * s'.J) 2 (2 * s.J) (fun q => couple cg (2 * s'.L) (2 * s'.S) (2 * s'.J) (2 * s.L) (2 * s.S)
        (2 * s.J) fun x' y' x y => jmat (2 * s.L) q x' x * couple cg 1 1 (2 * s'.S) 1 1 (2 * s.S) idPair y' y)
        (if s'.S = s.S then am.rose1 (2 * s'.L) (2 * s'.S) (2 * s'.J) (2 * s.L) (2 * s.S) (2 * s.J) 2
          * Real.sqrt (((s.L * (s.L + 1) : ℕ) : ℝ)) else 0) := by
      by_cases h0 : s.L = 0
      · have e : (if s'.S = s.S then am.rose1 (2 * s'.L) (2 * s'.S) (2 * s'.J) (2 * s.L) (2 * s.S) (2 * s.J) 2
          * Real.sqrt (((s.L * (s.L + 1) : ℕ) : ℝ)) else 0) = 0 := by simp [h0]
        rw [e]
        refine WE.zero fun M' _ q _ M _ => ?_
        rw [couple_congr (B := fun _ _ _ _ => 0) fun x' hx' y' _ x hx y _ => ?_, couple_zero]
        rw [hL, h0] at hx'
        rw [h0] at hx ⊢
        rw [jmat_zero q x' x hx' hx, zero_mul]
      · have hv := vector_int ls.vector
        have ht : tri s'.L 1 s.L := by
          simp only [tri, decide_eq_true_eq]
          omega
        have hv' : WE cg (2 * s'.L) 2 (2 * s.L) (jmat (2 * s.L)) (Real.sqrt (((s.L * (s.L + 1) : ℕ) : ℝ))) := by
          rw [hL]
          exact hv
        exact orbital_ls hh ls ok.bra.S ok.ket.S ht hJ (jmat (2 * s.L)) hv'
    have h := reduced_prod (A := orbitalOp T0) (n' := n') (n := n) (r := same n' n) (J0 := 1)
      (jmat (2 * s.L)) (fun _ => idPair) (isoPair T0)
      (fun q p c' c h1 h2 h3 h4 => by simp [orbitalOp, h1, h2, h3, h4, hL])
      hU (iso_we hh ok.bra.T ok.ket.T hT0)
    refine (show (if s'.L = s.L ∧ s'.S = s.S ∧ s'.T = s.T then
        same n' n * (am.rose1 (2 * s'.L) (2 * s'.S) (2 * s'.J) (2 * s.L) (2 * s.S) (2 * s.J) 2
          * Real.sqrt (((s.L * (s.L + 1) : ℕ) : ℝ))) * isoFactor T0 s.T else 0) = _ from ?_) ▸ h
    by_cases hS : s'.S = s.S <;> by_cases hT : s'.T = s.T <;> simp [hL, hS, hT]
  · rw [if_neg (by tauto)]
    exact Reduced.zero fun q p c' c _ h2 _ h4 => by simp [orbitalOp, h2, h4, hL]

theorem orbital_block {cg : Cg} {am : Am} (hh : HalfLaws cg am) {N : ℕ} {o : OpLabels} {T0 : ℕ} {p : RSec}
    (ok : SecOK N o T0 p.1 p.2) (ls : LSLaws cg am p.1 p.2) (hJ0 : o.J0 = 1) (hT0 : T0 = 0 ∨ T0 = 1) :
    ∃ b, orbitalBlock am T0 p.1 p.2 = .ok b ∧ Holds cg 1 T0 (orbitalOp T0) p b := by
  obtain ⟨s', s⟩ := p
  simp only at ok ls ⊢
  by_cases h : s'.L = s.L ∧ s'.S = s.S ∧ s'.T = s.T
  · have hz : s'.size = s.size := by rw [ok.bra.size, ok.ket.size, h.1]
    refine ⟨diagE (am.rose1 (2 * s'.L) (2 * s'.S) (2 * s'.J) (2 * s.L) (2 * s.S) (2 * s.J) 2
      * Real.sqrt (((s.L * (s.L + 1) : ℕ) : ℝ)) * isoFactor T0 s.T), ?_, fun n' _ n _ => ?_⟩
    · rw [orbitalBlock, tri_zero.mpr h.2.1, decide_eq_true h.1, decide_eq_true h.2.2, decide_eq_true hz]
      rfl
    · have := orbital_reduced hh ok ls hJ0 hT0 n' n
      rw [if_pos h] at this
      refine ⟨_, ?_, this⟩
      simp only [diagE, same]
      congr 1
      split <;> ring
  · refine ⟨zeroE, ?_, fun n' _ n _ => ⟨0, rfl, ?_⟩⟩
    · rw [orbitalBlock, if_pos]
      rw [Bool.not_eq_true', Bool.eq_false_iff]
      simp only [ne_eq, Bool.and_eq_true, tri_zero, decide_eq_true_eq]
      tauto
    · have := orbital_reduced hh ok ls hJ0 hT0 n' n
      rw [if_neg h] at this
      exact this

/-- **C107.** The orbital angular momentum: reduced matrix elements of `L` (isoscalar) or `L(τ1+τ2)` (isovector). -/
theorem orbital_stored {cg : Cg} {am : Am} (hh : HalfLaws cg am) {N : ℕ} {o : OpLabels} {T0 : ℕ}
    {sectors : ℕ → List RSec} (hs : ∀ p ∈ sectors T0, SecOK N o T0 p.1 p.2 ∧ LSLaws cg am p.1 p.2) :
    (AmLabels o T0 → ∃ op, constructOrbital am o sectors T0 = .ok op ∧ Stores cg 1 T0 (orbitalOp T0) sectors op) ∧
    (¬ AmLabels o T0 → constructOrbital am o sectors T0 = .error .assertFail) := by
  constructor
  · rintro ⟨h1, h2, h3, h4⟩
    exact construct_stores (by simp [h1, h2, h3, inRange, h4]) fun p hp =>
      orbital_block hh (hs p hp).1 (hs p hp).2 h1 h3
  · intro h
    refine construct_reject ?_
    rw [Bool.eq_false_iff]
    simpa [AmLabels, inRange, and_assoc] using h

/-! ## Property C108: spin and Gamow-Teller -/

/-- The value the code assigns in a spin sector. -/
noncomputable def spinValue (am : Am) (T0 : ℕ) (s' s : RelSub) : ℝ :=
  if T0 = 0 then am.rose2 (2 * s'.L) (2 * s'.S) (2 * s'.J) (2 * s.L) (2 * s.S) (2 * s.J) 2
    * Real.sqrt (((s.S * (s.S + 1) : ℕ) : ℝ))
  else 3 / 2 * am.rose2 (2 * s'.L) (2 * s'.S) (2 * s'.J) (2 * s.L) (2 * s.S) (2 * s.J) 2
    * (am.rose1 1 1 (2 * s'.S) 1 1 (2 * s.S) 2 * am.rose1 1 1 (2 * s'.T) 1 1 (2 * s.T) 2
      + am.rose2 1 1 (2 * s'.S) 1 1 (2 * s.S) 2 * am.rose2 1 1 (2 * s'.T) 1 1 (2 * s.T) 2)

/-- The sectors in which the code assigns a value. -/
def SpinSector (T0 : ℕ) (s' s : RelSub) : Prop :=
  s'.L = s.L ∧ tri s'.S 1 s.S ∧ tri s'.T T0 s.T ∧ (T0 = 0 → s'.S = s.S)

instance (T0 : ℕ) (s' s : RelSub) : Decidable (SpinSector T0 s' s) := by
  unfold SpinSector
  infer_instance

theorem spin_reduced {cg : Cg} {am : Am} (hh : HalfLaws cg am) {N : ℕ} {o : OpLabels} {T0 : ℕ} {s' s : RelSub}
    (ok : SecOK N o T0 s' s) (ls : LSLaws cg am s' s) (hJ0 : o.J0 = 1) (hT0 : T0 = 0 ∨ T0 = 1) (n' n : ℕ) :
    Reduced cg 1 T0 (spinOp T0) s' s n' n (if SpinSector T0 s' s then same n' n * spinValue am T0 s' s else 0) := by
  have hJ : tri s'.J 1 s.J := by
    have := ok.J
    rwa [hJ0] at this
  by_cases hL : s'.L = s.L
  swap
  · rw [if_neg (by simp [SpinSector, hL])]
    exact Reduced.zero fun q p c' c _ h2 _ h4 => by simp [spinOp, h2, h4, hL]
  have hS0 : ¬ tri s'.S 1 s.S → s'.S = 0 ∧ s.S = 0 := by
    have := ok.bra.S
    have := ok.ket.S
    simp only [tri, decide_eq_true_eq]
    omega
  rcases hT0 with rfl | rfl
  · have hX := sum_we hh ok.bra.S ok.ket.S
    have hY := id_we hh ok.bra.T ok.ket.T
    have hA : ∀ q p (c' c : Cfg), c'.n = n' → c'.L = s'.L → c.n = n → c.L = s.L → spinOp 0 q p c' c =
        same n' n * (δ c'.mL c.mL * sumPair q c'.m1 c'.m2 c.m1 c.m2) * idPair c'.t1 c'.t2 c.t1 c.t2 := by
      intro q p c' c h1 h2 h3 h4
      simp [spinOp, h1, h2, h3, h4, hL]
    by_cases hS : tri s'.S 1 s.S
    · have h := reduced_prod (A := spinOp 0) (J0 := 1) (T0 := 0) (fun _ => δ) sumPair (fun _ => idPair) hA
        (spin_ls ls hL hS hJ sumPair hX) hY
      have hT : s'.T = s.T := tri_zero.mp ok.T
      have hT' : tri s'.T 0 s.T := ok.T
      refine (show (if SpinSector 0 s' s then same n' n * spinValue am 0 s' s else 0) = _ from ?_) ▸ h
      by_cases hSS : s'.S = s.S
      · rw [if_pos ⟨hL, hS, hT', fun _ => hSS⟩]
        simp [spinValue, hSS, hT]
      · rw [if_neg (fun h => hSS (h.2.2.2 rfl))]
        simp [hSS]
    · obtain ⟨a, b⟩ := hS0 hS
      have h := reduced_prod (A := spinOp 0) (J0 := 1) (T0 := 0) (fun _ => δ) sumPair (fun _ => idPair) hA
        (spin_ls_zero hh a b δ sumPair hX) hY
      rw [if_neg (fun h => hS h.2.1)]
      simpa using h
  · have hT : tri s'.T 1 s.T := ok.T
    have hX1 := reduce1 (hh.red1 s'.S s.S ok.bra.S ok.ket.S) (half_vec hh)
    have hX2 := reduce2 (hh.red2 s'.S s.S ok.bra.S ok.ket.S) (half_vec hh)
    have hY1 := reduce1 (hh.red1 s'.T s.T ok.bra.T ok.ket.T) ((half_vec hh).smul 2)
    have hY2 := reduce2 (hh.red2 s'.T s.T ok.bra.T ok.ket.T) ((half_vec hh).smul 2)
    let A1 : Int → Int → Cfg → Cfg → ℝ := fun q p c' c =>
      same n' n * (δ c'.mL c.mL * (jmat 1 q c'.m1 c.m1 * δ c'.m2 c.m2)) * (2 * jmat 1 p c'.t1 c.t1 * δ c'.t2 c.t2)
    let A2 : Int → Int → Cfg → Cfg → ℝ := fun q p c' c =>
      same n' n * (δ c'.mL c.mL * (δ c'.m1 c.m1 * jmat 1 q c'.m2 c.m2)) * (δ c'.t1 c.t1 * (2 * jmat 1 p c'.t2 c.t2))
    have hsum : ∀ q p (c' c : Cfg), c'.n = n' → c'.L = s'.L → c.n = n → c.L = s.L →
        spinOp 1 q p c' c = A1 q p c' c + A2 q p c' c := by
      intro q p c' c h1 h2 h3 h4
      simp [spinOp, A1, A2, h1, h2, h3, h4, hL]
    by_cases hS : tri s'.S 1 s.S
    · have h1 := reduced_prod (A := A1) (J0 := 1) (T0 := 1) (fun _ => δ) (fun q a' b' a b => jmat 1 q a' a * δ b' b)
        (fun p a' b' a b => 2 * jmat 1 p a' a * δ b' b) (n' := n') (n := n) (fun _ _ _ _ _ _ _ _ => rfl)
        (spin_ls ls hL hS hJ _ hX1) hY1
      have h2 := reduced_prod (A := A2) (J0 := 1) (T0 := 1) (fun _ => δ) (fun q a' b' a b => δ a' a * jmat 1 q b' b)
        (fun p a' b' a b => δ a' a * (2 * jmat 1 p b' b)) (n' := n') (n := n) (fun _ _ _ _ _ _ _ _ => rfl)
        (spin_ls ls hL hS hJ _ hX2) hY2
      have h := (h1.add h2).congr hsum
      rw [if_pos ⟨hL, hS, hT, by omega⟩]
      refine (show same n' n * spinValue am 1 s' s = _ from ?_) ▸ h
      have q3 : Real.sqrt 3 * Real.sqrt 3 = 3 := Real.mul_self_sqrt (by norm_num)
      rw [spinValue, if_neg (by omega)]
      linear_combination (-(1 / 2) * same n' n * am.rose2 (2 * s'.L) (2 * s'.S) (2 * s'.J) (2 * s.L) (2 * s.S) (2 * s.J) 2
        * (am.rose1 1 1 (2 * s'.S) 1 1 (2 * s.S) 2 * am.rose1 1 1 (2 * s'.T) 1 1 (2 * s.T) 2
      + am.rose2 1 1 (2 * s'.S) 1 1 (2 * s.S) 2 * am.rose2 1 1 (2 * s'.T) 1 1 (2 * s.T) 2)) * q3
    · obtain ⟨a, b⟩ := hS0 hS
      have h1 := reduced_prod (A := A1) (J0 := 1) (T0 := 1) (fun _ => δ) (fun q a' b' a b => jmat 1 q a' a * δ b' b)
        (fun p a' b' a b => 2 * jmat 1 p a' a * δ b' b) (n' := n') (n := n) (fun _ _ _ _ _ _ _ _ => rfl)
        (spin_ls_zero hh a b δ _ hX1) hY1
      have h2 := reduced_prod (A := A2) (J0 := 1) (T0 := 1) (fun _ => δ) (fun q a' b' a b => δ a' a * jmat 1 q b' b)
        (fun p a' b' a b => δ a' a * (2 * jmat 1 p b' b)) (n' := n') (n := n) (fun _ _ _ _ _ _ _ _ => rfl)
        (spin_ls_zero hh a b δ _ hX2) hY2
      have h := (h1.add h2).congr hsum
      rw [if_neg (fun h => hS h.2.1)]
      simpa using h

theorem spin_block {cg : Cg} {am : Am} (hh : HalfLaws cg am) {N : ℕ} {o : OpLabels} {T0 : ℕ} {p : RSec}
    (ok : SecOK N o T0 p.1 p.2) (ls : LSLaws cg am p.1 p.2) (hJ0 : o.J0 = 1) (hT0 : T0 = 0 ∨ T0 = 1) :
    ∃ b, spinBlock am T0 p.1 p.2 = .ok b ∧ Holds cg 1 T0 (spinOp T0) p b := by
  obtain ⟨s', s⟩ := p
  simp only at ok ls ⊢
  have hguard : (!(tri s'.L 0 s.L && tri s'.S 1 s.S && tri s'.T T0 s.T) || (decide (T0 = 0) && !decide (s'.S = s.S))) =
      !decide (SpinSector T0 s' s) := by
    rw [Bool.eq_iff_iff, show (!decide (SpinSector T0 s' s)) = decide (¬ SpinSector T0 s' s) by simp,
      decide_eq_true_eq (p := ¬ SpinSector T0 s' s)]
    simp only [SpinSector, Bool.or_eq_true, Bool.not_eq_true', Bool.eq_false_iff, ne_eq, Bool.and_eq_true, tri_zero,
      decide_eq_true_eq]
    tauto
  by_cases h : SpinSector T0 s' s
  · have hz : s'.size = s.size := by rw [ok.bra.size, ok.ket.size, h.1]
    refine ⟨diagE (spinValue am T0 s' s), ?_, fun n' _ n _ => ?_⟩
    · rw [spinBlock, hguard, decide_eq_true h, decide_eq_true hz]
      rfl
    · have := spin_reduced hh ok ls hJ0 hT0 n' n
      rw [if_pos h] at this
      refine ⟨_, ?_, this⟩
      simp only [diagE, same]
      congr 1
      split <;> ring
  · refine ⟨zeroE, ?_, fun n' _ n _ => ⟨0, rfl, ?_⟩⟩
    · rw [spinBlock, hguard, decide_eq_false h]
      rfl
    · have := spin_reduced hh ok ls hJ0 hT0 n' n
      rw [if_neg h] at this
      exact this

/-- **C108.** The spin: reduced matrix elements of `s1 + s2` (isoscalar) or `s1 τ1 + s2 τ2` (isovector). -/
theorem spin_stored {cg : Cg} {am : Am} (hh : HalfLaws cg am) {N : ℕ} {o : OpLabels} {T0 : ℕ}
    {sectors : ℕ → List RSec} (hs : ∀ p ∈ sectors T0, SecOK N o T0 p.1 p.2 ∧ LSLaws cg am p.1 p.2) :
    (AmLabels o T0 → ∃ op, constructSpin am o sectors T0 = .ok op ∧ Stores cg 1 T0 (spinOp T0) sectors op) ∧
    (¬ AmLabels o T0 → constructSpin am o sectors T0 = .error .assertFail) := by
  constructor
  · rintro ⟨h1, h2, h3, h4⟩
    exact construct_stores (by simp [h1, h2, h3, inRange, h4]) fun p hp =>
      spin_block hh (hs p hp).1 (hs p hp).2 h1 h3
  · intro h
    refine construct_reject ?_
    rw [Bool.eq_false_iff]
    simpa [AmLabels, inRange, and_assoc] using h

/-- `-1.29 (s1 τ1 + s2 τ2)`. -/
noncomputable def gamowTellerOp (q p : Int) (c' c : Cfg) : ℝ := -(129 / 100) * spinOp 1 q p c' c

theorem Reduced.smul {cg : Cg} {J0 T0 : ℕ} {A : Int → Int → Cfg → Cfg → ℝ} {s' s : RelSub} {n' n : ℕ} {x : ℝ} (k : ℝ)
    (hA : Reduced cg J0 T0 A s' s n' n x) : Reduced cg J0 T0 (fun q p c' c => k * A q p c' c) s' s n' n (k * x) := by
  intro M' hM' q hq M hM P' hP' p hp P hP
  have h := hA M' hM' q hq M hM P' hP' p hp P hP
  simp only [element, couple_smul] at h ⊢
  rw [h]
  ring

/-- **C108**, leading-order Gamow-Teller operator: `-gA` times the isovector spin. -/
theorem gamow_teller_stored {cg : Cg} {am : Am} (hh : HalfLaws cg am) {N : ℕ} {o : OpLabels}
    {sectors : ℕ → List RSec} (hs : ∀ p ∈ sectors 1, SecOK N o 1 p.1 p.2 ∧ LSLaws cg am p.1 p.2) :
    (AmLabels o 1 → ∃ op, constructLOGT am o sectors = .ok op ∧ Stores cg 1 1 gamowTellerOp sectors op) ∧
    (¬ AmLabels o 1 → constructLOGT am o sectors = .error .assertFail) := by
  constructor
  · intro h
    obtain ⟨op, hop, h1, h2⟩ := (spin_stored hh hs).1 h
    refine ⟨_, by rw [constructLOGT, hop, Except.ok_bind', Except.pure_ok], ?_, ?_⟩
    · simp only [if_true, List.forall₂_map_right_iff]
      refine h1.imp fun p b hb n' hn' n hn => ?_
      obtain ⟨x, hx, hr⟩ := hb n' hn' n hn
      refine ⟨_, by rw [scaleE, hx]; rfl, ?_⟩
      have e : -gA = -(129 / 100) := by norm_num [gA]
      rw [e]
      exact hr.smul _
    · intro t ht
      simp only [ht, if_false]
      exact h2 t ht
  · intro h
    rw [constructLOGT, (spin_stored hh hs).2 h]
    rfl

/-! ## Property C109: isospin -/

theorem isospin_reduced {cg : Cg} {am : Am} (hh : HalfLaws cg am) {N : ℕ} {o : OpLabels} {s' s : RelSub}
    (ok : SecOK N o 1 s' s) (ls : LSLaws cg am s' s) (hJ0 : o.J0 = 0) (n' n : ℕ) :
    Reduced cg 0 1 isospinOp s' s n' n
      (if s'.L = s.L ∧ s'.S = s.S then same n' n * am.jRME (2 * s'.T) (2 * s.T) else 0) := by
  have hJ : s'.J = s.J := by
    have := ok.J
    rw [hJ0] at this
    exact tri_zero.mp this
  by_cases hL : s'.L = s.L
  · have h := reduced_prod (A := isospinOp) (J0 := 0) (T0 := 1) (n' := n') (n := n) (r := same n' n)
      (fun _ => δ) (fun _ => idPair) sumPair
      (fun q p c' c h1 h2 h3 h4 => by simp [isospinOp, h1, h2, h3, h4, hL])
      (scalar_ls hh ls ok.bra.S ok.ket.S hL hJ) (sum_we hh ok.bra.T ok.ket.T)
    rw [hh.jrme s'.T s.T ok.bra.T ok.ket.T]
    refine (show (if s'.L = s.L ∧ s'.S = s.S then same n' n *
      (if s'.T = s.T then Real.sqrt (((s.T * (s.T + 1) : ℕ) : ℝ)) else 0) else 0) = _ from ?_) ▸ h
    by_cases hS : s'.S = s.S <;> by_cases hT : s'.T = s.T <;> simp [hL, hS, hT]
  · rw [if_neg (by tauto)]
    exact Reduced.zero fun q p c' c _ h2 _ h4 => by simp [isospinOp, h2, h4, hL]

/-- The labels `ConstructIsospinOperator` accepts. -/
def IsospinLabels (o : OpLabels) : Prop := o.J0 = 0 ∧ o.g0 = 0 ∧ o.T0min ≤ 1 ∧ 1 ≤ o.T0max

/-- **C109.** The isospin: reduced matrix elements of `t1 + t2`, in component 1. -/
theorem isospin_stored {cg : Cg} {am : Am} (hh : HalfLaws cg am) {N : ℕ} {o : OpLabels}
    {sectors : ℕ → List RSec} (hs : ∀ p ∈ sectors 1, SecOK N o 1 p.1 p.2 ∧ LSLaws cg am p.1 p.2) :
    (IsospinLabels o → ∃ op, constructIsospin am o sectors = .ok op ∧ Stores cg 0 1 isospinOp sectors op) ∧
    (¬ IsospinLabels o → constructIsospin am o sectors = .error .assertFail) := by
  constructor
  · rintro ⟨h1, h2, h4⟩
    refine construct_stores (by simp [h1, h2, inRange, h4]) fun p hp => ?_
    obtain ⟨ok, ls⟩ := hs p hp
    obtain ⟨s', s⟩ := p
    simp only at ok ls ⊢
    have hT : tri s'.T 1 s.T := ok.T
    by_cases h : s'.L = s.L ∧ s'.S = s.S
    · have hz : s'.size = s.size := by rw [ok.bra.size, ok.ket.size, h.1]
      refine ⟨diagE (am.jRME (2 * s'.T) (2 * s.T)), ?_, fun n' _ n _ => ?_⟩
      · rw [isospinBlock, tri_zero.mpr h.1, tri_zero.mpr h.2, hT, decide_eq_true hz]
        rfl
      · have := isospin_reduced hh ok ls h1 n' n
        rw [if_pos h] at this
        refine ⟨_, ?_, this⟩
        simp only [diagE, same]
        congr 1
        split <;> ring
    · refine ⟨zeroE, ?_, fun n' _ n _ => ⟨0, rfl, ?_⟩⟩
      · rw [isospinBlock, if_pos]
        rw [Bool.not_eq_true', Bool.eq_false_iff]
        simp only [ne_eq, Bool.and_eq_true, tri_zero]
        tauto
      · have := isospin_reduced hh ok ls h1 n' n
        rw [if_neg h] at this
        exact this
  · intro h
    refine construct_reject ?_
    rw [Bool.eq_false_iff]
    simpa [IsospinLabels, inRange, and_assoc] using h

end Verif.Relative
