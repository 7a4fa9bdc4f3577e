import Verif.Relative.NLOM1Lemmas

/-!
# What `ConstructNLOM1Operator` stores, and what `relcm-gen` writes
-/

namespace Verif.Relative.Relcm
open Verif Verif.H2 Verif.Osc Verif.Relative MeasureTheory Set Axial

/-! ## Radial integrals -/

theorem regulator_eq (R r : ℝ) : regulator R r = reg R r := by
  rw [regulator, reg]
  split
  · rfl
  · congr 3
    rw [div_pow]
    ring

theorem fIntegral_eq (g : Quad) (hb : 0 < g.b) {R : ℝ} {N : ℕ} {p' p : State} (h' : StateOK N p') (h : StateOK N p)
    {shift : ℝ} {k : ℕ} (hs : shift = -(k / 2 : ℝ)) :
    fIntegral g R N shift p' p = .ok (yukK (radialInt g.cubic g.points g.b) g.b R k p'.nr p'.lr p.nr p.lr * mpi ^ k) := by
  have hm := mpi_pos
  have e : yukK (radialInt g.cubic g.points g.b) g.b R k p'.nr p'.lr p.nr p.lr * mpi ^ k =
      radialInt g.cubic g.points g.b (fun r => oscFn p'.nr p'.lr g.b r * (Real.exp (-(mpi * r)) / r ^ k * reg R r)
        * oscFn p.nr p.lr g.b r) := by
    rw [yukK, div_mul_cancel₀ _ (by positivity)]
  rw [e, fIntegral]
  refine g.integrate_eq hb fun r hr => ?_
  obtain ⟨a1, a2, a3, a4, a5⟩ := h'
  obtain ⟨b1, b2, b3, b4, b5⟩ := h
  rw [oscAt_eq g hb (by omega) (by omega) hr, oscAt_eq g hb (by omega) (by omega) hr]
  simp only [Except.ok_bind', Except.pure_ok, regulator_eq, pionMass_eq]
  congr 1
  have e2 : r ^ shift * r ^ shift = 1 / r ^ k := by
    rw [← Real.rpow_add hr, hs, show -(k / 2 : ℝ) + -(k / 2) = -(k : ℝ) by ring, Real.rpow_neg hr.le, Real.rpow_natCast,
      one_div]
  have e3 : -mpi * r = -(mpi * r) := by ring
  rw [e3]
  simp only [State.nr]
  rw [div_eq_mul_one_div (Real.exp _) (r ^ k)]
  linear_combination (oscFn ((p'.Nr - p'.lr) / 2) p'.lr g.b r * oscFn ((p.Nr - p.lr) / 2) p.lr g.b r
    * Real.exp (-(mpi * r)) * reg R r) * e2

/-- Scaling of the coordinate. -/
theorem cmCoord_scale {b : ℝ} (hb : 0 < b) (n' l' n l : ℕ) : cmCoord b n' l' n l = b * cmCoord 1 n' l' n l := by
  have h := integral_comp_mul_left_Ioi (fun y => oscFn n' l' 1 y * (y * oscFn n l 1 y)) 0 (b := 1 / b) (by positivity)
  have e : ∀ x, oscFn n' l' b x * (x * oscFn n l b x)
      = oscFn n' l' 1 (1 / b * x) * (1 / b * x * oscFn n l 1 (1 / b * x)) := by
    intro x
    rw [oscFn_scale n' l' hb, oscFn_scale n l hb]
    have hs : Real.sqrt b * Real.sqrt b = b := Real.mul_self_sqrt hb.le
    have : 1 / Real.sqrt b * (1 / Real.sqrt b) = 1 / b := by rw [div_mul_div_comm, one_mul, hs]
    linear_combination (x * oscFn n' l' 1 (1 / b * x) * oscFn n l 1 (1 / b * x)) * this
  simp only [cmCoord, e]
  rw [h, mul_zero]
  simp

/-- The deviation of the code's decimal square root of two. -/
noncomputable def rootError : ℝ := Real.sqrt 2 / 1.414213562373095

/-- The rounding of the constant is below `10⁻¹⁶`. -/
theorem rootError_small : |rootError - 1| < 1e-16 := by
  have h1 : (1.414213562373095 : ℝ) < Real.sqrt 2 := by
    rw [Real.lt_sqrt (by norm_num)]
    norm_num
  have h2 : Real.sqrt 2 < 1.41421356237309505 := by
    rw [Real.sqrt_lt' (by norm_num)]
    norm_num
  rw [rootError, abs_lt]
  constructor
  · have : (1 : ℝ) < Real.sqrt 2 / 1.414213562373095 := by
      rw [lt_div_iff₀ (by norm_num)]
      linarith
    linarith
  · have : Real.sqrt 2 / 1.414213562373095 < 1.41421356237309505 / 1.414213562373095 := by
      rw [div_lt_div_iff_of_pos_right (by norm_num)]
      exact h2
    refine lt_trans (sub_lt_sub_right this 1) ?_
    norm_num

theorem coordinate_cm {N : ℕ} {p' p : State} (h' : StateOK N p') (h : StateOK N p)
    (hl : p'.lc = p.lc + 1 ∨ p.lc = p'.lc + 1) :
    coordinate p'.Nc p'.lc p.Nc p.lc 1 = .ok (rootError * cmCoord 1 p'.nc p'.lc p.nc p.lc) := by
  obtain ⟨a1, a2, a3, a4, a5⟩ := h'
  obtain ⟨b1, b2, b3, b4, b5⟩ := h
  have e := coordinate_is_integral p'.nc p'.lc p.nc p.lc hl
  have e1 : 2 * p'.nc + p'.lc = p'.Nc := by rw [State.nc]; omega
  have e2 : 2 * p.nc + p.lc = p.Nc := by rw [State.nc]; omega
  rw [e1, e2] at e
  exact e

/-- The coordinate changes the number of quanta by one. -/
theorem cmCoord_zero {N : ℕ} {p' p : State} (h' : StateOK N p') (h : StateOK N p)
    (hl : p'.lc = p.lc + 1 ∨ p.lc = p'.lc + 1) (hN : ¬ (p'.Nc = p.Nc + 1 ∨ p.Nc = p'.Nc + 1)) {b : ℝ} (hb : 0 < b) :
    cmCoord b p'.nc p'.lc p.nc p.lc = 0 := by
  have e := coordinate_cm h' h hl
  have hd : cDagger (p'.Nc : Int) p'.lc p.Nc p.lc = .ok 0 := by
    simp only [cDagger]
    rw [if_neg (by omega)]
  have hl' : cLower (p'.Nc : Int) p'.lc p.Nc p.lc = .ok 0 := by
    simp only [cLower]
    rw [if_neg (by omega)]
  have ha : assertE (decide ((p'.lc : Int) - p.lc = -1 ∨ (p'.lc : Int) - p.lc = 1)) = .ok () := by
    rw [assertE_ok]
    simp only [decide_eq_true_eq]
    omega
  simp only [coordinate, ha, hd, hl', Except.ok_bind'] at e
  have e' : ((1 : Int) : ℝ) * 0 + 0 = 0 := by norm_num
  rw [e', zero_div] at e
  have h0 : rootError * cmCoord 1 p'.nc p'.lc p.nc p.lc = 0 := by
    injection e with e
    exact e.symm
  have hr : rootError ≠ 0 := by
    have := rootError_small
    intro h
    rw [h] at this
    norm_num at this
  rw [cmCoord_scale hb, (mul_eq_zero.mp h0).resolve_left hr, mul_zero]

theorem prefactor_eq : m1Prefactor = strength := by
  rw [m1Prefactor, strength]
  have e1 : nucleonMass = mN := rfl
  have e2 : Verif.Relative.Lenpic.pionDecay = fpi := rfl
  have e3 : Verif.Relative.gA = 1.29 := rfl
  rw [e1, e2, e3, pionMass_eq]
  ring

/-! ## The stored operator -/

/-- The operator for the radial integrals of a rule: relative length `√2 b`, centre-of-mass length `b/√2`. -/
noncomputable def m1 (cg : Cg) (C : ℕ → ℕ → ℕ → Int → Int → Int → ℝ) (I : (ℝ → ℝ) → ℝ) (R b ρ : ℝ) :
    Int → Int → Cfg → Cfg → ℝ :=
  m1Op cg C (yukK I (Real.sqrt 2 * b) R) fun n' l' n l => ρ * cmCoord (b / Real.sqrt 2) n' l' n l

section
variable {cg : Cg} {am : Am} {am12 : Am12} {C : ℕ → ℕ → ℕ → Int → Int → Int → ℝ} {s' s : Sub} {p' p : State}

/-- Reduced element of the part within the relative motion. -/
theorem intrinsic_reduced (hp : PairLaws cg am am12) (hl : Laws cg am am12 C s' s p' p) (hS' : s'.S ≤ 1) (hS : s.S ≤ 1)
    (F : ℕ → ℕ → ℕ → ℕ → ℕ → ℝ) {v : ℝ} {Y : Int → Int → Int → Int → Int → ℝ}
    (hY : WE cg (2 * s'.T) 2 (2 * s.T) (fun w => couple cg 1 1 (2 * s'.T) 1 1 (2 * s.T) (Y w)) v) (k : ℝ) :
    Reduced cg 1 1 (fun q w c' c => k * intrinsic cg C F q c' c * Y w c'.t1 c'.t2 c.t1 c.t2) s' s p' p
      (k * (if p'.nc = p.nc ∧ p'.lc = p.lc then
        F 0 p'.nr p'.lr p.nr p.lr * (a6 am am12 s' s p' p + 2 * a0 am am12 s' s p' p)
          + F 1 p'.nr p'.lr p.nr p.lr * (a6 am am12 s' s p' p - a0 am am12 s' s p' p) else 0) * v) := by
  by_cases hc : p'.nc = p.nc ∧ p'.lc = p.lc
  · rw [if_pos hc]
    have h2 := tensor_reduced hp hl hS' hS hc.2
      (k * (F 0 p'.nr p'.lr p.nr p.lr + F 1 p'.nr p'.lr p.nr p.lr)) v hY
      (A := fun q w c' d => k * (F 0 p'.nr p'.lr p.nr p.lr + F 1 p'.nr p'.lr p.nr p.lr)
        * (δ c'.mc d.mc * (Real.sqrt 10 * product cg 4 2 2 (fun u => C 2 c'.lr d.lr u c'.mr d.mr)
        (fun v => pairK cg 2 v c'.m1 c'.m2 d.m1 d.m2) q)) * Y w c'.t1 c'.t2 d.t1 d.t2)
      (fun _ _ _ _ _ _ _ _ _ _ _ _ => rfl)
    by_cases hr : p'.lr = p.lr
    · have h1 := central_reduced hp hl hS' hS hr hc.2
        (k * (2 * F 0 p'.nr p'.lr p.nr p.lr - F 1 p'.nr p'.lr p.nr p.lr)) v hY
        (A := fun q w c' d => k * (2 * F 0 p'.nr p'.lr p.nr p.lr - F 1 p'.nr p'.lr p.nr p.lr)
          * (δ c'.mc d.mc * (δ c'.mr d.mr * pairK cg 2 q c'.m1 c'.m2 d.m1 d.m2)) * Y w c'.t1 c'.t2 d.t1 d.t2)
        (fun _ _ _ _ _ _ _ _ _ _ _ _ => rfl)
      refine ((h1.add h2).congr fun q w c' c i1 i2 i3 i4 i5 i6 i7 i8 => ?_).cast (by ring)
      rw [intrinsic, i1, i2, i3, i4, i5, i6, i7, i8, if_pos hc, if_pos hr]
      ring
    · have e : a0 am am12 s' s p' p = 0 := by simp [a0, hr]
      refine (h2.congr fun q w c' c i1 i2 i3 i4 i5 i6 i7 i8 => ?_).cast (by rw [e]; ring)
      rw [intrinsic, i1, i2, i3, i4, i5, i6, i7, i8, if_pos hc, if_neg hr]
      ring
  · rw [if_neg hc, mul_zero, zero_mul]
    refine Reduced.zero fun q w c' c i1 i2 i3 i4 i5 i6 i7 i8 => ?_
    rw [intrinsic, i3, i4, i7, i8, if_neg hc]
    ring

/-- Reduced element of the part with the centre-of-mass coordinate. -/
theorem sachs_reduced (hp : PairLaws cg am am12) (hl : Laws cg am am12 C s' s p' p) (hS' : s'.S ≤ 1) (hS : s.S ≤ 1)
    (F : ℕ → ℕ → ℕ → ℕ → ℕ → ℝ) (X : ℕ → ℕ → ℕ → ℕ → ℝ) {v : ℝ} {Y : Int → Int → Int → Int → Int → ℝ}
    (hY : WE cg (2 * s'.T) 2 (2 * s.T) (fun w => couple cg 1 1 (2 * s'.T) 1 1 (2 * s.T) (Y w)) v) (k : ℝ) :
    Reduced cg 1 1 (fun q w c' c => k * sachs cg C F X q c' c * Y w c'.t1 c'.t2 c.t1 c.t2) s' s p' p
      (k * (mpi * X p'.nc p'.lc p.nc p.lc * (F 0 p'.nr p'.lr p.nr p.lr * aCM am am12 s' s p' p (-Real.sqrt 3) 0 1 1
        + (F 0 p'.nr p'.lr p.nr p.lr + 3 * F 1 p'.nr p'.lr p.nr p.lr + 3 * F 2 p'.nr p'.lr p.nr p.lr)
          * (aCM am am12 s' s p' p (Real.sqrt (3 / 5)) 2 1 1 + aCM am am12 s' s p' p (Real.sqrt (9 / 5)) 2 1 2
            + aCM am am12 s' s p' p (Real.sqrt (14 / 5)) 2 3 2 + aCM am am12 s' s p' p (Real.sqrt (28 / 5)) 2 3 3)))
        * v) := by
  set x := X p'.nc p'.lc p.nc p.lc
  set f0 := F 0 p'.nr p'.lr p.nr p.lr
  set f := F 0 p'.nr p'.lr p.nr p.lr + 3 * F 1 p'.nr p'.lr p.nr p.lr + 3 * F 2 p'.nr p'.lr p.nr p.lr
  have t : ∀ (k1 k0 S0 : ℕ) (_ : (k1, k0) ∈ [(1, 1), (1, 2), (3, 2), (3, 3)]) (_ : S0 ≤ 2)
      (_ : (k0, S0) ∈ [(1, 0), (1, 2), (2, 2), (3, 2), (2, 1)]) (c r : ℝ),
      Reduced cg 1 1 (fun q w c' d => r * c * term cg C k1 k0 S0 q c' d * Y w c'.t1 c'.t2 d.t1 d.t2) s' s p' p
        (r * aCM am am12 s' s p' p c S0 k1 k0 * v) := fun k1 k0 S0 h1 h2 h3 c r =>
    term_reduced hp hl hS' hS h1 h2 h3 c r v hY fun _ _ _ _ _ _ _ _ _ _ _ _ => rfl
  have h1 := t 1 1 0 (by simp) (by omega) (by simp) (-Real.sqrt 3) (k * (mpi * x * f0))
  have h2 := t 1 1 2 (by simp) (by omega) (by simp) (Real.sqrt (3 / 5)) (k * (mpi * x * f))
  have h3 := t 1 2 2 (by simp) (by omega) (by simp) (Real.sqrt (9 / 5)) (k * (mpi * x * f))
  have h4 := t 3 2 2 (by simp) (by omega) (by simp) (Real.sqrt (14 / 5)) (k * (mpi * x * f))
  have h5 := t 3 3 2 (by simp) (by omega) (by simp) (Real.sqrt (28 / 5)) (k * (mpi * x * f))
  refine (((((h1.add h2).add h3).add h4).add h5).congr fun q w c' c i1 i2 i3 i4 i5 i6 i7 i8 => ?_).cast (by ring)
  rw [sachs, i1, i2, i3, i4, i5, i6, i7, i8]
  ring

/-- Without a change of one unit in the orbital angular momentum of the centre of mass that part vanishes. -/
theorem aCM_zero (hl : Laws cg am am12 C s' s p' p) (F : ℕ → ℕ → ℕ → ℕ → ℕ → ℝ) (X : ℕ → ℕ → ℕ → ℕ → ℝ)
    (h : ¬ (p'.lc = p.lc + 1 ∨ p.lc = p'.lc + 1)) {q : Int} {c' c : Cfg} (h' : c'.lc = p'.lc) (hc : c.lc = p.lc) :
    sachs cg C F X q c' c = 0 := by
  have z : ∀ k1 k S0, term cg C k1 k S0 q c' c = 0 := by
    intro k1 k S0
    simp only [term, product, h', hc, hl.parity h, mul_zero, Finset.sum_const_zero, zero_mul]
  rw [sachs]
  simp only [z]
  ring

/-- What one element of the matrix holds. -/
theorem entry_reduced (hp : PairLaws cg am am12) (hl : Laws cg am am12 C s' s p' p) {N : ℕ} (h' : StateOK N p')
    (h : StateOK N p) (hS' : s'.S ≤ 1) (hS : s.S ≤ 1) (hT' : s'.T ≤ 1) (hT : s.T ≤ 1)
    (cubic : List ℝ → List ℝ → ℝ) (points : ℕ) (R : ℝ) {b : ℝ} (hb : 0 < b) :
    ∃ x, m1Entry am am12 ⟨points, b * Real.sqrt 2, cubic⟩ R (b / Real.sqrt 2) N s' s p' p = .ok x ∧
      Reduced cg 1 1 (m1 cg C (radialInt cubic points (Real.sqrt 2 * b)) R b rootError) s' s p' p
        (x * (m1Prefactor * spinFactors am am12 s'.T s.T 1)) := by
  have hb2 : 0 < b / Real.sqrt 2 := by positivity
  have hm := mpi_pos
  set I := radialInt cubic points (Real.sqrt 2 * b) with hI
  set F := yukK I (Real.sqrt 2 * b) R with hF
  set X := fun n' l' n l => rootError * cmCoord (b / Real.sqrt 2) n' l' n l with hX
  have hY : WE cg (2 * s'.T) 2 (2 * s.T) (fun w => couple cg 1 1 (2 * s'.T) 1 1 (2 * s.T) (pairK cg 2 w)) _ :=
    pairK_reduced hp hT' hT (S0 := 1) (by omega)
  have hred := ((intrinsic_reduced hp hl hS' hS F hY strength).add (sachs_reduced hp hl hS' hS F X hY strength)).congr
    (B := m1 cg C I R b rootError) (fun q w c' c _ _ _ _ _ _ _ _ => by
      rw [m1, m1Op]
      ring)
  have hfi : ∀ (shift : ℝ) (k : ℕ), shift = -(k / 2 : ℝ) → fIntegral ⟨points, b * Real.sqrt 2, cubic⟩ R N shift p' p =
      .ok (F k p'.nr p'.lr p.nr p.lr * mpi ^ k) := by
    intro shift k hs
    rw [fIntegral_eq _ (by positivity) h' h hs, hF, hI, mul_comm b]
  have n1 : p'.nc = p.nc ∧ p'.lc = p.lc ↔ p'.Nc = p.Nc ∧ p'.lc = p.lc := by
    obtain ⟨_, _, _, _, _⟩ := h'
    obtain ⟨_, _, _, _, _⟩ := h
    simp only [State.nc]
    omega
  -- the sum of the two parts, from the cases of the centre-of-mass motion
  by_cases hch : cmChanging p' p
  · have hc1 : (p'.Nc = p.Nc + 1 ∨ p.Nc = p'.Nc + 1) ∧ (p'.lc = p.lc + 1 ∨ p.lc = p'.lc + 1) := by
      simp only [cmChanging, Bool.and_eq_true, decide_eq_true_eq] at hch
      omega
    have hpr : cmPreserving p' p = false := by
      simp only [cmPreserving, Bool.and_eq_false_iff, decide_eq_false_iff_not]
      omega
    have e2 : tri p'.lc p.lc 1 = true := by
      simp only [tri, decide_eq_true_eq]
      omega
    rw [if_neg (by rw [n1]; omega)] at hred
    have hval : Reduced cg 1 1 (m1 cg C I R b rootError) s' s p' p _ := hred
    by_cases hlr : decide (p'.lr = p.lr) || tri p'.lr p.lr 1 || tri p'.lr p.lr 2 || tri p'.lr p.lr 3
    · refine ⟨?x, ?a, hval.cast ?b⟩
      case a =>
        rw [m1Entry, if_neg (by simp [hch]), if_neg (by simp [e2]), if_neg (by simp only [hlr, Bool.not_true]; decide)]
        simp only [hfi 0 0 (by norm_num), hfi (-0.5) 1 (by norm_num), f2Integral, hch, if_true,
          hfi (-1) 2 (by norm_num), Except.ok_bind', cmPart, coordinate_cm h' h hc1.2, Except.pure_ok, relPart, hpr,
          Bool.false_eq_true, if_false, pionMass_eq]
        rfl
      case b =>
        rw [prefactor_eq, hX]
        simp only
        rw [cmCoord_scale hb2]
        have : mpi ≠ 0 := hm.ne'
        field_simp
        ring
    · refine ⟨0, ?_, hval.cast ?_⟩
      · rw [m1Entry, if_neg (by simp [hch]), if_neg (by simp [e2]), if_pos (by simpa using hlr)]
      · have z : ∀ c S0 k1 k : _, (k1 = 1 ∨ k1 = 3) → aCM am am12 s' s p' p c S0 k1 k = 0 := by
          intro c S0 k1 k hk
          simp only [Bool.or_eq_true, not_or, Bool.not_eq_true] at hlr
          rcases hk with rfl | rfl <;> simp [aCM, hlr]
        rw [z _ _ _ _ (Or.inl rfl), z _ _ _ _ (Or.inl rfl), z _ _ _ _ (Or.inl rfl), z _ _ _ _ (Or.inr rfl),
          z _ _ _ _ (Or.inr rfl)]
        ring
  · have hch' : cmChanging p' p = false := by simpa using hch
    have hz : ∀ q c' c, c'.nc = p'.nc → c'.lc = p'.lc → c.nc = p.nc → c.lc = p.lc →
        sachs cg C F X q c' c = 0 := by
      intro q c' c i3 i4 i7 i8
      by_cases hlc : p'.lc = p.lc + 1 ∨ p.lc = p'.lc + 1
      · have hN : ¬ (p'.Nc = p.Nc + 1 ∨ p.Nc = p'.Nc + 1) := by
          intro hN
          refine hch ?_
          simp only [cmChanging, Bool.and_eq_true, decide_eq_true_eq]
          omega
        rw [sachs, hX, i3, i4, i7, i8]
        simp only
        rw [cmCoord_zero h' h hlc hN hb2]
        ring
      · exact aCM_zero hl F X hlc i4 i8
    have hin := (intrinsic_reduced hp hl hS' hS F hY strength).congr (B := m1 cg C I R b rootError)
      (fun q w c' c i1 i2 i3 i4 i5 i6 i7 i8 => by
        rw [m1, m1Op, hz q c' c i3 i4 i7 i8]
        ring)
    by_cases hpr : cmPreserving p' p
    · have hc2 : p'.Nc = p.Nc ∧ p'.lc = p.lc := by
        simpa [cmPreserving] using hpr
      rw [if_pos (n1.mpr hc2)] at hin
      by_cases hlr : decide (p'.lr = p.lr) || tri p'.lr p.lr 1 || tri p'.lr p.lr 2 || tri p'.lr p.lr 3
      · refine ⟨?x2, ?a2, hin.cast ?b2⟩
        case a2 =>
          rw [m1Entry, if_neg (by simp [hpr]), if_neg (by simp [hc2]), if_neg (by simp only [hlr, Bool.not_true]; decide)]
          simp only [hfi 0 0 (by norm_num), hfi (-0.5) 1 (by norm_num), f2Integral, hch', Bool.false_eq_true, if_false,
            Except.ok_bind', cmPart, Except.pure_ok, relPart, hpr, if_true, pionMass_eq]
          rfl
        case b2 =>
          rw [prefactor_eq]
          have : mpi ≠ 0 := hm.ne'
          field_simp
          ring
      · refine ⟨0, ?_, hin.cast ?_⟩
        · rw [m1Entry, if_neg (by simp [hpr]), if_neg (by simp [hc2]), if_pos (by simpa using hlr)]
        · simp only [Bool.or_eq_true, not_or, Bool.not_eq_true, decide_eq_true_eq] at hlr
          have z6 : a6 am am12 s' s p' p = 0 := by simp [a6, hlr]
          have z0 : a0 am am12 s' s p' p = 0 := by simp [a0, hlr]
          rw [z6, z0]
          ring
    · have hpr' : cmPreserving p' p = false := by simpa using hpr
      refine ⟨0, ?_, hin.cast ?_⟩
      · rw [m1Entry, if_pos (by simp [hch', hpr'])]
      · rw [if_neg]
        · ring
        · rw [n1]
          intro hc2
          simp [cmPreserving, hc2] at hpr

end

/-- The labels `ConstructNLOM1Operator` accepts. -/
def M1Labels (o : OpLabels) : Prop := o.J0 = 1 ∧ o.g0 = 0 ∧ o.T0min ≤ 1 ∧ 1 ≤ o.T0max

/-- **C142.** For the labels of a magnetic dipole operator the stored component is the two-nucleon current of one-pion
range, sector by sector and state by state, and the other components are zero; other labels are reported.  The radial
integrals of the relative motion are those of the spline rule, for the length `√2 b`; the centre-of-mass coordinate is
the exact integral for the length `b/√2`, apart from the decimal square root of two. -/
theorem nlom1_stored {cg : Cg} {am : Am} {am12 : Am12} {C : ℕ → ℕ → ℕ → Int → Int → Int → ℝ} (hp : PairLaws cg am am12)
    {N : ℕ} {o : OpLabels} {sectors : ℕ → List Sec}
    (hs : ∀ sec ∈ sectors 1, SubOK N sec.1 ∧ SubOK N sec.2 ∧
      ∀ p' ∈ sec.1.states, ∀ p ∈ sec.2.states, Laws cg am am12 C sec.1 sec.2 p' p)
    (cubic : List ℝ → List ℝ → ℝ) (R : ℝ) {b : ℝ} (hb : 0 < b) (points : ℕ) :
    (M1Labels o → ∃ op, constructNLOM1 am am12 cubic o N sectors R b points = .ok op ∧
      Stores cg 1 1 (m1 cg C (radialInt cubic points (Real.sqrt 2 * b)) R b rootError) sectors op) ∧
    (¬ M1Labels o → constructNLOM1 am am12 cubic o N sectors R b points = .error .exitFailure) := by
  constructor
  · rintro ⟨h1, h2, h3, h4⟩
    refine ⟨_, by rw [constructNLOM1, if_neg (by omega)], ?_, ?_⟩
    · simp only [if_true]
      rw [List.forall₂_map_right_iff, List.forall₂_same]
      intro sec hsec
      obtain ⟨o1, o2, hl⟩ := hs sec hsec
      intro i j p' p hi hj
      have m' := List.mem_of_getElem? hi
      have m := List.mem_of_getElem? hj
      obtain ⟨x, hx, hr⟩ := entry_reduced hp (hl p' m' p m) (o1.states p' m') (o2.states p m) o1.S o2.S o1.T o2.T cubic
        points R hb
      by_cases hT : sec.1.T = sec.2.T
      · refine ⟨0, by rw [m1Block, if_pos hT]; rfl, hr.cast ?_⟩
        have z : spinFactors am am12 sec.1.T sec.2.T 1 = 0 := by
          rw [hT, spinFactors]
          have := o2.T
          rcases (by omega : sec.2.T = 0 ∨ sec.2.T = 1) with e | e <;> rw [e]
          · simp [tri]
          · simp [hp.odd]
        rw [z]
        ring
      · refine ⟨_, ?_, hr⟩
        rw [m1Block, if_neg hT]
        simp only [hi, hj, hx, Except.ok_bind', Except.pure_ok]
    · intro t ht
      simp only [if_neg ht]
      rw [List.forall₂_map_right_iff, List.forall₂_same]
      exact fun _ _ _ _ => rfl
  · intro h
    rw [constructNLOM1, if_pos]
    rw [M1Labels] at h
    omega

end Verif.Relative.Relcm
