import Verif.Relative.ConstructAm

/-!
# Quadrupole and dipole operators in relative motion
-/

namespace Verif.Relative
open Verif Verif.H2 Verif.Osc MeasureTheory Set

/-- Operators on the orbital motion of any rank. -/
theorem orbital_rank {cg : Cg} {am : Am} (hh : HalfLaws cg am) {s' s : RelSub} (hS' : s'.S ≤ 1) (hS : s.S ≤ 1) {k : ℕ}
    {f : ℝ} (hr : s'.S = s.S → Reduces1 cg f (2 * s'.L) (2 * s.L) (2 * s.S) (2 * s'.J) (2 * s.J) k)
    (O : Int → Int → Int → ℝ) {x : ℝ} (hO : WE cg (2 * s'.L) k (2 * s.L) O x) :
    WE cg (2 * s'.J) k (2 * s.J) (fun q => couple cg (2 * s'.L) (2 * s'.S) (2 * s'.J) (2 * s.L) (2 * s.S)
      (2 * s.J) fun x' y' x y => O q x' x * couple cg 1 1 (2 * s'.S) 1 1 (2 * s.S) idPair y' y)
      (if s'.S = s.S then f * x else 0) := by
  by_cases hSS : s'.S = s.S
  · rw [if_pos hSS]
    refine (reduce1 (hr hSS) hO).congr fun M' _ q _ M _ => ?_
    rw [← hSS]
    refine couple_congr fun x' _ y' hy' x _ y hy => ?_
    rw [id_couple hh hS' hS' hy' hy, if_pos rfl]
  · rw [if_neg hSS]
    refine WE.zero fun M' _ q _ M _ => ?_
    rw [couple_congr (B := fun _ _ _ _ => 0) fun x' _ y' hy' x _ y hy => by
      rw [id_couple hh hS' hS hy' hy, if_neg hSS, mul_zero], couple_zero]

/-! ## Property C112: quadrupole -/

/-- Laws for the second spherical harmonic, with matrix `Y L' L q m' m`, and for Racah's reduction of rank 2 in terms of
a `6j` symbol. -/
structure QuadLaws (cg : Cg) (am : Am) (Y : ℕ → ℕ → Int → Int → Int → ℝ) (s' s : RelSub) : Prop where
  red : s'.S = s.S → tri s'.L 2 s.L → tri s'.J 2 s.J →
    Reduces1 cg ((-1) ^ (s'.L + s.S + s.J) * Real.sqrt (2 * s.J + 1) * Real.sqrt (2 * s'.L + 1)
      * am.sixJ (2 * s'.L) (2 * s'.J) (2 * s.S) (2 * s.J) (2 * s.L) 4)
      (2 * s'.L) (2 * s.L) (2 * s.S) (2 * s'.J) (2 * s.J) 4
  harm : tri s'.L 2 s.L → WE cg (2 * s'.L) 4 (2 * s.L) (Y s'.L s.L)
    ((-1) ^ s'.L * Real.sqrt (2 * s.L + 1) * Real.sqrt (5 / (4 * Real.pi)) * am.threeJ (2 * s'.L) 4 (2 * s.L))
  none : ¬ tri s'.L 2 s.L → ∀ q m' m, Y s'.L s.L q m' m = 0
  sym : am.threeJ (2 * s.L) 4 (2 * s'.L) = am.threeJ (2 * s'.L) 4 (2 * s.L)

/-- The labels `ConstructQuadrupoleOperator` accepts. -/
def QuadLabels (o : OpLabels) (T0 : ℕ) : Prop :=
  o.J0 = 2 ∧ o.g0 = 0 ∧ (T0 = 0 ∨ T0 = 1) ∧ o.T0min ≤ T0 ∧ T0 ≤ o.T0max

theorem hat_pos (j : ℕ) : 0 < hat j := Real.sqrt_pos.mpr (by positivity)

theorem hat_def (j : ℕ) : Real.sqrt (2 * j + 1) = hat j := rfl

theorem quadrupole_block {cg : Cg} {am : Am} {Y : ℕ → ℕ → Int → Int → Int → ℝ} (hh : HalfLaws cg am) {N : ℕ}
    {o : OpLabels} {T0 : ℕ} {p : RSec} (ok : SecOK N o T0 p.1 p.2) (ql : QuadLaws cg am Y p.1 p.2) (hJ0 : o.J0 = 2)
    (hg0 : o.g0 = 0) (hT0 : T0 = 0 ∨ T0 = 1) (hcan : p.1.L ≤ p.2.L) :
    ∃ b, quadrupoleBlock am T0 p.1 p.2 = .ok b ∧ Holds cg 2 T0 (quadrupoleOp Y T0) p b := by
  obtain ⟨s', s⟩ := p
  simp only at ok ql hcan ⊢
  have hJ : tri s'.J 2 s.J := by
    have := ok.J
    rwa [hJ0] at this
  have hguard : (!(tri s'.L 2 s.L && tri s'.S 0 s.S && decide (s'.T = s.T))) =
      !decide (tri s'.L 2 s.L ∧ s'.S = s.S ∧ s'.T = s.T) := by
    congr 1
    rw [Bool.eq_iff_iff]
    simp only [Bool.and_eq_true, tri_zero, decide_eq_true_eq]
    tauto
  by_cases hL : tri s'.L 2 s.L
  swap
  · refine ⟨zeroE, ?_, fun n' _ n _ => ⟨0, rfl, ?_⟩⟩
    · rw [quadrupoleBlock, hguard, decide_eq_false (by tauto)]
      rfl
    · refine Reduced.zero fun q p c' c h1 h2 h3 h4 => ?_
      rw [quadrupoleOp, h2, h4, ql.none hL]
      ring
  have hr := ql.red
  have hw := ql.harm
  simp only [hat_def] at hr hw
  have hU := orbital_rank hh ok.bra.S ok.ket.S (fun h => hr h hL hJ) (Y s'.L s.L) (hw hL)
  have hV := iso_we hh ok.bra.T ok.ket.T hT0
  have hred : ∀ n' n, Reduced cg 2 T0 (quadrupoleOp Y T0) s' s n' n _ := fun n' n =>
    reduced_prod (A := quadrupoleOp Y T0) (J0 := 2) (n' := n') (n := n) (r := rSqr n' s'.L n s.L / 2)
      (Y s'.L s.L) (fun _ => idPair) (isoPair T0) (fun q p c' c h1 h2 h3 h4 => by rw [quadrupoleOp, h1, h2, h3, h4]) hU hV
  by_cases h : s'.S = s.S ∧ s'.T = s.T
  · have hd : ((s'.L : Int) - s.L = 0) ∨ ((s'.L : Int) - s.L = -2 ∧ (1 : Int) = 1) := by
      have := ok.g
      rw [hg0] at this
      simp only [tri, decide_eq_true_eq] at hL
      omega
    obtain ⟨m, hm, vm⟩ := radial_sqr_loop_complete_partial (braDim := s'.size) (ketDim := s.size) (L := (s.L : Int))
      (deltaL := (s'.L : Int) - s.L) (sign := 1) (by omega) (by omega) hd
    refine ⟨scaleE (Real.sqrt (5 / (16 * Real.pi)) * (-1) ^ (s'.L + s.L + s.S + s.J)
      * hat s'.J * hat s.J * hat s'.L * hat s.L * am.threeJ (2 * s.L) 4 (2 * s'.L)
      * am.sixJ (2 * s'.L) (2 * s'.J) (2 * s.S) (2 * s.J) (2 * s.L) 4
      / hat s'.J * isoFactor T0 s.T * 2) m, ?_, fun n' hn' n hn => ?_⟩
    · rw [quadrupoleBlock, hguard, decide_eq_true ⟨hL, h⟩, hm]
      rfl
    · refine ⟨_, ?_, hred n' n⟩
      have hi := coordinateSqr_is_integral n' s'.L n s.L (by omega)
      have e1 : 2 * (n' : Int) + ((s.L : Int) + ((s'.L : Int) - s.L)) = ((2 * n' + s'.L : ℕ) : Int) := by push_cast; ring
      have e2 : 2 * (n : Int) + (s.L : Int) = ((2 * n + s.L : ℕ) : Int) := by push_cast; ring
      have e3 : (s.L : Int) + ((s'.L : Int) - s.L) = s'.L := by ring
      have hv := vm n' n hn' hn
      rw [e1, e2, e3, hi] at hv
      rw [scaleE, hv, rSqr_unit, h.1, h.2, if_pos rfl, if_pos rfl, ql.sym]
      simp only [Except.map]
      congr 1
      have hp : (-1 : ℝ) ^ (s'.L + s.L + s.S + s.J) = (-1) ^ (s'.L + s.S + s.J) * (-1) ^ s'.L := by
        rw [← pow_add]
        have := ok.g
        rw [hg0] at this
        have : ∃ k, s'.L + s.L = 2 * k := ⟨(s'.L + s.L) / 2, by omega⟩
        obtain ⟨k, hk⟩ := this
        rw [show s'.L + s.L + s.S + s.J = 2 * k + (s.S + s.J) by omega,
          show s'.L + s.S + s.J + s'.L = 2 * s'.L + (s.S + s.J) by omega, pow_add _ (2 * k), pow_add _ (2 * s'.L),
          pow_mul, pow_mul]
        simp
      have hq : Real.sqrt (5 / (16 * Real.pi)) = Real.sqrt (5 / (4 * Real.pi)) / 2 := by
        have hpi := Real.pi_pos
        rw [show 5 / (16 * Real.pi) = 5 / (4 * Real.pi) / 2 ^ 2 by field_simp; norm_num,
          Real.sqrt_div' _ (by norm_num), Real.sqrt_sq (by norm_num)]
      have hJ' := (hat_pos s'.J).ne'
      rw [hp, hq]
      field_simp
  · refine ⟨zeroE, ?_, fun n' _ n _ => ⟨0, rfl, ?_⟩⟩
    · rw [quadrupoleBlock, hguard, decide_eq_false (by tauto)]
      rfl
    · have := hred n' n
      refine (show (0 : ℝ) = _ from ?_) ▸ this
      by_cases a : s'.S = s.S <;> by_cases b : s'.T = s.T <;> simp_all

/-- **C112.** In sectors whose bra has no larger `L` than the ket (the canonical order), the quadrupole operator: reduced
matrix elements of `½ r² Y2` (isoscalar) or `½ r² Y2 (τ1+τ2)` (isovector) for relative length `√2`.  Momentum is
refused. -/
theorem quadrupole_stored {cg : Cg} {am : Am} {Y : ℕ → ℕ → Int → Int → Int → ℝ} (hh : HalfLaws cg am) {N : ℕ}
    {o : OpLabels} {T0 : ℕ} {sectors : ℕ → List RSec}
    (hs : ∀ p ∈ sectors T0, SecOK N o T0 p.1 p.2 ∧ QuadLaws cg am Y p.1 p.2 ∧ p.1.L ≤ p.2.L) (c : Coord) :
    (QuadLabels o T0 ∧ c = .r → ∃ op, constructQuadrupole am o sectors c T0 = .ok op ∧
      Stores cg 2 T0 (quadrupoleOp Y T0) sectors op) ∧
    (¬ (QuadLabels o T0 ∧ c = .r) → constructQuadrupole am o sectors c T0 = .error .assertFail) := by
  constructor
  · rintro ⟨⟨h1, h2, h3, h4⟩, h5⟩
    exact construct_stores (by simp [h1, h2, h3, inRange, h4, h5]) fun p hp =>
      quadrupole_block hh (hs p hp).1 (hs p hp).2.1 h1 h2 h3 (hs p hp).2.2
  · intro h
    refine construct_reject ?_
    rw [Bool.eq_false_iff]
    simpa [QuadLabels, inRange, and_assoc] using h

/-! ## Property C113: dipole -/

/-- The reduced element of the unit vector (Rose). -/
noncomputable def unitRME (L' L : ℕ) : ℝ :=
  if L' = L + 1 then Real.sqrt ((L + 1) / (2 * L + 3)) else if L' + 1 = L then -Real.sqrt (L / (2 * L - 1)) else 0

/-- Law for the unit vector, with matrix `V L' L q m' m`. -/
def UnitLaw (cg : Cg) (V : ℕ → ℕ → Int → Int → Int → ℝ) (s' s : RelSub) : Prop :=
  WE cg (2 * s'.L) 2 (2 * s.L) (V s'.L s.L) (unitRME s'.L s.L)

/-- The factor by which a stored dipole element differs from the true one: the decimal literal for the square root of
two, and, when the bra has the smaller `L`, a sign and the square root of `(2L-1)/(2L+1)`. -/
noncomputable def dipoleDefect (L' L : ℕ) : ℝ :=
  Real.sqrt 2 / kSqrt2 * (if L' = L + 1 then 1 else -Real.sqrt ((2 * L - 1) / (2 * L + 1)))

theorem dipole_orbital_defect {L' L : ℕ} (h : L' = L + 1 ∨ L' + 1 = L) :
    dipoleOrbital L' L = unitRME L' L * (if L' = L + 1 then 1 else -Real.sqrt ((2 * L - 1) / (2 * L + 1))) := by
  rcases h with rfl | rfl
  · rw [dipoleOrbital, if_neg (by push_cast; omega), if_pos (by push_cast; omega), unitRME, if_pos rfl, if_pos rfl, mul_one]
  · rw [dipoleOrbital, if_pos (by push_cast; omega), unitRME, if_neg (by omega), if_pos rfl, if_neg (by omega)]
    have hL : (0 : ℝ) ≤ L' := by positivity
    push_cast
    rw [neg_mul_neg, ← Real.sqrt_mul (div_nonneg (by linarith) (by linarith))]
    congr 1
    have h1 : (2 * ((L' : ℝ) + 1) - 1) ≠ 0 := by linarith
    have h2 : (2 * ((L' : ℝ) + 1) + 1) ≠ 0 := by linarith
    rw [div_mul_div_comm, div_eq_div_iff h2 (mul_ne_zero h1 h2)]
    ring

theorem dipole_reduced {cg : Cg} {am : Am} {V : ℕ → ℕ → Int → Int → Int → ℝ} (hh : HalfLaws cg am) {N : ℕ}
    {o : OpLabels} {s' s : RelSub} (ok : SecOK N o 1 s' s) (ls : LSLaws cg am s' s) (hv : UnitLaw cg V s' s)
    (hJ0 : o.J0 = 1) (hL : tri s'.L 1 s.L) (n' n : ℕ) :
    Reduced cg 1 1 (dipoleOp V) s' s n' n
      (rOne n' s'.L n s.L * (if s'.S = s.S then
        am.rose1 (2 * s'.L) (2 * s'.S) (2 * s'.J) (2 * s.L) (2 * s.S) (2 * s.J) 2 * unitRME s'.L s.L else 0)
        * (Real.sqrt 3 * (am.rose1 1 1 (2 * s'.T) 1 1 (2 * s.T) 2 - am.rose2 1 1 (2 * s'.T) 1 1 (2 * s.T) 2))) := by
  have hJ : tri s'.J 1 s.J := by
    have := ok.J
    rwa [hJ0] at this
  have hU := orbital_ls hh ls ok.bra.S ok.ket.S hL hJ (V s'.L s.L) hv
  have hY1 := reduce1 (hh.red1 s'.T s.T ok.bra.T ok.ket.T) (half_vec hh)
  have hY2 := reduce2 (hh.red2 s'.T s.T ok.bra.T ok.ket.T) (half_vec hh)
  have hV := (hY1.add (hY2.smul (-1))).smul 2
  have hV' : WE cg (2 * s'.T) (2 * 1) (2 * s.T) (fun p => couple cg 1 1 (2 * s'.T) 1 1 (2 * s.T)
      fun a' b' a b => 2 * (jmat 1 p a' a * δ b' b - δ a' a * jmat 1 p b' b)) _ := hV.congr fun M' _ p _ M _ => by
    rw [← couple_smul, ← couple_add, ← couple_smul]
    refine couple_congr fun _ _ _ _ _ _ _ _ => ?_
    ring
  have h := reduced_prod (A := dipoleOp V) (J0 := 1) (T0 := 1) (n' := n') (n := n) (r := rOne n' s'.L n s.L)
    (V s'.L s.L) (fun _ => idPair) (fun p a' b' a b => 2 * (jmat 1 p a' a * δ b' b - δ a' a * jmat 1 p b' b))
    (fun q p c' c h1 h2 h3 h4 => by rw [dipoleOp, h1, h2, h3, h4]) hU hV'
  convert h using 1
  ring

theorem dipole_block {cg : Cg} {am : Am} {V : ℕ → ℕ → Int → Int → Int → ℝ} (hh : HalfLaws cg am) {N : ℕ}
    {o : OpLabels} {s' s : RelSub} (ok : SecOK N o 1 s' s) (ls : LSLaws cg am s' s) (hv : UnitLaw cg V s' s)
    (hnone : ¬ tri s'.L 1 s.L → ∀ q m' m, V s'.L s.L q m' m = 0) (hJ0 : o.J0 = 1) (hg0 : o.g0 = 1) :
    ∃ b, dipoleBlock am .r 1 s' s = .ok b ∧ ∀ n' < s'.size, ∀ n < s.size,
      ∃ x, b n' n = .ok (dipoleDefect s'.L s.L * x) ∧ Reduced cg 1 1 (dipoleOp V) s' s n' n x := by
  have hT : tri s'.T 1 s.T := ok.T
  have hguard : (!(tri s'.L 1 s.L && tri s'.S 0 s.S && tri s'.T 1 s.T)) = !decide (tri s'.L 1 s.L ∧ s'.S = s.S) := by
    congr 1
    rw [Bool.eq_iff_iff]
    simp only [Bool.and_eq_true, tri_zero, decide_eq_true_eq]
    tauto
  by_cases hL : tri s'.L 1 s.L
  swap
  · refine ⟨zeroE, ?_, fun n' _ n _ => ⟨0, by simp [zeroE], ?_⟩⟩
    · rw [dipoleBlock, hguard, decide_eq_false (by tauto)]
      rfl
    · refine Reduced.zero fun q p c' c h1 h2 h3 h4 => ?_
      rw [dipoleOp, h2, h4, hnone hL]
      ring
  by_cases hS : s'.S = s.S
  · have hd : s'.L = s.L + 1 ∨ s'.L + 1 = s.L := by
      have := ok.g
      rw [hg0] at this
      simp only [tri, decide_eq_true_eq] at hL
      omega
    obtain ⟨m, hm, vm⟩ := radial_loop_complete (braDim := s'.size) (ketDim := s.size) (L := (s.L : Int))
      (deltaL := (s'.L : Int) - s.L) (by omega) (by omega) (by omega) 1
    refine ⟨scaleE (Real.sqrt 3 * am.rose1 (2 * s'.L) (2 * s'.S) (2 * s'.J) (2 * s.L) (2 * s.S) (2 * s.J) 2
      * (am.rose1 1 1 (2 * s'.T) 1 1 (2 * s.T) 2 - am.rose2 1 1 (2 * s'.T) 1 1 (2 * s.T) 2)
      * dipoleOrbital s'.L s.L * Coord.scale .r) m, ?_,
      fun n' hn' n hn => ⟨_, ?_, dipole_reduced hh ok ls hv hJ0 hL n' n⟩⟩
    · rw [dipoleBlock, hguard, decide_eq_true ⟨hL, hS⟩, hm]
      rfl
    · have hi := coordinate_is_integral n' s'.L n s.L (by omega)
      have e1 : 2 * (n' : Int) + ((s.L : Int) + ((s'.L : Int) - s.L)) = ((2 * n' + s'.L : ℕ) : Int) := by push_cast; ring
      have e2 : 2 * (n : Int) + (s.L : Int) = ((2 * n + s.L : ℕ) : Int) := by push_cast; ring
      have e3 : (s.L : Int) + ((s'.L : Int) - s.L) = s'.L := by ring
      have hv := vm n' n hn' hn
      rw [e1, e2, e3, hi] at hv
      rw [scaleE, hv, rOne_unit, if_pos hS, dipole_orbital_defect hd, dipoleDefect]
      simp only [Except.map, Coord.scale]
      congr 1
      ring
  · refine ⟨zeroE, ?_, fun n' _ n _ => ⟨_, ?_, dipole_reduced hh ok ls hv hJ0 hL n' n⟩⟩
    · rw [dipoleBlock, hguard, decide_eq_false (by tauto)]
      rfl
    · simp [zeroE, hS]

/-- **C113 is false of the code**: whenever the bra has the smaller `L`, as it has in the canonical order of sectors,
the factor is negative, and smaller in size than in the sector with bra and ket exchanged; so neither a phase convention
nor a normalization makes the stored elements those of a Hermitian vector. -/
theorem dipole_defect_wrong {L : ℕ} (h : 1 ≤ L) :
    dipoleDefect (L - 1) L < 0 ∧ |dipoleDefect (L - 1) L| < dipoleDefect L (L - 1) := by
  have hk : (0 : ℝ) < kSqrt2 := by norm_num [kSqrt2]
  have hL : (1 : ℝ) ≤ L := by exact_mod_cast h
  have hq : (0 : ℝ) < (2 * L - 1) / (2 * L + 1) := div_pos (by linarith) (by linarith)
  have hs := Real.sqrt_pos.mpr hq
  have hs1 : Real.sqrt ((2 * L - 1) / (2 * L + 1) : ℝ) < 1 := by
    rw [Real.sqrt_lt' one_pos, one_pow, div_lt_one (by linarith)]
    linarith
  have hr : (0 : ℝ) < Real.sqrt 2 / kSqrt2 := div_pos (by positivity) hk
  have e : dipoleDefect (L - 1) L = -(Real.sqrt 2 / kSqrt2 * Real.sqrt ((2 * L - 1) / (2 * L + 1))) := by
    rw [dipoleDefect, if_neg (by omega)]
    ring
  have e' : dipoleDefect L (L - 1) = Real.sqrt 2 / kSqrt2 := by rw [dipoleDefect, if_pos (by omega), mul_one]
  have hp := mul_pos hr hs
  refine ⟨by rw [e]; linarith, ?_⟩
  rw [e, e', abs_neg, abs_of_pos hp]
  nlinarith

/-- The labels `ConstructDipoleOperator` accepts. -/
def DipoleLabels (o : OpLabels) (T0 : ℕ) : Prop := o.J0 = 1 ∧ o.g0 = 1 ∧ T0 = 1 ∧ o.T0min ≤ T0 ∧ T0 ≤ o.T0max

/-- The vector with the factor in place. -/
noncomputable def dipoleDefectOp (V : ℕ → ℕ → Int → Int → Int → ℝ) (q p : Int) (c' c : Cfg) : ℝ :=
  dipoleDefect c'.L c.L * dipoleOp V q p c' c

/-- **C113**, what does hold (`_partial`: up to the factor `dipoleDefect`): the coordinate dipole operator holds the
reduced matrix elements of `(τ1 - τ2) r` for relative length `√2`, times `dipoleDefect` of the two orbital angular
momenta.  Labels other than a parity-odd isovector of rank 1 are refused. -/
theorem dipole_stored_partial {cg : Cg} {am : Am} {V : ℕ → ℕ → Int → Int → Int → ℝ} (hh : HalfLaws cg am) {N : ℕ}
    {o : OpLabels} {T0 : ℕ} {sectors : ℕ → List RSec}
    (hs : ∀ p ∈ sectors T0, SecOK N o T0 p.1 p.2 ∧ LSLaws cg am p.1 p.2 ∧ UnitLaw cg V p.1 p.2 ∧
      (¬ tri p.1.L 1 p.2.L → ∀ q m' m, V p.1.L p.2.L q m' m = 0)) (c : Coord) :
    (DipoleLabels o T0 → ∃ op, constructDipole am o sectors .r T0 = .ok op ∧
      Stores cg 1 T0 (dipoleDefectOp V) sectors op) ∧
    (¬ DipoleLabels o T0 → constructDipole am o sectors c T0 = .error .assertFail) := by
  constructor
  · rintro ⟨h1, h2, rfl, h4⟩
    refine construct_stores (by simp [h1, h2, inRange, h4]) fun p hp => ?_
    obtain ⟨k1, k2, k3, k4⟩ := hs p hp
    obtain ⟨b, hb, vb⟩ := dipole_block hh k1 k2 k3 k4 h1 h2
    refine ⟨b, hb, fun n' hn' n hn => ?_⟩
    obtain ⟨x, hx, rx⟩ := vb n' hn' n hn
    refine ⟨_, hx, (rx.smul _).congr fun q p c' c _ e1 _ e2 => ?_⟩
    rw [dipoleDefectOp, e1, e2]
  · intro h
    refine construct_reject ?_
    rw [Bool.eq_false_iff]
    simpa [DipoleLabels, inRange, and_assoc] using h

/-- The momentum dipole is not that of the momentum: every block is half the coordinate block, without the
alternating sign and the phase that distinguish `k` from `r`. -/
theorem dipole_momentum_is_coordinate (am : Am) (T0 : ℕ) (s' s : RelSub) :
    dipoleBlock am .k T0 s' s = (dipoleBlock am .r T0 s' s).map (scaleE (1 / 2)) := by
  have hr : Coord.scale .k = 1 / 2 * Coord.scale .r := by
    have h2 : Real.sqrt 2 * Real.sqrt 2 = 2 := Real.mul_self_sqrt (by norm_num)
    have h0 : Real.sqrt 2 ≠ 0 := by positivity
    simp only [Coord.scale]
    rw [Real.sqrt_div zero_le_one, Real.sqrt_one]
    field_simp
    linarith
  unfold dipoleBlock
  split
  · simp only [Except.map]
    congr 1
    funext i j
    simp [scaleE, zeroE, Except.map]
  · cases h : radialMatrix s'.size s.size s.L ((s'.L : Int) - s.L) 1 with
    | error e => rfl
    | ok m =>
      simp only [Except.ok_bind', Except.pure_ok, Except.map]
      congr 1
      funext i j
      simp only [scaleE]
      cases m i j with
      | error e => rfl
      | ok x =>
        simp only [Except.map]
        congr 1
        rw [hr]
        ring

end Verif.Relative
