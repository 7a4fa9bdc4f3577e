import Verif.Relative.ConstructLemmas
import Verif.Osc.Positive

/-!
# What the constructors of relative operators store
-/

namespace Verif.Relative
open Verif Verif.H2 Verif.Osc MeasureTheory Set

/-! ## Specification of a stored operator -/

/-- Every entry of the block of a sector is the reduced element of `A` between the states the entry stands for. -/
def Holds (cg : Cg) (J0 T0 : ℕ) (A : Int → Int → Cfg → Cfg → ℝ) (p : RSec) (b : Entries) : Prop :=
  ∀ n' < p.1.size, ∀ n < p.2.size, ∃ x, b n' n = .ok x ∧ Reduced cg J0 T0 A p.1 p.2 n' n x

/-- Component `T0` holds the operator `A`, sector by sector, and the other components are zero. -/
def Stores (cg : Cg) (J0 T0 : ℕ) (A : Int → Int → Cfg → Cfg → ℝ) (sectors : ℕ → List RSec) (op : RelOp) : Prop :=
  List.Forall₂ (Holds cg J0 T0 A) (sectors T0) (op T0) ∧
    ∀ t, t ≠ T0 → List.Forall₂ (fun _ b => ∀ i j, b i j = .ok 0) (sectors t) (op t)

theorem construct_reject {ok : Bool} {T0 : ℕ} {sectors : ℕ → List RSec} {f : RelSub → RelSub → Except Err Entries}
    (h : ok = false) : construct ok T0 sectors f = .error .assertFail := by
  simp [construct, assertE, h, Except.error_bind']

theorem construct_stores {cg : Cg} {J0 T0 : ℕ} {A : Int → Int → Cfg → Cfg → ℝ} {ok : Bool} {sectors : ℕ → List RSec}
    {f : RelSub → RelSub → Except Err Entries} (h : ok = true)
    (hf : ∀ p ∈ sectors T0, ∃ b, f p.1 p.2 = .ok b ∧ Holds cg J0 T0 A p b) :
    ∃ op, construct ok T0 sectors f = .ok op ∧ Stores cg J0 T0 A sectors op := by
  have key : ∀ l : List RSec, (∀ p ∈ l, ∃ b, f p.1 p.2 = .ok b ∧ Holds cg J0 T0 A p b) →
      ∃ bs, l.mapM (fun p => f p.1 p.2) = .ok bs ∧ List.Forall₂ (Holds cg J0 T0 A) l bs := by
    intro l
    induction l with
    | nil => exact fun _ => ⟨[], rfl, .nil⟩
    | cons p l ih =>
      intro hl
      obtain ⟨b, hb, hp⟩ := hl p (by simp)
      obtain ⟨bs, hbs, hps⟩ := ih fun x hx => hl x (by simp [hx])
      refine ⟨b :: bs, ?_, .cons hp hps⟩
      rw [List.mapM_cons, hb, Except.ok_bind', hbs, Except.ok_bind']
      rfl
  obtain ⟨bs, hbs, hps⟩ := key _ hf
  refine ⟨_, by simp only [construct, assertE, h, if_true, Except.ok_bind', hbs, Except.pure_ok]; rfl, ?_, ?_⟩
  · simpa using hps
  · intro t ht
    simp only [ht, if_false, List.forall₂_map_right_iff]
    exact List.forall₂_same.mpr fun _ _ _ _ => rfl

/-! ## Radial integrals at relative length `√2` -/

theorem radial_scale {b c : ℝ} (hb : 0 < b) (F : ℝ → ℝ) (hF : ∀ x ∈ Ioi (0 : ℝ), F x = c * F (1 / b * x)) (n' L' n L : ℕ) :
    ∫ x in Ioi (0 : ℝ), oscFn n' L' b x * (F x * oscFn n L b x) =
      c * ∫ x in Ioi (0 : ℝ), oscFn n' L' 1 x * (F x * oscFn n L 1 x) := by
  have h := integral_comp_mul_left_Ioi (fun y => oscFn n' L' 1 y * (F y * oscFn n L 1 y)) 0 (b := 1 / b) (by positivity)
  have hs : Real.sqrt b * Real.sqrt b = b := Real.mul_self_sqrt hb.le
  have hs0 : Real.sqrt b ≠ 0 := by positivity
  have e : ∀ x ∈ Ioi (0 : ℝ), oscFn n' L' b x * (F x * oscFn n L b x) =
      c / b * (oscFn n' L' 1 (1 / b * x) * (F (1 / b * x) * oscFn n L 1 (1 / b * x))) := by
    intro x hx
    rw [oscFn_scale n' L' hb, oscFn_scale n L hb, hF x hx]
    have : 1 / Real.sqrt b * (1 / Real.sqrt b) = 1 / b := by
      rw [div_mul_div_comm, one_mul, hs]
    linear_combination (oscFn n' L' 1 (1 / b * x) * (c * F (1 / b * x) * oscFn n L 1 (1 / b * x))) * this
  rw [setIntegral_congr_fun measurableSet_Ioi e, integral_const_mul, h]
  simp only [mul_zero, smul_eq_mul]
  have hb0 : b ≠ 0 := hb.ne'
  field_simp

theorem rSqr_unit (n' L' n L : ℕ) :
    rSqr n' L' n L = 2 * ∫ x in Ioi (0 : ℝ), oscFn n' L' 1 x * (x ^ 2 * oscFn n L 1 x) := by
  refine radial_scale (by positivity) (fun x => x ^ 2) (fun x _ => ?_) n' L' n L
  have : Real.sqrt 2 ^ 2 = 2 := Real.sq_sqrt (by norm_num)
  simp only [mul_pow, div_pow, this]
  ring

theorem rOne_unit (n' L' n L : ℕ) :
    rOne n' L' n L = Real.sqrt 2 * ∫ x in Ioi (0 : ℝ), oscFn n' L' 1 x * (x * oscFn n L 1 x) := by
  refine radial_scale (by positivity) (fun x => x) (fun x _ => ?_) n' L' n L
  have : Real.sqrt 2 ≠ 0 := by positivity
  field_simp

theorem rInv_unit (n' L' n L : ℕ) :
    rInv n' L' n L = 1 / Real.sqrt 2 * ∫ x in Ioi (0 : ℝ), oscFn n' L' 1 x * (x⁻¹ * oscFn n L 1 x) := by
  refine radial_scale (by positivity) (fun x => x⁻¹) (fun x hx => ?_) n' L' n L
  have : Real.sqrt 2 ≠ 0 := by positivity
  have hx' : x ≠ 0 := ne_of_gt hx
  field_simp

theorem kSqr_unit (n' n L : ℕ) :
    kSqr n' n L = (-1) ^ (n' + n) * (1 / 2 * ∫ x in Ioi (0 : ℝ), oscFn n' L 1 x * (x ^ 2 * oscFn n L 1 x)) := by
  unfold kSqr
  congr 1
  refine radial_scale (by positivity) (fun x => x ^ 2) (fun x _ => ?_) n' L n L
  have : Real.sqrt 2 ^ 2 = 2 := Real.sq_sqrt (by norm_num)
  simp only [one_div, inv_inv, mul_pow, this]
  ring

/-- The analytic element for momentum is that for position with the opposite sign and the phases of momentum wave
functions. -/
theorem sqr_momentum (i j l : ℕ) {x : ℝ} (h : coordinateSqr ((2 * i + l : ℕ) : Int) l ((2 * j + l : ℕ) : Int) l 1 = .ok x) :
    coordinateSqr ((2 * i + l : ℕ) : Int) l ((2 * j + l : ℕ) : Int) l (-1) = .ok (-((-1) ^ (i + j) * x)) := by
  have hp : Physical ((2 * i + l : ℕ) : Int) l := ⟨by omega, by push_cast; omega, by push_cast; omega⟩
  have hq : Physical ((2 * j + l : ℕ) : Int) l := ⟨by omega, by push_cast; omega, by push_cast; omega⟩
  rw [sqr_value hp hq] at h ⊢
  cases h
  simp only [sqrR]
  have hl : (l : Int) - l = 0 := by omega
  by_cases h1 : i = j + 1
  · have e : (((2 * i + l : ℕ) : Int)) - ((2 * j + l : ℕ) : Int) = 2 := by push_cast; omega
    have : (-1 : ℝ) ^ (i + j) = -1 := by rw [h1, show j + 1 + j = 2 * j + 1 by ring]; simp [pow_succ, pow_mul]
    simp only [e, hl, this, if_true]
    norm_num
  · by_cases h2 : i = j
    · have e : (((2 * i + l : ℕ) : Int)) - ((2 * j + l : ℕ) : Int) = 0 := by push_cast; omega
      have : (-1 : ℝ) ^ (i + j) = 1 := by rw [h2, ← two_mul, pow_mul]; simp
      simp only [e, hl, this, if_true]
      norm_num
    · by_cases h3 : i + 1 = j
      · have e : (((2 * i + l : ℕ) : Int)) - ((2 * j + l : ℕ) : Int) = -2 := by push_cast; omega
        have : (-1 : ℝ) ^ (i + j) = -1 := by
          rw [← h3, show i + (i + 1) = 2 * i + 1 by ring]; simp [pow_succ, pow_mul]
        simp only [e, hl, this, if_true]
        norm_num
      · have e1 : ¬ (((2 * i + l : ℕ) : Int)) - ((2 * j + l : ℕ) : Int) = 2 := by push_cast; omega
        have e2 : ¬ (((2 * i + l : ℕ) : Int)) - ((2 * j + l : ℕ) : Int) = 0 := by push_cast; omega
        have e3 : ¬ (((2 * i + l : ℕ) : Int)) - ((2 * j + l : ℕ) : Int) = -2 := by push_cast; omega
        simp only [e1, e2, e3, if_false]
        simp

/-- The radial matrix of `r²` without change of `L`. -/
theorem radial_sqr_block (D L : ℕ) (c : Coord) :
    ∃ m, radialSqrMatrix D D L 0 c.sign = .ok m ∧ ∀ i < D, ∀ j < D,
      m i j = .ok (match c with
        | .r => rSqr i L j L / 2
        | .k => -(2 * kSqr i j L)) := by
  obtain ⟨m, hm, vm⟩ := radial_sqr_loop_complete_partial (braDim := D) (ketDim := D) (L := (L : Int)) (deltaL := 0)
    (sign := c.sign) (by omega) (by omega) (Or.inl rfl)
  refine ⟨m, hm, fun i hi j hj => ?_⟩
  rw [vm i j hi hj]
  have h := coordinateSqr_is_integral i L j L (Or.inl rfl)
  have e1 : 2 * (i : Int) + ((L : Int) + 0) = ((2 * i + L : ℕ) : Int) := by push_cast; ring
  have e2 : 2 * (j : Int) + (L : Int) = ((2 * j + L : ℕ) : Int) := by push_cast; ring
  rw [e1, e2, add_zero]
  cases c with
  | r =>
    rw [Coord.sign, h, rSqr_unit]
    congr 1
    ring
  | k =>
    rw [Coord.sign, sqr_momentum i j L h, kSqr_unit]
    congr 1
    ring

/-! ## Property C106: squared coordinate and squared momentum -/

/-- The negative of an operator. -/
noncomputable def negOp (A : Int → Int → Cfg → Cfg → ℝ) (q p : Int) (c' c : Cfg) : ℝ := -A q p c' c

theorem central_reduced {cg : Cg} {am : Am} (hh : HalfLaws cg am) {N : ℕ} {o : OpLabels} {T0 : ℕ} {s' s : RelSub}
    (ok : SecOK N o T0 s' s) (ls : LSLaws cg am s' s) (hJ0 : o.J0 = 0) (hT0 : T0 = 0 ∨ T0 = 1)
    (radial : ℕ → ℕ → ℕ → ℝ) (n' n : ℕ) :
    Reduced cg 0 T0 (centralOp radial T0) s' s n' n
      (if s'.L = s.L ∧ s'.S = s.S ∧ s'.T = s.T then radial n' n s.L * isoFactor T0 s.T else 0) := by
  have hJ : s'.J = s.J := by
    have := ok.J
    rw [hJ0] at this
    exact tri_zero.mp this
  by_cases hL : s'.L = s.L
  · have h := reduced_prod (A := centralOp radial T0) (n' := n') (n := n) (r := radial n' n s.L)
      (fun _ => δ) (fun _ => idPair) (isoPair T0)
      (fun q p c' c h1 h2 h3 h4 => by simp [centralOp, h1, h2, h3, h4, hL])
      (scalar_ls hh ls ok.bra.S ok.ket.S hL hJ) (iso_we hh ok.bra.T ok.ket.T hT0)
    refine (show (if s'.L = s.L ∧ s'.S = s.S ∧ s'.T = s.T then radial n' n s.L * isoFactor T0 s.T else 0) = _ from ?_) ▸ h
    by_cases hS : s'.S = s.S <;> by_cases hT : s'.T = s.T <;> simp [hL, hS, hT]
  · rw [if_neg (by tauto)]
    exact Reduced.zero fun q p c' c _ h2 _ h4 => by simp [centralOp, h2, h4, hL]

/-- The labels `ConstructCoordinateSqr` accepts. -/
def SqrLabels (o : OpLabels) (T0 : ℕ) : Prop :=
  o.J0 = 0 ∧ o.g0 = 0 ∧ (T0 = 0 ∨ T0 = 1) ∧ o.T0min ≤ T0 ∧ T0 ≤ o.T0max

theorem coordinate_sqr_block {cg : Cg} {am : Am} (hh : HalfLaws cg am) {N : ℕ} {o : OpLabels} {T0 : ℕ} {p : RSec}
    (ok : SecOK N o T0 p.1 p.2) (ls : LSLaws cg am p.1 p.2) (hJ0 : o.J0 = 0) (hT0 : T0 = 0 ∨ T0 = 1) (c : Coord) :
    ∃ b, coordinateSqrBlock c T0 p.1 p.2 = .ok b ∧
      Holds cg 0 T0 (match c with | .r => rSqrOp T0 | .k => negOp (kSqrOp T0)) p b := by
  obtain ⟨s', s⟩ := p
  simp only at ok ls ⊢
  have hneg : ∀ n' n, Reduced cg 0 T0 (negOp (kSqrOp T0)) s' s n' n
      (if s'.L = s.L ∧ s'.S = s.S ∧ s'.T = s.T then -kSqr n' n s.L * isoFactor T0 s.T else 0) := by
    intro n' n
    refine (central_reduced hh ok ls hJ0 hT0 (fun n' n L => -kSqr n' n L) n' n).congr fun q p c' c _ _ _ _ => ?_
    simp only [negOp, kSqrOp, centralOp]
    split <;> ring
  by_cases h : s'.L = s.L ∧ s'.S = s.S ∧ s'.T = s.T
  · obtain ⟨m, hm, vm⟩ := radial_sqr_block s.size s.L c
    have hz : s'.size = s.size := by rw [ok.bra.size, ok.ket.size, h.1]
    refine ⟨scaleE (isoFactor T0 s.T * c.scaleSqr) m, ?_, ?_⟩
    · rw [coordinateSqrBlock, tri_zero.mpr h.1, tri_zero.mpr h.2.1, decide_eq_true h.2.2, hm]
      rfl
    · intro n' hn' n hn
      simp only at hn' hn
      have hv := vm n' (hz ▸ hn') n hn
      cases c with
      | r =>
        refine ⟨rSqr n' s.L n s.L * isoFactor T0 s.T, ?_, ?_⟩
        · simp only [scaleE, hv, Except.map, Coord.scaleSqr]
          congr 1
          ring
        · have := central_reduced hh ok ls hJ0 hT0 (fun n' n L => rSqr n' L n L) n' n
          rw [if_pos h] at this
          exact this
      | k =>
        refine ⟨-kSqr n' n s.L * isoFactor T0 s.T, ?_, ?_⟩
        · simp only [scaleE, hv, Except.map, Coord.scaleSqr]
          congr 1
          ring
        · have := hneg n' n
          rw [if_pos h] at this
          exact this
  · refine ⟨zeroE, ?_, ?_⟩
    · rw [coordinateSqrBlock, if_pos]
      rw [Bool.not_eq_true', Bool.eq_false_iff]
      simp only [ne_eq, Bool.and_eq_true, tri_zero, decide_eq_true_eq]
      tauto
    · intro n' _ n _
      refine ⟨0, rfl, ?_⟩
      cases c with
      | r =>
        have := central_reduced hh ok ls hJ0 hT0 (fun n' n L => rSqr n' L n L) n' n
        rw [if_neg h] at this
        exact this
      | k =>
        have := hneg n' n
        rw [if_neg h] at this
        exact this

/-- **C106**, `r²`: for every space and every set of sectors the construction either stops at an assertion, when the
labels do not fit, or stores the reduced matrix elements of `r²` (isoscalar) or `r²(τ1+τ2)` (isovector) for relative
length `√2` in component `T0` and zero elsewhere. -/
theorem coordinate_sqr_stored {cg : Cg} {am : Am} (hh : HalfLaws cg am) {N : ℕ} {o : OpLabels} {T0 : ℕ}
    {sectors : ℕ → List RSec} (hs : ∀ p ∈ sectors T0, SecOK N o T0 p.1 p.2 ∧ LSLaws cg am p.1 p.2) :
    (SqrLabels o T0 → ∃ op, constructCoordinateSqr o sectors .r T0 = .ok op ∧ Stores cg 0 T0 (rSqrOp T0) sectors op) ∧
    (¬ SqrLabels o T0 → constructCoordinateSqr o sectors .r T0 = .error .assertFail) := by
  constructor
  · rintro ⟨h1, h2, h3, h4⟩
    exact construct_stores (by simp [h1, h2, h3, inRange, h4]) fun p hp =>
      coordinate_sqr_block hh (hs p hp).1 (hs p hp).2 h1 h3 .r
  · intro h
    refine construct_reject ?_
    rw [Bool.eq_false_iff]
    simpa [SqrLabels, inRange, and_assoc] using h

/-- **C106**, `k²`, what does hold (`_partial`: the sign is wrong): the construction stores the reduced matrix elements
of `-k²`. -/
theorem momentum_sqr_stored_partial {cg : Cg} {am : Am} (hh : HalfLaws cg am) {N : ℕ} {o : OpLabels} {T0 : ℕ}
    {sectors : ℕ → List RSec} (hs : ∀ p ∈ sectors T0, SecOK N o T0 p.1 p.2 ∧ LSLaws cg am p.1 p.2) :
    (SqrLabels o T0 → ∃ op, constructCoordinateSqr o sectors .k T0 = .ok op ∧
      Stores cg 0 T0 (negOp (kSqrOp T0)) sectors op) ∧
    (¬ SqrLabels o T0 → constructCoordinateSqr o sectors .k T0 = .error .assertFail) := by
  constructor
  · rintro ⟨h1, h2, h3, h4⟩
    exact construct_stores (by simp [h1, h2, h3, inRange, h4]) fun p hp =>
      coordinate_sqr_block hh (hs p hp).1 (hs p hp).2 h1 h3 .k
  · intro h
    refine construct_reject ?_
    rw [Bool.eq_false_iff]
    simpa [SqrLabels, inRange, and_assoc] using h

theorem mem_ms_self (tj : ℕ) : -(tj : Int) ∈ ms tj := by
  simp only [ms, Finset.mem_image, Finset.mem_range]
  exact ⟨0, by omega, by simp⟩

theorem kSqr_diag_pos (n L : ℕ) : 0 < kSqr n n L := by
  have h := coordinateSqr_is_integral n L n L (Or.inl rfl)
  have hp : Physical ((2 * n + L : ℕ) : Int) L := ⟨by omega, by push_cast; omega, by push_cast; omega⟩
  rw [sqr_value hp hp] at h
  have e := Except.ok.inj h
  rw [kSqr_unit, ← e, ← two_mul, pow_mul]
  simp only [sqrR, sub_self]
  norm_num
  positivity

/-- **C106 is false of the code for `k²`**: in every diagonal sector every diagonal entry of the isoscalar operator
stored is a number that is not the reduced matrix element of `k²`. -/
theorem momentum_sqr_wrong {cg : Cg} {am : Am} (hh : HalfLaws cg am) {N : ℕ} {o : OpLabels} {s : RelSub}
    (ok : SecOK N o 0 s s) (ls : LSLaws cg am s s) (hJ0 : o.J0 = 0) {n : ℕ} (hn : n < s.size) :
    ∃ b x, coordinateSqrBlock .k 0 s s = .ok b ∧ b n n = .ok x ∧ ¬ Reduced cg 0 0 (kSqrOp 0) s s n n x := by
  obtain ⟨b, hb, hB⟩ := coordinate_sqr_block (p := (s, s)) hh ok ls hJ0 (Or.inl rfl) .k
  obtain ⟨x, hx, hr⟩ := hB n hn n hn
  refine ⟨b, x, hb, hx, fun hk => ?_⟩
  have hJ := mem_ms_self (2 * s.J)
  have hT := mem_ms_self (2 * s.T)
  have z : (0 : Int) ∈ ms (2 * 0) := zero_mem_ms
  have h1 := hr _ hJ 0 z _ hJ _ hT 0 z _ hT
  have h2 := hk _ hJ 0 z _ hJ _ hT 0 z _ hT
  have h3 := central_reduced hh ok ls hJ0 (Or.inl rfl) kSqr n n _ hJ 0 z _ hJ _ hT 0 z _ hT
  have h4 := central_reduced hh ok ls hJ0 (Or.inl rfl) (fun n' n L => -kSqr n' n L) n n _ hJ 0 z _ hJ _ hT 0 z _ hT
  have c1 := ls.scalar _ hJ _ hJ
  have c2 := hh.scalar s.T ok.ket.T _ hT _ hT
  simp only [δ, if_true] at c1 c2
  rw [show (((2 * 0 : ℕ)) : Int) = 0 from rfl] at h1 h2 h3 h4
  have e : element cg (negOp (kSqrOp 0) 0 0) s s n n (-((2 * s.J : ℕ) : Int)) (-((2 * s.J : ℕ) : Int))
      (-((2 * s.T : ℕ) : Int)) (-((2 * s.T : ℕ) : Int)) =
      element cg (centralOp (fun n' n L => -kSqr n' n L) 0 0 0) s s n n (-((2 * s.J : ℕ) : Int)) (-((2 * s.J : ℕ) : Int))
      (-((2 * s.T : ℕ) : Int)) (-((2 * s.T : ℕ) : Int)) := by
    refine element_congr fun c' c _ _ _ _ => ?_
    simp only [negOp, kSqrOp, centralOp]
    split <;> ring
  rw [e, h4] at h1
  rw [kSqrOp, h3] at h2
  simp only [c1, c2, and_self, if_true, isoFactor] at h1 h2
  have := kSqr_diag_pos n s.L
  norm_num at h1 h2
  linarith

end Verif.Relative
