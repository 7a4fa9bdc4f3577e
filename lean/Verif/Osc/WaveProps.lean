import Verif.Osc.Wave
import Mathlib.Analysis.Calculus.Deriv.Inv
import Mathlib.Analysis.Calculus.Deriv.Mul
import Mathlib.Data.Set.Function
import Mathlib.Order.Interval.Set.Basic

/-! # Properties C31–C34: oscillator wave functions and mesh -/

namespace Verif.Osc
open Verif

/-- The normalised radial function of the oscillator of length `b` (textbook closed form,
positive at the origin). -/
noncomputable def oscFn (n l : ℕ) (b x : ℝ) : ℝ :=
  Real.sqrt (2 * n.factorial / (b * Real.Gamma (n + l + 3 / 2))) * (x / b) ^ (l + 1)
    * Real.exp (-(x / b) ^ 2 / 2) * laguerre n (l + 1 / 2) ((x / b) ^ 2)

/-- Arguments at which `pow(x2, ...)` is the power meant: positive, or zero without shift. -/
def GoodArg (x shift : ℝ) : Prop := 0 < x ∨ (x = 0 ∧ shift = 0)

theorem pow_half {y shift : ℝ} (l : ℕ) (hy : GoodArg y shift) :
    (y * y) ^ (((l : ℝ) + 1 + shift) / 2) = y ^ (l + 1) * y ^ shift := by
  rcases hy with h | ⟨h, hs⟩
  · rw [← pow_two, ← Real.rpow_natCast_mul h.le, ← Real.rpow_natCast, ← Real.rpow_add h]
    congr 1; push_cast; ring
  · subst h hs
    simp only [mul_zero, add_zero]
    rw [Real.zero_rpow (by positivity)]
    simp

/-- `n = 0`, position space. -/
theorem ground_position (l : ℕ) {b x shift : ℝ} (hb : 0 < b) (hx : GoodArg x shift) :
    recurrence0 .position l b (unitlessCoordSqr .position b x) shift = x ^ shift * oscFn 0 l b x := by
  have hx0 : 0 ≤ x := by rcases hx with h | h; exacts [h.le, h.1.ge]
  have hy : GoodArg (x / b) shift := by
    rcases hx with h | ⟨h, hs⟩
    · exact Or.inl (div_pos h hb)
    · exact Or.inr ⟨by rw [h]; simp, hs⟩
  have e : x * x / (b * b) = (x / b) * (x / b) := by ring
  simp only [recurrence0, unitlessCoordSqr, e]
  rw [pow_half l hy, Real.div_rpow hx0 hb.le]
  have hbs : b ^ shift ≠ 0 := (Real.rpow_pos_of_pos hb shift).ne'
  have hg : (l : ℝ) + 1.5 = ((0 : ℕ) : ℝ) + l + 3 / 2 := by norm_num
  rw [oscFn, hg, laguerre_zero]
  simp only [Nat.factorial_zero, Nat.cast_one, mul_one, pow_two]
  field_simp

/-- `n = 0`, momentum space: the oscillator of length `1/b`. -/
theorem ground_momentum (l : ℕ) {b x shift : ℝ} (hb : 0 < b) (hx : GoodArg x shift) :
    recurrence0 .momentum l b (unitlessCoordSqr .momentum b x) shift = x ^ shift * oscFn 0 l (1 / b) x := by
  have hx0 : 0 ≤ x := by rcases hx with h | h; exacts [h.le, h.1.ge]
  have hy : GoodArg (x * b) shift := by
    rcases hx with h | ⟨h, hs⟩
    · exact Or.inl (mul_pos h hb)
    · exact Or.inr ⟨by rw [h]; simp, hs⟩
  have e : x * x * (b * b) = (x * b) * (x * b) := by ring
  simp only [recurrence0, unitlessCoordSqr, e]
  rw [pow_half l hy, Real.mul_rpow hx0 hb.le, Real.rpow_neg hb.le]
  have hbs : b ^ shift ≠ 0 := (Real.rpow_pos_of_pos hb shift).ne'
  have hg : (l : ℝ) + 1.5 = ((0 : ℕ) : ℝ) + l + 3 / 2 := by norm_num
  rw [oscFn, hg, laguerre_zero]
  have e2 : x / (1 / b) = x * b := by field_simp
  have e3 : 2 * (1 : ℝ) / (1 / b * Real.Gamma (((0 : ℕ) : ℝ) + l + 3 / 2))
      = 2 * b / Real.Gamma (((0 : ℕ) : ℝ) + l + 3 / 2) := by field_simp
  simp only [Nat.factorial_zero, Nat.cast_one, e2, e3, mul_one, pow_two]
  field_simp

/-- The closed form for `n` from the one for `0`. -/
theorem oscFn_relNorm (n l : ℕ) {b x : ℝ} (hb : 0 < b) :
    oscFn n l b x = oscFn 0 l b x * relNorm l n * laguerre n (l + 1 / 2) ((x / b) ^ 2) := by
  have hg : (0 : ℝ) < Real.Gamma (n + l + 3 / 2) := Real.Gamma_pos_of_pos (by positivity)
  have hg0 : (0 : ℝ) < Real.Gamma (l + 3 / 2) := Real.Gamma_pos_of_pos (by positivity)
  have h : Real.sqrt (2 * n.factorial / (b * Real.Gamma (n + l + 3 / 2)))
      = Real.sqrt (2 * (Nat.factorial 0) / (b * Real.Gamma ((0 : ℕ) + l + 3 / 2))) * relNorm l n := by
    unfold relNorm
    simp only [Nat.cast_zero, zero_add, Nat.factorial_zero, Nat.cast_one]
    rw [← Real.sqrt_mul (by positivity)]
    congr 1
    field_simp
  unfold oscFn
  rw [h, laguerre_zero]
  ring

/-- **C31.** Every element of the vector generated by the recurrence in position space is the
normalised oscillator function in closed form, times the requested power of the coordinate. -/
theorem wave_functions_closed_form {n nmax : ℕ} (hn : n ≤ nmax) (l : ℕ) {b x shift : ℝ} (hb : 0 < b)
    (hx : GoodArg x shift) :
    (waveFunctions .position nmax l b x shift)[n]? = some (x ^ shift * oscFn n l b x) := by
  rw [(waveFunctions_eq _ _ _ _ _ _).2 n hn, (seq_position _ _ _ n).1, ground_position l hb hx,
    oscFn_relNorm n l hb]
  have e : unitlessCoordSqr .position b x = (x / b) ^ 2 := by simp only [unitlessCoordSqr]; ring
  rw [e]
  congr 1
  ring

/-- **C33.** The function for a single `n` returns the element `n` of the vector, for every length
of the vector, in both spaces, and whatever the uninitialised local variables contain. -/
theorem single_eq_vector (c : CoordSign) {n nmax : ℕ} (hn : n ≤ nmax) (l : ℕ) (b x shift g1 g2 : ℝ) :
    (waveFunctions c nmax l b x shift)[n]? = some (waveFunction c n l b x shift g1 g2) := by
  rw [(waveFunctions_eq _ _ _ _ _ _).2 n hn, waveFunction_eq]

/-- The vector has `nmax + 1` elements, none for negative `nmax`. -/
theorem vector_length (c : CoordSign) (nmax : Int) (l : ℕ) (b x shift : ℝ) :
    (waveFunctions c nmax l b x shift).size = (nmax + 1).toNat := by
  by_cases h : nmax < 0
  · rw [waveFunctions, if_pos h]
    have : (nmax + 1).toNat = 0 := by omega
    rw [this]; rfl
  · obtain ⟨k, rfl⟩ := Int.eq_ofNat_of_zero_le (not_lt.mp h)
    rw [(waveFunctions_eq _ _ _ _ _ _).1]
    omega

/-- **C32, what does hold** (`_partial`: only `n ≤ 1`).  In momentum space elements `0` and `1` are
`(-1)^n` times the closed form of length `1/b`. -/
theorem momentum_alternation_partial {n nmax : ℕ} (hn : n ≤ nmax) (hn1 : n ≤ 1) (l : ℕ) {b x shift : ℝ}
    (hb : 0 < b) (hx : GoodArg x shift) :
    (waveFunctions .momentum nmax l b x shift)[n]?
      = some ((-1) ^ n * (x ^ shift * oscFn n l (1 / b) x)) := by
  rw [(waveFunctions_eq _ _ _ _ _ _).2 n hn, ground_momentum l hb hx]
  have hb' : (0 : ℝ) < 1 / b := by positivity
  have e : unitlessCoordSqr .momentum b x = (x / (1 / b)) ^ 2 := by
    simp only [unitlessCoordSqr]; field_simp
  congr 1
  have : n = 0 ∨ n = 1 := by omega
  rcases this with rfl | rfl
  · simp [seq]
  · have h := (seq_position l (unitlessCoordSqr .momentum b x) (x ^ shift * oscFn 0 l (1 / b) x) 0).2
    rw [oscFn_relNorm 1 l hb', ← e]
    simp only [seq, zero_add] at h ⊢
    have hs : ∀ w y : ℝ, recurrence1 .momentum l y w = - recurrence1 .position l y w := by
      intro w y; simp [recurrence1, CoordSign.val]
    rw [hs, h]
    ring

/-- **C32 is false of the code from `n = 2` on**: at every positive momentum the element `2` of the
vector differs from `(-1)^2` times the closed form. -/
theorem momentum_alternation_fails (nmax : ℕ) (hn : 2 ≤ nmax) (l : ℕ) {b x shift : ℝ} (hb : 0 < b)
    (hx : 0 < x) :
    (waveFunctions .momentum nmax l b x shift)[2]?
      ≠ some ((-1) ^ 2 * (x ^ shift * oscFn 2 l (1 / b) x)) := by
  rw [(waveFunctions_eq _ _ _ _ _ _).2 2 hn, ground_momentum l hb (Or.inl hx)]
  have hb' : (0 : ℝ) < 1 / b := by positivity
  have e : unitlessCoordSqr .momentum b x = (x / (1 / b)) ^ 2 := by
    simp only [unitlessCoordSqr]; field_simp
  set w0 := x ^ shift * oscFn 0 l (1 / b) x with hw0
  have hpos : 0 < w0 := by
    have h1 := Real.rpow_pos_of_pos hx shift
    have hg0 : (0 : ℝ) < Real.Gamma ((0 : ℕ) + l + 3 / 2) := Real.Gamma_pos_of_pos (by positivity)
    rw [hw0, oscFn, laguerre_zero]
    positivity
  have h := (seq_position l (unitlessCoordSqr .momentum b x) w0 1).2
  have e2 : x ^ shift * oscFn 2 l (1 / b) x
      = w0 * relNorm l 2 * laguerre 2 (l + 1 / 2) (unitlessCoordSqr .momentum b x) := by
    rw [oscFn_relNorm 2 l hb', e, hw0]; ring
  rw [e2]
  norm_num only [one_mul]
  intro hcon
  simp only [Option.some.injEq] at hcon
  rw [show (1 + 1 : ℕ) = 2 from rfl] at h
  have hcon' := hcon.trans h.symm
  simp only [seq, recurrenceN, recurrence1, CoordSign.val] at hcon'
  have hden : (0 : ℝ) < Real.sqrt (((0 + 2 : ℕ) : ℝ) * ((0 + 2 : ℕ) + l + 0.5)) := by
    apply Real.sqrt_pos.mpr; push_cast; positivity
  rw [div_left_inj' hden.ne'] at hcon'
  have hs : (0 : ℝ) < Real.sqrt ((((0 + 2 : ℕ) : ℝ) - 1) * ((0 + 2 : ℕ) + l - 0.5)) := by
    apply Real.sqrt_pos.mpr
    have : (0 : ℝ) ≤ l := by positivity
    push_cast
    norm_num
    linarith
  push_cast at hcon' hs
  have := mul_pos hs hpos
  linarith

/-- **C34.** The mesh transformation is strictly increasing on `[0,1)`, a bijection onto
`[0,∞)`, and its derivative is the advertised Jacobian, in both spaces. -/
theorem mesh_transformation (c : CoordSign) {b : ℝ} (hb : 0 < b) :
    StrictMonoOn (transformedCoordinate c b) (Set.Ico 0 1) ∧
    Set.BijOn (transformedCoordinate c b) (Set.Ico 0 1) (Set.Ici 0) ∧
    ∀ z ∈ Set.Ico (0 : ℝ) 1,
      HasDerivAt (transformedCoordinate c b) (transformedCoordinateJacobian c b z) z := by
  -- both spaces at once, with the scale `s`
  obtain ⟨s, hs, hT, hJ⟩ : ∃ s : ℝ, 0 < s ∧ (∀ z, transformedCoordinate c b z = z / (1 - z) * s) ∧
      (∀ z, transformedCoordinateJacobian c b z = 1 / ((1 - z) * (1 - z)) * s) := by
    cases c
    · exact ⟨b, hb, fun _ => rfl, fun _ => rfl⟩
    · exact ⟨1 / b, by positivity, fun z => by simp [transformedCoordinate]; ring,
        fun z => by simp [transformedCoordinateJacobian]; ring⟩
  have hmono : StrictMonoOn (transformedCoordinate c b) (Set.Ico 0 1) := by
    intro x hx y hy hxy
    rw [hT, hT]
    apply mul_lt_mul_of_pos_right _ hs
    have h1 : 0 < 1 - x := by linarith [hx.2]
    have h2 : 0 < 1 - y := by linarith [hy.2]
    rw [div_lt_div_iff₀ h1 h2]
    nlinarith
  refine ⟨hmono, ⟨?_, hmono.injOn, ?_⟩, ?_⟩
  · intro z hz
    have h1 : 0 < 1 - z := by linarith [hz.2]
    have h0 := hz.1
    rw [Set.mem_Ici, hT]
    positivity
  · intro y hy
    rw [Set.mem_Ici] at hy
    have hd : 0 < y + s := by linarith
    refine ⟨y / (y + s), ⟨by positivity, ?_⟩, ?_⟩
    · rw [div_lt_one hd]; linarith
    · rw [hT]
      have : 1 - y / (y + s) = s / (y + s) := by field_simp; ring
      rw [this]
      field_simp
  · intro z hz
    have h1 : (1 : ℝ) - z ≠ 0 := by have := hz.2; intro h; linarith
    have hfun : transformedCoordinate c b = fun z => z / (1 - z) * s := funext hT
    rw [hfun, hJ]
    have hd : HasDerivAt (fun z : ℝ => 1 - z) (-1) z := by
      simpa using (hasDerivAt_id z).const_sub 1
    have := ((hasDerivAt_id z).div hd h1).mul_const s
    refine this.congr_deriv ?_
    simp only [id]
    field_simp
    ring

/-! ## Examples -/

/-- A positive argument with a shift, and the origin without one, are admitted. -/
example : GoodArg 1 (-2) ∧ GoodArg 0 0 := ⟨Or.inl one_pos, Or.inr ⟨rfl, rfl⟩⟩

/-- A vector of three elements: the third is the closed form for `n = 2`, `l = 1`. -/
example : (waveFunctions .position 2 1 2 3 (-1))[2]? = some ((3 : ℝ) ^ (-1 : ℝ) * oscFn 2 1 2 3) :=
  wave_functions_closed_form (le_refl 2) 1 two_pos (Or.inl (by norm_num))

example : transformedCoordinate .position 2 (1 / 2) = 2 ∧ transformedCoordinate .momentum 2 (1 / 2) = 1 / 2 := by
  constructor <;> norm_num [transformedCoordinate]

end Verif.Osc
