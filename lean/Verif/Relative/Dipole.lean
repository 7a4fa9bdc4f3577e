import Verif.Relative.Radial
import Mathlib.Tactic.FieldSimp

/-!
# Orbital factor of the relative dipole operator (C65)

Model of the orbital angular reduced matrix element applied by `ConstructDipoleOperator`
(`libraries/relative/relative_me.cpp` 400-405) and of its combination with the radial matrix
(422-431).  The Racah reduction and isospin factors of the `am` library, common to both orientations
up to their own symmetry, are left out.
-/

namespace Verif.Relative
open Verif Verif.H2 Verif.Osc

/-- Orbital factor (`relative_me.cpp` 400-405); sectors with `delta_L ≠ ±1` keep factor 1. -/
noncomputable def dipoleOrbital (braL ketL : ℕ) : ℝ :=
  if (braL : Int) - ketL = -1 then Real.sqrt (ketL / (2 * ketL + 1))
  else if (braL : Int) - ketL = 1 then Real.sqrt ((ketL + 1) / (2 * ketL + 3))
  else 1

/-- Orbital part of the dipole matrix: orbital factor times radial matrix. -/
noncomputable def dipoleMatrix (braDim ketDim braL ketL : ℕ) : Except Err Entries := do
  let m ← radialMatrix braDim ketDim ketL ((braL : Int) - ketL) 1
  pure fun i j => do
    let x ← m i j
    pure (dipoleOrbital braL ketL * x)

/-! ## Specification

In the Rose convention a Hermitian vector operator satisfies
`√(2L'+1)⟨L'‖V‖L⟩ = ± √(2L+1)⟨L‖V‖L'⟩`, and a unit vector satisfies the sum rule
`Σ_{L'} (2L'+1)⟨L'‖n‖L⟩² = 2L+1`. -/

/-- The two orientations are Hermitian conjugates, up to a phase. -/
def Conjugate (f : ℕ → ℕ → ℝ) (L : ℕ) : Prop :=
  (2 * (L + 1 : ℝ) + 1) * f (L + 1) L ^ 2 = (2 * (L : ℝ) + 1) * f L (L + 1) ^ 2

/-- Sum rule of a unit vector for ket `L + 1`. -/
def UnitVector (f : ℕ → ℕ → ℝ) (L : ℕ) : Prop :=
  (2 * (L : ℝ) + 1) * f L (L + 1) ^ 2 + (2 * (L + 2 : ℝ) + 1) * f (L + 2) (L + 1) ^ 2 = 2 * (L + 1 : ℝ) + 1

/-- The textbook value `(L 0 1 0 | L' 0) √((2L+1)/(2L'+1))`, up to a phase. -/
noncomputable def vectorRME (braL ketL : ℕ) : ℝ :=
  if braL = ketL + 1 then Real.sqrt ((ketL + 1) / (2 * ketL + 3))
  else if braL + 1 = ketL then Real.sqrt (ketL / (2 * ketL - 1)) else 0

theorem vectorRME_conjugate (L : ℕ) : Conjugate vectorRME L ∧ UnitVector vectorRME L := by
  have hL : (0 : ℝ) ≤ L := by positivity
  have e1 : vectorRME (L + 1) L ^ 2 = (L + 1) / (2 * L + 3) := by
    rw [vectorRME, if_pos rfl, Real.sq_sqrt (by positivity)]
  have e2 : vectorRME L (L + 1) ^ 2 = (L + 1) / (2 * L + 1) := by
    rw [vectorRME, if_neg (by omega), if_pos rfl]
    push_cast
    rw [Real.sq_sqrt (div_nonneg (by linarith) (by linarith))]
    congr 1; ring
  have e3 : vectorRME (L + 2) (L + 1) ^ 2 = (L + 2) / (2 * L + 5) := by
    rw [vectorRME, if_pos rfl, Real.sq_sqrt (by positivity)]
    push_cast
    congr 1 <;> ring
  unfold Conjugate UnitVector
  rw [e1, e2, e3]
  constructor
  · field_simp; ring
  · field_simp; ring

/-! ## Property C65 -/

theorem dipole_up_sq (L : ℕ) : dipoleOrbital (L + 1) L ^ 2 = (L + 1) / (2 * L + 3) := by
  rw [dipoleOrbital, if_neg (by push_cast; omega), if_pos (by push_cast; omega), Real.sq_sqrt (by positivity)]

theorem dipole_down_sq (L : ℕ) : dipoleOrbital L (L + 1) ^ 2 = (L + 1) / (2 * L + 3) := by
  rw [dipoleOrbital, if_pos (by push_cast; omega)]
  push_cast
  rw [Real.sq_sqrt (by positivity)]
  congr 1; ring

/-- **C65**, what does hold (`_partial`: only `L' = L + 1`): the raising factor is the reduced matrix
element of a unit vector. -/
theorem dipole_raising_factor_partial (L : ℕ) : dipoleOrbital (L + 1) L = vectorRME (L + 1) L := by
  rw [dipoleOrbital, if_neg (by push_cast; omega), if_pos (by push_cast; omega), vectorRME, if_pos rfl]

/-- **C65 is false of the code**: for every `L` the two orientations are not conjugate, whatever the
phase convention, and the sum rule of a unit vector fails; the lowering factor `√(L/(2L+1))` stands
where `√(L/(2L-1))` is required. -/
theorem dipole_not_hermitian (L : ℕ) : ¬ Conjugate dipoleOrbital L ∧ ¬ UnitVector dipoleOrbital L := by
  have hL : (0 : ℝ) ≤ L := by positivity
  have e1 := dipole_up_sq L
  have e2 := dipole_down_sq L
  have e3 := dipole_up_sq (L + 1)
  push_cast at e3
  unfold Conjugate UnitVector
  constructor
  · rw [e1, e2]
    intro h
    have h1 : (0 : ℝ) < (L + 1) / (2 * L + 3) := by positivity
    nlinarith
  · rw [e2, show L + 2 = L + 1 + 1 by rfl, e3]
    intro h
    have hd : (0 : ℝ) < 2 * L + 3 := by positivity
    have hd2 : (2 * (L + 1 : ℝ) + 3) ≠ 0 := by positivity
    have : (2 * (L + 2 : ℝ) + 1) * ((L + 1 + 1) / (2 * (L + 1) + 3)) = L + 2 := by
      field_simp; ring
    rw [this] at h
    have h2 : (2 * (L : ℝ) + 1) * ((L + 1) / (2 * L + 3)) = L + 1 := by linarith
    rw [← mul_div_assoc, div_eq_iff hd.ne'] at h2
    nlinarith

/-- Hence the stored matrices of the two orientations of a sector disagree: for the lowest states the
squared elements weighted by `2L'+1` differ. -/
theorem dipole_matrices_disagree (L : ℕ) :
    ∃ up down x y, dipoleMatrix 1 1 (L + 1) L = .ok up ∧ dipoleMatrix 1 1 L (L + 1) = .ok down ∧
      up 0 0 = .ok x ∧ down 0 0 = .ok y ∧ (2 * (L + 1 : ℝ) + 1) * x ^ 2 ≠ (2 * (L : ℝ) + 1) * y ^ 2 := by
  obtain ⟨m, hm, vm⟩ := radial_loop_complete (braDim := 1) (ketDim := 1) (L := (L : Int)) (deltaL := 1) (by omega)
    (by omega) (Or.inr rfl) 1
  obtain ⟨w, hw, vw⟩ := radial_loop_complete (braDim := 1) (ketDim := 1) (L := ((L + 1 : ℕ) : Int)) (deltaL := -1)
    (by omega) (by push_cast; omega) (Or.inl rfl) 1
  obtain ⟨r, hr⟩ : ∃ r, r = Real.sqrt (2 * (L : ℝ) + 3) / kSqrt2 := ⟨_, rfl⟩
  have hr0 : r ≠ 0 := by
    rw [hr]
    have : (0 : ℝ) < 2 * (L : ℝ) + 3 := by positivity
    have h1 := Real.sqrt_pos.mpr this
    have h2 : (0 : ℝ) < kSqrt2 := by unfold kSqrt2; norm_num
    positivity
  have c1 : m 0 0 = .ok r := by
    rw [vm 0 0 (by omega) (by omega), coordinate_value ⟨by omega, by push_cast; omega, by omega⟩ (by omega), hr]
    simp only [upR, downR]
    rw [if_pos (by push_cast; omega), if_pos (by omega), if_neg (by push_cast; omega)]
    push_cast
    congr 2
    rw [add_zero, one_mul]
    congr 1
    ring
  have c2 : w 0 0 = .ok r := by
    rw [vw 0 0 (by omega) (by omega), coordinate_value ⟨by omega, by push_cast; omega, by omega⟩ (by omega), hr]
    simp only [upR, downR]
    rw [if_neg (by push_cast; omega), if_pos (by push_cast; omega), if_neg (by push_cast; omega)]
    push_cast
    congr 2
    rw [mul_zero, zero_add]
    congr 1
    ring
  refine ⟨_, _, dipoleOrbital (L + 1) L * r, dipoleOrbital L (L + 1) * r, by
    rw [dipoleMatrix, show (((L + 1 : ℕ) : Int) - (L : Int)) = 1 by push_cast; omega, hm, Except.ok_bind',
      Except.pure_ok], by
    rw [dipoleMatrix, show (((L : ℕ) : Int) - ((L + 1 : ℕ) : Int)) = -1 by push_cast; omega, hw, Except.ok_bind',
      Except.pure_ok], ?_, ?_, ?_⟩
  · rw [c1]; rfl
  · rw [c2]; rfl
  · intro h
    apply (dipole_not_hermitian L).1
    unfold Conjugate
    rw [mul_pow, mul_pow, ← mul_assoc, ← mul_assoc] at h
    exact mul_right_cancel₀ (pow_ne_zero 2 hr0) h

/-! ## Example -/

/-- `P ← S` has `√(1/3)`, `S ← P` also `√(1/3)`: a factor `√3` is missing. -/
example : dipoleOrbital 1 0 = Real.sqrt (1 / 3) ∧ dipoleOrbital 0 1 = Real.sqrt (1 / 3) ∧ vectorRME 0 1 = 1 := by
  refine ⟨?_, ?_, ?_⟩
  · rw [dipole_raising_factor_partial, vectorRME, if_pos rfl]; norm_num
  · rw [dipoleOrbital, if_pos (by decide)]; norm_num
  · rw [vectorRME, if_neg (by decide), if_pos rfl]; norm_num

end Verif.Relative
