import Verif.Relative.States

/-!
# A table of Clebsch-Gordan coefficients that satisfies the laws

The coefficients for angular momenta zero, one-half and one, with the reduction factors that belong to them.
-/

namespace Verif.Relative.Ex
open Verif Verif.H2 Verif.Osc MeasureTheory Set

/-- The coefficients in use. -/
noncomputable def cg (a x b y j M : Int) : ℝ :=
  if x + y ≠ M then 0
  else if b = 0 then (if a = j then 1 else 0)
  else if a = 0 then (if b = j then 1 else 0)
  else if a = 1 ∧ b = 1 ∧ j = 2 then (if x = y then 1 else 1 / √2)
  else if a = 1 ∧ b = 1 ∧ j = 0 then (x : ℝ) / √2
  else if a = 1 ∧ b = 2 ∧ j = 1 then (if y = 0 then (x : ℝ) / √3 else if y = 2 then -(√2 / √3) else √2 / √3)
  else if a = 2 ∧ b = 2 ∧ j = 0 then (if x = 0 then -(1 / √3) else 1 / √3)
  else if a = 2 ∧ b = 2 ∧ j = 2 then (if y < x then 1 / √2 else if x < y then -(1 / √2) else 0)
  else if a = 2 ∧ b = 4 ∧ j = 2 then
    (if y = 0 then (3 * ((x : ℝ) / 2) ^ 2 - 2) / √10 else if y = 4 ∨ y = -4 then √6 / √10
      else if x = 0 then -(√3 / √10) else √3 / √10)
  else 0

/-- The factors that belong to them. -/
noncomputable def am : Am where
  rose1 _ b' J' _ b J _ :=
    if b = 0 then 1 else if J' = 2 ∧ J = 2 then √2 / √3 else if J' = 2 ∧ J = 0 then 1 / √3
    else if J' = 0 ∧ J = 2 then -1 else 0
  rose2 _ b' J' a b J _ :=
    if a = 0 then 1 else if J' = 2 ∧ J = 2 then √2 / √3 else if J' = 2 ∧ J = 0 then -(1 / √3)
    else if J' = 0 ∧ J = 2 then 1 else 0
  threeJ _ _ _ := √2 / √15
  sixJ _ _ _ _ _ _ := 1 / 3
  jRME a b := if a = b then √((a * (a + 2) : ℝ) / 4) else 0

theorem ms0 : ms 0 = {0} := by decide
theorem ms1 : ms 1 = {-1, 1} := by decide
theorem ms2 : ms 2 = {-2, 0, 2} := by decide
theorem ms4 : ms 4 = {-4, -2, 0, 2, 4} := by decide

theorem s2 : √(2 : ℝ) * √2 = 2 := Real.mul_self_sqrt (by norm_num)
theorem s3 : √(3 : ℝ) * √3 = 3 := Real.mul_self_sqrt (by norm_num)
theorem s2' : √(2 : ℝ) ^ 2 = 2 := Real.sq_sqrt (by norm_num)
theorem s3' : √(3 : ℝ) ^ 2 = 3 := Real.sq_sqrt (by norm_num)

theorem half_vector : VectorLaw cg 1 := by
  intro m' hm' q hq m hm
  have e : √(((1 : ℕ) : ℝ) * (((1 : ℕ) : ℝ) + 2) / 4) = √3 / 2 := by
    rw [Real.sqrt_div' _ (by norm_num), show (4 : ℝ) = 2 ^ 2 by norm_num, Real.sqrt_sq (by norm_num)]
    norm_num
  have e4 : √(4 : ℝ) = 2 := by
    rw [show (4 : ℝ) = 2 ^ 2 by norm_num, Real.sqrt_sq (by norm_num)]
  rw [e]
  rw [ms1] at hm hm'
  rw [ms2] at hq
  simp only [Finset.mem_insert, Finset.mem_singleton] at hm hm' hq
  rcases hm' with rfl | rfl <;> rcases hq with rfl | rfl | rfl <;> rcases hm with rfl | rfl <;>
    norm_num [jmat, cg, e4] <;> field_simp <;> simp [s2', s3']

theorem one_vector : VectorLaw cg 2 := by
  intro m' hm' q hq m hm
  have e : √(((2 : ℕ) : ℝ) * (((2 : ℕ) : ℝ) + 2) / 4) = √2 := by norm_num
  have e8 : √(8 : ℝ) = 2 * √2 := by
    rw [show (8 : ℝ) = 2 ^ 2 * 2 by norm_num, Real.sqrt_mul (by norm_num), Real.sqrt_sq (by norm_num)]
  rw [e]
  rw [ms2] at hm hm' hq
  simp only [Finset.mem_insert, Finset.mem_singleton] at hm hm' hq
  rcases hm' with rfl | rfl | rfl <;> rcases hq with rfl | rfl | rfl <;> rcases hm with rfl | rfl | rfl <;>
    norm_num [jmat, cg, e8] <;> field_simp <;> simp [s2', s3']

theorem zero_vector : VectorLaw cg 0 := by
  intro m' hm' q hq m hm
  rw [ms2] at hq
  rw [ms0] at hm hm'
  simp only [Finset.mem_insert, Finset.mem_singleton] at hm hm' hq
  subst hm' hm
  rcases hq with rfl | rfl | rfl <;> norm_num [jmat, cg]

theorem le_one {S : ℕ} (h : S ≤ 1) : S = 0 ∨ S = 1 := by omega

set_option maxHeartbeats 2000000 in
theorem half_ortho {S' S : ℕ} (h' : S' ≤ 1) (h : S ≤ 1) : OrthoLaw cg 1 1 (2 * S') (2 * S) := by
  intro M' hM' M hM
  rcases le_one h' with rfl | rfl <;> rcases le_one h with rfl | rfl <;>
    simp only [mul_zero, mul_one, ms0, ms2, Finset.mem_insert, Finset.mem_singleton] at hM hM' <;>
    rcases hM' with rfl | rfl | rfl <;> rcases hM with rfl | rfl | rfl <;>
    norm_num [ms1, cg, δ] <;> field_simp <;> norm_num [s2', s3']

set_option maxHeartbeats 2000000 in
theorem half_total {S' S : ℕ} (h' : S' ≤ 1) (h : S ≤ 1) : TotalLaw cg 1 1 (2 * S') (2 * S) := by
  intro q hq M' hM' M hM
  have e4 : √(4 : ℝ) = 2 := by
    rw [show (4 : ℝ) = 2 ^ 2 by norm_num, Real.sqrt_sq (by norm_num)]
  have e8 : √(8 : ℝ) = 2 * √2 := by
    rw [show (8 : ℝ) = 2 ^ 2 * 2 by norm_num, Real.sqrt_mul (by norm_num), Real.sqrt_sq (by norm_num)]
  rw [ms2] at hq
  simp only [Finset.mem_insert, Finset.mem_singleton] at hq
  rcases le_one h' with rfl | rfl <;> rcases le_one h with rfl | rfl <;>
    simp only [mul_zero, mul_one, ms0, ms2, Finset.mem_insert, Finset.mem_singleton] at hM hM' <;>
    rcases hM' with rfl | rfl | rfl <;> rcases hM with rfl | rfl | rfl <;> rcases hq with rfl | rfl | rfl <;>
    norm_num [ms1, cg, δ, couple, jmat, e4, e8] <;> field_simp <;> norm_num [s2', s3']

set_option maxHeartbeats 2000000 in
theorem half_red1 {S' S : ℕ} (h' : S' ≤ 1) (h : S ≤ 1) : 
    Reduces1 cg (am.rose1 1 1 (2 * S') 1 1 (2 * S) 2) 1 1 1 (2 * S') (2 * S) 2 := by
  intro M' hM' q hq M hM
  rw [ms2] at hq
  simp only [Finset.mem_insert, Finset.mem_singleton] at hq
  rcases le_one h' with rfl | rfl <;> rcases le_one h with rfl | rfl <;>
    simp only [mul_zero, mul_one, ms0, ms2, Finset.mem_insert, Finset.mem_singleton] at hM hM' <;>
    rcases hM' with rfl | rfl | rfl <;> rcases hM with rfl | rfl | rfl <;> rcases hq with rfl | rfl | rfl <;>
    norm_num [ms1, cg, δ, couple, am] <;> field_simp <;> norm_num [s2', s3']

set_option maxHeartbeats 2000000 in
theorem half_red2 {S' S : ℕ} (h' : S' ≤ 1) (h : S ≤ 1) : 
    Reduces2 cg (am.rose2 1 1 (2 * S') 1 1 (2 * S) 2) 1 1 1 (2 * S') (2 * S) 2 := by
  intro M' hM' q hq M hM
  rw [ms2] at hq
  simp only [Finset.mem_insert, Finset.mem_singleton] at hq
  rcases le_one h' with rfl | rfl <;> rcases le_one h with rfl | rfl <;>
    simp only [mul_zero, mul_one, ms0, ms2, Finset.mem_insert, Finset.mem_singleton] at hM hM' <;>
    rcases hM' with rfl | rfl | rfl <;> rcases hM with rfl | rfl | rfl <;> rcases hq with rfl | rfl | rfl <;>
    norm_num [ms1, cg, δ, couple, am] <;> field_simp <;> norm_num [s2', s3']

theorem half : HalfLaws cg am where
  ortho _ _ h' h := half_ortho h' h
  total _ _ h' h := half_total h' h
  red1 _ _ h' h := half_red1 h' h
  red2 _ _ h' h := half_red2 h' h
  half := half_vector
  vector S h := by
    rcases le_one h with rfl | rfl
    · exact zero_vector
    · exact one_vector
  scalar S h := by
    intro m' hm' m hm
    rcases le_one h with rfl | rfl <;>
      simp only [mul_zero, mul_one, ms0, ms2, Finset.mem_insert, Finset.mem_singleton] at hm hm' <;>
      rcases hm' with rfl | rfl | rfl <;> rcases hm with rfl | rfl | rfl <;> norm_num [cg, δ]
  zero q hq := by
    rw [ms2] at hq
    simp only [Finset.mem_insert, Finset.mem_singleton] at hq
    rcases hq with rfl | rfl | rfl <;> norm_num [cg]
  jrme S' S h' h := by
    rcases le_one h' with rfl | rfl <;> rcases le_one h with rfl | rfl <;> norm_num [am]

end Verif.Relative.Ex
