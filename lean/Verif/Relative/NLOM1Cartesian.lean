import Verif.Relative.Racah
import Verif.Relative.N2LOCartesian
import Verif.Relative.NLOM1Spec

/-!
# The magnetic dipole current in Cartesian form

With Racah's coefficients the products of spherical tensors in the specification of the current are vector products and
contractions; the operator is

  `√(3/4π) (m_N (r × R) V - g_A² m_N m_π/(16 π F²) e^{-x} ((1 + 1/x) r̂ (r̂ · v) - v)) (τ1 × τ2)`,  `v = σ1 × σ2`,

where `V` is the one-pion exchange potential without its isospin factor.
-/

namespace Verif.Relative.Relcm
open Complex Axial

/-- `C_3` of the direction of a vector of length one. -/
noncomputable def harm3 (r : Vec) (q : Int) : ℂ :=
  if q = 6 then -((√5 : ℝ) / 4 * (r.x + I * r.y) ^ 3)
  else if q = -6 then (√5 : ℝ) / 4 * (r.x - I * r.y) ^ 3
  else if q = 4 then (√30 : ℝ) / 4 * (r.z * (r.x + I * r.y) ^ 2)
  else if q = -4 then (√30 : ℝ) / 4 * (r.z * (r.x - I * r.y) ^ 2)
  else if q = 2 then -((√3 : ℝ) / 4 * ((r.x + I * r.y) * (4 * r.z ^ 2 - r.x ^ 2 - r.y ^ 2)))
  else if q = -2 then (√3 : ℝ) / 4 * ((r.x - I * r.y) * (4 * r.z ^ 2 - r.x ^ 2 - r.y ^ 2))
  else r.z * (2 * r.z ^ 2 - 3 * r.x ^ 2 - 3 * r.y ^ 2) / 2

/-- Scalar product. -/
def dot (a b : Vec) : ℂ := a.x * b.x + a.y * b.y + a.z * b.z

theorem ms_zero : ms 0 = {0} := by decide
theorem ms_six : ms 6 = {-6, -4, -2, 0, 2, 4, 6} := by decide

/-! ## In spherical components -/

/-- Solid harmonics in terms of spherical components. -/
noncomputable def solid2 (r : Int → ℂ) (q : Int) : ℂ :=
  if q = 4 then (√2 : ℝ) * (√3 : ℝ) / 2 * r 2 ^ 2
  else if q = -4 then (√2 : ℝ) * (√3 : ℝ) / 2 * r (-2) ^ 2
  else if q = 2 then (√3 : ℝ) * (r 0 * r 2)
  else if q = -2 then (√3 : ℝ) * (r 0 * r (-2))
  else r 0 ^ 2 + r 2 * r (-2)

noncomputable def solid3 (r : Int → ℂ) (q : Int) : ℂ :=
  if q = 6 then (√2 : ℝ) * (√5 : ℝ) / 2 * r 2 ^ 3
  else if q = -6 then (√2 : ℝ) * (√5 : ℝ) / 2 * r (-2) ^ 3
  else if q = 4 then (√2 : ℝ) * (√3 : ℝ) * (√5 : ℝ) / 2 * (r 0 * r 2 ^ 2)
  else if q = -4 then (√2 : ℝ) * (√3 : ℝ) * (√5 : ℝ) / 2 * (r 0 * r (-2) ^ 2)
  else if q = 2 then (√2 : ℝ) * (√3 : ℝ) / 2 * (r 2 * (2 * r 0 ^ 2 + r 2 * r (-2)))
  else if q = -2 then (√2 : ℝ) * (√3 : ℝ) / 2 * (r (-2) * (2 * r 0 ^ 2 + r 2 * r (-2)))
  else r 0 ^ 3 + 3 * r 0 * (r 2 * r (-2))

theorem sq5 : ((√5 : ℝ) : ℂ) ^ 2 = 5 := by
  rw [← ofReal_pow, Real.sq_sqrt (by norm_num)]
  norm_num

theorem sq7 : ((√7 : ℝ) : ℂ) ^ 2 = 7 := by
  rw [← ofReal_pow, Real.sq_sqrt (by norm_num)]
  norm_num

/-- Scalar product of two tensors of rank two. -/
noncomputable def contract (A B : Int → ℂ) : ℂ :=
  A 4 * B (-4) - A 2 * B (-2) + A 0 * B 0 - A (-2) * B 2 + A (-4) * B 4

theorem p111_m1 (A B : Int → ℂ) : productC racah 2 2 2 A B (-2) = 0 - 1/2 * (√2 : ℝ) * (A (-2) * B 0) + 1/2 * (√2 : ℝ) * (A 0 * B (-2)) := by
  have z : ∀ u v : Int, u + v ≠ (-2) → racah 2 u 2 v 2 (-2) = 0 := fun u v h => racah_zero h
  rw [productC, ms_two]
  simp [z, c111_m1_0, c111_0_m1]
  try ring

theorem p111_0 (A B : Int → ℂ) : productC racah 2 2 2 A B 0 = 0 - 1/2 * (√2 : ℝ) * (A (-2) * B 2) + 1/2 * (√2 : ℝ) * (A 2 * B (-2)) := by
  have z : ∀ u v : Int, u + v ≠ 0 → racah 2 u 2 v 2 0 = 0 := fun u v h => racah_zero h
  rw [productC, ms_two]
  simp [z, c111_m1_1, c111_0_0, c111_1_m1]
  try ring

theorem p111_1 (A B : Int → ℂ) : productC racah 2 2 2 A B 2 = 0 - 1/2 * (√2 : ℝ) * (A 0 * B 2) + 1/2 * (√2 : ℝ) * (A 2 * B 0) := by
  have z : ∀ u v : Int, u + v ≠ 2 → racah 2 u 2 v 2 2 = 0 := fun u v h => racah_zero h
  rw [productC, ms_two]
  simp [z, c111_0_1, c111_1_0]
  try ring

theorem p112_m2 (A B : Int → ℂ) : productC racah 2 2 4 A B (-4) = 0 + 1/1 * (A (-2) * B (-2)) := by
  have z : ∀ u v : Int, u + v ≠ (-4) → racah 2 u 2 v 4 (-4) = 0 := fun u v h => racah_zero h
  rw [productC, ms_two]
  simp [z, c112_m1_m1]
  try ring

theorem p112_m1 (A B : Int → ℂ) : productC racah 2 2 4 A B (-2) = 0 + 1/2 * (√2 : ℝ) * (A (-2) * B 0) + 1/2 * (√2 : ℝ) * (A 0 * B (-2)) := by
  have z : ∀ u v : Int, u + v ≠ (-2) → racah 2 u 2 v 4 (-2) = 0 := fun u v h => racah_zero h
  rw [productC, ms_two]
  simp [z, c112_m1_0, c112_0_m1]
  try ring

theorem p112_0 (A B : Int → ℂ) : productC racah 2 2 4 A B 0 = 0 + 1/6 * (√2 : ℝ) * (√3 : ℝ) * (A (-2) * B 2) + 1/3 * (√2 : ℝ) * (√3 : ℝ) * (A 0 * B 0) + 1/6 * (√2 : ℝ) * (√3 : ℝ) * (A 2 * B (-2)) := by
  have z : ∀ u v : Int, u + v ≠ 0 → racah 2 u 2 v 4 0 = 0 := fun u v h => racah_zero h
  rw [productC, ms_two]
  simp [z, c112_m1_1, c112_0_0, c112_1_m1]
  try ring

theorem p112_1 (A B : Int → ℂ) : productC racah 2 2 4 A B 2 = 0 + 1/2 * (√2 : ℝ) * (A 0 * B 2) + 1/2 * (√2 : ℝ) * (A 2 * B 0) := by
  have z : ∀ u v : Int, u + v ≠ 2 → racah 2 u 2 v 4 2 = 0 := fun u v h => racah_zero h
  rw [productC, ms_two]
  simp [z, c112_0_1, c112_1_0]
  try ring

theorem p112_2 (A B : Int → ℂ) : productC racah 2 2 4 A B 4 = 0 + 1/1 * (A 2 * B 2) := by
  have z : ∀ u v : Int, u + v ≠ 4 → racah 2 u 2 v 4 4 = 0 := fun u v h => racah_zero h
  rw [productC, ms_two]
  simp [z, c112_1_1]
  try ring

theorem p312_m2 (A B : Int → ℂ) : productC racah 6 2 4 A B (-4) = 0 + 1/7 * (√5 : ℝ) * (√7 : ℝ) * (A (-6) * B 2) - 1/21 * (√3 : ℝ) * (√5 : ℝ) * (√7 : ℝ) * (A (-4) * B 0) + 1/21 * (√3 : ℝ) * (√7 : ℝ) * (A (-2) * B (-2)) := by
  have z : ∀ u v : Int, u + v ≠ (-4) → racah 6 u 2 v 4 (-4) = 0 := fun u v h => racah_zero h
  rw [productC, ms_six, ms_two]
  simp [z, c312_m3_1, c312_m2_0, c312_m1_m1]
  try ring

theorem p312_m1 (A B : Int → ℂ) : productC racah 6 2 4 A B (-2) = 0 + 1/21 * (√2 : ℝ) * (√3 : ℝ) * (√5 : ℝ) * (√7 : ℝ) * (A (-4) * B 2) - 2/21 * (√2 : ℝ) * (√3 : ℝ) * (√7 : ℝ) * (A (-2) * B 0) + 1/7 * (√7 : ℝ) * (A 0 * B (-2)) := by
  have z : ∀ u v : Int, u + v ≠ (-2) → racah 6 u 2 v 4 (-2) = 0 := fun u v h => racah_zero h
  rw [productC, ms_six, ms_two]
  simp [z, c312_m2_1, c312_m1_0, c312_0_m1]
  try ring

theorem p312_0 (A B : Int → ℂ) : productC racah 6 2 4 A B 0 = 0 + 1/7 * (√2 : ℝ) * (√7 : ℝ) * (A (-2) * B 2) - 1/7 * (√3 : ℝ) * (√7 : ℝ) * (A 0 * B 0) + 1/7 * (√2 : ℝ) * (√7 : ℝ) * (A 2 * B (-2)) := by
  have z : ∀ u v : Int, u + v ≠ 0 → racah 6 u 2 v 4 0 = 0 := fun u v h => racah_zero h
  rw [productC, ms_six, ms_two]
  simp [z, c312_m1_1, c312_0_0, c312_1_m1]
  try ring

theorem p312_1 (A B : Int → ℂ) : productC racah 6 2 4 A B 2 = 0 + 1/7 * (√7 : ℝ) * (A 0 * B 2) - 2/21 * (√2 : ℝ) * (√3 : ℝ) * (√7 : ℝ) * (A 2 * B 0) + 1/21 * (√2 : ℝ) * (√3 : ℝ) * (√5 : ℝ) * (√7 : ℝ) * (A 4 * B (-2)) := by
  have z : ∀ u v : Int, u + v ≠ 2 → racah 6 u 2 v 4 2 = 0 := fun u v h => racah_zero h
  rw [productC, ms_six, ms_two]
  simp [z, c312_0_1, c312_1_0, c312_2_m1]
  try ring

theorem p312_2 (A B : Int → ℂ) : productC racah 6 2 4 A B 4 = 0 + 1/21 * (√3 : ℝ) * (√7 : ℝ) * (A 2 * B 2) - 1/21 * (√3 : ℝ) * (√5 : ℝ) * (√7 : ℝ) * (A 4 * B 0) + 1/7 * (√5 : ℝ) * (√7 : ℝ) * (A 6 * B (-2)) := by
  have z : ∀ u v : Int, u + v ≠ 4 → racah 6 u 2 v 4 4 = 0 := fun u v h => racah_zero h
  rw [productC, ms_six, ms_two]
  simp [z, c312_1_1, c312_2_0, c312_3_m1]
  try ring

theorem p313_m3 (A B : Int → ℂ) : productC racah 6 2 6 A B (-6) = 0 - 1/2 * (√3 : ℝ) * (A (-6) * B 0) + 1/2 * (A (-4) * B (-2)) := by
  have z : ∀ u v : Int, u + v ≠ (-6) → racah 6 u 2 v 6 (-6) = 0 := fun u v h => racah_zero h
  rw [productC, ms_six, ms_two]
  simp [z, c313_m3_0, c313_m2_m1]
  try ring

theorem p313_m2 (A B : Int → ℂ) : productC racah 6 2 6 A B (-4) = 0 - 1/2 * (A (-6) * B 2) - 1/3 * (√3 : ℝ) * (A (-4) * B 0) + 1/6 * (√3 : ℝ) * (√5 : ℝ) * (A (-2) * B (-2)) := by
  have z : ∀ u v : Int, u + v ≠ (-4) → racah 6 u 2 v 6 (-4) = 0 := fun u v h => racah_zero h
  rw [productC, ms_six, ms_two]
  simp [z, c313_m3_1, c313_m2_0, c313_m1_m1]
  try ring

theorem p313_m1 (A B : Int → ℂ) : productC racah 6 2 6 A B (-2) = 0 - 1/6 * (√3 : ℝ) * (√5 : ℝ) * (A (-4) * B 2) - 1/6 * (√3 : ℝ) * (A (-2) * B 0) + 1/2 * (√2 : ℝ) * (A 0 * B (-2)) := by
  have z : ∀ u v : Int, u + v ≠ (-2) → racah 6 u 2 v 6 (-2) = 0 := fun u v h => racah_zero h
  rw [productC, ms_six, ms_two]
  simp [z, c313_m2_1, c313_m1_0, c313_0_m1]
  try ring

theorem p313_0 (A B : Int → ℂ) : productC racah 6 2 6 A B 0 = 0 - 1/2 * (√2 : ℝ) * (A (-2) * B 2) + 1/2 * (√2 : ℝ) * (A 2 * B (-2)) := by
  have z : ∀ u v : Int, u + v ≠ 0 → racah 6 u 2 v 6 0 = 0 := fun u v h => racah_zero h
  rw [productC, ms_six, ms_two]
  simp [z, c313_m1_1, c313_0_0, c313_1_m1]
  try ring

theorem p313_1 (A B : Int → ℂ) : productC racah 6 2 6 A B 2 = 0 - 1/2 * (√2 : ℝ) * (A 0 * B 2) + 1/6 * (√3 : ℝ) * (A 2 * B 0) + 1/6 * (√3 : ℝ) * (√5 : ℝ) * (A 4 * B (-2)) := by
  have z : ∀ u v : Int, u + v ≠ 2 → racah 6 u 2 v 6 2 = 0 := fun u v h => racah_zero h
  rw [productC, ms_six, ms_two]
  simp [z, c313_0_1, c313_1_0, c313_2_m1]
  try ring

theorem p313_2 (A B : Int → ℂ) : productC racah 6 2 6 A B 4 = 0 - 1/6 * (√3 : ℝ) * (√5 : ℝ) * (A 2 * B 2) + 1/3 * (√3 : ℝ) * (A 4 * B 0) + 1/2 * (A 6 * B (-2)) := by
  have z : ∀ u v : Int, u + v ≠ 4 → racah 6 u 2 v 6 4 = 0 := fun u v h => racah_zero h
  rw [productC, ms_six, ms_two]
  simp [z, c313_1_1, c313_2_0, c313_3_m1]
  try ring

theorem p313_3 (A B : Int → ℂ) : productC racah 6 2 6 A B 6 = 0 - 1/2 * (A 4 * B 2) + 1/2 * (√3 : ℝ) * (A 6 * B 0) := by
  have z : ∀ u v : Int, u + v ≠ 6 → racah 6 u 2 v 6 6 = 0 := fun u v h => racah_zero h
  rw [productC, ms_six, ms_two]
  simp [z, c313_2_1, c313_3_0]
  try ring

theorem p121_m1 (A B : Int → ℂ) : productC racah 2 4 2 A B (-2) = 0 + 1/10 * (√2 : ℝ) * (√5 : ℝ) * (A (-2) * B 0) - 1/10 * (√2 : ℝ) * (√3 : ℝ) * (√5 : ℝ) * (A 0 * B (-2)) + 1/5 * (√3 : ℝ) * (√5 : ℝ) * (A 2 * B (-4)) := by
  have z : ∀ u v : Int, u + v ≠ (-2) → racah 2 u 4 v 2 (-2) = 0 := fun u v h => racah_zero h
  rw [productC, ms_two, ms_four]
  simp [z, c121_m1_0, c121_0_m1, c121_1_m2]
  try ring

theorem p121_0 (A B : Int → ℂ) : productC racah 2 4 2 A B 0 = 0 + 1/10 * (√2 : ℝ) * (√3 : ℝ) * (√5 : ℝ) * (A (-2) * B 2) - 1/5 * (√2 : ℝ) * (√5 : ℝ) * (A 0 * B 0) + 1/10 * (√2 : ℝ) * (√3 : ℝ) * (√5 : ℝ) * (A 2 * B (-2)) := by
  have z : ∀ u v : Int, u + v ≠ 0 → racah 2 u 4 v 2 0 = 0 := fun u v h => racah_zero h
  rw [productC, ms_two, ms_four]
  simp [z, c121_m1_1, c121_0_0, c121_1_m1]
  try ring

theorem p121_1 (A B : Int → ℂ) : productC racah 2 4 2 A B 2 = 0 + 1/5 * (√3 : ℝ) * (√5 : ℝ) * (A (-2) * B 4) - 1/10 * (√2 : ℝ) * (√3 : ℝ) * (√5 : ℝ) * (A 0 * B 2) + 1/10 * (√2 : ℝ) * (√5 : ℝ) * (A 2 * B 0) := by
  have z : ∀ u v : Int, u + v ≠ 2 → racah 2 u 4 v 2 2 = 0 := fun u v h => racah_zero h
  rw [productC, ms_two, ms_four]
  simp [z, c121_m1_2, c121_0_1, c121_1_0]
  try ring

theorem p221_m1 (A B : Int → ℂ) : productC racah 4 4 2 A B (-2) = 0 - 1/5 * (√5 : ℝ) * (A (-4) * B 2) + 1/10 * (√2 : ℝ) * (√3 : ℝ) * (√5 : ℝ) * (A (-2) * B 0) - 1/10 * (√2 : ℝ) * (√3 : ℝ) * (√5 : ℝ) * (A 0 * B (-2)) + 1/5 * (√5 : ℝ) * (A 2 * B (-4)) := by
  have z : ∀ u v : Int, u + v ≠ (-2) → racah 4 u 4 v 2 (-2) = 0 := fun u v h => racah_zero h
  rw [productC, ms_four]
  simp [z, c221_m2_1, c221_m1_0, c221_0_m1, c221_1_m2]
  try ring

theorem p221_0 (A B : Int → ℂ) : productC racah 4 4 2 A B 0 = 0 - 1/5 * (√2 : ℝ) * (√5 : ℝ) * (A (-4) * B 4) + 1/10 * (√2 : ℝ) * (√5 : ℝ) * (A (-2) * B 2) - 1/10 * (√2 : ℝ) * (√5 : ℝ) * (A 2 * B (-2)) + 1/5 * (√2 : ℝ) * (√5 : ℝ) * (A 4 * B (-4)) := by
  have z : ∀ u v : Int, u + v ≠ 0 → racah 4 u 4 v 2 0 = 0 := fun u v h => racah_zero h
  rw [productC, ms_four]
  simp [z, c221_m2_2, c221_m1_1, c221_0_0, c221_1_m1, c221_2_m2]
  try ring

theorem p221_1 (A B : Int → ℂ) : productC racah 4 4 2 A B 2 = 0 - 1/5 * (√5 : ℝ) * (A (-2) * B 4) + 1/10 * (√2 : ℝ) * (√3 : ℝ) * (√5 : ℝ) * (A 0 * B 2) - 1/10 * (√2 : ℝ) * (√3 : ℝ) * (√5 : ℝ) * (A 2 * B 0) + 1/5 * (√5 : ℝ) * (A 4 * B (-2)) := by
  have z : ∀ u v : Int, u + v ≠ 2 → racah 4 u 4 v 2 2 = 0 := fun u v h => racah_zero h
  rw [productC, ms_four]
  simp [z, c221_m1_2, c221_0_1, c221_1_0, c221_2_m1]
  try ring

theorem p321_m1 (A B : Int → ℂ) : productC racah 6 4 2 A B (-2) = 0 + 1/7 * (√3 : ℝ) * (√7 : ℝ) * (A (-6) * B 4) - 1/7 * (√2 : ℝ) * (√7 : ℝ) * (A (-4) * B 2) + 1/35 * (√2 : ℝ) * (√3 : ℝ) * (√5 : ℝ) * (√7 : ℝ) * (A (-2) * B 0) - 1/35 * (√3 : ℝ) * (√5 : ℝ) * (√7 : ℝ) * (A 0 * B (-2)) + 1/35 * (√5 : ℝ) * (√7 : ℝ) * (A 2 * B (-4)) := by
  have z : ∀ u v : Int, u + v ≠ (-2) → racah 6 u 4 v 2 (-2) = 0 := fun u v h => racah_zero h
  rw [productC, ms_six, ms_four]
  simp [z, c321_m3_2, c321_m2_1, c321_m1_0, c321_0_m1, c321_1_m2]
  try ring

theorem p321_0 (A B : Int → ℂ) : productC racah 6 4 2 A B 0 = 0 + 1/7 * (√7 : ℝ) * (A (-4) * B 4) - 2/35 * (√2 : ℝ) * (√5 : ℝ) * (√7 : ℝ) * (A (-2) * B 2) + 3/35 * (√5 : ℝ) * (√7 : ℝ) * (A 0 * B 0) - 2/35 * (√2 : ℝ) * (√5 : ℝ) * (√7 : ℝ) * (A 2 * B (-2)) + 1/7 * (√7 : ℝ) * (A 4 * B (-4)) := by
  have z : ∀ u v : Int, u + v ≠ 0 → racah 6 u 4 v 2 0 = 0 := fun u v h => racah_zero h
  rw [productC, ms_six, ms_four]
  simp [z, c321_m2_2, c321_m1_1, c321_0_0, c321_1_m1, c321_2_m2]
  try ring

theorem p321_1 (A B : Int → ℂ) : productC racah 6 4 2 A B 2 = 0 + 1/35 * (√5 : ℝ) * (√7 : ℝ) * (A (-2) * B 4) - 1/35 * (√3 : ℝ) * (√5 : ℝ) * (√7 : ℝ) * (A 0 * B 2) + 1/35 * (√2 : ℝ) * (√3 : ℝ) * (√5 : ℝ) * (√7 : ℝ) * (A 2 * B 0) - 1/7 * (√2 : ℝ) * (√7 : ℝ) * (A 4 * B (-2)) + 1/7 * (√3 : ℝ) * (√7 : ℝ) * (A 6 * B (-4)) := by
  have z : ∀ u v : Int, u + v ≠ 2 → racah 6 u 4 v 2 2 = 0 := fun u v h => racah_zero h
  rw [productC, ms_six, ms_four]
  simp [z, c321_m1_2, c321_0_1, c321_1_0, c321_2_m1, c321_3_m2]
  try ring


section
variable (r R T : Int → ℂ)

/-- The four terms of the tensor part, in spherical components. -/
noncomputable def four (q : Int) : ℂ :=
  (r 0 ^ 2 - 2 * r 2 * r (-2)) * ((√3 : ℝ) * (√5 : ℝ) / 5 * productC racah 2 4 2 (productC racah 2 2 2 r R) T q
    + 3 * (√5 : ℝ) / 5 * productC racah 4 4 2 (productC racah 2 2 4 r R) T q)
  + ((√2 : ℝ) * (√5 : ℝ) * (√7 : ℝ) / 5 * productC racah 4 4 2 (productC racah 6 2 4 (solid3 r) R) T q
    + 2 * (√5 : ℝ) * (√7 : ℝ) / 5 * productC racah 6 4 2 (productC racah 6 2 6 (solid3 r) R) T q)

set_option maxHeartbeats 2000000 in
theorem four_eq {q : Int} (hq : q ∈ ms 2) :
    four r R T q = productC racah 2 2 2 r R q * ((√2 : ℝ) * (√3 : ℝ) * contract (solid2 r) T) := by
  have e2 : ((√2 : ℝ) : ℂ) ^ 2 = 2 := by rw [pow_two, sq2]
  have e3 : ((√3 : ℝ) : ℂ) ^ 2 = 3 := by rw [pow_two, sq3]
  have e5 := sq5
  have e7 := sq7
  rw [ms_two] at hq
  simp only [Finset.mem_insert, Finset.mem_singleton] at hq
  rcases hq with rfl | rfl | rfl
  all_goals
    simp only [four, p111_m1, p111_0, p111_1, p112_m2, p112_m1, p112_0, p112_1, p112_2, p312_m2, p312_m1, p312_0, p312_1, p312_2, p313_m3, p313_m2, p313_m1, p313_0, p313_1, p313_2, p313_3, p121_m1, p121_0, p121_1, p221_m1, p221_0, p221_1, p321_m1, p321_0, p321_1, solid3, solid2, contract]
    norm_num
    generalize ((√2 : ℝ) : ℂ) = a at *
    generalize ((√3 : ℝ) : ℂ) = b at *
    generalize ((√5 : ℝ) : ℂ) = c at *
    generalize ((√7 : ℝ) : ℂ) = d at *
    have a3 : a ^ 3 = 2 * a := by rw [pow_succ, e2]
    have a4 : a ^ 4 = 4 := by rw [show a ^ 4 = (a ^ 2) ^ 2 by ring, e2]; norm_num
    have b3 : b ^ 3 = 3 * b := by rw [pow_succ, e3]
    have b4 : b ^ 4 = 9 := by rw [show b ^ 4 = (b ^ 2) ^ 2 by ring, e3]; norm_num
    have c3 : c ^ 3 = 5 * c := by rw [pow_succ, e5]
    have c4 : c ^ 4 = 25 := by rw [show c ^ 4 = (c ^ 2) ^ 2 by ring, e5]; norm_num
    ring_nf
    simp only [e2, e3, e5, e7, a3, a4, b3, b4, c3, c4]
    ring_nf
end

/-! ## In Cartesian components -/

theorem sq30 : ((√30 : ℝ) : ℂ) = (√2 : ℝ) * (√3 : ℝ) * (√5 : ℝ) := by
  rw [← ofReal_mul, ← ofReal_mul, ← Real.sqrt_mul (by norm_num), ← Real.sqrt_mul (by norm_num)]
  norm_num

theorem solid3_eq (r : Vec) (q : Int) : solid3 (sph r) q = harm3 r q := by
  have hs := sq2_ne
  have e2 : ((√2 : ℝ) : ℂ) ^ 2 = 2 := by rw [pow_two, sq2]
  have e3 : ((√2 : ℝ) : ℂ) ^ 3 = 2 * (√2 : ℝ) := by rw [pow_succ, e2]
  have e4 : ((√2 : ℝ) : ℂ) ^ 4 = 4 := by rw [show ((√2 : ℝ) : ℂ) ^ 4 = (((√2 : ℝ) : ℂ) ^ 2) ^ 2 by ring, e2]; norm_num
  have hi : I ^ 2 = -1 := I_sq
  have hi3 : I ^ 3 = -I := by rw [pow_succ, I_sq]; ring
  simp only [solid3, harm3, sq30]
  have s0 : sph r 0 = r.z := by simp [sph]
  have s1 : sph r 2 = -((r.x + I * r.y) / (√2 : ℝ)) := by simp [sph]
  have s2 : sph r (-2) = (r.x - I * r.y) / (√2 : ℝ) := by simp [sph]
  rw [s0, s1, s2]
  split_ifs
  all_goals
    field_simp
    ring_nf
    simp only [e2, e3, e4, hi, hi3]
    try ring

theorem solid2_eq (r : Vec) (q : Int) : solid2 (sph r) q = harm r q := by
  have hs := sq2_ne
  have e2 : ((√2 : ℝ) : ℂ) ^ 2 = 2 := by rw [pow_two, sq2]
  have hi : I ^ 2 = -1 := I_sq
  simp only [solid2, harm]
  have s0 : sph r 0 = r.z := by simp [sph]
  have s1 : sph r 2 = -((r.x + I * r.y) / (√2 : ℝ)) := by simp [sph]
  have s2 : sph r (-2) = (r.x - I * r.y) / (√2 : ℝ) := by simp [sph]
  rw [s0, s1, s2]
  split_ifs
  all_goals
    field_simp
    try
      ring_nf
      simp only [e2, hi]
      try ring

/-- Racah's coefficients are those of the vector products. -/
theorem racah_vec : VecCg racah := by
  have q3 : √3 * √3 = 3 := Real.mul_self_sqrt (by norm_num)
  have q5 : √5 * √5 = 5 := Real.mul_self_sqrt (by norm_num)
  have q2 : √2 * √2 = 2 := Real.mul_self_sqrt (by norm_num)
  have n2 : √2 ≠ 0 := by positivity
  have n5 : √5 ≠ 0 := by positivity
  have h10 : √10 = √2 * √5 := by rw [← Real.sqrt_mul (by norm_num)]; norm_num
  have h6 : √6 = √2 * √3 := by rw [← Real.sqrt_mul (by norm_num)]; norm_num
  constructor
  · intro u hu v hv q hq
    by_cases h : u + v = q
    · rw [ms_two] at hu hv hq
      simp only [Finset.mem_insert, Finset.mem_singleton] at hu hv hq
      subst h
      rcases hu with rfl | rfl | rfl <;> rcases hv with rfl | rfl | rfl <;> revert hq <;> norm_num <;>
        first
        | rw [c111_m1_0] | rw [c111_0_m1] | rw [c111_m1_1] | rw [c111_0_0] | rw [c111_1_m1] | rw [c111_0_1] | rw [c111_1_0]
      all_goals field_simp
      all_goals nlinarith
    · rw [racah_zero h, if_pos h]
  · intro u hu v hv q hq
    by_cases h : u + v = q
    · rw [ms_two] at hv hq
      rw [ms_four] at hu
      simp only [Finset.mem_insert, Finset.mem_singleton] at hu hv hq
      subst h
      rw [h10, h6]
      rcases hu with rfl | rfl | rfl | rfl | rfl <;> rcases hv with rfl | rfl | rfl <;> revert hq <;> norm_num <;>
        first
        | rw [c211_m2_1] | rw [c211_m1_0] | rw [c211_0_m1] | rw [c211_m1_1] | rw [c211_0_0] | rw [c211_1_m1] | rw [c211_0_1] | rw [c211_1_0] | rw [c211_2_m1]
      all_goals field_simp
      all_goals nlinarith
    · rw [racah_zero h, if_pos h]

/-- The product of rank 0 of two vectors. -/
theorem product_dot (a b : Vec) : productC racah 2 2 0 (sph a) (sph b) 0 = -(1 / (√3 : ℝ) * dot a b) := by
  have z : ∀ u v : Int, u + v ≠ 0 → racah 2 u 2 v 0 0 = 0 := fun u v h => racah_zero h
  have e2 : ((√2 : ℝ) : ℂ) ^ 2 = 2 := by rw [pow_two, sq2]
  have e3 : ((√3 : ℝ) : ℂ) ^ 2 = 3 := by rw [pow_two, sq3]
  have n3 : ((√3 : ℝ) : ℂ) ≠ 0 := by
    rw [ofReal_ne_zero]
    positivity
  have hs := sq2_ne
  have hi : I ^ 2 = -1 := I_sq
  rw [productC, ms_two]
  simp [z, c110_m1_1, c110_0_0, c110_1_m1, sph, dot]
  field_simp
  ring_nf
  simp only [e2, e3, hi]
  ring

/-- The product with a scalar. -/
theorem product_scalar (A B : Int → ℂ) {q : Int} (hq : q ∈ ms 2) : productC racah 2 0 2 A B q = A q * B 0 := by
  have z : ∀ u v : Int, u + v ≠ q → racah 2 u 0 v 2 q = 0 := fun u v h => racah_zero h
  rw [productC, ms_two, ms_zero]
  rw [ms_two] at hq
  simp only [Finset.mem_insert, Finset.mem_singleton] at hq
  rcases hq with rfl | rfl | rfl <;> simp [z, c101_m1_0, c101_0_0, c101_1_0]

/-- The tensor operator `S12 = 3 (s1 · r̂) (s2 · r̂) - s1 · s2`. -/
def S12 (r s1 s2 : Vec) : ℂ := 3 * dot s1 r * dot s2 r - dot s1 s2

theorem contract_S12 (r s1 s2 : Vec) (hr : r.x ^ 2 + r.y ^ 2 + r.z ^ 2 = 1) :
    (√2 : ℝ) * (√3 : ℝ) * contract (harm r) (productC racah 2 2 4 (sph s1) (sph s2)) = S12 r s1 s2 := by
  have e2 : ((√2 : ℝ) : ℂ) ^ 2 = 2 := by rw [pow_two, sq2]
  have e24 : ((√2 : ℝ) : ℂ) ^ 4 = 4 := by rw [show ((√2 : ℝ) : ℂ) ^ 4 = (((√2 : ℝ) : ℂ) ^ 2) ^ 2 by ring, e2]; norm_num
  have e3 : ((√3 : ℝ) : ℂ) ^ 2 = 3 := by rw [pow_two, sq3]
  have hs := sq2_ne
  have hi : I ^ 2 = -1 := I_sq
  have hi4 : I ^ 4 = 1 := I_pow_four
  simp only [contract, p112_m2, p112_m1, p112_0, p112_1, p112_2]
  simp [harm, sph, S12, dot]
  field_simp
  ring_nf
  simp only [e2, e24, e3, hi, hi4]
  ring_nf
  linear_combination (-72 * (s1.x * s2.x + s1.y * s2.y + s1.z * s2.z)) * hr

/-- `[[C_{k1}(r̂) ⊗ C_1(R̂)]_k ⊗ [s1 ⊗ s2]_{S0}]_1` for given directions and vectors; `C1`, `C3` the harmonics. -/
noncomputable def termC (k1 k S0 : ℕ) (C : Int → ℂ) (R s1 s2 : Vec) (q : Int) : ℂ :=
  productC racah (2 * k) (2 * S0) 2 (productC racah (2 * k1) 2 (2 * k) C (sph R)) (productC racah 2 2 (2 * S0) (sph s1) (sph s2)) q

theorem productC_congr {cg : Cg} {a b c : ℕ} {A A' B B' : Int → ℂ} (hA : ∀ u ∈ ms a, A u = A' u) (hB : ∀ v ∈ ms b, B v = B' v)
    (q : Int) : productC cg a b c A B q = productC cg a b c A' B' q :=
  Finset.sum_congr rfl fun u hu => Finset.sum_congr rfl fun v hv => by rw [hA u hu, hB v hv]

theorem sqrt_frac (a b : ℕ) : (√((a : ℝ) / b) : ℝ) = √(a * b) / b := by
  rcases Nat.eq_zero_or_pos b with rfl | hb
  · simp
  · have hb' : (0 : ℝ) < b := by exact_mod_cast hb
    rw [show (a : ℝ) / b = a * b / (b * b) by field_simp, Real.sqrt_div (by positivity), Real.sqrt_mul_self hb'.le]

/-- **C142, Cartesian form, with the centre-of-mass coordinate.** The five terms make up the vector product of the two
coordinates times the scalar product and the tensor operator of the two spins. -/
theorem sachs_cartesian (F0 FT : ℂ) (r R s1 s2 : Vec) (hr : r.x ^ 2 + r.y ^ 2 + r.z ^ 2 = 1) {q : Int} (hq : q ∈ ms 2) :
    F0 * (-(√3 : ℝ) * termC 1 1 0 (sph r) R s1 s2 q)
      + FT * ((√(3 / 5) : ℝ) * termC 1 1 2 (sph r) R s1 s2 q + (√(9 / 5) : ℝ) * termC 1 2 2 (sph r) R s1 s2 q
        + (√(14 / 5) : ℝ) * termC 3 2 2 (harm3 r) R s1 s2 q + (√(28 / 5) : ℝ) * termC 3 3 2 (harm3 r) R s1 s2 q)
      = I / (√2 : ℝ) * sph (cross r R) q * (F0 * dot s1 s2 + FT * S12 r s1 s2) := by
  have e3 : ((√3 : ℝ) : ℂ) ^ 2 = 3 := by rw [pow_two, sq3]
  have n3 : ((√3 : ℝ) : ℂ) ≠ 0 := by
    rw [ofReal_ne_zero]
    positivity
  have n2 := sq2_ne
  have r1 : √(3 / 5) = √3 * √5 / 5 := by
    have := sqrt_frac 3 5
    push_cast at this
    rw [this, ← Real.sqrt_mul (by norm_num)]
  have r2 : √(9 / 5) = 3 * √5 / 5 := by
    have := sqrt_frac 9 5
    push_cast at this
    rw [this, Real.sqrt_mul (by norm_num), show (9 : ℝ) = 3 ^ 2 by norm_num, Real.sqrt_sq (by norm_num)]
  have r3 : √(14 / 5) = √2 * √5 * √7 / 5 := by
    have := sqrt_frac 14 5
    push_cast at this
    rw [this, ← Real.sqrt_mul (by norm_num), ← Real.sqrt_mul (by norm_num)]
    norm_num
  have r4 : √(28 / 5) = 2 * √5 * √7 / 5 := by
    have := sqrt_frac 28 5
    push_cast at this
    rw [this, show (28 * 5 : ℝ) = 2 ^ 2 * (5 * 7) by norm_num, Real.sqrt_mul (by norm_num), Real.sqrt_sq (by norm_num),
      Real.sqrt_mul (by norm_num)]
    ring
  have h0 : termC 1 1 0 (sph r) R s1 s2 q = I / (√2 : ℝ) * sph (cross r R) q * -(1 / (√3 : ℝ) * dot s1 s2) := by
    show productC racah 2 0 2 (productC racah 2 2 2 (sph r) (sph R)) (productC racah 2 2 0 (sph s1) (sph s2)) q = _
    rw [product_scalar _ _ hq, product_dot, product_cross racah_vec r R hq]
  have h3 : harm3 r = solid3 (sph r) := funext fun q => (solid3_eq r q).symm
  have hN : sph r 0 ^ 2 - 2 * sph r 2 * sph r (-2) = 1 := by
    have e2 : ((√2 : ℝ) : ℂ) ^ 2 = 2 := by rw [pow_two, sq2]
    simp only [sph]
    norm_num
    field_simp
    rw [e2]
    linear_combination 2 * hr - 2 * r.y ^ 2 * I_sq
  have h4 := four_eq (sph r) (sph R) (productC racah 2 2 4 (sph s1) (sph s2)) hq
  rw [show solid2 (sph r) = harm r from funext (solid2_eq r), contract_S12 r s1 s2 hr, product_cross racah_vec r R hq, four,
    hN, one_mul] at h4
  have h5 : (√(3 / 5) : ℝ) * termC 1 1 2 (sph r) R s1 s2 q + (√(9 / 5) : ℝ) * termC 1 2 2 (sph r) R s1 s2 q
        + (√(14 / 5) : ℝ) * termC 3 2 2 (harm3 r) R s1 s2 q + (√(28 / 5) : ℝ) * termC 3 3 2 (harm3 r) R s1 s2 q
      = I / (√2 : ℝ) * sph (cross r R) q * S12 r s1 s2 := by
    rw [← h4, r1, r2, r3, r4, h3]
    simp only [termC]
    push_cast
    ring
  rw [h5, h0]
  field_simp

/-- **C142, Cartesian form, within the relative motion.** -/
theorem intrinsic_cartesian (F0 F1 : ℂ) (r s1 s2 : Vec) (hr : r.x ^ 2 + r.y ^ 2 + r.z ^ 2 = 1) {q : Int} (hq : q ∈ ms 2) :
    (2 * F0 - F1) * productC racah 2 2 2 (sph s1) (sph s2) q
      + (F0 + F1) * ((√10 : ℝ) * productC racah 4 2 2 (harm r) (productC racah 2 2 2 (sph s1) (sph s2)) q)
      = -3 * (I / (√2 : ℝ)) * sph (lin (F0 + F1) (along r (cross s1 s2)) (-F0) (cross s1 s2)) q := by
  have ht := sq10_ne
  have h1 : productC racah 4 2 2 (harm r) (productC racah 2 2 2 (sph s1) (sph s2)) q =
      I / (√2 : ℝ) * productC racah 4 2 2 (harm r) (sph (cross s1 s2)) q := by
    rw [productC_congr (fun _ _ => rfl) (fun v hv => product_cross racah_vec s1 s2 hv), productC, productC, Finset.mul_sum]
    refine Finset.sum_congr rfl fun u _ => ?_
    rw [Finset.mul_sum]
    exact Finset.sum_congr rfl fun v _ => by ring
  rw [h1, product_tensor racah_vec r _ hr hq, product_cross racah_vec s1 s2 hq, sph_lin, sph_lin]
  field_simp
  ring

/-- The one-pion exchange potential without the scalar product of the isospins. -/
noncomputable def opePotential (x : ℝ) (r s1 s2 : Vec) : ℂ :=
  (1.29 ^ 2 * mpi ^ 3 / (48 * Real.pi * fpi ^ 2) * (Real.exp (-x) / x) : ℝ)
    * (dot s1 s2 + ((1 + 3 / x + 3 / x ^ 2 : ℝ) : ℂ) * S12 r s1 s2)

/-- The magnetic dipole operator of one-pion range for nucleons at distance `ρ` along the unit vector `r`, with their
centre of mass at distance `X` along `R`. -/
noncomputable def magnetic (ρ X : ℝ) (r R s1 s2 t1 t2 : Vec) (q p : Int) : ℂ :=
  (√(3 / (4 * Real.pi)) : ℝ) *
    ((mN : ℝ) * (ρ * X * sph (cross r R) q) * opePotential (mpi * ρ) r s1 s2
      - (1.29 ^ 2 * mN * mpi / (16 * Real.pi * fpi ^ 2) * Real.exp (-(mpi * ρ)) : ℝ)
        * sph (lin (1 + 1 / (mpi * ρ : ℝ)) (along r (cross s1 s2)) (-1) (cross s1 s2)) q)
    * sph (cross t1 t2) p

/-- **C142, Cartesian form.** The operator of the specification, with the harmonics at the directions `r`, `R` and the
radial functions at the distances `ρ`, `X`, is the magnetic dipole current `magnetic`: the Sachs term, the moment of the
pair's exchange current about its centre of mass, and the intrinsic term. -/
theorem m1_cartesian {ρ : ℝ} (hρ : 0 < ρ) (X : ℝ) (r R s1 s2 t1 t2 : Vec) (hr : r.x ^ 2 + r.y ^ 2 + r.z ^ 2 = 1)
    {q p : Int} (hq : q ∈ ms 2) (hp : p ∈ ms 2) {F : ℕ → ℝ} (hF : ∀ k, F k = Real.exp (-(mpi * ρ)) / ρ ^ k / mpi ^ k) :
    (strength : ℂ) *
      (((2 * F 0 - F 1) * productC racah 2 2 2 (sph s1) (sph s2) q
        + (F 0 + F 1) * ((√10 : ℝ) * productC racah 4 2 2 (harm r) (productC racah 2 2 2 (sph s1) (sph s2)) q))
      + mpi * X * (F 0 * (-(√3 : ℝ) * termC 1 1 0 (sph r) R s1 s2 q)
        + (F 0 + 3 * F 1 + 3 * F 2) * ((√(3 / 5) : ℝ) * termC 1 1 2 (sph r) R s1 s2 q
          + (√(9 / 5) : ℝ) * termC 1 2 2 (sph r) R s1 s2 q + (√(14 / 5) : ℝ) * termC 3 2 2 (harm3 r) R s1 s2 q
          + (√(28 / 5) : ℝ) * termC 3 3 2 (harm3 r) R s1 s2 q)))
      * productC racah 2 2 2 (sph t1) (sph t2) p = magnetic ρ X r R s1 s2 t1 t2 q p := by
  have hm : (0 : ℝ) < mpi := by
    rw [mpi]
    positivity
  have hmc : (mpi : ℂ) ≠ 0 := ofReal_ne_zero.mpr hm.ne'
  have hρc : (ρ : ℂ) ≠ 0 := ofReal_ne_zero.mpr hρ.ne'
  have hfc : (fpi : ℂ) ≠ 0 := ofReal_ne_zero.mpr (by rw [fpi]; positivity)
  have hpc : (Real.pi : ℂ) ≠ 0 := ofReal_ne_zero.mpr Real.pi_pos.ne'
  have n2 := sq2_ne
  have e2 : ((√2 : ℝ) : ℂ) ^ 2 = 2 := by rw [pow_two, sq2]
  rw [intrinsic_cartesian _ _ r s1 s2 hr hq, sachs_cartesian _ _ r R s1 s2 hr hq, product_cross racah_vec t1 t2 hp, magnetic,
    opePotential, sph_lin, sph_lin, hF 0, hF 1, hF 2, strength]
  generalize sph (along r (cross s1 s2)) q = A
  generalize sph (cross s1 s2) q = B
  generalize sph (cross r R) q = D
  generalize sph (cross t1 t2) p = E
  generalize dot s1 s2 = G
  generalize S12 r s1 s2 = H
  generalize √(3 / (4 * Real.pi)) = K
  push_cast
  generalize hexp : Complex.exp (-(mpi * ρ)) = e
  field_simp
  rw [e2, I_sq]
  ring

end Verif.Relative.Relcm
