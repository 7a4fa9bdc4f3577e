import Verif.Relative.Racah
import Verif.Relative.NLOM1Program

/-!
# Racah's coefficients satisfy the laws of the magnetic dipole current

for the channels `¹S0`, `³S1` and a state with both the relative and the centre-of-mass motion excited.
-/

namespace Verif.Relative.Relcm.Ex
open Verif Verif.H2 Verif.Osc Verif.Relative Axial Real

set_option linter.unusedSimpArgs false
set_option linter.unusedTactic false

theorem d110_m1_1 : racah 1 (-1) 1 1 0 0 = -(1/2) * √2 :=
  racah_val (s := -1) (x := 1/2) (by decide +kernel) (by decide +kernel) (by rw [root_eq (y := (1/2 : ℝ) * √2) (by positivity) (by ring_nf <;> norm_num)]; norm_num)

theorem d110_1_m1 : racah 1 1 1 (-1) 0 0 = (1/2) * √2 :=
  racah_val (s := 1) (x := 1/2) (by decide +kernel) (by decide +kernel) (by rw [root_eq (y := (1/2 : ℝ) * √2) (by positivity) (by ring_nf <;> norm_num)]; norm_num)

theorem d112_m1_m1 : racah 1 (-1) 1 (-1) 2 (-2) = (1) :=
  racah_val (s := 1) (x := 1) (by decide +kernel) (by decide +kernel) (by rw [root_eq (y := (1/1 : ℝ)) (by positivity) (by ring_nf <;> norm_num)]; norm_num)

theorem d112_m1_1 : racah 1 (-1) 1 1 2 0 = (1/2) * √2 :=
  racah_val (s := 1) (x := 1/2) (by decide +kernel) (by decide +kernel) (by rw [root_eq (y := (1/2 : ℝ) * √2) (by positivity) (by ring_nf <;> norm_num)]; norm_num)

theorem d112_1_m1 : racah 1 1 1 (-1) 2 0 = (1/2) * √2 :=
  racah_val (s := 1) (x := 1/2) (by decide +kernel) (by decide +kernel) (by rw [root_eq (y := (1/2 : ℝ) * √2) (by positivity) (by ring_nf <;> norm_num)]; norm_num)

theorem d112_1_1 : racah 1 1 1 1 2 2 = (1) :=
  racah_val (s := 1) (x := 1) (by decide +kernel) (by decide +kernel) (by rw [root_eq (y := (1/1 : ℝ)) (by positivity) (by ring_nf <;> norm_num)]; norm_num)

theorem d121_m1_0 : racah 1 (-1) 2 0 1 (-1) = -(1/3) * √3 :=
  racah_val (s := -1) (x := 1/3) (by decide +kernel) (by decide +kernel) (by rw [root_eq (y := (1/3 : ℝ) * √3) (by positivity) (by ring_nf <;> norm_num)]; norm_num)

theorem d121_m1_2 : racah 1 (-1) 2 2 1 1 = -(1/3) * √2 * √3 :=
  racah_val (s := -1) (x := 2/3) (by decide +kernel) (by decide +kernel) (by rw [root_eq (y := (1/3 : ℝ) * √2 * √3) (by positivity) (by ring_nf <;> norm_num)]; norm_num)

theorem d121_1_m2 : racah 1 1 2 (-2) 1 (-1) = (1/3) * √2 * √3 :=
  racah_val (s := 1) (x := 2/3) (by decide +kernel) (by decide +kernel) (by rw [root_eq (y := (1/3 : ℝ) * √2 * √3) (by positivity) (by ring_nf <;> norm_num)]; norm_num)

theorem d121_1_0 : racah 1 1 2 0 1 1 = (1/3) * √3 :=
  racah_val (s := 1) (x := 1/3) (by decide +kernel) (by decide +kernel) (by rw [root_eq (y := (1/3 : ℝ) * √3) (by positivity) (by ring_nf <;> norm_num)]; norm_num)

theorem d000_0_0 : racah 0 0 0 0 0 0 = (1) :=
  racah_val (s := 1) (x := 1) (by decide +kernel) (by decide +kernel) (by rw [root_eq (y := (1/1 : ℝ)) (by positivity) (by ring_nf <;> norm_num)]; norm_num)

theorem d022_0_m2 : racah 0 0 2 (-2) 2 (-2) = (1) :=
  racah_val (s := 1) (x := 1) (by decide +kernel) (by decide +kernel) (by rw [root_eq (y := (1/1 : ℝ)) (by positivity) (by ring_nf <;> norm_num)]; norm_num)

theorem d022_0_0 : racah 0 0 2 0 2 0 = (1) :=
  racah_val (s := 1) (x := 1) (by decide +kernel) (by decide +kernel) (by rw [root_eq (y := (1/1 : ℝ)) (by positivity) (by ring_nf <;> norm_num)]; norm_num)

theorem d022_0_2 : racah 0 0 2 2 2 2 = (1) :=
  racah_val (s := 1) (x := 1) (by decide +kernel) (by decide +kernel) (by rw [root_eq (y := (1/1 : ℝ)) (by positivity) (by ring_nf <;> norm_num)]; norm_num)

/-- A broken triangle. -/
theorem racah_tri {a u b v c q : Int} (h : c + a < b ∨ c + b < a ∨ a + b < c) : racah a u b v c q = 0 := by
  rw [racah]
  split_ifs
  · have : racahPre a u b v c q = 0 := by
      have z : ∀ n : Int, n < 0 → halfFac n = 0 := fun n h => if_neg (by omega)
      rw [racahPre]
      rcases h with h | h | h
      · rw [z (c + a - b) (by omega)]
        ring
      · rw [z (c - a + b) (by omega)]
        ring
      · rw [z (a + b - c) (by omega)]
        ring
    rw [this]
    simp
  · rfl

/-- Only the cases with conserved projections are to be checked. -/
theorem reduces12_of {f : ℝ} {a' b' j' a b j k1 k2 k : ℕ}
    (h : ∀ M' ∈ ms j', ∀ q ∈ ms k, ∀ M ∈ ms j, M + q = M' →
      couple racah a' b' j' a b j (fun x' y' x y => product racah k1 k2 k (fun u => racah a x k1 u a' x')
        (fun v => racah b y k2 v b' y') q) M' M = racah j M k q j' M' * f) :
    Reduces12 racah f a' b' j' a b j k1 k2 k := by
  intro M' hM' q hq M hM
  by_cases e : M + q = M'
  · exact h M' hM' q hq M hM e
  · rw [racah_zero e, zero_mul]
    refine Finset.sum_eq_zero fun x' _ => Finset.sum_eq_zero fun y' _ => Finset.sum_eq_zero fun x _ =>
      Finset.sum_eq_zero fun y _ => ?_
    beta_reduce
    by_cases e1 : x' + y' = M'
    swap
    · rw [racah_zero e1]
      ring
    by_cases e2 : x + y = M
    swap
    · rw [racah_zero e2]
      ring
    have : product racah k1 k2 k (fun u => racah a x k1 u a' x') (fun v => racah b y k2 v b' y') q = 0 := by
      refine Finset.sum_eq_zero fun u _ => Finset.sum_eq_zero fun v _ => ?_
      beta_reduce
      by_cases e3 : u + v = q
      swap
      · rw [racah_zero e3]
        ring
      by_cases e4 : x + u = x'
      swap
      · rw [racah_zero e4]
        ring
      by_cases e5 : y + v = y'
      swap
      · rw [racah_zero e5]
        ring
      omega
    rw [this, mul_zero]

theorem reduces12_zero1 {a' b' j' a b j k1 k2 k : ℕ} (h : a' + a < k1 ∨ a' + k1 < a ∨ a + k1 < a') :
    Reduces12 racah 0 a' b' j' a b j k1 k2 k := by
  intro M' _ q _ M _
  rw [mul_zero]
  refine Finset.sum_eq_zero fun x' _ => Finset.sum_eq_zero fun y' _ => Finset.sum_eq_zero fun x _ =>
    Finset.sum_eq_zero fun y _ => ?_
  beta_reduce
  have : product racah k1 k2 k (fun u => racah a x k1 u a' x') (fun v => racah b y k2 v b' y') q = 0 := by
    refine Finset.sum_eq_zero fun u _ => Finset.sum_eq_zero fun v _ => ?_
    beta_reduce
    rw [racah_tri (a := a) (b := k1) (by omega)]
    ring
  rw [this, mul_zero]

theorem reduces12_zero2 {a' b' j' a b j k1 k2 k : ℕ} (h : b' + b < k2 ∨ b' + k2 < b ∨ b + k2 < b') :
    Reduces12 racah 0 a' b' j' a b j k1 k2 k := by
  intro M' _ q _ M _
  rw [mul_zero]
  refine Finset.sum_eq_zero fun x' _ => Finset.sum_eq_zero fun y' _ => Finset.sum_eq_zero fun x _ =>
    Finset.sum_eq_zero fun y _ => ?_
  beta_reduce
  have : product racah k1 k2 k (fun u => racah a x k1 u a' x') (fun v => racah b y k2 v b' y') q = 0 := by
    refine Finset.sum_eq_zero fun u _ => Finset.sum_eq_zero fun v _ => ?_
    beta_reduce
    rw [racah_tri (a := b) (b := k2) (by omega)]
    ring
  rw [this, mul_zero]

theorem m0 : ms 0 = {0} := by decide
theorem m1 : ms 1 = {-1, 1} := by decide
theorem m2 : ms 2 = {-2, 0, 2} := by decide
theorem m4 : ms 4 = {-4, -2, 0, 2, 4} := by decide

theorem r220_0 (A B : Int → ℝ) : product racah 2 2 0 A B 0 = 0 + 1/3 * √3 * (A (-2) * B 2) - 1/3 * √3 * (A 0 * B 0) + 1/3 * √3 * (A 2 * B (-2)) := by
  have z : ∀ u v : Int, u + v ≠ 0 → racah 2 u 2 v 0 0 = 0 := fun u v h => racah_zero h
  rw [product, m2]
  simp [z, c110_m1_1, c110_0_0, c110_1_m1]
  try ring

theorem r222_m2 (A B : Int → ℝ) : product racah 2 2 2 A B (-2) = 0 - 1/2 * √2 * (A (-2) * B 0) + 1/2 * √2 * (A 0 * B (-2)) := by
  have z : ∀ u v : Int, u + v ≠ (-2) → racah 2 u 2 v 2 (-2) = 0 := fun u v h => racah_zero h
  rw [product, m2]
  simp [z, c111_m1_0, c111_0_m1]
  try ring

theorem r222_0 (A B : Int → ℝ) : product racah 2 2 2 A B 0 = 0 - 1/2 * √2 * (A (-2) * B 2) + 1/2 * √2 * (A 2 * B (-2)) := by
  have z : ∀ u v : Int, u + v ≠ 0 → racah 2 u 2 v 2 0 = 0 := fun u v h => racah_zero h
  rw [product, m2]
  simp [z, c111_m1_1, c111_0_0, c111_1_m1]
  try ring

theorem r222_2 (A B : Int → ℝ) : product racah 2 2 2 A B 2 = 0 - 1/2 * √2 * (A 0 * B 2) + 1/2 * √2 * (A 2 * B 0) := by
  have z : ∀ u v : Int, u + v ≠ 2 → racah 2 u 2 v 2 2 = 0 := fun u v h => racah_zero h
  rw [product, m2]
  simp [z, c111_0_1, c111_1_0]
  try ring

theorem r224_m4 (A B : Int → ℝ) : product racah 2 2 4 A B (-4) = 0 + 1/1 * (A (-2) * B (-2)) := by
  have z : ∀ u v : Int, u + v ≠ (-4) → racah 2 u 2 v 4 (-4) = 0 := fun u v h => racah_zero h
  rw [product, m2]
  simp [z, c112_m1_m1]
  try ring

theorem r224_m2 (A B : Int → ℝ) : product racah 2 2 4 A B (-2) = 0 + 1/2 * √2 * (A (-2) * B 0) + 1/2 * √2 * (A 0 * B (-2)) := by
  have z : ∀ u v : Int, u + v ≠ (-2) → racah 2 u 2 v 4 (-2) = 0 := fun u v h => racah_zero h
  rw [product, m2]
  simp [z, c112_m1_0, c112_0_m1]
  try ring

theorem r224_0 (A B : Int → ℝ) : product racah 2 2 4 A B 0 = 0 + 1/6 * √2 * √3 * (A (-2) * B 2) + 1/3 * √2 * √3 * (A 0 * B 0) + 1/6 * √2 * √3 * (A 2 * B (-2)) := by
  have z : ∀ u v : Int, u + v ≠ 0 → racah 2 u 2 v 4 0 = 0 := fun u v h => racah_zero h
  rw [product, m2]
  simp [z, c112_m1_1, c112_0_0, c112_1_m1]
  try ring

theorem r224_2 (A B : Int → ℝ) : product racah 2 2 4 A B 2 = 0 + 1/2 * √2 * (A 0 * B 2) + 1/2 * √2 * (A 2 * B 0) := by
  have z : ∀ u v : Int, u + v ≠ 2 → racah 2 u 2 v 4 2 = 0 := fun u v h => racah_zero h
  rw [product, m2]
  simp [z, c112_0_1, c112_1_0]
  try ring

theorem r224_4 (A B : Int → ℝ) : product racah 2 2 4 A B 4 = 0 + 1/1 * (A 2 * B 2) := by
  have z : ∀ u v : Int, u + v ≠ 4 → racah 2 u 2 v 4 4 = 0 := fun u v h => racah_zero h
  rw [product, m2]
  simp [z, c112_1_1]
  try ring

set_option maxHeartbeats 4000000 in
theorem pair000 : Reduces12 racah (1/3 * √3) 1 1 0 1 1 0 2 2 0 := by
  have z0 : ∀ u v q : Int, u + v ≠ q → racah 1 u 1 v 0 q = 0 := fun u v q h => racah_zero h
  have z2 : ∀ u v q : Int, u + v ≠ q → racah 1 u 1 v 2 q = 0 := fun u v q h => racah_zero h
  have z1 : ∀ u v q : Int, u + v ≠ q → racah 1 u 2 v 1 q = 0 := fun u v q h => racah_zero h
  have q2 : √2 ^ 2 = 2 := Real.sq_sqrt (by norm_num)
  have q22 : √2 ^ 4 = 4 := by rw [show √2 ^ 4 = (√2 ^ 2) ^ 2 by ring, q2]; norm_num
  have q23 : √2 ^ 3 = 2 * √2 := by rw [pow_succ, q2]
  have q25 : √2 ^ 5 = 4 * √2 := by rw [pow_succ, q22]
  have q3 : √3 ^ 2 = 3 := Real.sq_sqrt (by norm_num)
  have q33 : √3 ^ 3 = 3 * √3 := by rw [pow_succ, q3]
  have q5 : √5 ^ 2 = 5 := Real.sq_sqrt (by norm_num)
  refine reduces12_of fun M' hM' q hq M hM e => ?_
  simp only [m0, Finset.mem_insert, Finset.mem_singleton] at hM' hq hM
  rw [couple, m1]
  subst hM <;> subst hq <;>
    subst hM' <;> simp at e <;>
    simp [r220_0, r222_m2, r222_0, r222_2, r224_m4, r224_m2, r224_0, r224_2, r224_4, z0, z1, z2, d110_m1_1, d110_1_m1, d112_m1_m1, d112_m1_1, d112_1_m1, d112_1_1, d121_m1_0, d121_m1_2, d121_1_m2, d121_1_0, d000_0_0, d022_0_m2, d022_0_0, d022_0_2, d000_0_0] <;> ring_nf <;> simp only [q2, q22, q23, q25, q3, q33, q5] <;> ring_nf

set_option maxHeartbeats 4000000 in
theorem pair001 : Reduces12 racah (0) 1 1 0 1 1 0 2 2 2 := by
  have z0 : ∀ u v q : Int, u + v ≠ q → racah 1 u 1 v 0 q = 0 := fun u v q h => racah_zero h
  have z2 : ∀ u v q : Int, u + v ≠ q → racah 1 u 1 v 2 q = 0 := fun u v q h => racah_zero h
  have z1 : ∀ u v q : Int, u + v ≠ q → racah 1 u 2 v 1 q = 0 := fun u v q h => racah_zero h
  have q2 : √2 ^ 2 = 2 := Real.sq_sqrt (by norm_num)
  have q22 : √2 ^ 4 = 4 := by rw [show √2 ^ 4 = (√2 ^ 2) ^ 2 by ring, q2]; norm_num
  have q23 : √2 ^ 3 = 2 * √2 := by rw [pow_succ, q2]
  have q25 : √2 ^ 5 = 4 * √2 := by rw [pow_succ, q22]
  have q3 : √3 ^ 2 = 3 := Real.sq_sqrt (by norm_num)
  have q33 : √3 ^ 3 = 3 * √3 := by rw [pow_succ, q3]
  have q5 : √5 ^ 2 = 5 := Real.sq_sqrt (by norm_num)
  have zt : ∀ u v q : Int, racah 0 u 2 v 0 q = 0 := fun u v q => racah_tri (by omega)
  refine reduces12_of fun M' hM' q hq M hM e => ?_
  simp only [m0, m2, Finset.mem_insert, Finset.mem_singleton] at hM' hq hM
  rw [couple, m1]
  subst hM <;> rcases hq with rfl | rfl | rfl <;>
    subst hM' <;> simp at e <;>
    simp [r220_0, r222_m2, r222_0, r222_2, r224_m4, r224_m2, r224_0, r224_2, r224_4, z0, z1, z2, d110_m1_1, d110_1_m1, d112_m1_m1, d112_m1_1, d112_1_m1, d112_1_1, d121_m1_0, d121_m1_2, d121_1_m2, d121_1_0, d000_0_0, d022_0_m2, d022_0_0, d022_0_2, zt] <;> ring_nf <;> simp only [q2, q22, q23, q25, q3, q33, q5] <;> ring_nf

set_option maxHeartbeats 4000000 in
theorem pair002 : Reduces12 racah (0) 1 1 0 1 1 0 2 2 4 := by
  have z0 : ∀ u v q : Int, u + v ≠ q → racah 1 u 1 v 0 q = 0 := fun u v q h => racah_zero h
  have z2 : ∀ u v q : Int, u + v ≠ q → racah 1 u 1 v 2 q = 0 := fun u v q h => racah_zero h
  have z1 : ∀ u v q : Int, u + v ≠ q → racah 1 u 2 v 1 q = 0 := fun u v q h => racah_zero h
  have q2 : √2 ^ 2 = 2 := Real.sq_sqrt (by norm_num)
  have q22 : √2 ^ 4 = 4 := by rw [show √2 ^ 4 = (√2 ^ 2) ^ 2 by ring, q2]; norm_num
  have q23 : √2 ^ 3 = 2 * √2 := by rw [pow_succ, q2]
  have q25 : √2 ^ 5 = 4 * √2 := by rw [pow_succ, q22]
  have q3 : √3 ^ 2 = 3 := Real.sq_sqrt (by norm_num)
  have q33 : √3 ^ 3 = 3 * √3 := by rw [pow_succ, q3]
  have q5 : √5 ^ 2 = 5 := Real.sq_sqrt (by norm_num)
  have zt : ∀ u v q : Int, racah 0 u 4 v 0 q = 0 := fun u v q => racah_tri (by omega)
  refine reduces12_of fun M' hM' q hq M hM e => ?_
  simp only [m0, m4, Finset.mem_insert, Finset.mem_singleton] at hM' hq hM
  rw [couple, m1]
  subst hM <;> rcases hq with rfl | rfl | rfl | rfl | rfl <;>
    subst hM' <;> simp at e <;>
    simp [r220_0, r222_m2, r222_0, r222_2, r224_m4, r224_m2, r224_0, r224_2, r224_4, z0, z1, z2, d110_m1_1, d110_1_m1, d112_m1_m1, d112_m1_1, d112_1_m1, d112_1_1, d121_m1_0, d121_m1_2, d121_1_m2, d121_1_0, d000_0_0, d022_0_m2, d022_0_0, d022_0_2, zt] <;> ring_nf <;> simp only [q2, q22, q23, q25, q3, q33, q5] <;> ring_nf

set_option maxHeartbeats 4000000 in
theorem pair010 : Reduces12 racah (0) 1 1 0 1 1 2 2 2 0 := by
  have z0 : ∀ u v q : Int, u + v ≠ q → racah 1 u 1 v 0 q = 0 := fun u v q h => racah_zero h
  have z2 : ∀ u v q : Int, u + v ≠ q → racah 1 u 1 v 2 q = 0 := fun u v q h => racah_zero h
  have z1 : ∀ u v q : Int, u + v ≠ q → racah 1 u 2 v 1 q = 0 := fun u v q h => racah_zero h
  have q2 : √2 ^ 2 = 2 := Real.sq_sqrt (by norm_num)
  have q22 : √2 ^ 4 = 4 := by rw [show √2 ^ 4 = (√2 ^ 2) ^ 2 by ring, q2]; norm_num
  have q23 : √2 ^ 3 = 2 * √2 := by rw [pow_succ, q2]
  have q25 : √2 ^ 5 = 4 * √2 := by rw [pow_succ, q22]
  have q3 : √3 ^ 2 = 3 := Real.sq_sqrt (by norm_num)
  have q33 : √3 ^ 3 = 3 * √3 := by rw [pow_succ, q3]
  have q5 : √5 ^ 2 = 5 := Real.sq_sqrt (by norm_num)
  have zt : ∀ u v q : Int, racah 2 u 0 v 0 q = 0 := fun u v q => racah_tri (by omega)
  refine reduces12_of fun M' hM' q hq M hM e => ?_
  simp only [m0, m2, Finset.mem_insert, Finset.mem_singleton] at hM' hq hM
  rw [couple, m1]
  rcases hM with rfl | rfl | rfl <;> subst hq <;>
    subst hM' <;> simp at e <;>
    simp [r220_0, r222_m2, r222_0, r222_2, r224_m4, r224_m2, r224_0, r224_2, r224_4, z0, z1, z2, d110_m1_1, d110_1_m1, d112_m1_m1, d112_m1_1, d112_1_m1, d112_1_1, d121_m1_0, d121_m1_2, d121_1_m2, d121_1_0, d000_0_0, d022_0_m2, d022_0_0, d022_0_2, zt] <;> ring_nf <;> simp only [q2, q22, q23, q25, q3, q33, q5] <;> ring_nf

set_option maxHeartbeats 4000000 in
theorem pair011 : Reduces12 racah (1/3 * √2 * √3) 1 1 0 1 1 2 2 2 2 := by
  have z0 : ∀ u v q : Int, u + v ≠ q → racah 1 u 1 v 0 q = 0 := fun u v q h => racah_zero h
  have z2 : ∀ u v q : Int, u + v ≠ q → racah 1 u 1 v 2 q = 0 := fun u v q h => racah_zero h
  have z1 : ∀ u v q : Int, u + v ≠ q → racah 1 u 2 v 1 q = 0 := fun u v q h => racah_zero h
  have q2 : √2 ^ 2 = 2 := Real.sq_sqrt (by norm_num)
  have q22 : √2 ^ 4 = 4 := by rw [show √2 ^ 4 = (√2 ^ 2) ^ 2 by ring, q2]; norm_num
  have q23 : √2 ^ 3 = 2 * √2 := by rw [pow_succ, q2]
  have q25 : √2 ^ 5 = 4 * √2 := by rw [pow_succ, q22]
  have q3 : √3 ^ 2 = 3 := Real.sq_sqrt (by norm_num)
  have q33 : √3 ^ 3 = 3 * √3 := by rw [pow_succ, q3]
  have q5 : √5 ^ 2 = 5 := Real.sq_sqrt (by norm_num)
  refine reduces12_of fun M' hM' q hq M hM e => ?_
  simp only [m0, m2, Finset.mem_insert, Finset.mem_singleton] at hM' hq hM
  rw [couple, m1]
  rcases hM with rfl | rfl | rfl <;> rcases hq with rfl | rfl | rfl <;>
    subst hM' <;> simp at e <;>
    simp [r220_0, r222_m2, r222_0, r222_2, r224_m4, r224_m2, r224_0, r224_2, r224_4, z0, z1, z2, d110_m1_1, d110_1_m1, d112_m1_m1, d112_m1_1, d112_1_m1, d112_1_1, d121_m1_0, d121_m1_2, d121_1_m2, d121_1_0, d000_0_0, d022_0_m2, d022_0_0, d022_0_2, c110_m1_1, c110_0_0, c110_1_m1] <;> ring_nf <;> simp only [q2, q22, q23, q25, q3, q33, q5] <;> ring_nf

set_option maxHeartbeats 4000000 in
theorem pair012 : Reduces12 racah (0) 1 1 0 1 1 2 2 2 4 := by
  have z0 : ∀ u v q : Int, u + v ≠ q → racah 1 u 1 v 0 q = 0 := fun u v q h => racah_zero h
  have z2 : ∀ u v q : Int, u + v ≠ q → racah 1 u 1 v 2 q = 0 := fun u v q h => racah_zero h
  have z1 : ∀ u v q : Int, u + v ≠ q → racah 1 u 2 v 1 q = 0 := fun u v q h => racah_zero h
  have q2 : √2 ^ 2 = 2 := Real.sq_sqrt (by norm_num)
  have q22 : √2 ^ 4 = 4 := by rw [show √2 ^ 4 = (√2 ^ 2) ^ 2 by ring, q2]; norm_num
  have q23 : √2 ^ 3 = 2 * √2 := by rw [pow_succ, q2]
  have q25 : √2 ^ 5 = 4 * √2 := by rw [pow_succ, q22]
  have q3 : √3 ^ 2 = 3 := Real.sq_sqrt (by norm_num)
  have q33 : √3 ^ 3 = 3 * √3 := by rw [pow_succ, q3]
  have q5 : √5 ^ 2 = 5 := Real.sq_sqrt (by norm_num)
  have zt : ∀ u v q : Int, racah 2 u 4 v 0 q = 0 := fun u v q => racah_tri (by omega)
  refine reduces12_of fun M' hM' q hq M hM e => ?_
  simp only [m0, m4, m2, Finset.mem_insert, Finset.mem_singleton] at hM' hq hM
  rw [couple, m1]
  rcases hM with rfl | rfl | rfl <;> rcases hq with rfl | rfl | rfl | rfl | rfl <;>
    subst hM' <;> simp at e <;>
    simp [r220_0, r222_m2, r222_0, r222_2, r224_m4, r224_m2, r224_0, r224_2, r224_4, z0, z1, z2, d110_m1_1, d110_1_m1, d112_m1_m1, d112_m1_1, d112_1_m1, d112_1_1, d121_m1_0, d121_m1_2, d121_1_m2, d121_1_0, d000_0_0, d022_0_m2, d022_0_0, d022_0_2, zt] <;> ring_nf <;> simp only [q2, q22, q23, q25, q3, q33, q5] <;> ring_nf

set_option maxHeartbeats 4000000 in
theorem pair100 : Reduces12 racah (0) 1 1 2 1 1 0 2 2 0 := by
  have z0 : ∀ u v q : Int, u + v ≠ q → racah 1 u 1 v 0 q = 0 := fun u v q h => racah_zero h
  have z2 : ∀ u v q : Int, u + v ≠ q → racah 1 u 1 v 2 q = 0 := fun u v q h => racah_zero h
  have z1 : ∀ u v q : Int, u + v ≠ q → racah 1 u 2 v 1 q = 0 := fun u v q h => racah_zero h
  have q2 : √2 ^ 2 = 2 := Real.sq_sqrt (by norm_num)
  have q22 : √2 ^ 4 = 4 := by rw [show √2 ^ 4 = (√2 ^ 2) ^ 2 by ring, q2]; norm_num
  have q23 : √2 ^ 3 = 2 * √2 := by rw [pow_succ, q2]
  have q25 : √2 ^ 5 = 4 * √2 := by rw [pow_succ, q22]
  have q3 : √3 ^ 2 = 3 := Real.sq_sqrt (by norm_num)
  have q33 : √3 ^ 3 = 3 * √3 := by rw [pow_succ, q3]
  have q5 : √5 ^ 2 = 5 := Real.sq_sqrt (by norm_num)
  have zt : ∀ u v q : Int, racah 0 u 0 v 2 q = 0 := fun u v q => racah_tri (by omega)
  refine reduces12_of fun M' hM' q hq M hM e => ?_
  simp only [m2, m0, Finset.mem_insert, Finset.mem_singleton] at hM' hq hM
  rw [couple, m1]
  subst hM <;> subst hq <;>
    rcases hM' with rfl | rfl | rfl <;> simp at e <;>
    simp [r220_0, r222_m2, r222_0, r222_2, r224_m4, r224_m2, r224_0, r224_2, r224_4, z0, z1, z2, d110_m1_1, d110_1_m1, d112_m1_m1, d112_m1_1, d112_1_m1, d112_1_1, d121_m1_0, d121_m1_2, d121_1_m2, d121_1_0, d000_0_0, d022_0_m2, d022_0_0, d022_0_2, zt] <;> ring_nf <;> simp only [q2, q22, q23, q25, q3, q33, q5] <;> ring_nf

set_option maxHeartbeats 4000000 in
theorem pair101 : Reduces12 racah (1/3 * √2) 1 1 2 1 1 0 2 2 2 := by
  have z0 : ∀ u v q : Int, u + v ≠ q → racah 1 u 1 v 0 q = 0 := fun u v q h => racah_zero h
  have z2 : ∀ u v q : Int, u + v ≠ q → racah 1 u 1 v 2 q = 0 := fun u v q h => racah_zero h
  have z1 : ∀ u v q : Int, u + v ≠ q → racah 1 u 2 v 1 q = 0 := fun u v q h => racah_zero h
  have q2 : √2 ^ 2 = 2 := Real.sq_sqrt (by norm_num)
  have q22 : √2 ^ 4 = 4 := by rw [show √2 ^ 4 = (√2 ^ 2) ^ 2 by ring, q2]; norm_num
  have q23 : √2 ^ 3 = 2 * √2 := by rw [pow_succ, q2]
  have q25 : √2 ^ 5 = 4 * √2 := by rw [pow_succ, q22]
  have q3 : √3 ^ 2 = 3 := Real.sq_sqrt (by norm_num)
  have q33 : √3 ^ 3 = 3 * √3 := by rw [pow_succ, q3]
  have q5 : √5 ^ 2 = 5 := Real.sq_sqrt (by norm_num)
  refine reduces12_of fun M' hM' q hq M hM e => ?_
  simp only [m2, m0, Finset.mem_insert, Finset.mem_singleton] at hM' hq hM
  rw [couple, m1]
  subst hM <;> rcases hq with rfl | rfl | rfl <;>
    rcases hM' with rfl | rfl | rfl <;> simp at e <;>
    simp [r220_0, r222_m2, r222_0, r222_2, r224_m4, r224_m2, r224_0, r224_2, r224_4, z0, z1, z2, d110_m1_1, d110_1_m1, d112_m1_m1, d112_m1_1, d112_1_m1, d112_1_1, d121_m1_0, d121_m1_2, d121_1_m2, d121_1_0, d000_0_0, d022_0_m2, d022_0_0, d022_0_2, d022_0_m2, d022_0_0, d022_0_2] <;> ring_nf <;> simp only [q2, q22, q23, q25, q3, q33, q5] <;> ring_nf

set_option maxHeartbeats 4000000 in
theorem pair102 : Reduces12 racah (0) 1 1 2 1 1 0 2 2 4 := by
  have z0 : ∀ u v q : Int, u + v ≠ q → racah 1 u 1 v 0 q = 0 := fun u v q h => racah_zero h
  have z2 : ∀ u v q : Int, u + v ≠ q → racah 1 u 1 v 2 q = 0 := fun u v q h => racah_zero h
  have z1 : ∀ u v q : Int, u + v ≠ q → racah 1 u 2 v 1 q = 0 := fun u v q h => racah_zero h
  have q2 : √2 ^ 2 = 2 := Real.sq_sqrt (by norm_num)
  have q22 : √2 ^ 4 = 4 := by rw [show √2 ^ 4 = (√2 ^ 2) ^ 2 by ring, q2]; norm_num
  have q23 : √2 ^ 3 = 2 * √2 := by rw [pow_succ, q2]
  have q25 : √2 ^ 5 = 4 * √2 := by rw [pow_succ, q22]
  have q3 : √3 ^ 2 = 3 := Real.sq_sqrt (by norm_num)
  have q33 : √3 ^ 3 = 3 * √3 := by rw [pow_succ, q3]
  have q5 : √5 ^ 2 = 5 := Real.sq_sqrt (by norm_num)
  have zt : ∀ u v q : Int, racah 0 u 4 v 2 q = 0 := fun u v q => racah_tri (by omega)
  refine reduces12_of fun M' hM' q hq M hM e => ?_
  simp only [m2, m4, m0, Finset.mem_insert, Finset.mem_singleton] at hM' hq hM
  rw [couple, m1]
  subst hM <;> rcases hq with rfl | rfl | rfl | rfl | rfl <;>
    rcases hM' with rfl | rfl | rfl <;> simp at e <;>
    simp [r220_0, r222_m2, r222_0, r222_2, r224_m4, r224_m2, r224_0, r224_2, r224_4, z0, z1, z2, d110_m1_1, d110_1_m1, d112_m1_m1, d112_m1_1, d112_1_m1, d112_1_1, d121_m1_0, d121_m1_2, d121_1_m2, d121_1_0, d000_0_0, d022_0_m2, d022_0_0, d022_0_2, zt] <;> ring_nf <;> simp only [q2, q22, q23, q25, q3, q33, q5] <;> ring_nf

set_option maxHeartbeats 4000000 in
theorem pair110 : Reduces12 racah (-(1/9 * √3)) 1 1 2 1 1 2 2 2 0 := by
  have z0 : ∀ u v q : Int, u + v ≠ q → racah 1 u 1 v 0 q = 0 := fun u v q h => racah_zero h
  have z2 : ∀ u v q : Int, u + v ≠ q → racah 1 u 1 v 2 q = 0 := fun u v q h => racah_zero h
  have z1 : ∀ u v q : Int, u + v ≠ q → racah 1 u 2 v 1 q = 0 := fun u v q h => racah_zero h
  have q2 : √2 ^ 2 = 2 := Real.sq_sqrt (by norm_num)
  have q22 : √2 ^ 4 = 4 := by rw [show √2 ^ 4 = (√2 ^ 2) ^ 2 by ring, q2]; norm_num
  have q23 : √2 ^ 3 = 2 * √2 := by rw [pow_succ, q2]
  have q25 : √2 ^ 5 = 4 * √2 := by rw [pow_succ, q22]
  have q3 : √3 ^ 2 = 3 := Real.sq_sqrt (by norm_num)
  have q33 : √3 ^ 3 = 3 * √3 := by rw [pow_succ, q3]
  have q5 : √5 ^ 2 = 5 := Real.sq_sqrt (by norm_num)
  refine reduces12_of fun M' hM' q hq M hM e => ?_
  simp only [m2, m0, Finset.mem_insert, Finset.mem_singleton] at hM' hq hM
  rw [couple, m1]
  rcases hM with rfl | rfl | rfl <;> subst hq <;>
    rcases hM' with rfl | rfl | rfl <;> simp at e <;>
    simp [r220_0, r222_m2, r222_0, r222_2, r224_m4, r224_m2, r224_0, r224_2, r224_4, z0, z1, z2, d110_m1_1, d110_1_m1, d112_m1_m1, d112_m1_1, d112_1_m1, d112_1_1, d121_m1_0, d121_m1_2, d121_1_m2, d121_1_0, d000_0_0, d022_0_m2, d022_0_0, d022_0_2, c101_m1_0, c101_0_0, c101_1_0] <;> ring_nf <;> simp only [q2, q22, q23, q25, q3, q33, q5] <;> ring_nf

set_option maxHeartbeats 4000000 in
theorem pair111 : Reduces12 racah (0) 1 1 2 1 1 2 2 2 2 := by
  have z0 : ∀ u v q : Int, u + v ≠ q → racah 1 u 1 v 0 q = 0 := fun u v q h => racah_zero h
  have z2 : ∀ u v q : Int, u + v ≠ q → racah 1 u 1 v 2 q = 0 := fun u v q h => racah_zero h
  have z1 : ∀ u v q : Int, u + v ≠ q → racah 1 u 2 v 1 q = 0 := fun u v q h => racah_zero h
  have q2 : √2 ^ 2 = 2 := Real.sq_sqrt (by norm_num)
  have q22 : √2 ^ 4 = 4 := by rw [show √2 ^ 4 = (√2 ^ 2) ^ 2 by ring, q2]; norm_num
  have q23 : √2 ^ 3 = 2 * √2 := by rw [pow_succ, q2]
  have q25 : √2 ^ 5 = 4 * √2 := by rw [pow_succ, q22]
  have q3 : √3 ^ 2 = 3 := Real.sq_sqrt (by norm_num)
  have q33 : √3 ^ 3 = 3 * √3 := by rw [pow_succ, q3]
  have q5 : √5 ^ 2 = 5 := Real.sq_sqrt (by norm_num)
  refine reduces12_of fun M' hM' q hq M hM e => ?_
  simp only [m2, Finset.mem_insert, Finset.mem_singleton] at hM' hq hM
  rw [couple, m1]
  rcases hM with rfl | rfl | rfl <;> rcases hq with rfl | rfl | rfl <;>
    rcases hM' with rfl | rfl | rfl <;> simp at e <;>
    simp [r220_0, r222_m2, r222_0, r222_2, r224_m4, r224_m2, r224_0, r224_2, r224_4, z0, z1, z2, d110_m1_1, d110_1_m1, d112_m1_m1, d112_m1_1, d112_1_m1, d112_1_1, d121_m1_0, d121_m1_2, d121_1_m2, d121_1_0, d000_0_0, d022_0_m2, d022_0_0, d022_0_2, c111_m1_0, c111_m1_1, c111_0_m1, c111_0_0, c111_0_1, c111_1_m1, c111_1_0] <;> ring_nf <;> simp only [q2, q22, q23, q25, q3, q33, q5] <;> ring_nf

set_option maxHeartbeats 4000000 in
theorem pair112 : Reduces12 racah (2/9 * √3 * √5) 1 1 2 1 1 2 2 2 4 := by
  have z0 : ∀ u v q : Int, u + v ≠ q → racah 1 u 1 v 0 q = 0 := fun u v q h => racah_zero h
  have z2 : ∀ u v q : Int, u + v ≠ q → racah 1 u 1 v 2 q = 0 := fun u v q h => racah_zero h
  have z1 : ∀ u v q : Int, u + v ≠ q → racah 1 u 2 v 1 q = 0 := fun u v q h => racah_zero h
  have q2 : √2 ^ 2 = 2 := Real.sq_sqrt (by norm_num)
  have q22 : √2 ^ 4 = 4 := by rw [show √2 ^ 4 = (√2 ^ 2) ^ 2 by ring, q2]; norm_num
  have q23 : √2 ^ 3 = 2 * √2 := by rw [pow_succ, q2]
  have q25 : √2 ^ 5 = 4 * √2 := by rw [pow_succ, q22]
  have q3 : √3 ^ 2 = 3 := Real.sq_sqrt (by norm_num)
  have q33 : √3 ^ 3 = 3 * √3 := by rw [pow_succ, q3]
  have q5 : √5 ^ 2 = 5 := Real.sq_sqrt (by norm_num)
  refine reduces12_of fun M' hM' q hq M hM e => ?_
  simp only [m2, m4, Finset.mem_insert, Finset.mem_singleton] at hM' hq hM
  rw [couple, m1]
  rcases hM with rfl | rfl | rfl <;> rcases hq with rfl | rfl | rfl | rfl | rfl <;>
    rcases hM' with rfl | rfl | rfl <;> simp at e <;>
    simp [r220_0, r222_m2, r222_0, r222_2, r224_m4, r224_m2, r224_0, r224_2, r224_4, z0, z1, z2, d110_m1_1, d110_1_m1, d112_m1_m1, d112_m1_1, d112_1_m1, d112_1_1, d121_m1_0, d121_m1_2, d121_1_m2, d121_1_0, d000_0_0, d022_0_m2, d022_0_0, d022_0_2, c121_m1_0, c121_m1_1, c121_m1_2, c121_0_m1, c121_0_0, c121_0_1, c121_1_m2, c121_1_m1, c121_1_0] <;> ring_nf <;> simp only [q2, q22, q23, q25, q3, q33, q5] <;> ring_nf

end Verif.Relative.Relcm.Ex
