import Verif.Relative.AmSpec
import Mathlib.Tactic.FieldSimp
import Mathlib.Tactic.LinearCombination
import Mathlib.Tactic.Positivity
import Mathlib.Data.Nat.Factorial.Basic

/-!
# Clebsch-Gordan coefficients by Racah's formula

Angular momenta and projections are doubled.  The formula is evaluated, by the kernel, for the ranks which occur in the
magnetic dipole current.
-/

namespace Verif.Relative.Axial

/-- Factorial of half of `n`; zero if that is not a natural number, so that terms over it vanish. -/
def halfFac (n : Int) : ℚ := if 0 ≤ n ∧ n % 2 = 0 then ((n / 2).toNat.factorial : ℚ) else 0

/-- The alternating sum; terms with the factorial of a negative number vanish. -/
def racahSum (a u b v c : Int) : ℚ :=
  ((List.range ((a + b - c) / 2 + 1).toNat).map fun k : ℕ =>
    (-1 : ℚ) ^ k / (halfFac (2 * k) * halfFac (a + b - c - 2 * k) * halfFac (a - u - 2 * k) * halfFac (b + v - 2 * k)
      * halfFac (c - b + u + 2 * k) * halfFac (c - a - v + 2 * k))).sum

/-- The square of the coefficient over the square of the sum. -/
def racahPre (a u b v c q : Int) : ℚ :=
  (c + 1) * halfFac (c + a - b) * halfFac (c - a + b) * halfFac (a + b - c) / halfFac (a + b + c + 2)
    * (halfFac (c + q) * halfFac (c - q) * halfFac (a - u) * halfFac (a + u) * halfFac (b - v) * halfFac (b + v))

/-- `(a u, b v | c q)`. -/
noncomputable def racah : Cg := fun a u b v c q =>
  if u + v = q then (racahSum a u b v c : ℝ) * Real.sqrt (racahPre a u b v c q : ℝ) else 0

/-- Sign. -/
def sgn (x : ℚ) : Int := if 0 < x then 1 else if x < 0 then -1 else 0

theorem racah_zero {a u b v c q : Int} (h : u + v ≠ q) : racah a u b v c q = 0 := by rw [racah, if_neg h]

open Real in
theorem root_eq {x y : ℝ} (hy : 0 ≤ y) (h : y * y = x) : √x = y := by rw [← h, Real.sqrt_mul_self hy]

open Real in
theorem racah_val {a u b v c : Int} {q : Int} {s : Int} {x : ℚ} {y : ℝ} (hs : u + v = q ∧ sgn (racahSum a u b v c) = s)
    (hx : racahPre a u b v c q * racahSum a u b v c ^ 2 = x) (h : (s : ℝ) * √(x : ℝ) = y) : racah a u b v c q = y := by
  rw [racah, if_pos hs.1, ← h, ← hx]
  push_cast
  rcases lt_trichotomy (racahSum a u b v c) 0 with h0 | h0 | h0
  · have e : s = -1 := by rw [← hs.2, sgn, if_neg (not_lt.mpr h0.le), if_pos h0]
    have : ((racahSum a u b v c : ℚ) : ℝ) < 0 := by exact_mod_cast h0
    rw [e, mul_comm (racahPre a u b v c q : ℝ), Real.sqrt_mul (by positivity), Real.sqrt_sq_eq_abs, abs_of_neg this]
    push_cast
    ring
  · rw [h0]
    simp
  · have e : s = 1 := by rw [← hs.2, sgn, if_pos h0]
    have : (0 : ℝ) < ((racahSum a u b v c : ℚ) : ℝ) := by exact_mod_cast h0
    rw [e, mul_comm (racahPre a u b v c q : ℝ), Real.sqrt_mul (by positivity), Real.sqrt_sq_eq_abs, abs_of_pos this]
    push_cast
    ring

open Real

theorem c110_m1_1 : racah 2 (-2) 2 2 0 0 = (1/3) * √3 :=
  racah_val (s := 1) (x := 1/3) (by decide +kernel) (by decide +kernel) (by rw [root_eq (y := (1/3 : ℝ) * √3) (by positivity) (by ring_nf <;> norm_num)]; norm_num)

theorem c110_0_0 : racah 2 0 2 0 0 0 = -(1/3) * √3 :=
  racah_val (s := -1) (x := 1/3) (by decide +kernel) (by decide +kernel) (by rw [root_eq (y := (1/3 : ℝ) * √3) (by positivity) (by ring_nf <;> norm_num)]; norm_num)

theorem c110_1_m1 : racah 2 2 2 (-2) 0 0 = (1/3) * √3 :=
  racah_val (s := 1) (x := 1/3) (by decide +kernel) (by decide +kernel) (by rw [root_eq (y := (1/3 : ℝ) * √3) (by positivity) (by ring_nf <;> norm_num)]; norm_num)

theorem c111_m1_0 : racah 2 (-2) 2 0 2 (-2) = -(1/2) * √2 :=
  racah_val (s := -1) (x := 1/2) (by decide +kernel) (by decide +kernel) (by rw [root_eq (y := (1/2 : ℝ) * √2) (by positivity) (by ring_nf <;> norm_num)]; norm_num)

theorem c111_0_m1 : racah 2 0 2 (-2) 2 (-2) = (1/2) * √2 :=
  racah_val (s := 1) (x := 1/2) (by decide +kernel) (by decide +kernel) (by rw [root_eq (y := (1/2 : ℝ) * √2) (by positivity) (by ring_nf <;> norm_num)]; norm_num)

theorem c111_m1_1 : racah 2 (-2) 2 2 2 0 = -(1/2) * √2 :=
  racah_val (s := -1) (x := 1/2) (by decide +kernel) (by decide +kernel) (by rw [root_eq (y := (1/2 : ℝ) * √2) (by positivity) (by ring_nf <;> norm_num)]; norm_num)

theorem c111_0_0 : racah 2 0 2 0 2 0 = 0 := racah_val (s := 0) (x := 0) (by decide +kernel) (by decide +kernel) (by simp)

theorem c111_1_m1 : racah 2 2 2 (-2) 2 0 = (1/2) * √2 :=
  racah_val (s := 1) (x := 1/2) (by decide +kernel) (by decide +kernel) (by rw [root_eq (y := (1/2 : ℝ) * √2) (by positivity) (by ring_nf <;> norm_num)]; norm_num)

theorem c111_0_1 : racah 2 0 2 2 2 2 = -(1/2) * √2 :=
  racah_val (s := -1) (x := 1/2) (by decide +kernel) (by decide +kernel) (by rw [root_eq (y := (1/2 : ℝ) * √2) (by positivity) (by ring_nf <;> norm_num)]; norm_num)

theorem c111_1_0 : racah 2 2 2 0 2 2 = (1/2) * √2 :=
  racah_val (s := 1) (x := 1/2) (by decide +kernel) (by decide +kernel) (by rw [root_eq (y := (1/2 : ℝ) * √2) (by positivity) (by ring_nf <;> norm_num)]; norm_num)

theorem c112_m1_m1 : racah 2 (-2) 2 (-2) 4 (-4) = (1) :=
  racah_val (s := 1) (x := 1) (by decide +kernel) (by decide +kernel) (by rw [root_eq (y := (1/1 : ℝ)) (by positivity) (by ring_nf <;> norm_num)]; norm_num)

theorem c112_m1_0 : racah 2 (-2) 2 0 4 (-2) = (1/2) * √2 :=
  racah_val (s := 1) (x := 1/2) (by decide +kernel) (by decide +kernel) (by rw [root_eq (y := (1/2 : ℝ) * √2) (by positivity) (by ring_nf <;> norm_num)]; norm_num)

theorem c112_0_m1 : racah 2 0 2 (-2) 4 (-2) = (1/2) * √2 :=
  racah_val (s := 1) (x := 1/2) (by decide +kernel) (by decide +kernel) (by rw [root_eq (y := (1/2 : ℝ) * √2) (by positivity) (by ring_nf <;> norm_num)]; norm_num)

theorem c112_m1_1 : racah 2 (-2) 2 2 4 0 = (1/6) * √2 * √3 :=
  racah_val (s := 1) (x := 1/6) (by decide +kernel) (by decide +kernel) (by rw [root_eq (y := (1/6 : ℝ) * √2 * √3) (by positivity) (by ring_nf <;> norm_num)]; norm_num)

theorem c112_0_0 : racah 2 0 2 0 4 0 = (1/3) * √2 * √3 :=
  racah_val (s := 1) (x := 2/3) (by decide +kernel) (by decide +kernel) (by rw [root_eq (y := (1/3 : ℝ) * √2 * √3) (by positivity) (by ring_nf <;> norm_num)]; norm_num)

theorem c112_1_m1 : racah 2 2 2 (-2) 4 0 = (1/6) * √2 * √3 :=
  racah_val (s := 1) (x := 1/6) (by decide +kernel) (by decide +kernel) (by rw [root_eq (y := (1/6 : ℝ) * √2 * √3) (by positivity) (by ring_nf <;> norm_num)]; norm_num)

theorem c112_0_1 : racah 2 0 2 2 4 2 = (1/2) * √2 :=
  racah_val (s := 1) (x := 1/2) (by decide +kernel) (by decide +kernel) (by rw [root_eq (y := (1/2 : ℝ) * √2) (by positivity) (by ring_nf <;> norm_num)]; norm_num)

theorem c112_1_0 : racah 2 2 2 0 4 2 = (1/2) * √2 :=
  racah_val (s := 1) (x := 1/2) (by decide +kernel) (by decide +kernel) (by rw [root_eq (y := (1/2 : ℝ) * √2) (by positivity) (by ring_nf <;> norm_num)]; norm_num)

theorem c112_1_1 : racah 2 2 2 2 4 4 = (1) :=
  racah_val (s := 1) (x := 1) (by decide +kernel) (by decide +kernel) (by rw [root_eq (y := (1/1 : ℝ)) (by positivity) (by ring_nf <;> norm_num)]; norm_num)

theorem c312_m3_1 : racah 6 (-6) 2 2 4 (-4) = (1/7) * √5 * √7 :=
  racah_val (s := 1) (x := 5/7) (by decide +kernel) (by decide +kernel) (by rw [root_eq (y := (1/7 : ℝ) * √5 * √7) (by positivity) (by ring_nf <;> norm_num)]; norm_num)

theorem c312_m2_0 : racah 6 (-4) 2 0 4 (-4) = -(1/21) * √3 * √5 * √7 :=
  racah_val (s := -1) (x := 5/21) (by decide +kernel) (by decide +kernel) (by rw [root_eq (y := (1/21 : ℝ) * √3 * √5 * √7) (by positivity) (by ring_nf <;> norm_num)]; norm_num)

theorem c312_m1_m1 : racah 6 (-2) 2 (-2) 4 (-4) = (1/21) * √3 * √7 :=
  racah_val (s := 1) (x := 1/21) (by decide +kernel) (by decide +kernel) (by rw [root_eq (y := (1/21 : ℝ) * √3 * √7) (by positivity) (by ring_nf <;> norm_num)]; norm_num)

theorem c312_m2_1 : racah 6 (-4) 2 2 4 (-2) = (1/21) * √2 * √3 * √5 * √7 :=
  racah_val (s := 1) (x := 10/21) (by decide +kernel) (by decide +kernel) (by rw [root_eq (y := (1/21 : ℝ) * √2 * √3 * √5 * √7) (by positivity) (by ring_nf <;> norm_num)]; norm_num)

theorem c312_m1_0 : racah 6 (-2) 2 0 4 (-2) = -(2/21) * √2 * √3 * √7 :=
  racah_val (s := -1) (x := 8/21) (by decide +kernel) (by decide +kernel) (by rw [root_eq (y := (2/21 : ℝ) * √2 * √3 * √7) (by positivity) (by ring_nf <;> norm_num)]; norm_num)

theorem c312_0_m1 : racah 6 0 2 (-2) 4 (-2) = (1/7) * √7 :=
  racah_val (s := 1) (x := 1/7) (by decide +kernel) (by decide +kernel) (by rw [root_eq (y := (1/7 : ℝ) * √7) (by positivity) (by ring_nf <;> norm_num)]; norm_num)

theorem c312_m1_1 : racah 6 (-2) 2 2 4 0 = (1/7) * √2 * √7 :=
  racah_val (s := 1) (x := 2/7) (by decide +kernel) (by decide +kernel) (by rw [root_eq (y := (1/7 : ℝ) * √2 * √7) (by positivity) (by ring_nf <;> norm_num)]; norm_num)

theorem c312_0_0 : racah 6 0 2 0 4 0 = -(1/7) * √3 * √7 :=
  racah_val (s := -1) (x := 3/7) (by decide +kernel) (by decide +kernel) (by rw [root_eq (y := (1/7 : ℝ) * √3 * √7) (by positivity) (by ring_nf <;> norm_num)]; norm_num)

theorem c312_1_m1 : racah 6 2 2 (-2) 4 0 = (1/7) * √2 * √7 :=
  racah_val (s := 1) (x := 2/7) (by decide +kernel) (by decide +kernel) (by rw [root_eq (y := (1/7 : ℝ) * √2 * √7) (by positivity) (by ring_nf <;> norm_num)]; norm_num)

theorem c312_0_1 : racah 6 0 2 2 4 2 = (1/7) * √7 :=
  racah_val (s := 1) (x := 1/7) (by decide +kernel) (by decide +kernel) (by rw [root_eq (y := (1/7 : ℝ) * √7) (by positivity) (by ring_nf <;> norm_num)]; norm_num)

theorem c312_1_0 : racah 6 2 2 0 4 2 = -(2/21) * √2 * √3 * √7 :=
  racah_val (s := -1) (x := 8/21) (by decide +kernel) (by decide +kernel) (by rw [root_eq (y := (2/21 : ℝ) * √2 * √3 * √7) (by positivity) (by ring_nf <;> norm_num)]; norm_num)

theorem c312_2_m1 : racah 6 4 2 (-2) 4 2 = (1/21) * √2 * √3 * √5 * √7 :=
  racah_val (s := 1) (x := 10/21) (by decide +kernel) (by decide +kernel) (by rw [root_eq (y := (1/21 : ℝ) * √2 * √3 * √5 * √7) (by positivity) (by ring_nf <;> norm_num)]; norm_num)

theorem c312_1_1 : racah 6 2 2 2 4 4 = (1/21) * √3 * √7 :=
  racah_val (s := 1) (x := 1/21) (by decide +kernel) (by decide +kernel) (by rw [root_eq (y := (1/21 : ℝ) * √3 * √7) (by positivity) (by ring_nf <;> norm_num)]; norm_num)

theorem c312_2_0 : racah 6 4 2 0 4 4 = -(1/21) * √3 * √5 * √7 :=
  racah_val (s := -1) (x := 5/21) (by decide +kernel) (by decide +kernel) (by rw [root_eq (y := (1/21 : ℝ) * √3 * √5 * √7) (by positivity) (by ring_nf <;> norm_num)]; norm_num)

theorem c312_3_m1 : racah 6 6 2 (-2) 4 4 = (1/7) * √5 * √7 :=
  racah_val (s := 1) (x := 5/7) (by decide +kernel) (by decide +kernel) (by rw [root_eq (y := (1/7 : ℝ) * √5 * √7) (by positivity) (by ring_nf <;> norm_num)]; norm_num)

theorem c313_m3_0 : racah 6 (-6) 2 0 6 (-6) = -(1/2) * √3 :=
  racah_val (s := -1) (x := 3/4) (by decide +kernel) (by decide +kernel) (by rw [root_eq (y := (1/2 : ℝ) * √3) (by positivity) (by ring_nf <;> norm_num)]; norm_num)

theorem c313_m2_m1 : racah 6 (-4) 2 (-2) 6 (-6) = (1/2) :=
  racah_val (s := 1) (x := 1/4) (by decide +kernel) (by decide +kernel) (by rw [root_eq (y := (1/2 : ℝ)) (by positivity) (by ring_nf <;> norm_num)]; norm_num)

theorem c313_m3_1 : racah 6 (-6) 2 2 6 (-4) = -(1/2) :=
  racah_val (s := -1) (x := 1/4) (by decide +kernel) (by decide +kernel) (by rw [root_eq (y := (1/2 : ℝ)) (by positivity) (by ring_nf <;> norm_num)]; norm_num)

theorem c313_m2_0 : racah 6 (-4) 2 0 6 (-4) = -(1/3) * √3 :=
  racah_val (s := -1) (x := 1/3) (by decide +kernel) (by decide +kernel) (by rw [root_eq (y := (1/3 : ℝ) * √3) (by positivity) (by ring_nf <;> norm_num)]; norm_num)

theorem c313_m1_m1 : racah 6 (-2) 2 (-2) 6 (-4) = (1/6) * √3 * √5 :=
  racah_val (s := 1) (x := 5/12) (by decide +kernel) (by decide +kernel) (by rw [root_eq (y := (1/6 : ℝ) * √3 * √5) (by positivity) (by ring_nf <;> norm_num)]; norm_num)

theorem c313_m2_1 : racah 6 (-4) 2 2 6 (-2) = -(1/6) * √3 * √5 :=
  racah_val (s := -1) (x := 5/12) (by decide +kernel) (by decide +kernel) (by rw [root_eq (y := (1/6 : ℝ) * √3 * √5) (by positivity) (by ring_nf <;> norm_num)]; norm_num)

theorem c313_m1_0 : racah 6 (-2) 2 0 6 (-2) = -(1/6) * √3 :=
  racah_val (s := -1) (x := 1/12) (by decide +kernel) (by decide +kernel) (by rw [root_eq (y := (1/6 : ℝ) * √3) (by positivity) (by ring_nf <;> norm_num)]; norm_num)

theorem c313_0_m1 : racah 6 0 2 (-2) 6 (-2) = (1/2) * √2 :=
  racah_val (s := 1) (x := 1/2) (by decide +kernel) (by decide +kernel) (by rw [root_eq (y := (1/2 : ℝ) * √2) (by positivity) (by ring_nf <;> norm_num)]; norm_num)

theorem c313_m1_1 : racah 6 (-2) 2 2 6 0 = -(1/2) * √2 :=
  racah_val (s := -1) (x := 1/2) (by decide +kernel) (by decide +kernel) (by rw [root_eq (y := (1/2 : ℝ) * √2) (by positivity) (by ring_nf <;> norm_num)]; norm_num)

theorem c313_0_0 : racah 6 0 2 0 6 0 = 0 := racah_val (s := 0) (x := 0) (by decide +kernel) (by decide +kernel) (by simp)

theorem c313_1_m1 : racah 6 2 2 (-2) 6 0 = (1/2) * √2 :=
  racah_val (s := 1) (x := 1/2) (by decide +kernel) (by decide +kernel) (by rw [root_eq (y := (1/2 : ℝ) * √2) (by positivity) (by ring_nf <;> norm_num)]; norm_num)

theorem c313_0_1 : racah 6 0 2 2 6 2 = -(1/2) * √2 :=
  racah_val (s := -1) (x := 1/2) (by decide +kernel) (by decide +kernel) (by rw [root_eq (y := (1/2 : ℝ) * √2) (by positivity) (by ring_nf <;> norm_num)]; norm_num)

theorem c313_1_0 : racah 6 2 2 0 6 2 = (1/6) * √3 :=
  racah_val (s := 1) (x := 1/12) (by decide +kernel) (by decide +kernel) (by rw [root_eq (y := (1/6 : ℝ) * √3) (by positivity) (by ring_nf <;> norm_num)]; norm_num)

theorem c313_2_m1 : racah 6 4 2 (-2) 6 2 = (1/6) * √3 * √5 :=
  racah_val (s := 1) (x := 5/12) (by decide +kernel) (by decide +kernel) (by rw [root_eq (y := (1/6 : ℝ) * √3 * √5) (by positivity) (by ring_nf <;> norm_num)]; norm_num)

theorem c313_1_1 : racah 6 2 2 2 6 4 = -(1/6) * √3 * √5 :=
  racah_val (s := -1) (x := 5/12) (by decide +kernel) (by decide +kernel) (by rw [root_eq (y := (1/6 : ℝ) * √3 * √5) (by positivity) (by ring_nf <;> norm_num)]; norm_num)

theorem c313_2_0 : racah 6 4 2 0 6 4 = (1/3) * √3 :=
  racah_val (s := 1) (x := 1/3) (by decide +kernel) (by decide +kernel) (by rw [root_eq (y := (1/3 : ℝ) * √3) (by positivity) (by ring_nf <;> norm_num)]; norm_num)

theorem c313_3_m1 : racah 6 6 2 (-2) 6 4 = (1/2) :=
  racah_val (s := 1) (x := 1/4) (by decide +kernel) (by decide +kernel) (by rw [root_eq (y := (1/2 : ℝ)) (by positivity) (by ring_nf <;> norm_num)]; norm_num)

theorem c313_2_1 : racah 6 4 2 2 6 6 = -(1/2) :=
  racah_val (s := -1) (x := 1/4) (by decide +kernel) (by decide +kernel) (by rw [root_eq (y := (1/2 : ℝ)) (by positivity) (by ring_nf <;> norm_num)]; norm_num)

theorem c313_3_0 : racah 6 6 2 0 6 6 = (1/2) * √3 :=
  racah_val (s := 1) (x := 3/4) (by decide +kernel) (by decide +kernel) (by rw [root_eq (y := (1/2 : ℝ) * √3) (by positivity) (by ring_nf <;> norm_num)]; norm_num)

theorem c121_m1_0 : racah 2 (-2) 4 0 2 (-2) = (1/10) * √2 * √5 :=
  racah_val (s := 1) (x := 1/10) (by decide +kernel) (by decide +kernel) (by rw [root_eq (y := (1/10 : ℝ) * √2 * √5) (by positivity) (by ring_nf <;> norm_num)]; norm_num)

theorem c121_0_m1 : racah 2 0 4 (-2) 2 (-2) = -(1/10) * √2 * √3 * √5 :=
  racah_val (s := -1) (x := 3/10) (by decide +kernel) (by decide +kernel) (by rw [root_eq (y := (1/10 : ℝ) * √2 * √3 * √5) (by positivity) (by ring_nf <;> norm_num)]; norm_num)

theorem c121_1_m2 : racah 2 2 4 (-4) 2 (-2) = (1/5) * √3 * √5 :=
  racah_val (s := 1) (x := 3/5) (by decide +kernel) (by decide +kernel) (by rw [root_eq (y := (1/5 : ℝ) * √3 * √5) (by positivity) (by ring_nf <;> norm_num)]; norm_num)

theorem c121_m1_1 : racah 2 (-2) 4 2 2 0 = (1/10) * √2 * √3 * √5 :=
  racah_val (s := 1) (x := 3/10) (by decide +kernel) (by decide +kernel) (by rw [root_eq (y := (1/10 : ℝ) * √2 * √3 * √5) (by positivity) (by ring_nf <;> norm_num)]; norm_num)

theorem c121_0_0 : racah 2 0 4 0 2 0 = -(1/5) * √2 * √5 :=
  racah_val (s := -1) (x := 2/5) (by decide +kernel) (by decide +kernel) (by rw [root_eq (y := (1/5 : ℝ) * √2 * √5) (by positivity) (by ring_nf <;> norm_num)]; norm_num)

theorem c121_1_m1 : racah 2 2 4 (-2) 2 0 = (1/10) * √2 * √3 * √5 :=
  racah_val (s := 1) (x := 3/10) (by decide +kernel) (by decide +kernel) (by rw [root_eq (y := (1/10 : ℝ) * √2 * √3 * √5) (by positivity) (by ring_nf <;> norm_num)]; norm_num)

theorem c121_m1_2 : racah 2 (-2) 4 4 2 2 = (1/5) * √3 * √5 :=
  racah_val (s := 1) (x := 3/5) (by decide +kernel) (by decide +kernel) (by rw [root_eq (y := (1/5 : ℝ) * √3 * √5) (by positivity) (by ring_nf <;> norm_num)]; norm_num)

theorem c121_0_1 : racah 2 0 4 2 2 2 = -(1/10) * √2 * √3 * √5 :=
  racah_val (s := -1) (x := 3/10) (by decide +kernel) (by decide +kernel) (by rw [root_eq (y := (1/10 : ℝ) * √2 * √3 * √5) (by positivity) (by ring_nf <;> norm_num)]; norm_num)

theorem c121_1_0 : racah 2 2 4 0 2 2 = (1/10) * √2 * √5 :=
  racah_val (s := 1) (x := 1/10) (by decide +kernel) (by decide +kernel) (by rw [root_eq (y := (1/10 : ℝ) * √2 * √5) (by positivity) (by ring_nf <;> norm_num)]; norm_num)

theorem c221_m2_1 : racah 4 (-4) 4 2 2 (-2) = -(1/5) * √5 :=
  racah_val (s := -1) (x := 1/5) (by decide +kernel) (by decide +kernel) (by rw [root_eq (y := (1/5 : ℝ) * √5) (by positivity) (by ring_nf <;> norm_num)]; norm_num)

theorem c221_m1_0 : racah 4 (-2) 4 0 2 (-2) = (1/10) * √2 * √3 * √5 :=
  racah_val (s := 1) (x := 3/10) (by decide +kernel) (by decide +kernel) (by rw [root_eq (y := (1/10 : ℝ) * √2 * √3 * √5) (by positivity) (by ring_nf <;> norm_num)]; norm_num)

theorem c221_0_m1 : racah 4 0 4 (-2) 2 (-2) = -(1/10) * √2 * √3 * √5 :=
  racah_val (s := -1) (x := 3/10) (by decide +kernel) (by decide +kernel) (by rw [root_eq (y := (1/10 : ℝ) * √2 * √3 * √5) (by positivity) (by ring_nf <;> norm_num)]; norm_num)

theorem c221_1_m2 : racah 4 2 4 (-4) 2 (-2) = (1/5) * √5 :=
  racah_val (s := 1) (x := 1/5) (by decide +kernel) (by decide +kernel) (by rw [root_eq (y := (1/5 : ℝ) * √5) (by positivity) (by ring_nf <;> norm_num)]; norm_num)

theorem c221_m2_2 : racah 4 (-4) 4 4 2 0 = -(1/5) * √2 * √5 :=
  racah_val (s := -1) (x := 2/5) (by decide +kernel) (by decide +kernel) (by rw [root_eq (y := (1/5 : ℝ) * √2 * √5) (by positivity) (by ring_nf <;> norm_num)]; norm_num)

theorem c221_m1_1 : racah 4 (-2) 4 2 2 0 = (1/10) * √2 * √5 :=
  racah_val (s := 1) (x := 1/10) (by decide +kernel) (by decide +kernel) (by rw [root_eq (y := (1/10 : ℝ) * √2 * √5) (by positivity) (by ring_nf <;> norm_num)]; norm_num)

theorem c221_0_0 : racah 4 0 4 0 2 0 = 0 := racah_val (s := 0) (x := 0) (by decide +kernel) (by decide +kernel) (by simp)

theorem c221_1_m1 : racah 4 2 4 (-2) 2 0 = -(1/10) * √2 * √5 :=
  racah_val (s := -1) (x := 1/10) (by decide +kernel) (by decide +kernel) (by rw [root_eq (y := (1/10 : ℝ) * √2 * √5) (by positivity) (by ring_nf <;> norm_num)]; norm_num)

theorem c221_2_m2 : racah 4 4 4 (-4) 2 0 = (1/5) * √2 * √5 :=
  racah_val (s := 1) (x := 2/5) (by decide +kernel) (by decide +kernel) (by rw [root_eq (y := (1/5 : ℝ) * √2 * √5) (by positivity) (by ring_nf <;> norm_num)]; norm_num)

theorem c221_m1_2 : racah 4 (-2) 4 4 2 2 = -(1/5) * √5 :=
  racah_val (s := -1) (x := 1/5) (by decide +kernel) (by decide +kernel) (by rw [root_eq (y := (1/5 : ℝ) * √5) (by positivity) (by ring_nf <;> norm_num)]; norm_num)

theorem c221_0_1 : racah 4 0 4 2 2 2 = (1/10) * √2 * √3 * √5 :=
  racah_val (s := 1) (x := 3/10) (by decide +kernel) (by decide +kernel) (by rw [root_eq (y := (1/10 : ℝ) * √2 * √3 * √5) (by positivity) (by ring_nf <;> norm_num)]; norm_num)

theorem c221_1_0 : racah 4 2 4 0 2 2 = -(1/10) * √2 * √3 * √5 :=
  racah_val (s := -1) (x := 3/10) (by decide +kernel) (by decide +kernel) (by rw [root_eq (y := (1/10 : ℝ) * √2 * √3 * √5) (by positivity) (by ring_nf <;> norm_num)]; norm_num)

theorem c221_2_m1 : racah 4 4 4 (-2) 2 2 = (1/5) * √5 :=
  racah_val (s := 1) (x := 1/5) (by decide +kernel) (by decide +kernel) (by rw [root_eq (y := (1/5 : ℝ) * √5) (by positivity) (by ring_nf <;> norm_num)]; norm_num)

theorem c321_m3_2 : racah 6 (-6) 4 4 2 (-2) = (1/7) * √3 * √7 :=
  racah_val (s := 1) (x := 3/7) (by decide +kernel) (by decide +kernel) (by rw [root_eq (y := (1/7 : ℝ) * √3 * √7) (by positivity) (by ring_nf <;> norm_num)]; norm_num)

theorem c321_m2_1 : racah 6 (-4) 4 2 2 (-2) = -(1/7) * √2 * √7 :=
  racah_val (s := -1) (x := 2/7) (by decide +kernel) (by decide +kernel) (by rw [root_eq (y := (1/7 : ℝ) * √2 * √7) (by positivity) (by ring_nf <;> norm_num)]; norm_num)

theorem c321_m1_0 : racah 6 (-2) 4 0 2 (-2) = (1/35) * √2 * √3 * √5 * √7 :=
  racah_val (s := 1) (x := 6/35) (by decide +kernel) (by decide +kernel) (by rw [root_eq (y := (1/35 : ℝ) * √2 * √3 * √5 * √7) (by positivity) (by ring_nf <;> norm_num)]; norm_num)

theorem c321_0_m1 : racah 6 0 4 (-2) 2 (-2) = -(1/35) * √3 * √5 * √7 :=
  racah_val (s := -1) (x := 3/35) (by decide +kernel) (by decide +kernel) (by rw [root_eq (y := (1/35 : ℝ) * √3 * √5 * √7) (by positivity) (by ring_nf <;> norm_num)]; norm_num)

theorem c321_1_m2 : racah 6 2 4 (-4) 2 (-2) = (1/35) * √5 * √7 :=
  racah_val (s := 1) (x := 1/35) (by decide +kernel) (by decide +kernel) (by rw [root_eq (y := (1/35 : ℝ) * √5 * √7) (by positivity) (by ring_nf <;> norm_num)]; norm_num)

theorem c321_m2_2 : racah 6 (-4) 4 4 2 0 = (1/7) * √7 :=
  racah_val (s := 1) (x := 1/7) (by decide +kernel) (by decide +kernel) (by rw [root_eq (y := (1/7 : ℝ) * √7) (by positivity) (by ring_nf <;> norm_num)]; norm_num)

theorem c321_m1_1 : racah 6 (-2) 4 2 2 0 = -(2/35) * √2 * √5 * √7 :=
  racah_val (s := -1) (x := 8/35) (by decide +kernel) (by decide +kernel) (by rw [root_eq (y := (2/35 : ℝ) * √2 * √5 * √7) (by positivity) (by ring_nf <;> norm_num)]; norm_num)

theorem c321_0_0 : racah 6 0 4 0 2 0 = (3/35) * √5 * √7 :=
  racah_val (s := 1) (x := 9/35) (by decide +kernel) (by decide +kernel) (by rw [root_eq (y := (3/35 : ℝ) * √5 * √7) (by positivity) (by ring_nf <;> norm_num)]; norm_num)

theorem c321_1_m1 : racah 6 2 4 (-2) 2 0 = -(2/35) * √2 * √5 * √7 :=
  racah_val (s := -1) (x := 8/35) (by decide +kernel) (by decide +kernel) (by rw [root_eq (y := (2/35 : ℝ) * √2 * √5 * √7) (by positivity) (by ring_nf <;> norm_num)]; norm_num)

theorem c321_2_m2 : racah 6 4 4 (-4) 2 0 = (1/7) * √7 :=
  racah_val (s := 1) (x := 1/7) (by decide +kernel) (by decide +kernel) (by rw [root_eq (y := (1/7 : ℝ) * √7) (by positivity) (by ring_nf <;> norm_num)]; norm_num)

theorem c321_m1_2 : racah 6 (-2) 4 4 2 2 = (1/35) * √5 * √7 :=
  racah_val (s := 1) (x := 1/35) (by decide +kernel) (by decide +kernel) (by rw [root_eq (y := (1/35 : ℝ) * √5 * √7) (by positivity) (by ring_nf <;> norm_num)]; norm_num)

theorem c321_0_1 : racah 6 0 4 2 2 2 = -(1/35) * √3 * √5 * √7 :=
  racah_val (s := -1) (x := 3/35) (by decide +kernel) (by decide +kernel) (by rw [root_eq (y := (1/35 : ℝ) * √3 * √5 * √7) (by positivity) (by ring_nf <;> norm_num)]; norm_num)

theorem c321_1_0 : racah 6 2 4 0 2 2 = (1/35) * √2 * √3 * √5 * √7 :=
  racah_val (s := 1) (x := 6/35) (by decide +kernel) (by decide +kernel) (by rw [root_eq (y := (1/35 : ℝ) * √2 * √3 * √5 * √7) (by positivity) (by ring_nf <;> norm_num)]; norm_num)

theorem c321_2_m1 : racah 6 4 4 (-2) 2 2 = -(1/7) * √2 * √7 :=
  racah_val (s := -1) (x := 2/7) (by decide +kernel) (by decide +kernel) (by rw [root_eq (y := (1/7 : ℝ) * √2 * √7) (by positivity) (by ring_nf <;> norm_num)]; norm_num)

theorem c321_3_m2 : racah 6 6 4 (-4) 2 2 = (1/7) * √3 * √7 :=
  racah_val (s := 1) (x := 3/7) (by decide +kernel) (by decide +kernel) (by rw [root_eq (y := (1/7 : ℝ) * √3 * √7) (by positivity) (by ring_nf <;> norm_num)]; norm_num)

theorem c101_m1_0 : racah 2 (-2) 0 0 2 (-2) = (1) :=
  racah_val (s := 1) (x := 1) (by decide +kernel) (by decide +kernel) (by rw [root_eq (y := (1/1 : ℝ)) (by positivity) (by ring_nf <;> norm_num)]; norm_num)

theorem c101_0_0 : racah 2 0 0 0 2 0 = (1) :=
  racah_val (s := 1) (x := 1) (by decide +kernel) (by decide +kernel) (by rw [root_eq (y := (1/1 : ℝ)) (by positivity) (by ring_nf <;> norm_num)]; norm_num)

theorem c101_1_0 : racah 2 2 0 0 2 2 = (1) :=
  racah_val (s := 1) (x := 1) (by decide +kernel) (by decide +kernel) (by rw [root_eq (y := (1/1 : ℝ)) (by positivity) (by ring_nf <;> norm_num)]; norm_num)

theorem c211_m2_1 : racah 4 (-4) 2 2 2 (-2) = (1/5) * √3 * √5 :=
  racah_val (s := 1) (x := 3/5) (by decide +kernel) (by decide +kernel) (by rw [root_eq (y := (1/5 : ℝ) * √3 * √5) (by positivity) (by ring_nf <;> norm_num)]; norm_num)

theorem c211_m1_0 : racah 4 (-2) 2 0 2 (-2) = -(1/10) * √2 * √3 * √5 :=
  racah_val (s := -1) (x := 3/10) (by decide +kernel) (by decide +kernel) (by rw [root_eq (y := (1/10 : ℝ) * √2 * √3 * √5) (by positivity) (by ring_nf <;> norm_num)]; norm_num)

theorem c211_0_m1 : racah 4 0 2 (-2) 2 (-2) = (1/10) * √2 * √5 :=
  racah_val (s := 1) (x := 1/10) (by decide +kernel) (by decide +kernel) (by rw [root_eq (y := (1/10 : ℝ) * √2 * √5) (by positivity) (by ring_nf <;> norm_num)]; norm_num)

theorem c211_m1_1 : racah 4 (-2) 2 2 2 0 = (1/10) * √2 * √3 * √5 :=
  racah_val (s := 1) (x := 3/10) (by decide +kernel) (by decide +kernel) (by rw [root_eq (y := (1/10 : ℝ) * √2 * √3 * √5) (by positivity) (by ring_nf <;> norm_num)]; norm_num)

theorem c211_0_0 : racah 4 0 2 0 2 0 = -(1/5) * √2 * √5 :=
  racah_val (s := -1) (x := 2/5) (by decide +kernel) (by decide +kernel) (by rw [root_eq (y := (1/5 : ℝ) * √2 * √5) (by positivity) (by ring_nf <;> norm_num)]; norm_num)

theorem c211_1_m1 : racah 4 2 2 (-2) 2 0 = (1/10) * √2 * √3 * √5 :=
  racah_val (s := 1) (x := 3/10) (by decide +kernel) (by decide +kernel) (by rw [root_eq (y := (1/10 : ℝ) * √2 * √3 * √5) (by positivity) (by ring_nf <;> norm_num)]; norm_num)

theorem c211_0_1 : racah 4 0 2 2 2 2 = (1/10) * √2 * √5 :=
  racah_val (s := 1) (x := 1/10) (by decide +kernel) (by decide +kernel) (by rw [root_eq (y := (1/10 : ℝ) * √2 * √5) (by positivity) (by ring_nf <;> norm_num)]; norm_num)

theorem c211_1_0 : racah 4 2 2 0 2 2 = -(1/10) * √2 * √3 * √5 :=
  racah_val (s := -1) (x := 3/10) (by decide +kernel) (by decide +kernel) (by rw [root_eq (y := (1/10 : ℝ) * √2 * √3 * √5) (by positivity) (by ring_nf <;> norm_num)]; norm_num)

theorem c211_2_m1 : racah 4 4 2 (-2) 2 2 = (1/5) * √3 * √5 :=
  racah_val (s := 1) (x := 3/5) (by decide +kernel) (by decide +kernel) (by rw [root_eq (y := (1/5 : ℝ) * √3 * √5) (by positivity) (by ring_nf <;> norm_num)]; norm_num)

end Verif.Relative.Axial
