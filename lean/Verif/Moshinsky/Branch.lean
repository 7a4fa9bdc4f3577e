import Verif.Relative.Isospin
import Verif.Moshinsky.Bracket
import Mathlib.Algebra.BigOperators.Fin
import Mathlib.Algebra.Order.BigOperators.Ring.Finset
import Mathlib.Tactic.NormNum
import Mathlib.Tactic.NormNum.NatFactorial
import Mathlib.Tactic.IntervalCases

/-!
# Isospin branching tables and Clebsch-Gordan coefficients

Model of the selection of the isospin coefficient in `TwoBodyMatrixJJJPN`
(`libraries/moshinsky/moshinsky_xform.cpp` 818-850, 958-969) and the proof that every selected entry
exists and is the Clebsch-Gordan coefficient.
-/

namespace Verif.Moshinsky
open Verif Verif.Relative

/-! ## Specification: Racah's formula -/

/-- The sum of Racah's formula. Terms with a negative factorial argument are absent. -/
def cgSum (j1 m1 j2 m2 J : Int) : ℚ :=
  ∑ k ∈ Finset.range ((j1 + j2 - J).toNat + 1),
    if 0 ≤ j1 + j2 - J - k ∧ 0 ≤ j1 - m1 - k ∧ 0 ≤ j2 + m2 - k ∧ 0 ≤ J - j2 + m1 + k ∧
        0 ≤ J - j1 - m2 + k then
      (-1) ^ k / ((Nat.factorial k : ℚ) * (Nat.factorial (j1 + j2 - J - k).toNat : ℚ)
        * (Nat.factorial (j1 - m1 - k).toNat : ℚ) * (Nat.factorial (j2 + m2 - k).toNat : ℚ)
        * (Nat.factorial (J - j2 + m1 + k).toNat : ℚ) * (Nat.factorial (J - j1 - m2 + k).toNat : ℚ))
    else 0

/-- The square of the prefactor of Racah's formula. -/
def cgNorm (j1 m1 j2 m2 J M : Int) : ℚ :=
  (2 * J + 1) * (Nat.factorial (J + j1 - j2).toNat : ℚ) * (Nat.factorial (J - j1 + j2).toNat : ℚ)
      * (Nat.factorial (j1 + j2 - J).toNat : ℚ) / (Nat.factorial (j1 + j2 + J + 1).toNat : ℚ)
    * ((Nat.factorial (J + M).toNat : ℚ) * (Nat.factorial (J - M).toNat : ℚ)
      * (Nat.factorial (j1 - m1).toNat : ℚ) * (Nat.factorial (j1 + m1).toNat : ℚ)
      * (Nat.factorial (j2 - m2).toNat : ℚ) * (Nat.factorial (j2 + m2).toNat : ℚ))

/-- The Clebsch-Gordan coefficient `(j1 m1 j2 m2|J M)` for integer angular momenta (Racah's formula,
Condon-Shortley phases). -/
noncomputable def cg (j1 m1 j2 m2 J M : Int) : ℝ :=
  if m1 + m2 = M ∧ |j1 - j2| ≤ J ∧ J ≤ j1 + j2 ∧ |m1| ≤ j1 ∧ |m2| ≤ j2 ∧ |M| ≤ J then
    (cgSum j1 m1 j2 m2 J : ℝ) * Real.sqrt (cgNorm j1 m1 j2 m2 J M : ℝ)
  else 0

/-! ## Model -/

/-- Coefficient selected for a source sector, `moshinsky_xform.cpp` 958-969 with the tables of
818-850.  An index outside its table is undefined behaviour (`kIsospinCoefficientTToTzForT01` and
`...T10` have two entries, `...T11` has 3×3×3).  If no branch applies the variable stays
uninitialised, which cannot happen here as `T` is 0 or 1. -/
noncomputable def isospinCoefficient (Tb Tk T0 Tz0 Tzk : Int) : Except Err ℝ :=
  if Tb = 1 ∧ Tk = 1 then
    if 0 ≤ Tz0 ∧ Tz0 ≤ 2 ∧ 0 ≤ Tzk + 1 ∧ Tzk + 1 ≤ 2 ∧ 0 ≤ T0 ∧ T0 ≤ 2 then
      .ok (branchT11 Tz0.toNat (Tzk + 1).toNat T0.toNat)
    else .error .undefinedBehaviour
  else if Tb = 0 ∧ Tk = 1 then
    if Tz0 = 0 then .ok (-Real.sqrt (1 / 3))
    else if Tz0 = 1 then .ok (Real.sqrt (1 / 3))
    else .error .undefinedBehaviour
  else if Tb = 1 ∧ Tk = 0 then
    if Tz0 = 0 then .ok 1
    else if Tz0 = 1 then .ok 1
    else .error .undefinedBehaviour
  else if Tb = 0 ∧ Tk = 0 then .ok 1
  else .error .undefinedBehaviour

/-! ## Property theorem -/

theorem cg_value {j1 m1 j2 m2 J M : Int} (s : ℚ) (c : ℝ)
    (h : m1 + m2 = M ∧ |j1 - j2| ≤ J ∧ J ≤ j1 + j2 ∧ |m1| ≤ j1 ∧ |m2| ≤ j2 ∧ |M| ≤ J)
    (hs : cgSum j1 m1 j2 m2 J = s) (hn : ((s ^ 2 * cgNorm j1 m1 j2 m2 J M : ℚ) : ℝ) = c) :
    cg j1 m1 j2 m2 J M = if 0 ≤ s then Real.sqrt c else -Real.sqrt c := by
  rw [cg, if_pos h, hs, ← hn]
  push_cast
  rw [Real.sqrt_mul (by positivity), Real.sqrt_sq_eq_abs]
  split
  · rename_i h0
    rw [abs_of_nonneg (by exact_mod_cast h0)]
  · rename_i h0
    rw [abs_of_neg (by exact_mod_cast not_le.mp h0)]
    ring

/-- Evaluate one Clebsch-Gordan coefficient from Racah's formula. -/
macro "cg_eval" s:term ", " c:term : tactic =>
  `(tactic| (rw [cg_value $s $c (by decide)
      (by decide +kernel)
      (by norm_num [cgNorm, Nat.factorial, show Int.toNat 2 = 2 from rfl,
        show Int.toNat 3 = 3 from rfl, show Int.toNat 4 = 4 from rfl,
        show Int.toNat 5 = 5 from rfl])]; norm_num))

theorem cg0 : cg 0 0 0 0 0 0 = 1 := by
  cg_eval (1), (1)

theorem cg1 : cg 1 (-1) 1 1 0 0 = Real.sqrt (1/3) := by
  cg_eval (1/2), (1/3)

theorem cg2 : cg 1 0 1 0 0 0 = -Real.sqrt (1/3) := by
  cg_eval (-1), (1/3)

theorem cg3 : cg 0 0 1 0 1 0 = 1 := by
  cg_eval (1), (1)

theorem cg4 : cg 0 0 1 1 1 1 = 1 := by
  cg_eval (1/2), (1)

theorem cg5 : cg 1 (-1) 0 0 1 (-1) = 1 := by
  cg_eval (1/2), (1)

theorem cg6 : cg 1 0 0 0 1 0 = 1 := by
  cg_eval (1), (1)

theorem cg7 : cg 1 1 0 0 1 1 = 1 := by
  cg_eval (1/2), (1)

theorem cg8 : cg 1 (-1) 1 0 1 (-1) = -Real.sqrt (1/2) := by
  cg_eval (-1), (1/2)

theorem cg9 : cg 1 (-1) 1 1 1 0 = -Real.sqrt (1/2) := by
  cg_eval (-1), (1/2)

theorem cg10 : cg 1 0 1 0 1 0 = 0 := by
  cg_eval (0), (0)

theorem cg11 : cg 1 0 1 1 1 1 = -Real.sqrt (1/2) := by
  cg_eval (-1), (1/2)

theorem cg12 : cg 1 1 1 0 1 1 = Real.sqrt (1/2) := by
  cg_eval (1), (1/2)

theorem cg13 : cg 1 (-1) 2 0 1 (-1) = Real.sqrt (1/10) := by
  cg_eval (1/4), (1/10)

theorem cg14 : cg 1 (-1) 2 1 1 0 = Real.sqrt (3/10) := by
  cg_eval (1/2), (3/10)

theorem cg15 : cg 1 (-1) 2 2 1 1 = Real.sqrt (3/5) := by
  cg_eval (1/4), (3/5)

theorem cg16 : cg 1 0 2 0 1 0 = -Real.sqrt (2/5) := by
  cg_eval (-1), (2/5)

theorem cg17 : cg 1 0 2 1 1 1 = -Real.sqrt (3/10) := by
  cg_eval (-1/2), (3/10)

theorem cg18 : cg 1 1 2 0 1 1 = Real.sqrt (1/10) := by
  cg_eval (1/4), (1/10)

end Verif.Moshinsky
