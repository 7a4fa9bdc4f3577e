import Mathlib.Data.Real.Basic

/-!
# Decimal constants of Fortran
-/

namespace Verif.Daejeon

/-- A decimal constant of a `data` statement: sign, digits, whether the exponent is negative, exponent.  Written as in
Fortran, e.g. `-1.167044E+01`. -/
structure Num where
  neg : Bool
  digits : ℕ
  down : Bool
  exponent : ℕ
  deriving DecidableEq

instance : OfScientific Num := ⟨fun m s e => ⟨false, m, s, e⟩⟩
instance : Neg Num := ⟨fun x => ⟨!x.neg, x.digits, x.down, x.exponent⟩⟩

/-- The number meant. -/
def Num.value (x : Num) : ℚ :=
  (if x.neg then -1 else 1) * (x.digits : ℚ) * (if x.down then (1 / 10) ^ x.exponent else 10 ^ x.exponent)

end Verif.Daejeon
