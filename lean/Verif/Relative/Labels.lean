import Mathlib.Data.Real.Basic

/-!
# Labels of relative operators

The parts of the absent `basis` and `am` libraries that the constructors of relative operators read: labels of
subspaces and operators, and recoupling coefficients.
-/

namespace Verif.Relative

/-- The labels of a subspace of `basis::RelativeSpaceLSJT` that the constructors read; the parity is that of `L`. -/
structure RelSub where
  L : ℕ
  S : ℕ
  J : ℕ
  T : ℕ
  Nmax : ℕ
  size : ℕ
  deriving DecidableEq, Repr

/-- `basis::OperatorLabelsJT`, without the symmetry phase. -/
structure OpLabels where
  J0 : ℕ
  g0 : ℕ
  T0min : ℕ
  T0max : ℕ
  deriving DecidableEq, Repr

/-- A sector: bra and ket subspaces. -/
abbrev RSec := RelSub × RelSub

/-- `am` library: factors of Racah's reduction (Rose convention), Wigner symbols and the reduced element of an
angular momentum.  All angular momenta are doubled. -/
structure Am where
  /-- `RacahReductionFactor1Rose(j1',j2',J',j1,j2,J,k)` -/
  rose1 : ℕ → ℕ → ℕ → ℕ → ℕ → ℕ → ℕ → ℝ
  /-- `RacahReductionFactor2Rose(j1',j2',J',j1,j2,J,k)` -/
  rose2 : ℕ → ℕ → ℕ → ℕ → ℕ → ℕ → ℕ → ℝ
  /-- `Wigner3J(a,b,c,0,0,0)` -/
  threeJ : ℕ → ℕ → ℕ → ℝ
  /-- `Wigner6J(a,b,c,d,e,f)` -/
  sixJ : ℕ → ℕ → ℕ → ℕ → ℕ → ℕ → ℝ
  /-- `AngularMomentumJRME(j',j)` -/
  jRME : ℕ → ℕ → ℝ

/-- `am::AllowedTriangle`. -/
def tri (a b c : ℕ) : Bool := decide (a ≤ b + c ∧ b ≤ a + c ∧ c ≤ a + b)

end Verif.Relative
