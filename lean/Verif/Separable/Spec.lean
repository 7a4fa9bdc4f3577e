import Verif.Separable.Model
import Verif.Obme.Spec
import Mathlib.LinearAlgebra.BilinearMap

/-!
# Specification of separable two-body operators

Two-particle states are vectors: `pk a b J` is the product of particle one in orbital `a` and particle two
in orbital `b`, coupled to `J`.  An operator is given by its (reduced) elements between such products.
The states of the two-body basis are the normalised antisymmetric combinations.
-/

namespace Verif.Separable
open Verif Verif.Mapping Verif.Xform Verif.Obme

/-- The orbital at position `p` of subspace `i`. -/
def IsOrb (space : Space) (i p : ℕ) (x : SpOrb) : Prop :=
  ∃ s, space[i]? = some s ∧ s.labels = x.labels ∧ s.ns[p]? = some x.n

/-- The orbital belongs to the space. -/
def InSpace (space : Space) (x : SpOrb) : Prop := ∃ i p, IsOrb space i p x

/-- `u x y` is the element of the stored operator between orbitals: zero where the selection rules
forbid it. -/
structure Describes (space : Space) (secs : Sectors) (mats : List Mat) (u : SpOrb → SpOrb → ℝ) : Prop where
  zero : ∀ x y, ¬ Allowed secs.qn x.labels y.labels → u x y = 0
  val : ∀ i p k q x y, IsOrb space i p x → IsOrb space k q y → Allowed secs.qn x.labels y.labels →
    u x y = elem secs mats i p k q

/-- Half-odd angular momentum. -/
def SpOrb.HalfOdd (x : SpOrb) : Prop := x.tj % 2 = 1

/-- The sign `(-)^(J-ja-jb)`. -/
def exSign (J : ℕ) (a b : SpOrb) : ℝ := (-1) ^ (J + (a.tj + b.tj) / 2)

/-- Normalised antisymmetric state of two particles in orbitals `a`, `b`. -/
noncomputable def nas {V : Type} [AddCommGroup V] [Module ℝ V] (pk : SpOrb → SpOrb → ℕ → V) (J : ℕ)
    (s : SpOrb × SpOrb) : V :=
  (if s.1 = s.2 then 1 / Real.sqrt 2 else 1 : ℝ) •
    (1 / Real.sqrt 2 : ℝ) • (pk s.1 s.2 J - exSign J s.1 s.2 • pk s.2 s.1 J)

/-- Elements of `u(1) + u(2)` between coupled products: `u(1)` leaves the second orbital unchanged and `u(2)` the
first. -/
def OneBodySum {V : Type} [AddCommGroup V] [Module ℝ V] (am : Am) (J0 : Int) (u : SpOrb → SpOrb → ℝ)
    (pk : SpOrb → SpOrb → ℕ → V) (B : V →ₗ[ℝ] V →ₗ[ℝ] ℝ) (J' J : ℕ) : Prop :=
  ∀ c d a b, B (pk c d J') (pk a b J) =
    (if d = b then am.f1 c.tj d.tj J' a.tj b.tj J J0 * u c a else 0) +
      (if c = a then am.f2 c.tj d.tj J' a.tj b.tj J J0 * u d b else 0)

/-- Elements of `[x(1) y(2)]` coupled to `J0` between coupled products. -/
def ProductOperator {V : Type} [AddCommGroup V] [Module ℝ V] (am : Am) (J1 J2 J0 : Int)
    (x y : SpOrb → SpOrb → ℝ) (pk : SpOrb → SpOrb → ℕ → V) (B : V →ₗ[ℝ] V →ₗ[ℝ] ℝ) (J' J : ℕ) : Prop :=
  ∀ c d a b, B (pk c d J') (pk a b J) = am.f12 c.tj d.tj J' a.tj b.tj J J1 J2 J0 * (x c a * y d b)

/-- Exchange symmetry of the recoupling factor of a product: exchanging the two particles and the two
factors gives the sign of a nine-`j` symbol under exchange of two rows. -/
def ExchangeLaw (am : Am) : Prop :=
  ∀ (tc td J' ta tb J : ℕ) (J1 J2 J0 : ℕ), (tc + td) % 2 = 0 → (ta + tb) % 2 = 0 →
    am.f12 td tc J' tb ta J J2 J1 J0 =
      (-1) ^ (J' + J + (tc + td) / 2 + (ta + tb) / 2 + J1 + J2 + J0) * am.f12 tc td J' ta tb J J1 J2 J0

/-- The recoupling factors of a scalar operator in the Rose normalisation are one. -/
structure ScalarLaw (am : Am) : Prop where
  f1 : ∀ tc td J : ℕ, (tc + td) % 2 = 0 → |(tc : Int) - td| ≤ 2 * J → 2 * J ≤ tc + td →
    am.f1 tc td J tc td J 0 = 1
  f2 : ∀ tc td J : ℕ, (tc + td) % 2 = 0 → |(tc : Int) - td| ≤ 2 * J → 2 * J ≤ tc + td →
    am.f2 tc td J tc td J 0 = 1

end Verif.Separable
