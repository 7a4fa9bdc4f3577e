import Verif.Count.Model
import Mathlib.Data.Finset.Sym
import Mathlib.Algebra.BigOperators.Group.Finset.Basic
import Mathlib.Data.Int.Interval
import Mathlib.Order.Interval.Finset.Nat
import Mathlib.Data.Multiset.Sections
import Mathlib.Data.Finset.Prod

/-!
# Specification of the counts

The oscillator shell `N` has one orbital for each `l = N, N-2, ...` and `j = l ± 1/2`, that is one for each half-odd
`j ≤ N + 1/2`.
-/

namespace Verif.Count

/-- The orbitals of the shells up to `N`: shell and twice `j`. -/
def orbitals (N : ℕ) : Finset (ℕ × ℕ) :=
  (Finset.range (N + 1) ×ˢ Finset.range (2 * N + 2)).filter fun o => o.2 % 2 = 1 ∧ o.2 ≤ 2 * o.1 + 1

/-- The orbitals `(n, l, twice j)` with `2n + l ≤ N`. -/
def nlj (N : ℕ) : Finset (ℕ × ℕ × ℕ) :=
  (Finset.range (N + 1) ×ˢ Finset.range (N + 1) ×ˢ Finset.range (2 * N + 2)).filter fun o =>
    2 * o.1 + o.2.1 ≤ N ∧ (o.2.2 = 2 * o.2.1 + 1 ∨ o.2.2 + 1 = 2 * o.2.1)

/-- An enumeration shell by shell in which every orbital stands once. -/
structure Enumerates (e : Enumeration) : Prop where
  mono : ∀ i j, i ≤ j → e.N i ≤ e.N j
  range : ∀ k, e.tj k % 2 = 1 ∧ e.tj k ≤ 2 * e.N k + 1
  onto : ∀ N t, t % 2 = 1 → t ≤ 2 * N + 1 → ∃ k, e.N k = N ∧ e.tj k = t
  inj : ∀ i j, e.N i = e.N j → e.tj i = e.tj j → i = j

/-- `a`, `b`, `c` couple to zero. -/
def Couple (a b c : ℤ) : Prop := |a - b| ≤ c ∧ c ≤ a + b ∧ (a + b + c) % 2 = 0

/-- The projections (twice) of angular momentum `a/2`. -/
def projections (a : ℕ) : Finset ℤ := (Finset.Icc (-(a : ℤ)) a).filter fun m => (a + m) % 2 = 0

/-- The number of product states of angular momenta `js` (twice their values) with total projection `M/2`. -/
def productStates (js : Multiset ℕ) (M : ℤ) : ℕ :=
  (((js.map fun a => (projections a).val).Sections).filter fun ms => ms.sum = M).card

/-- How often the angular momentum `J/2` occurs in the product of the angular momenta `js`: the states of projection `J`
less those of projection `J + 1`. -/
def multiplicity (js : Multiset ℕ) (J : ℕ) : ℤ := (productStates js J : ℤ) - productStates js (J + 2)

/-- The number of `J`-coupled states of `n` particles, no antisymmetry taken into account, in unordered sets of `n`
orbitals, each in a shell up to `N`. -/
def oneBodyCut (n N J : ℕ) : ℤ := ∑ m ∈ (orbitals N).sym n, multiplicity (m.1.map Prod.snd) J

/-- The same for orbitals whose shells add up to at most `N`. -/
def manyBodyCut (n N J : ℕ) : ℤ :=
  ∑ m ∈ ((orbitals N).sym n).filter (fun m => (m.1.map Prod.fst).sum ≤ N),
    multiplicity (m.1.map Prod.snd) J

end Verif.Count
