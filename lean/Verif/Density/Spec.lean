import Verif.Density.Model

/-!
# Specification of density storage

A stored density is, for each multipole, the array of its elements between single-particle states given by their
quantum numbers.
-/

namespace Verif.Density
open Verif Verif.Mapping Verif.Obme

/-- A state of a space: position `a` of subspace `i` has the quantum numbers `x`. -/
def HasState (space : Space) (i a : ℕ) (x : Full) : Prop :=
  ∃ b, space[i]? = some b ∧ b.labels = x.labels ∧ b.ns[a]? = some x.n

/-- The orbital belongs to the space. -/
def InSpace (space : Space) (x : Full) : Prop := ∃ i a, HasState space i a x

/-- An element of a density: multipole, orbitals, value. -/
structure Entry where
  J0 : Int
  bra : Full
  ket : Full
  value : ℝ

/-- Elements that can be stored: multipole in range, orbitals in the space, selection rules met. -/
def Valid (space : Space) (g0 Tz0 lo hi : Int) (e : Entry) : Prop :=
  (lo ≤ e.J0 ∧ e.J0 ≤ hi) ∧ InSpace space e.bra ∧ InSpace space e.ket ∧
    Allowed ⟨e.J0, g0, Tz0⟩ e.bra.labels e.ket.labels

/-- The value of the last element of the list for these quantum numbers, zero when there is none. -/
noncomputable def finalValue (es : List Entry) (J0 : Int) (x y : Full) : ℝ :=
  (((es.filter fun e => decide (e.J0 = J0 ∧ e.bra = x ∧ e.ket = y)).getLast?).map Entry.value).getD 0

/-- `GetMultipole` delivers exactly the multipoles `lo..hi`, each with the sectors of its tensor character and the
elements `v`. -/
structure Holds (space : Space) (g0 Tz0 lo hi : Int) (s : Storage) (v : Int → Full → Full → ℝ) : Prop where
  inside : ∀ J0, lo ≤ J0 → J0 ≤ hi → ∃ mats,
    s.getMultipole J0 = .ok (allSectors ⟨J0, g0, Tz0⟩ space space, mats) ∧
    Fits (allSectors ⟨J0, g0, Tz0⟩ space space) mats space space ∧
    ∀ i a x k c y, HasState space i a x → HasState space k c y →
      elem (allSectors ⟨J0, g0, Tz0⟩ space space) mats i a k c = v J0 x y
  outside : ∀ J0, ¬ (lo ≤ J0 ∧ J0 ≤ hi) → s.getMultipole J0 = .error .assertFail

end Verif.Density
