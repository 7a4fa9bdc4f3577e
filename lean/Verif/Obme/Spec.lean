import Verif.Obme.Model

/-!
# Specification of one-body operators

A one-body operator is the array of its elements between single-particle states; a state is addressed by
subspace index and position, or by its quantum numbers.
-/

namespace Verif.Obme
open Verif Verif.Mapping Verif.Xform

/-- Selection rules of a tensor operator between `(l,j,tz)` subspaces. -/
def Allowed (q : QN) (b k : Labels) : Prop :=
  (|(b.tj : Int) - 2 * q.J0| ≤ k.tj ∧ (k.tj : Int) ≤ b.tj + 2 * q.J0) ∧
    ((b.l : Int) + k.l + q.g0) % 2 = 0 ∧ b.tz - k.tz = 2 * q.Tz0

/-- What `basis::OrbitalSectorsLJPN(bra,ket,J0,g0,Tz0)` enumerates: each allowed pair of subspaces, once. -/
structure SectorsOf (s : Sectors) (bra ket : Space) : Prop where
  nodup : s.pairs.Nodup
  mem : ∀ i k, (i, k) ∈ s.pairs ↔ ∃ b k', bra[i]? = some b ∧ ket[k]? = some k' ∧ Allowed s.qn b.labels k'.labels

/-- A space: subspaces with distinct labels, `j = l ± 1/2`, distinct radial quantum numbers. -/
structure GoodSpace (s : Space) : Prop where
  nodup : (s.map Sub.labels).Nodup
  half : ∀ b ∈ s, b.labels.tj = 2 * b.labels.l + 1 ∨ b.labels.tj + 1 = 2 * b.labels.l
  ns : ∀ b ∈ s, b.ns.Nodup

/-- Dimension of a subspace. -/
def dim (s : Space) (i : ℕ) : ℕ := (s[i]?.map fun b => b.ns.length).getD 0

/-- Element of a stored operator between state `a` of subspace `i` and state `c` of subspace `k`: zero
when the sector is absent. -/
noncomputable def elem (s : Sectors) (mats : List Mat) (i a k c : ℕ) : ℝ :=
  match s.pairs.idxOf? (i, k) with
  | some x => match mats[x]? with
    | some m => if a < m.rows ∧ c < m.cols then m.val a c else 0
    | none => 0
  | none => 0

/-- The stored matrices have the sizes of the sectors. -/
structure Fits (s : Sectors) (mats : List Mat) (bra ket : Space) : Prop where
  length : mats.length = s.pairs.length
  size : ∀ (x i k : ℕ) (m : Mat), s.pairs[x]? = some (i, k) → mats[x]? = some m → m.rows = dim bra i ∧ m.cols = dim ket k

/-- Scalar, parity conserving, charge conserving. -/
def scalarQN : QN := ⟨0, 0, 0⟩

end Verif.Obme
