import Verif.Xform.Model
import Verif.Mapping.Spec

/-! # Specification vocabulary for two-body transformations -/

namespace Verif.Xform
open Verif Verif.Mapping

/-- An allowed pair of orbitals of `o` for the given species, `J` and parity: canonical order for
like particles, triangle inequality, parity, and even `J` for two like particles in one orbital. -/
structure Allowed (o : Orbitals) (sp : Species2) (J g : Nat) (st : St) : Prop where
  orb1 : (o.of sp.first)[st.i1]? = some st.a1
  orb2 : (o.of sp.second)[st.i2]? = some st.a2
  canonical : sp ≠ .pn → st.i1 ≤ st.i2
  triangle : 2 * J ≤ st.a1.twiceJ + st.a2.twiceJ ∧ st.a1.twiceJ ≤ st.a2.twiceJ + 2 * J ∧
    st.a2.twiceJ ≤ st.a1.twiceJ + 2 * J
  parity : (st.a1.l + st.a2.l) % 2 = g
  pauli : sp ≠ .pn → st.i1 = st.i2 → J % 2 = 0

/-- A subspace as the library may deliver it, possibly truncated: some of the allowed pairs. -/
structure SubWF (o : Orbitals) (g : Nat) (x : Sub) : Prop where
  nodup : x.states.Nodup
  allowed : ∀ st ∈ x.states, Allowed o x.species x.J g st

/-- An untruncated subspace: all of the allowed pairs. -/
structure FullSub (o : Orbitals) (g : Nat) (x : Sub) : Prop extends SubWF o g x where
  full : ∀ st, Allowed o x.species x.J g st → st ∈ x.states

/-- Every orbital appears once. -/
def OrbNodup (o : Orbitals) : Prop := ∀ s, (o.of s).Nodup

/-- Spins are half-odd. -/
def HalfOdd (o : Orbitals) : Prop := ∀ s, ∀ x ∈ o.of s, x.twiceJ % 2 = 1

/-- A two-index table restricted to equal `(l,j)`: what the orbital transformation means as a
matrix between all orbitals. -/
noncomputable def lj (ov : Overlap) (s : Species1) (a b : Orb) : ℝ :=
  if a.l = b.l ∧ a.twiceJ = b.twiceJ then ov s a b else 0

/-- Sum over the orbitals of a species. -/
noncomputable def orbSum {V : Type} [AddCommGroup V] (o : Orbitals) (s : Species1) (f : Orb → V) : V :=
  ((o.of s).map f).sum

/-- The normalisation of a state: `1/√2` for two like particles in one orbital. -/
noncomputable def norm (sp : Species2) (x : St) : ℝ := if sp ≠ .pn ∧ x.i1 = x.i2 then 1 / Real.sqrt 2 else 1

/-- An orthogonal orbital transformation: its rows are orthonormal. -/
def RowsOrthonormal (src tgt : Orbitals) (ov : Overlap) : Prop :=
  ∀ s, ∀ a ∈ src.of s, ∀ a' ∈ src.of s,
    orbSum tgt s (fun b => lj ov s a b * lj ov s a' b) = if a = a' then 1 else 0

/-- The identity transformation of the orbitals of `o`. -/
def IsIdentity (o : Orbitals) (ov : Overlap) : Prop :=
  ∀ s, ∀ a ∈ o.of s, ∀ a' ∈ o.of s, a.l = a'.l → a.twiceJ = a'.twiceJ → ov s a a' = if a = a' then 1 else 0

/-- `ov13` is the product of the orbital transformations `ov12` and `ov23`. -/
def IsProduct (o1 o2 o3 : Orbitals) (ov12 ov23 ov13 : Overlap) : Prop :=
  ∀ s, ∀ a ∈ o1.of s, ∀ c ∈ o3.of s,
    lj ov13 s a c = orbSum o2 s (fun b => lj ov12 s a b * lj ov23 s b c)

end Verif.Xform
