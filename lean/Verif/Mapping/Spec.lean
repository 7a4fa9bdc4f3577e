import Verif.Mapping.Model
import Mathlib.Algebra.Module.Basic
import Mathlib.Algebra.BigOperators.Group.Finset.Basic

/-!
# Specification vocabulary for the remapping

Nothing here mentions how the mapping is computed.  A two-body state is identified by the orbitals
it is built from; the antisymmetrised coupled states are vectors of an arbitrary real vector space
which obey the exchange law.
-/

namespace Verif.Mapping

/-- What the `basis` library guarantees of an orbital space. -/
structure Orbitals.WF (o : Orbitals) : Prop where
  nodup : ∀ s, (o.of s).Nodup
  small : ∀ s, (o.of s).length < kNone

/-- What the `basis` library guarantees of a two-body space over these orbitals. -/
structure SpaceWF (o : Orbitals) (sp : List Subspace) : Prop where
  labelsNodup : (sp.map (·.labels)).Nodup
  small : sp.length < kNone
  statesNodup : ∀ s ∈ sp, s.states.Nodup
  statesSmall : ∀ s ∈ sp, s.states.length < kNone
  inRange : ∀ s ∈ sp, ∀ st ∈ s.states,
    st.1 < (o.of s.labels.species.first).length ∧ st.2 < (o.of s.labels.species.second).length
  canonical : ∀ s ∈ sp, s.labels.species ≠ .pn → ∀ st ∈ s.states, st.1 ≤ st.2

/-- State `st` is built from orbital `a` (first) and `b` (second). -/
def IsPair (o : Orbitals) (sp : Species2) (st : Nat × Nat) (a b : Orb) : Prop :=
  (o.of sp.first)[st.1]? = some a ∧ (o.of sp.second)[st.2]? = some b

/-- The two states consist of the same orbitals. -/
def SameOrbitals (o o' : Orbitals) (sp : Species2) (st st' : Nat × Nat) : Prop :=
  ∃ a b, IsPair o sp st a b ∧ (IsPair o' sp st' a b ∨ (sp ≠ .pn ∧ IsPair o' sp st' b a))

/-- Antisymmetrised coupled two-body states, with the exchange law (Suhonen (8.30)):
`|b a; J⟩ = (-1)^(j_a + j_b + J + 1) |a b; J⟩` for like particles. -/
structure PairKets (V : Type*) [AddCommGroup V] [Module ℝ V] where
  ket : Species2 → Nat → Orb → Orb → V
  exchange : ∀ sp J a b, sp ≠ .pn → a.twiceJ % 2 = 1 → b.twiceJ % 2 = 1 →
    ket sp J b a = ((-1 : ℝ) ^ ((a.twiceJ + b.twiceJ) / 2 + J + 1)) • ket sp J a b

/-- The vector of a basis state. -/
def PairKets.state {V : Type*} [AddCommGroup V] [Module ℝ V] (K : PairKets V) (o : Orbitals)
    (lab : Labels) (st : Nat × Nat) : V :=
  match (o.of lab.species.first)[st.1]?, (o.of lab.species.second)[st.2]? with
  | some a, some b => K.ket lab.species lab.J a b
  | _, _ => 0

/-- Half-odd-integer spins. -/
def Orbitals.HalfOdd (o : Orbitals) : Prop := ∀ s, ∀ x ∈ o.of s, x.twiceJ % 2 = 1

end Verif.Mapping
