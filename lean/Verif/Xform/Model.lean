import Verif.Mapping.Model
import Mathlib.Analysis.Real.Sqrt
import Mathlib.Algebra.BigOperators.Group.Finset.Basic

/-!
# Model of the two-body transformation and the identity operator

`libraries/tbme/tbme_xform.cpp` (whole file) and `IdentityOperatorMatrixJJJPN` of
`libraries/tbme/tbme_separable.cpp`.

Simplifications: `double` is `ℝ`; a two-body state object of the `basis` library is the record of
its two orbital indices and the labels of its two orbitals; the radial overlap data, accessed only
through `basis::MatrixElementLJPN`, is a function of species and orbital labels.
-/

namespace Verif.Xform
open Verif Verif.Mapping

/-- Radial overlaps `<R_a|R_a'>`, as returned by `basis::MatrixElementLJPN`. -/
abbrev Overlap := Species1 → Orb → Orb → ℝ

/-- `basis::TwoBodyStateJJJPN`: `index1`, `index2`, `GetOrbital1`, `GetOrbital2`. -/
structure St where
  i1 : Nat
  i2 : Nat
  a1 : Orb
  a2 : Orb
  deriving DecidableEq, Repr

/-- `basis::TwoBodySubspaceJJJPN`. -/
structure Sub where
  species : Species2
  J : Nat
  states : List St
  deriving DecidableEq

/-- `OneBodyOverlap`, `tbme_xform.cpp` 24-53. -/
noncomputable def oneBodyOverlap (ov : Overlap) (s : Species1) (a a' : Orb) : ℝ :=
  if a.l = a'.l ∧ a.twiceJ = a'.twiceJ then 0 + ov s a a' else 0

/-- `TwoBodyOverlapProduct`, `tbme_xform.cpp` 55-95. `s1`, `s2` are the species of the two factors
(carried by the orbital objects in the code). -/
noncomputable def twoBodyOverlapProduct (ov : Overlap) (s1 s2 : Species1) (a1 a2 a1' a2' : Orb) : ℝ :=
  if (a1.l = a1'.l ∧ a1.twiceJ = a1'.twiceJ) ∧ (a2.l = a2'.l ∧ a2.twiceJ = a2'.twiceJ) then
    oneBodyOverlap ov s1 a1 a1' * oneBodyOverlap ov s2 a2 a2'
  else 0

/-- `ParitySign(J-j1-j2)` of the `am` library. -/
def paritySign (J : Nat) (twiceJ1 twiceJ2 : Nat) : Int :=
  powNegOne ((2 * (J : Int) - twiceJ1 - twiceJ2) / 2)

/-- `TwoBodyOverlap`, `tbme_xform.cpp` 97-141, after its asserts. -/
noncomputable def twoBodyOverlap (ov : Overlap) (sp : Species2) (J : Nat) (a1 a2 a1' a2' : Orb) : ℝ :=
  let me := 0 + twoBodyOverlapProduct ov sp.first sp.second a1 a2 a1' a2'
  if sp ≠ .pn then
    let phase := - paritySign J a1.twiceJ a2.twiceJ
    me + (phase : ℝ) * twoBodyOverlapProduct ov sp.first sp.second a1 a2 a2' a1'
  else me

/-- One element of `TwoBodyTransformationMatrix`, `tbme_xform.cpp` 178-198. -/
noncomputable def xformElement (ov : Overlap) (sp : Species2) (J : Nat) (bra ket : St) : ℝ :=
  let me := twoBodyOverlap ov sp J bra.a1 bra.a2 ket.a1 ket.a2
  if sp ≠ .pn then
    let me := if bra.i1 = bra.i2 then me * (1 / Real.sqrt 2) else me
    if ket.i1 = ket.i2 then me * (1 / Real.sqrt 2) else me
  else me

/-- `TwoBodyTransformationMatrix`, `tbme_xform.cpp` 144-202.  The asserts on species (167) and `J`
(`TwoBodyOverlap` 120, only reached when there are states) are kept. -/
noncomputable def transformationMatrix (ov : Overlap) (bra ket : Sub) : Except Err Mat :=
  if bra.species ≠ ket.species then .error .assertFail
  else if bra.states ≠ [] ∧ ket.states ≠ [] ∧ bra.J ≠ ket.J then .error .assertFail
  else .ok ⟨bra.states.length, ket.states.length, fun i j =>
    match bra.states[i]?, ket.states[j]? with
    | some b, some k => xformElement ov ket.species ket.J b k
    | _, _ => 0⟩

/-- `Eigen` transpose. -/
def Mat.transpose (m : Mat) : Mat := ⟨m.cols, m.rows, fun i j => m.val j i⟩

/-- `Eigen` product, with its assertion on the sizes. -/
noncomputable def Mat.mul (a b : Mat) : Except Err Mat :=
  if a.cols = b.rows then
    .ok ⟨a.rows, b.cols, fun i j => ∑ k ∈ Finset.range a.cols, a.val i k * b.val k j⟩
  else .error .assertFail

/-- A sector: `basis::TwoBodySectorsJJJPN::SectorType`. -/
structure Sector where
  braIndex : Nat
  ketIndex : Nat
  bra : Sub
  ket : Sub

/-- `TwoBodyTransformedMatrix`, `tbme_xform.cpp` 208-269. -/
noncomputable def transformedMatrix (ov : Overlap) (source target : Sector) (m : Mat) : Except Err Mat := do
  let uk ← transformationMatrix ov source.ket target.ket
  let ub ← if source.braIndex = source.ketIndex then pure uk
    else transformationMatrix ov source.bra target.bra
  let t ← Mat.mul (Mat.transpose ub) m
  Mat.mul t uk

/-- `IdentityOperatorMatrixJJJPN`, `tbme_separable.cpp` 414-431.  `A*(A-1)` is an `int` product; its
overflow is undefined behaviour.  For `A` = 0 or 1 the quotient is infinite in the code, which is
not represented here (the real quotient by zero is zero). -/
noncomputable def identityOperatorMatrix (s : Sector) (A : Int) : Except Err Mat :=
  if s.braIndex ≠ s.ketIndex then .error .assertFail
  else if ¬ (-(2 ^ 31) ≤ A * (A - 1) ∧ A * (A - 1) < 2 ^ 31) then .error .undefinedBehaviour
  else
    let normalization : ℝ := 2 / ((A * (A - 1) : Int) : ℝ)
    .ok ⟨s.ket.states.length, s.ket.states.length, fun i j => normalization * (if i = j then 1 else 0)⟩

end Verif.Xform
