import Verif.Relative.Labels
import Verif.Relative.Radial
import Verif.Relative.Dipole
import Verif.Relative.Isospin
import Mathlib.Analysis.SpecialFunctions.Trigonometric.Basic

/-!
# Construction of relative operators

Model of the operator constructors of `libraries/relative/relative_me.cpp` (219-1106) and of the leading-order
Gamow-Teller operator of `libraries/relative/lenpic_relative_me.cpp` (34-52).

The subspaces and sectors come from the `basis` library and the recoupling coefficients from the `am` library; both
are parameters.  Arithmetic of `double` is real arithmetic.
-/

namespace Verif.Relative
open Verif Verif.H2 Verif.Osc

/-- Coordinate or momentum (`relative::CoordinateType`, `relative_me.h` 79). -/
inductive Coord where
  | k | r
  deriving DecidableEq, Repr

/-- The zero block of `basis::ConstructZeroOperatorRelativeLSJT`. -/
def zeroE : Entries := fun _ _ => .ok 0

/-- `c * matrix`. -/
noncomputable def scaleE (c : ℝ) (m : Entries) : Entries := fun i j => (m i j).map fun x => c * x

/-- Assignments `matrix(n,n) = c` to a zero block. -/
noncomputable def diagE (c : ℝ) : Entries := fun i j => .ok (if i = j then c else 0)

/-- An operator: the blocks of its three isospin components, in the order of the sectors. -/
abbrev RelOp := ℕ → List Entries

/-- The frame shared by the constructors: asserts, zero initialisation of every component, and a loop over the
sectors of component `T0` (e.g. `relative_me.cpp` 229-262, 343-356, 446-475). -/
noncomputable def construct (ok : Bool) (T0 : ℕ) (sectors : ℕ → List RSec) (f : RelSub → RelSub → Except Err Entries) :
    Except Err RelOp := do
  assertE ok
  let ms ← (sectors T0).mapM fun p => f p.1 p.2
  pure fun t => if t = T0 then ms else (sectors t).map fun _ => zeroE

/-- The range assertion on `T0`. -/
def inRange (o : OpLabels) (T0 : ℕ) : Bool := decide (o.T0min ≤ T0 ∧ T0 ≤ o.T0max)

/-- The factor `2 sqrt(T*(T+1))` for an isovector operator (`relative_me.cpp` 299-301, 524-525, 636-637). -/
noncomputable def isoFactor (T0 T : ℕ) : ℝ := if T0 = 1 then 2 * Real.sqrt (((T * (T + 1) : ℕ) : ℝ)) else 1

/-- `operator_sign` (`relative_me.cpp` 234-239). -/
def Coord.sign : Coord → Int
  | .r => 1
  | .k => -1

/-- Dilation factor of the squared coordinate (`relative_me.cpp` 307-311). -/
noncomputable def Coord.scaleSqr : Coord → ℝ
  | .r => 2
  | .k => 1 / 2

/-- One sector of `ConstructCoordinateSqr` (`relative_me.cpp` 257-324). -/
noncomputable def coordinateSqrBlock (c : Coord) (T0 : ℕ) (s' s : RelSub) : Except Err Entries :=
  if !(tri s'.L 0 s.L && tri s'.S 0 s.S && decide (s'.T = s.T)) then .ok zeroE
  else do
    let m ← radialSqrMatrix s.size s.size s.L 0 c.sign
    pure (scaleE (isoFactor T0 s.T * c.scaleSqr) m)

/-- `ConstructCoordinateSqr` (`relative_me.cpp` 219-325). -/
noncomputable def constructCoordinateSqr (o : OpLabels) (sectors : ℕ → List RSec) (c : Coord) (T0 : ℕ) :
    Except Err RelOp :=
  construct (decide (o.J0 = 0) && decide (o.g0 = 0) && decide (T0 = 0 ∨ T0 = 1) && inRange o T0) T0 sectors
    (coordinateSqrBlock c T0)

/-- Dilation factor of the coordinate (`relative_me.cpp` 411-415). -/
noncomputable def Coord.scale : Coord → ℝ
  | .r => Real.sqrt 2
  | .k => Real.sqrt (1 / 2)

/-- One sector of `ConstructDipoleOperator` (`relative_me.cpp` 352-430). -/
noncomputable def dipoleBlock (am : Am) (c : Coord) (T0 : ℕ) (s' s : RelSub) : Except Err Entries :=
  if !(tri s'.L 1 s.L && tri s'.S 0 s.S && tri s'.T T0 s.T) then .ok zeroE
  else do
    let angular := Real.sqrt 3 * am.rose1 (2 * s'.L) (2 * s'.S) (2 * s'.J) (2 * s.L) (2 * s.S) (2 * s.J) 2
      * (am.rose1 1 1 (2 * s'.T) 1 1 (2 * s.T) 2 - am.rose2 1 1 (2 * s'.T) 1 1 (2 * s.T) 2)
      * dipoleOrbital s'.L s.L
    let m ← radialMatrix s'.size s.size s.L ((s'.L : Int) - s.L) 1
    pure (scaleE (angular * c.scale) m)

/-- `ConstructDipoleOperator` (`relative_me.cpp` 326-432). -/
noncomputable def constructDipole (am : Am) (o : OpLabels) (sectors : ℕ → List RSec) (c : Coord) (T0 : ℕ) :
    Except Err RelOp :=
  construct (decide (o.J0 = 1) && decide (o.g0 = 1) && decide (T0 = 1) && inRange o T0) T0 sectors
    (dipoleBlock am c T0)

/-- `Hat`. -/
noncomputable def hat (j : ℕ) : ℝ := Real.sqrt (2 * j + 1)

/-- One sector of `ConstructQuadrupoleOperator` (`relative_me.cpp` 470-559). -/
noncomputable def quadrupoleBlock (am : Am) (T0 : ℕ) (s' s : RelSub) : Except Err Entries :=
  if !(tri s'.L 2 s.L && tri s'.S 0 s.S && decide (s'.T = s.T)) then .ok zeroE
  else do
    let angular := Real.sqrt (5 / (16 * Real.pi)) * (-1) ^ (s'.L + s.L + s.S + s.J)
      * hat s'.J * hat s.J * hat s'.L * hat s.L
      * am.threeJ (2 * s.L) 4 (2 * s'.L)
      * am.sixJ (2 * s'.L) (2 * s'.J) (2 * s.S) (2 * s.J) (2 * s.L) 4
      / hat s'.J * isoFactor T0 s.T
    let m ← radialSqrMatrix s'.size s.size s.L ((s'.L : Int) - s.L) 1
    pure (scaleE (angular * 2) m)

/-- `ConstructQuadrupoleOperator` (`relative_me.cpp` 435-561). -/
noncomputable def constructQuadrupole (am : Am) (o : OpLabels) (sectors : ℕ → List RSec) (c : Coord) (T0 : ℕ) :
    Except Err RelOp :=
  construct (decide (o.J0 = 2) && decide (o.g0 = 0) && decide (T0 = 0 ∨ T0 = 1) && inRange o T0 && decide (c = .r)) T0
    sectors (quadrupoleBlock am T0)

/-- One sector of `ConstructOrbitalAMOperator` (`relative_me.cpp` 589-664). -/
noncomputable def orbitalBlock (am : Am) (T0 : ℕ) (s' s : RelSub) : Except Err Entries :=
  if !(tri s'.S 0 s.S && decide (s'.L = s.L) && decide (s'.T = s.T)) then .ok zeroE
  else do
    assertE (decide (s'.size = s.size))
    pure (diagE (am.rose1 (2 * s'.L) (2 * s'.S) (2 * s'.J) (2 * s.L) (2 * s.S) (2 * s.J) 2
      * Real.sqrt (((s.L * (s.L + 1) : ℕ) : ℝ)) * isoFactor T0 s.T))

/-- `ConstructOrbitalAMOperator` (`relative_me.cpp` 563-665). -/
noncomputable def constructOrbital (am : Am) (o : OpLabels) (sectors : ℕ → List RSec) (T0 : ℕ) : Except Err RelOp :=
  construct (decide (o.J0 = 1) && decide (o.g0 = 0) && decide (T0 = 0 ∨ T0 = 1) && inRange o T0) T0 sectors
    (orbitalBlock am T0)

/-- One sector of `ConstructSpinAMOperator` (`relative_me.cpp` 697-779). -/
noncomputable def spinBlock (am : Am) (T0 : ℕ) (s' s : RelSub) : Except Err Entries :=
  if !(tri s'.L 0 s.L && tri s'.S 1 s.S && tri s'.T T0 s.T) || (decide (T0 = 0) && !decide (s'.S = s.S)) then .ok zeroE
  else do
    let second := am.rose2 (2 * s'.L) (2 * s'.S) (2 * s'.J) (2 * s.L) (2 * s.S) (2 * s.J) 2
    let angular :=
      if T0 = 0 then second * Real.sqrt (((s.S * (s.S + 1) : ℕ) : ℝ))
      else 3 / 2 * second
        * (am.rose1 1 1 (2 * s'.S) 1 1 (2 * s.S) 2 * am.rose1 1 1 (2 * s'.T) 1 1 (2 * s.T) 2
          + am.rose2 1 1 (2 * s'.S) 1 1 (2 * s.S) 2 * am.rose2 1 1 (2 * s'.T) 1 1 (2 * s.T) 2)
    assertE (decide (s'.size = s.size))
    pure (diagE angular)

/-- `ConstructSpinAMOperator` (`relative_me.cpp` 671-780). -/
noncomputable def constructSpin (am : Am) (o : OpLabels) (sectors : ℕ → List RSec) (T0 : ℕ) : Except Err RelOp :=
  construct (decide (o.J0 = 1) && decide (o.g0 = 0) && decide (T0 = 0 ∨ T0 = 1) && inRange o T0) T0 sectors
    (spinBlock am T0)

/-- One sector of `ConstructIsospinOperator` (`relative_me.cpp` 811-874). -/
noncomputable def isospinBlock (am : Am) (s' s : RelSub) : Except Err Entries :=
  if !(tri s'.L 0 s.L && tri s'.S 0 s.S && tri s'.T 1 s.T) then .ok zeroE
  else do
    assertE (decide (s'.size = s.size))
    pure (diagE (am.jRME (2 * s'.T) (2 * s.T)))

/-- `ConstructIsospinOperator` (`relative_me.cpp` 786-875). -/
noncomputable def constructIsospin (am : Am) (o : OpLabels) (sectors : ℕ → List RSec) : Except Err RelOp :=
  construct (decide (o.J0 = 0) && decide (o.g0 = 0) && inRange o 1) 1 sectors (isospinBlock am)

/-- One sector of `ConstructSU4CasimirOperator` (`relative_me.cpp` 905-969). -/
noncomputable def casimirBlock (s' s : RelSub) : Except Err Entries :=
  if !(tri s'.L 0 s.L && tri s'.S 0 s.S && tri s'.T 0 s.T) then .ok zeroE
  else do
    assertE (decide (s'.size = s.size))
    pure (diagE ((casimir s.S s.T : Int) : ℝ))

/-- `ConstructSU4CasimirOperator` (`relative_me.cpp` 881-970). -/
noncomputable def constructCasimir (o : OpLabels) (sectors : ℕ → List RSec) : Except Err RelOp :=
  construct (decide (o.J0 = 0) && decide (o.g0 = 0) && decide (o.T0min = 0)) 0 sectors casimirBlock

/-- One sector of `ConstructCoulombOperator` (`relative_me.cpp` 1018-1097); `radial n' n L` is the spline value of the
radial integral of `1/r` for unit length. -/
noncomputable def coulombBlock (radial : ℕ → ℕ → ℕ → ℝ) (t : OpType) (T0 : ℕ) (s' s : RelSub) : Except Err Entries :=
  if s' ≠ s then .ok zeroE
  else do
    let nmax := ((s.Nmax : Int) - s.L).tdiv 2
    assertE (decide (nmax = (s.size : Int) - 1))
    match coulombFactor t s.T T0 with
    | none => .ok zeroE
    | some f => pure fun i j => .ok (f * (1 / Real.sqrt 2) * radial i j s.L)

/-- `ConstructCoulombOperator` (`relative_me.cpp` 989-1106): every component in the range is filled.  Two subspaces
are the same exactly when their indices are. -/
noncomputable def constructCoulomb (radial : ℕ → ℕ → ℕ → ℝ) (o : OpLabels) (sectors : ℕ → List RSec) (t : OpType) :
    Except Err RelOp := do
  assertE (decide (o.J0 = 0) && decide (o.g0 = 0))
  let fill (T0 : ℕ) : Except Err (List Entries) :=
    if o.T0min ≤ T0 ∧ T0 ≤ o.T0max then (sectors T0).mapM fun p => coulombBlock radial t T0 p.1 p.2
    else .ok ((sectors T0).map fun _ => zeroE)
  let m0 ← fill 0
  let m1 ← fill 1
  let m2 ← fill 2
  pure fun T0 => if T0 = 0 then m0 else if T0 = 1 then m1 else if T0 = 2 then m2 else []

/-- `constants::gA` (`lenpic_constants.h` 90). -/
noncomputable def gA : ℝ := 1.29

/-- `ConstructLOGTOperator` (`lenpic_relative_me.cpp` 34-52). -/
noncomputable def constructLOGT (am : Am) (o : OpLabels) (sectors : ℕ → List RSec) : Except Err RelOp := do
  let op ← constructSpin am o sectors 1
  pure fun t => if t = 1 then (op 1).map (scaleE (-gA)) else op t

end Verif.Relative
