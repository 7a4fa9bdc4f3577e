import Verif.Xform.Model
import Verif.Osc.Model

/-!
# Model of one-body operators

`libraries/obme/radial.cpp` and `libraries/obme/obme.cpp` (whole files).

Simplifications: `double` is `ℝ`.  The indexing belongs to the `basis` library, which is absent from the
checkout: a space is the list of its `(l,j,tz)` subspaces with the radial quantum numbers of their
states, a set of sectors is the list of its pairs of subspace indices, `LookUp...Index` is the position
in the list.  Reduced matrix elements and recoupling factors of `am`, and the spline integrals, are
given functions.
-/

namespace Verif.Obme
open Verif Verif.Mapping Verif.Xform

/-- Labels of `basis::OrbitalSubspaceLJPN`; `j` is doubled. -/
structure Labels where
  l : ℕ
  tj : ℕ
  sp : Species1
  deriving DecidableEq, Repr

/-- Twice the isospin projection: protons `+1`, neutrons `-1`. -/
def Labels.tz (a : Labels) : Int := match a.sp with
  | .p => 1
  | .n => -1

/-- `basis::OrbitalSubspaceLJPN`: labels and the radial quantum number `n` of each state. -/
structure Sub where
  labels : Labels
  ns : List ℕ
  deriving DecidableEq, Repr

/-- `basis::OrbitalSpaceLJPN`. -/
abbrev Space := List Sub

/-- Tensor character `(J0,g0,Tz0)`. -/
structure QN where
  J0 : Int
  g0 : Int
  Tz0 : Int
  deriving DecidableEq, Repr

/-- `basis::OrbitalSectorsLJPN`: tensor character and the list of `(bra,ket)` subspace indices. -/
structure Sectors where
  qn : QN
  pairs : List (ℕ × ℕ)
  deriving DecidableEq, Repr

/-- Element of a container by index. -/
def getE {α : Type} (l : List α) (i : ℕ) : Except Err α :=
  match l[i]? with
  | some a => .ok a
  | none => .error .undefinedBehaviour

/-- A zero block of the size of a sector (`basis::SetOperatorToZero`). -/
def zeroBlock (bra ket : Space) (p : ℕ × ℕ) : Except Err Mat := do
  let b ← getE bra p.1
  let k ← getE ket p.2
  pure ⟨b.ns.length, k.ns.length, fun _ _ => 0⟩

/-- Eigen `+=` with its assertion on the sizes. -/
noncomputable def addE (a b : Mat) : Except Err Mat :=
  if a.rows = b.rows ∧ a.cols = b.cols then
    .ok ⟨a.rows, a.cols, fun i j => a.val i j + b.val i j⟩
  else .error .assertFail

/-- Scalar times matrix. -/
noncomputable def scale (c : ℝ) (a : Mat) : Mat := ⟨a.rows, a.cols, fun i j => c * a.val i j⟩

/-! ## Products -/

/-- Body of the loop over intermediate subspaces, `radial.cpp` 222-237: nothing is added unless both
sectors are present. -/
noncomputable def composeStep (secsA secsB : Sectors) (matsA matsB : List Mat) (i k : ℕ) (acc : Mat) (j : ℕ) :
    Except Err Mat :=
  match secsA.pairs.idxOf? (i, j), secsB.pairs.idxOf? (j, k) with
  | some a, some b => do
    let ma ← getE matsA a
    let mb ← getE matsB b
    let p ← Mat.mul ma mb
    addE acc p
  | _, _ => .ok acc

/-- `ComposeRadialOperators`, `radial.cpp` 184-240.  The first assertion compares the orbitals. -/
noncomputable def compose (braA ketA : Space) (secsA : Sectors) (matsA : List Mat) (braB ketB : Space)
    (secsB : Sectors) (matsB : List Mat) (secs : Sectors) : Except Err (List Mat) := do
  assertE (ketA = braB)
  secs.pairs.mapM fun p => do
    let z ← zeroBlock braA ketB p
    (List.range ketA.length).foldlM (composeStep secsA secsB matsA matsB p.1 p.2) z

/-- `am::AllowedTriangle` for integers. -/
def tri (a b c : Int) : Bool := decide (|a - b| ≤ c ∧ c ≤ a + b)

/-- Body of the loop over intermediate subspaces, `obme.cpp` 280-299; `w` is the Racah factor
`RacahReductionFactorRose(j', j, j'', J0a, J0b, J0)` as a function of the doubled angular momenta. -/
noncomputable def tensorStep (w : ℕ → ℕ → ℕ → ℝ) (space : Space) (secsA secsB : Sectors)
    (matsA matsB : List Mat) (i k : ℕ) (acc : Mat) (j : ℕ) : Except Err Mat :=
  match secsA.pairs.idxOf? (i, j), secsB.pairs.idxOf? (j, k) with
  | some a, some b => do
    let bra ← getE space i
    let ket ← getE space k
    let inner ← getE space j
    let ma ← getE matsA a
    let mb ← getE matsB b
    let p ← Mat.mul (scale (w bra.labels.tj ket.labels.tj inner.labels.tj) ma) mb
    addE acc p
  | _, _ => .ok acc

/-- `OneBodyOperatorTensorProduct`, `obme.cpp` 243-302. -/
noncomputable def tensorProduct (w : QN → QN → QN → ℕ → ℕ → ℕ → ℝ) (space : Space) (secsA : Sectors)
    (matsA : List Mat) (secsB : Sectors) (matsB : List Mat) (secs : Sectors) :
    Except Err (List Mat) := do
  assertE (tri secsA.qn.J0 secsB.qn.J0 secs.qn.J0)
  assertE ((secsA.qn.g0 + secsB.qn.g0 + secs.qn.g0).tmod 2 = 0)
  assertE (secsA.qn.Tz0 + secsB.qn.Tz0 = secs.qn.Tz0)
  secs.pairs.mapM fun p => do
    let z ← zeroBlock space space p
    (List.range space.length).foldlM
      (tensorStep (w secsA.qn secsB.qn secs.qn) space secsA secsB matsA matsB p.1 p.2) z

/-! ## Similarity transformation -/

/-- `LookUpSubspaceIndex` by labels. -/
def lookUpSub (space : Space) (x : Labels) : Option ℕ := space.findIdx? fun s => s.labels = x

/-- `assert(index != basis::kNone)`. -/
def assertFound : Option ℕ → Except Err ℕ
  | some i => .ok i
  | none => .error .assertFail

/-- One output sector of `SimilarityTransformOperator`, `radial.cpp` 261-295. -/
noncomputable def similarityBlock (source target : Space) (xsecs : Sectors) (xmats : List Mat)
    (osecs : Sectors) (omats : List Mat) (p : ℕ × ℕ) : Except Err Mat := do
  let z ← zeroBlock target target p
  let tb ← getE target p.1
  let tk ← getE target p.2
  match lookUpSub source tb.labels with
  | none => pure z
  | some sb =>
    match lookUpSub source tk.labels with
    | none => pure z
    | some sk => do
      let o ← assertFound (osecs.pairs.idxOf? (sb, sk))
      let lx ← assertFound (xsecs.pairs.idxOf? (sb, p.1))
      let rx ← assertFound (xsecs.pairs.idxOf? (sk, p.2))
      let ml ← getE xmats lx
      let mo ← getE omats o
      let mr ← getE xmats rx
      let t ← Mat.mul (Mat.transpose ml) mo
      Mat.mul t mr

/-- `SimilarityTransformOperator`, `radial.cpp` 242-297. -/
noncomputable def similarity (source target : Space) (xsecs : Sectors) (xmats : List Mat) (osecs : Sectors)
    (omats : List Mat) (secs : Sectors) : Except Err (List Mat) := do
  assertE (xsecs.qn.J0 = 0)
  assertE (xsecs.qn.g0 = 0)
  assertE (xsecs.qn.Tz0 = 0)
  secs.pairs.mapM (similarityBlock source target xsecs xmats osecs omats)

/-! ## Generated operators -/

/-- Apply an elementwise formula to all elements of all sectors. -/
noncomputable def generate (bra ket : Space) (secs : Sectors) (f : Labels → ℕ → Labels → ℕ → ℝ) :
    Except Err (List Mat) :=
  secs.pairs.mapM fun p => do
    let b ← getE bra p.1
    let k ← getE ket p.2
    pure ⟨b.ns.length, k.ns.length, fun i j => f b.labels (b.ns.getD i 0) k.labels (k.ns.getD j 0)⟩

/-- `shell::RadialBasisType`. -/
inductive BasisType where
  | generic | oscillator | laguerre
  deriving DecidableEq, Repr

/-- Overlap element, `radial.cpp` 155-175; `spl` is `spline::RadialMatrixElement` of order zero. -/
noncomputable def overlapElement (spl : BasisType → BasisType → ℝ → ℕ → ℕ → ℕ → ℕ → ℝ) (bt kt : BasisType)
    (scaleFactor : ℝ) (bl bn kl kn : ℕ) : ℝ :=
  if scaleFactor = 1 ∧ bt = kt then (if bn = kn ∧ bl = kl then 1 else 0)
  else spl bt kt scaleFactor bn bl kn kl

/-- `GenerateRadialOverlaps`, `radial.cpp` 113-182. -/
noncomputable def radialOverlaps (spl : BasisType → BasisType → ℝ → ℕ → ℕ → ℕ → ℕ → ℝ) (bt kt : BasisType)
    (scaleFactor : ℝ) (bra ket : Space) (secs : Sectors) : Except Err (List Mat) := do
  assertE (secs.qn.J0 = 0)
  assertE (secs.qn.g0 = 0)
  assertE (secs.qn.Tz0 = 0)
  generate bra ket secs fun b n k n' => overlapElement spl bt kt scaleFactor b.l n k.l n'

/-- `am::AngularMomentumOperatorType`. -/
inductive AMType where
  | orbital | spin | total
  deriving DecidableEq, Repr

/-- `Identity(rows,cols)`. -/
noncomputable def eye (rows cols : ℕ) : Mat := ⟨rows, cols, fun i j => if i = j then 1 else 0⟩

/-- `AngularMomentumOneBodyOperator`, `obme.cpp` 121-172; `rme` stands for the three reduced matrix
element functions of `am`. -/
noncomputable def angularMomentum (rme : AMType → Labels → Labels → ℝ) (type : AMType) (space : Space)
    (secs : Sectors) : Except Err (List Mat) := do
  assertE (secs.qn.J0 = 1)
  assertE (secs.qn.g0 = 0)
  assertE (secs.qn.Tz0 = 0)
  secs.pairs.mapM fun p => do
    let b ← getE space p.1
    let k ← getE space p.2
    pure (scale (rme type b.labels k.labels) (eye b.ns.length k.ns.length))

/-- Factor of `AngularMomentumSquaredOneBodyOperator`, `obme.cpp` 195-207. -/
noncomputable def squareFactor (type : AMType) (a : Labels) : ℝ :=
  match type with
  | .orbital => ((a.l * (a.l + 1) : ℕ) : ℝ)
  | .spin => 3 / 4
  | .total => ((a.tj : ℝ) / 2) * ((a.tj + 2 : ℝ) / 2)

/-- `AngularMomentumSquaredOneBodyOperator`, `obme.cpp` 174-211.  `SetOperatorToIdentity` gives identity
blocks in the diagonal sectors, and all sectors are asserted to be diagonal. -/
noncomputable def angularMomentumSquared (type : AMType) (space : Space) (secs : Sectors) :
    Except Err (List Mat) := do
  assertE (secs.qn.J0 = 0)
  assertE (secs.qn.g0 = 0)
  assertE (secs.qn.Tz0 = 0)
  secs.pairs.mapM fun p => do
    let b ← getE space p.1
    let k ← getE space p.2
    assertE (p.1 = p.2)
    pure (scale (squareFactor type b.labels) (eye b.ns.length k.ns.length))

/-- `IsospinOneBodyOperator`, `obme.cpp` 213-241. -/
noncomputable def isospin (space : Space) (secs : Sectors) : Except Err (List Mat) := do
  assertE (secs.qn.J0 = 0)
  assertE (secs.qn.g0 = 0)
  secs.pairs.mapM fun p => do
    let b ← getE space p.1
    let k ← getE space p.2
    let me : ℝ := if secs.qn.Tz0 = 0 then (k.labels.tz : ℝ) / 2 else 1
    pure (scale me (eye b.ns.length k.ns.length))

/-! ## Radial operators -/

/-- `shell::RadialOperatorType` without the overlap type. -/
inductive RadType where
  | r | k
  deriving DecidableEq, Repr

/-- `static_cast<spline::OperatorType>` integrals: a given function of basis, operator, order and the bra
and ket `n`, `l`. -/
abbrev Spline := BasisType → RadType → Int → ℕ → ℕ → ℕ → ℕ → ℝ

/-- Element of `GenerateRadialOperator`, `radial.cpp` 56-105. -/
noncomputable def radialElement (spl : Spline) (bt : BasisType) (ot : RadType) (order : Int) (q : QN)
    (bn bl kn kl : ℕ) : Except Err ℝ :=
  if order = 0 then .ok (if bn = kn ∧ bl = kl then 1 else 0)
  else match bt with
    | .oscillator =>
      let bN : Int := 2 * bn + bl
      let kN : Int := 2 * kn + kl
      let sign : Int := if ot = .k then -1 else 1
      if order = 1 ∧ q.J0 = 1 ∧ q.g0 = 1 then Verif.Osc.coordinate bN bl kN kl sign
      else if order = 2 ∧ (q.J0 = 0 ∨ q.J0 = 2) ∧ q.g0 = 0 then Verif.Osc.coordinateSqr bN bl kN kl sign
      else .ok (spl .oscillator ot order bn bl kn kl)
    | .laguerre => .ok (spl .laguerre ot order bn bl kn kl)
    | .generic => .ok 0

/-- Loops over sectors and elements, where the elements may fail. -/
noncomputable def generateE (bra ket : Space) (secs : Sectors)
    (f : Labels → ℕ → Labels → ℕ → Except Err ℝ) : Except Err (List Mat) :=
  secs.pairs.mapM fun p => do
    let b ← getE bra p.1
    let k ← getE ket p.2
    let rows ← b.ns.mapM fun n => k.ns.mapM fun n' => f b.labels n k.labels n'
    pure ⟨b.ns.length, k.ns.length, fun i j => (rows.getD i []).getD j 0⟩

/-- `GenerateRadialOperator`, `radial.cpp` 19-111. -/
noncomputable def radialOperator (spl : Spline) (bt : BasisType) (ot : RadType) (order : Int) (space : Space)
    (secs : Sectors) : Except Err (List Mat) :=
  generateE space space secs fun b n k n' => radialElement spl bt ot order secs.qn n b.l n' k.l

/-- `SolidHarmonicOneBodyOperator`, `obme.cpp` 26-47; `crme` stands for
`am::LJCoupledSphericalHarmonicCRME(l',j',l,j,J0)`. -/
noncomputable def solidHarmonic (spl : Spline) (crme : Labels → Labels → Int → ℝ) (bt : BasisType)
    (ot : RadType) (order : Int) (space : Space) (secs : Sectors) : Except Err (List Mat) := do
  let mats ← radialOperator spl bt ot order space secs
  (secs.pairs.zip mats).mapM fun pm => do
    let b ← getE space pm.1.1
    let k ← getE space pm.1.2
    pure (scale (crme b.labels k.labels secs.qn.J0) pm.2)

/-- `LadderOneBodyOperator`, `obme.cpp` 49-119. -/
noncomputable def ladder (crme : Labels → Labels → Int → ℝ) (bt : BasisType) (raising : Bool) (space : Space)
    (secs : Sectors) : Except Err (List Mat) := do
  assertE (bt = .oscillator)
  generateE space space secs fun b n k n' => do
    let me ← if raising then Verif.Osc.cDagger (2 * n + b.l) b.l (2 * n' + k.l) k.l
      else Verif.Osc.cLower (2 * n + b.l) b.l (2 * n' + k.l) k.l
    pure (crme b k secs.qn.J0 * me)

/-- The solid-harmonic branch of `OneBodyGeneratedChannel::ConstructOneBodyOperatorData`,
`obmixer.cpp` 804-833, for an identifier that is (`kinematic = true`) or is not one of the five kinematic names
(other than `identity`).  `inv4pi` is `am::kInvSqrt4Pi`. -/
noncomputable def solidHarmonicSource (spl : Spline) (crme : Labels → Labels → Int → ℝ) (inv4pi : ℝ)
    (bt : BasisType) (ot : RadType) (order : Int) (kinematic : Bool) (length : ℝ) (space : Space)
    (secs : Sectors) : Except Err (List Mat) := do
  let mats ← solidHarmonic spl crme bt ot order space secs
  let s1 : ℝ := if ot = .r then length ^ order else length ^ (-order)
  let s2 : ℝ := if kinematic then s1 else s1 * (Real.sqrt (2 * order + 1) * inv4pi)
  pure (mats.map (scale s2))

end Verif.Obme
