import Verif.Obme.EwGen
import Verif.Obme.GenProps

/-!
# Model of the program `radial-gen`

`programs/obutils/radial-gen.cpp`: generation of one-body operators and of overlaps, written to files.

Simplifications: as for one-body files (`Verif/Obme/File.lean`) and control files (`Verif/Mixer/Words.lean`); a line is what
`mcutils::GetLine` delivers, so it is never blank or a comment.  The warning about files that are overwritten is left out.  The default
orbital file is not tested for existence when the control file is read; when it is absent, building fails.  Splines and reduced matrix
elements of the libraries are given functions.  Elements of a `solid-harmonic` of negative order: there are no sectors; the factor
is a square root of a negative number, multiplied with nothing.
-/

namespace Verif.Obme.RadialGen
open Verif Verif.Mapping Verif.Xform Verif.Obme
open Verif.Mixer.Control (Coord Numbers word int num coordOf)

/-- What the program reads, and what comes from the libraries.  `orbitals` is `none` for a file that does not exist; `spl` and `ovl` are
`spline::RadialMatrixElement` for operators and for overlaps; `crme` is `am::LJCoupledSphericalHarmonicCRME`, `rme` the reduced matrix
elements of the angular momenta, `inv4pi` is `am::kInvSqrt4Pi`. -/
structure World (Orb : Type) where
  nm : Numbers
  lib : Lib Orb
  rnd : ℝ → ℝ
  orbitals : String → Option (Except Err (List Orb))
  spl : BasisType → Coord → Int → ℕ → ℕ → ℕ → ℕ → ℝ
  ovl : BasisType → BasisType → ℝ → ℕ → ℕ → ℕ → ℕ → ℝ
  crme : Labels → Labels → Int → ℝ
  rme : AMType → Labels → Labels → ℝ
  inv4pi : ℝ

/-- `OperationMode`, 94-96, with the type of operator that goes with it (union, 150-153). -/
inductive Mode where
  | kinematic (c : Coord)
  | solidHarmonic (c : Coord)
  | am (t : AMType)
  | isospin
  | radial (c : Coord)
  | xform

/-- Mode, order and tensor character. -/
structure Body where
  mode : Mode
  order : Int
  q : QN

/-- `OperatorParameters`, 136-159; `body` is `none` while these members are uninitialised. -/
structure Params where
  braFile : String
  ketFile : String
  out : String
  braBasis : BasisType
  ketBasis : BasisType
  scale : ℝ
  body : Option Body

/-! ## The control file -/

/-- `kBasisTypeDefinitions`, 128-133. -/
def basisOf (s : String) : Except Err BasisType :=
  if s = "oscillator" then .ok .oscillator else if s = "laguerre" then .ok .laguerre else .error .parseError

/-- `kKinematicOneBodyOperatorDefinitions`, 98-107, and 219-227. -/
def kinematicOf (s : String) : Except Err Body :=
  if s = "identity" then .ok ⟨.kinematic .o, 0, ⟨0, 0, 0⟩⟩
  else if s = "r" then .ok ⟨.kinematic .r, 1, ⟨1, 1, 0⟩⟩
  else if s = "ik" then .ok ⟨.kinematic .k, 1, ⟨1, 1, 0⟩⟩
  else if s = "r.r" then .ok ⟨.kinematic .r, 2, ⟨0, 0, 0⟩⟩
  else if s = "ik.ik" then .ok ⟨.kinematic .k, 2, ⟨0, 0, 0⟩⟩
  else .error .parseError

/-- `kAngularMomentumOneBodyOperatorDefinitions`, 109-118, and 241-250. -/
def amOf (s : String) : Except Err Body :=
  if s = "l" then .ok ⟨.am .orbital, 1, ⟨1, 0, 0⟩⟩
  else if s = "l2" then .ok ⟨.am .orbital, 2, ⟨0, 0, 0⟩⟩
  else if s = "s" then .ok ⟨.am .spin, 1, ⟨1, 0, 0⟩⟩
  else if s = "s2" then .ok ⟨.am .spin, 2, ⟨0, 0, 0⟩⟩
  else if s = "j" then .ok ⟨.am .total, 1, ⟨1, 0, 0⟩⟩
  else if s = "j2" then .ok ⟨.am .total, 2, ⟨0, 0, 0⟩⟩
  else .error .parseError

/-- `kIsospinOneBodyOperatorDefinitions`, 120-126, and 251-261. -/
def isospinOf (s : String) : Except Err Body :=
  if s = "tz" then .ok ⟨.isospin, 0, ⟨0, 0, 0⟩⟩
  else if s = "t+" then .ok ⟨.isospin, 0, ⟨0, 0, 1⟩⟩
  else if s = "t-" then .ok ⟨.isospin, 0, ⟨0, 0, -1⟩⟩
  else .error .parseError

/-- The `solid-harmonic` branch, 229-240. -/
def harmonicOf (nm : Numbers) (id : String) (ws : List String) : Except Err (Option Body × List String) := do
  let l ← int nm ws
  let c ← coordOf id
  pure (some ⟨.solidHarmonic c, l.1, ⟨l.1, l.1.tmod 2, 0⟩⟩, l.2)

/-- The branches over `mode`, 217-261: without a final `else`. -/
def bodyOf (nm : Numbers) (mode id : String) (ws : List String) : Except Err (Option Body × List String) :=
  if mode = "kinematic" then (kinematicOf id).map fun b => (some b, ws)
  else if mode = "solid-harmonic" then harmonicOf nm id ws
  else if mode = "am" then (amOf id).map fun b => (some b, ws)
  else if mode = "isospin" then (isospinOf id).map fun b => (some b, ws)
  else .ok (none, ws)

/-- Ket basis and orbital file in force, 167-172, and the targets so far. -/
structure State where
  basis : BasisType := .oscillator
  file : String := "orbitals.dat"
  targets : List Params := []

/-- `mcutils::FileExistCheck(·,true,false)`. -/
def mustExist {Orb : Type} (W : World Orb) (f : String) : Except Err Unit :=
  match W.orbitals f with
  | some _ => .ok ()
  | none => .error .exitFailure

/-- One turn of the loop of `ReadParameters`, 174-326. -/
def step {Orb : Type} (W : World Orb) (s : State) : List String → Except Err State
  | [] => .error .parseError
  | k :: ws =>
    if k = "set-ket-basis" then do
      let t ← word ws
      let f ← word t.2
      let b ← basisOf t.1
      mustExist W f.1
      pure { s with basis := b, file := f.1 }
    else if k = "define-operator-target" then do
      let mode ← word ws
      let id ← word mode.2
      let body ← bodyOf W.nm mode.1 id.1 id.2
      let out ← word body.2
      pure { s with targets := s.targets ++ [⟨s.file, s.file, out.1, s.basis, s.basis, 1, body.1⟩] }
    else if k = "define-radial-target" then do
      let t ← word ws
      let order ← int W.nm t.2
      let J0 ← int W.nm order.2
      let g0 ← int W.nm J0.2
      let Tz0 ← int W.nm g0.2
      let out ← word Tz0.2
      let c ← coordOf t.1
      pure { s with targets := s.targets ++
        [⟨s.file, s.file, out.1, s.basis, s.basis, 1, some ⟨.radial c, order.1, ⟨J0.1, g0.1, Tz0.1⟩⟩⟩] }
    else if k = "define-xform-target" then do
      let x ← num W.nm ws
      let t ← word x.2
      let f ← word t.2
      let out ← word f.2
      let b ← basisOf t.1
      mustExist W f.1
      pure { s with targets := s.targets ++ [⟨f.1, s.file, out.1, b, s.basis, x.1, some ⟨.xform, 0, ⟨0, 0, 0⟩⟩⟩] }
    else .error .parseError

/-- `ReadParameters`, 163-327. -/
def readParameters {Orb : Type} (W : World Orb) (lines : List (List String)) : Except Err State :=
  lines.foldlM (step W) {}

/-! ## Targets -/

/-- Opening and parsing an orbital file, 332-335. -/
def openOrbitals {Orb : Type} (W : World Orb) (f : String) : Except Err Space :=
  match W.orbitals f with
  | none => .error .exitFailure
  | some r => r.map W.lib.mkSpace

/-- The comparison with `kK` in `radial.cpp` 79. -/
def radType (c : Coord) : RadType := if c = .k then .k else .r

/-- `GenerateRadialOperator` with the operator type of this program: only `kK` is told apart in the analytic formulae; the library
receives the type itself. -/
noncomputable def generateRadial {Orb : Type} (W : World Orb) (bt : BasisType) (c : Coord) (order : Int) (space : Space)
    (secs : Sectors) : Except Err (List Mat) :=
  radialOperator (fun b _ => W.spl b c) bt (radType c) order space secs

/-- `SolidHarmonicOneBodyOperator`. -/
noncomputable def generateHarmonic {Orb : Type} (W : World Orb) (bt : BasisType) (c : Coord) (order : Int) (space : Space)
    (secs : Sectors) : Except Err (List Mat) :=
  solidHarmonic (fun b _ => W.spl b c) W.crme bt (radType c) order space secs

/-- The branches over the mode, 344-413. -/
noncomputable def construct {Orb : Type} (W : World Orb) (p : Params) (d : Body) (bra ket : Space) (secs : Sectors) :
    Except Err (List Mat) :=
  match d.mode with
  | .kinematic c => generateHarmonic W p.ketBasis c d.order ket secs
  | .solidHarmonic c => (generateHarmonic W p.ketBasis c d.order ket secs).map fun ms =>
      ms.map (Obme.scale (Real.sqrt (2 * d.order + 1) * W.inv4pi))
  | .am t => if d.order = 1 then angularMomentum W.rme t ket secs
      else if d.order = 2 then angularMomentumSquared t ket secs else .ok []
  | .isospin => isospin ket secs
  | .radial c => generateRadial W p.ketBasis c d.order ket secs
  | .xform => radialOverlaps W.ovl p.braBasis p.ketBasis p.scale bra ket secs

/-- The file mode flag, 415-424. -/
def fileType : Mode → Char
  | .radial _ => 'R'
  | .xform => 'R'
  | _ => 'S'

/-- `BuildOperator`, 329-436. -/
noncomputable def build {Orb : Type} (W : World Orb) (p : Params) : Except Err (String × List Line) := do
  let bra ← openOrbitals W p.braFile
  let ket ← openOrbitals W p.ketFile
  match p.body with
  | none => .error .undefinedBehaviour
  | some d => do
    let secs := allSectors d.q bra ket
    let mats ← construct W p d bra ket secs
    let ls ← writeFile W.lib W.rnd true (fileType d.mode) bra ket secs mats
    pure (p.out, ls)

/-- `main`, 438-465. -/
noncomputable def run {Orb : Type} (W : World Orb) (lines : List (List String)) : Except Err (List (String × List Line)) := do
  let s ← readParameters W lines
  s.targets.mapM (build W)

end Verif.Obme.RadialGen
