import Verif.Obme.File
import Verif.Density.Obscalc

/-!
# Model of radial-extract and radial-plot

`programs/radialutils/radial-extract.cpp` and `programs/radialutils/radial-plot.cpp` (whole files): the two programs
which show a transformation file (`InOBMEStream`, see `Verif/Obme/File.lean`) to the user, as expansion coefficients
and as a table of radial functions.

Simplifications: `double` and `float` are `ℝ`.  An argument of the command line has no white space in it.  A number
which the streams extract from an argument is given by the record `Numbers`; numbers out of range are not considered.
`mcutils::FileExistCheck` with `exit_on_nonexist` stops the program; the output stream is never checked by the
programs, so writing cannot fail in the model.  A number printed with `16.8e` becomes the token of its rounded value
(`rnd`), likewise a number printed by Eigen's `<<` with the six digits of a fresh stream (`rnd6`);
`4.1f` prints half-integers exactly.  The radial functions belong to the `spline` library, which is absent from the
checkout: they are a given function `wave`.  The columns of white space are not modelled.
-/

namespace Verif.Obme.Show
open Verif Verif.Mapping Verif.Xform Verif.Obme
open Verif.Mixer.Control (Numbers)
open Verif.H2 hiding Mat

/-- The assertions on the transformation, `radial-extract.cpp` 103-106, `radial-plot.cpp` 172-175; the type is
uninitialised for files of version 0. -/
def checkXform (h : Header) : Except Err Unit := do
  match h.type with
  | none => .error .undefinedBehaviour
  | some c => assertE (decide (c = 'R'))
  assertE (decide (h.secs.qn.J0 = 0))
  assertE (decide (h.secs.qn.g0 = 0))
  assertE (decide (h.secs.qn.Tz0 = 0))

/-- Use of an index that was looked up but not compared with `kNone`. -/
def unchecked : Option ℕ → Except Err ℕ
  | some i => .ok i
  | none => .error .undefinedBehaviour

/-! ## radial-extract -/

/-- A line of the output, `radial-extract.cpp` 124-132. -/
noncomputable def stateLine (rnd : ℝ → ℝ) (ket bra : Obme.Sub) (m : Mat) (c : ℕ) : Line :=
  [.int (ket.ns.getD c 0), .int ket.labels.l, .num ((ket.labels.tj : ℝ) / 2), .num ((ket.labels.tz : ℝ) / 2),
    .int bra.ns.length] ++
  (List.range bra.ns.length).map fun a => Tok.num (rnd (m.val a c))

/-- Body of the loop over subspaces, `radial-extract.cpp` 112-134. -/
noncomputable def extractSub (rnd : ℝ → ℝ) (h : Header) (mats : List Mat) (k : ℕ) : Except Err (List Line) := do
  let ket ← getE h.ket k
  let i ← unchecked (lookUpSub h.bra ket.labels)
  let bra ← getE h.bra i
  let x ← unchecked (h.secs.pairs.idxOf? (i, k))
  let m ← getE mats x
  pure ((List.range ket.ns.length).map (stateLine rnd ket bra m))

/-- `radial-extract.cpp` 93-136: from the lines of the transformation file to the lines written. -/
noncomputable def extract {Orb : Type} (lib : Lib Orb) (rnd : ℝ → ℝ) (file : List Line) : Except Err (List Line) := do
  let (h, mats) ← readFile lib file
  checkXform h
  let ls ← (List.range h.ket.length).mapM (extractSub rnd h mats)
  pure ls.flatten

/-- `mcutils::FileExistCheck(·,true,false)` and the contents of the file. -/
def existing (disk : String → Option (List Line)) (f : String) : Except Err (List Line) :=
  match disk f with
  | some ls => .ok ls
  | none => .error .exitFailure

/-- `radial-extract.cpp` 54-140: name of the output file and its lines. -/
noncomputable def extractRun {Orb : Type} (lib : Lib Orb) (rnd : ℝ → ℝ) (disk : String → Option (List Line))
    (args : List String) : Except Err (String × List Line) :=
  match args with
  | [xform, output] => do
    let file ← existing disk xform
    let ls ← extract lib rnd file
    pure (output, ls)
  | _ => .error .exitFailure

/-! ## radial-plot -/

/-- `shell::RadialBasisType` as far as the program knows it, `radial-plot.cpp` 46-48. -/
inductive Basis where
  | oscillator
  | laguerre
  deriving DecidableEq, Repr

/-- `RunParameters`, `radial-plot.cpp` 51-62; `j` is doubled. -/
structure Plot where
  basis : Basis
  scale : ℝ
  l : Int
  tj : Int
  species : Int
  points : Int
  rMax : ℝ
  xform : String
  output : String

/-- `kBasisTypeDefinitions`, `radial-plot.cpp` 46-48, 87-91. -/
def basisType (w : String) : Except Err Basis :=
  if w = "oscillator" then .ok .oscillator
  else if w = "laguerre" then .ok .laguerre
  else .error .exitFailure

/-- `parameter_stream >> x` for a number, never checked: an extraction that fails stores zero, unless there was
nothing to extract, which leaves the variable uninitialised. -/
def extractNum (nm : Numbers) (w : String) : Except Err ℝ :=
  if w = "" then .error .undefinedBehaviour else .ok ((nm.num? w).getD 0)

/-- The same for an integer. -/
def extractInt (nm : Numbers) (w : String) : Except Err Int :=
  if w = "" then .error .undefinedBehaviour else .ok ((nm.int? w).getD 0)

/-- `ProcessArguments`, `radial-plot.cpp` 70-147, with the transformation file. -/
noncomputable def plotArguments (nm : Numbers) (disk : String → Option (List Line)) (args : List String) :
    Except Err (Plot × List Line) :=
  match args with
  | [w1, w2, w3, w4, w5, w6, w7, w8, w9] => do
    let b ← basisType w1
    let s ← extractNum nm w2
    let l ← extractInt nm w3
    let j ← extractNum nm w4
    let sp ← extractInt nm w5
    let n ← extractInt nm w6
    let r ← extractNum nm w7
    let file ← existing disk w8
    pure (⟨b, s, l, Density.twice j, sp, n, r, w8, w9⟩, file)
  | _ => .error .exitFailure

/-- `basis::OrbitalSubspaceLJPNLabels` of the parameters, `radial-plot.cpp` 178-179; `none` if no subspace can have
them.  `OrbitalSpeciesPN` is 0 for protons and 1 for neutrons. -/
def plotLabels (p : Plot) : Option Labels :=
  if 0 ≤ p.l ∧ 0 ≤ p.tj then
    if p.species = 0 then some ⟨p.l.toNat, p.tj.toNat, .p⟩
    else if p.species = 1 then some ⟨p.l.toNat, p.tj.toNat, .n⟩
    else none
  else none

/-- `Eigen::VectorXd::LinSpaced(n,0,high)`: a single point is `high`. -/
noncomputable def linSpaced (n : ℕ) (high : ℝ) (i : ℕ) : ℝ :=
  if n = 1 then high else (i : ℝ) * (high / ((n : ℝ) - 1))

/-- Assignment of a matrix to a block of `rows` by `cols`: Eigen asserts that the sizes agree. -/
def assignBlock (rows cols : ℕ) (m : Mat) : Except Err Mat := do
  assertE (decide (m.rows = rows ∧ m.cols = cols))
  pure m

/-- `radial-plot.cpp` 162-220: the lines of the output. -/
noncomputable def plot {Orb : Type} (lib : Lib Orb) (wave : Basis → ℕ → ℕ → ℝ → ℝ → ℝ) (rnd6 : ℝ → ℝ) (p : Plot)
    (file : List Line) : Except Err (List Line) := do
  let (h, mats) ← readFile lib file
  checkXform h
  let i ← unchecked ((plotLabels p).bind (lookUpSub h.bra))
  let sub ← getE h.bra i
  let x := h.secs.pairs.idxOf? (i, i)
  assertE (decide (0 ≤ p.points))
  let n := p.points.toNat
  let wf : Mat := ⟨n, sub.ns.length, fun r a => wave p.basis (sub.ns.getD a 0) sub.labels.l p.scale
    (linSpaced n p.rMax r)⟩
  let y ← unchecked x
  let m ← getE mats y
  let prod ← Mat.mul wf m
  let block ← assignBlock n sub.ns.length prod
  pure ((List.range n).map fun r => Tok.num (rnd6 (linSpaced n p.rMax r)) ::
    (List.range sub.ns.length).map fun c => Tok.num (rnd6 (block.val r c)))

/-- `radial-plot.cpp` 152-224. -/
noncomputable def plotRun {Orb : Type} (lib : Lib Orb) (wave : Basis → ℕ → ℕ → ℝ → ℝ → ℝ) (rnd6 : ℝ → ℝ)
    (nm : Numbers) (disk : String → Option (List Line)) (args : List String) : Except Err (String × List Line) := do
  let (p, file) ← plotArguments nm disk args
  let ls ← plot lib wave rnd6 p file
  pure (p.output, ls)

end Verif.Obme.Show
