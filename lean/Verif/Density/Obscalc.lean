import Verif.Density.Model
import Verif.Mixer.Control

/-!
# Model of `obscalc-ob`

`programs/obutils/obscalc-ob.cpp`.

Simplifications: control lines as in `Verif/Mixer/Control.lean`.  `NaN`, which only marks a disallowed element, is
`none`.  The output is the list of sections that are written, a section being the operator and its rows; the
printing of the numbers is left out.  A disk gives for each name what the readers of orbital and operator files
deliver, and the text of density files.  Without `set-output-file` the open mode is uninitialised; here the run
fails when the output is opened.
-/

namespace Verif.Density
open Verif Verif.Mapping Verif.Obme
open Verif.Mixer.Control (CLine Numbers word int num atEnd)

/-- `OneBodyOperator`, 83-102. -/
structure Oper where
  name : String
  space : Space
  secs : Sectors
  mats : List Mat

/-- Constructor, 89-101. -/
def openOper {Orb : Type} [DecidableEq Orb] (lib : Lib Orb) (name : String) (f : Obme.Header × List Mat) :
    Except Err Oper := do
  assertE (lib.info f.1.bra = lib.info f.1.ket)
  pure ⟨name, f.1.bra, f.1.secs, f.2⟩

/-- `am::AllowedTriangle` for doubled angular momenta. -/
def allowedTriangle (a b c : Int) : Bool := decide (|a - b| ≤ c ∧ c ≤ a + b ∧ (a + b + c) % 2 = 0)

/-- `blocks[x](i,j)` with the range assertion of Eigen. -/
def blockElem (mats : List Mat) (x i j : ℕ) : Except Err ℝ := do
  let m ← getE mats x
  assertE (i < m.rows ∧ j < m.cols)
  pure (m.val i j)

/-- The loops over the states of two subspaces, 248-256. -/
noncomputable def sumStates (sa sb : Obme.Sub) (omats dmats : List Mat) (x : ℕ) (v : ℝ) : Except Err ℝ :=
  (List.range sa.ns.length).foldlM (fun v i => (List.range sb.ns.length).foldlM (fun v j => do
    let o ← blockElem omats x i j
    let r ← blockElem dmats x i j
    pure (v + ((sa.labels.tj : ℝ) + 1) * o * r)) v) v

/-- Body of the loops over subspaces, 242-256. -/
noncomputable def sumSector (space : Space) (secs : Sectors) (omats dmats : List Mat) (a : ℕ) (v : ℝ) (b : ℕ) :
    Except Err ℝ :=
  match secs.pairs.idxOf? (a, b) with
  | none => .ok v
  | some x => do
    let sa ← getE space a
    let sb ← getE space b
    sumStates sa sb omats dmats x v

/-- The loops over subspaces, 236-258. -/
noncomputable def contract (space : Space) (secs : Sectors) (omats dmats : List Mat) : Except Err ℝ :=
  (List.range space.length).foldlM (fun v a =>
    (List.range space.length).foldlM (sumSector space secs omats dmats a) v) 0

/-- `am::Wigner3J(J,J0,J',-M,M0,M')` as a function of the doubled arguments. -/
abbrev Wigner := Int → Int → Int → Int → Int → Int → ℝ

/-- `CalculateMatrixElement`, 191-263. -/
noncomputable def matrixElement (w : Wigner) (space : Space) (op : Oper) (d : Density) : Except Err (Option ℝ) := do
  assertE ((d.tMbra - d.tMket) % 2 = 0)
  if g0 d.bra d.ket ≠ op.secs.qn.g0 then pure none
  else if tz0 d.Zbra d.Nbra d.Zket d.Nket ≠ op.secs.qn.Tz0 then pure none
  else if !allowedTriangle d.bra.tJ (2 * op.secs.qn.J0) d.ket.tJ then pure none
  else if |w d.bra.tJ (2 * op.secs.qn.J0) d.ket.tJ (-d.tMbra) (d.tMbra - d.tMket) d.tMket| < 1e-8 then pure none
  else if op.secs.qn.J0 < d.data.J0min ∨ d.data.J0max < op.secs.qn.J0 then pure none
  else do
    let e ← d.data.getMultipole op.secs.qn.J0
    let v ← contract space op.secs op.mats e.2
    pure (some (v / Real.sqrt (2 * op.secs.qn.J0 + 1)))

/-! ## Output -/

/-- A row of the output, 314-319. -/
structure Row where
  bra : State
  ket : State
  rme : ℝ

/-- A section of the output. -/
structure Section where
  name : String
  qn : QN
  rows : List Row

/-- The row of a density, if any, 311-319. -/
noncomputable def rowOf (w : Wigner) (space : Space) (op : Oper) (d : Density) : Except Err (Option Row) := do
  let v ← matrixElement w space op d
  pure (v.map fun x => ⟨d.bra, d.ket, x⟩)

/-- The section of an operator, 291-327: not written when it has no row. -/
noncomputable def sectionOf (w : Wigner) (space : Space) (ds : List Density) (op : Oper) : Except Err (List Section) := do
  let rows ← ds.mapM (rowOf w space op)
  pure (if 0 < (rows.filterMap id).length then [⟨op.name, op.secs.qn, rows.filterMap id⟩] else [])

/-! ## Control file -/

/-- A line, once read. -/
inductive OCmd where
  | output (file : String) (append : Bool)
  | indexing (file : String)
  | operator (name file : String)
  | densities (bra ket : State) (file : String) (info : Option String)

/-- `HalfInt(2*J,2)`: the argument is converted to an integer. -/
noncomputable def twice (J : ℝ) : Int := if 0 ≤ J then ⌊2 * J⌋ else ⌈2 * J⌉

/-- Arguments of `set-output-file`, 127-140. -/
def parseOutput (trailing : Bool) (ws : List String) : Except Err OCmd := do
  let f ← word ws
  if atEnd trailing f.2 then pure (.output f.1 false)
  else do
    let m ← word f.2
    pure (.output f.1 (m.1 = "append"))

/-- Arguments of `define-densities`, 157-183. -/
noncomputable def parseDensities (nm : Numbers) (trailing : Bool) (ws : List String) : Except Err OCmd := do
  let Jf ← num nm ws
  let gf ← int nm Jf.2
  let nf ← int nm gf.2
  let Ji ← num nm nf.2
  let gi ← int nm Ji.2
  let ni ← int nm gi.2
  let f ← word ni.2
  let bra : State := ⟨twice Jf.1, gf.1, nf.1⟩
  let ket : State := ⟨twice Ji.1, gi.1, ni.1⟩
  if atEnd trailing f.2 then pure (.densities bra ket f.1 none)
  else do
    let i ← word f.2
    pure (.densities bra ket f.1 (some i.1))

/-- Arguments of `set-indexing`, 141-145. -/
def parseIndexing (ws : List String) : Except Err OCmd := do
  let f ← word ws
  pure (.indexing f.1)

/-- Arguments of `define-operator`, 151-155. -/
def parseOperator (ws : List String) : Except Err OCmd := do
  let n ← word ws
  let f ← word n.2
  pure (.operator n.1 f.1)

/-- The keywords, 126-185. -/
noncomputable def parseO (nm : Numbers) (l : CLine) : Except Err OCmd :=
  match l.words with
  | [] => .error .parseError
  | k :: ws =>
    if k = "set-output-file" then parseOutput l.trailing ws
    else if k = "set-indexing" then parseIndexing ws
    else if k = "define-operator" then parseOperator ws
    else if k = "define-densities" then parseDensities nm l.trailing ws
    else .error .parseError

/-- The files a run can read. -/
structure Disk where
  orbitals : String → Except Err Space
  obme : String → Except Err (Obme.Header × List Mat)
  text : String → Except Err File

/-- `RunParameters`, 105-112. -/
structure Run where
  output : Option (String × Bool)
  space : Space
  ops : List Oper
  ds : List Density

/-- Constructing a density stream, 164-182. -/
noncomputable def openDensity {Orb : Type} (lib : Lib Orb) (disk : Disk) (space : Space) (bra ket : State)
    (file : String) : Option String → Except Err Density
  | none => do
    let f ← disk.text file
    readSingle lib space bra ket f
  | some info => do
    let f ← disk.text file
    let i ← disk.text info
    readMulti lib space bra ket i.lines f.lines

/-- Carrying out a line. -/
noncomputable def exec {Orb : Type} [DecidableEq Orb] (lib : Lib Orb) (disk : Disk) (r : Run) :
    OCmd → Except Err Run
  | .output f a => .ok { r with output := some (f, a) }
  | .indexing f => do
    let s ← disk.orbitals f
    pure { r with space := s }
  | .operator n f => do
    let d ← disk.obme f
    let o ← openOper lib n d
    pure { r with ops := r.ops ++ [o] }
  | .densities b k f i => do
    let d ← openDensity lib disk r.space b k f i
    pure { r with ds := r.ds ++ [d] }

/-- `ReadParameters`, 116-189. -/
noncomputable def readO {Orb : Type} [DecidableEq Orb] (lib : Lib Orb) (nm : Numbers) (disk : Disk) (ls : List CLine) :
    Except Err Run :=
  ls.foldlM (fun r l => do
    let c ← parseO nm l
    exec lib disk r c) ⟨none, [], [], []⟩

/-- Opening the output, 282-287. -/
def openOutput : Option (String × Bool) → Except Err (String × Bool)
  | some o => .ok o
  | none => .error .streamFail

/-- `main`, 265-334: output file, whether it is appended to, sections. -/
noncomputable def obscalc {Orb : Type} [DecidableEq Orb] (lib : Lib Orb) (w : Wigner) (nm : Numbers) (disk : Disk)
    (ls : List CLine) : Except Err ((String × Bool) × List Section) := do
  let r ← readO lib nm disk ls
  let o ← openOutput r.output
  let ss ← r.ops.mapM (sectionOf w r.space r.ds)
  pure (o, ss.flatten)

end Verif.Density
