import Verif.Mixer.OneBody
import Verif.Mixer.Words

/-!
# Model of the control files of `h2mixer` and `obmixer`

`ReadParameters`: `programs/h2utils/h2mixer.cpp` 707-992, `programs/obutils/obmixer.cpp` 413-650.

Simplifications: a line is what `mcutils::GetLine` delivers, as its words and whether blanks follow the last one;
`operator>>` on a number takes a whole word, by given functions `int?` and `num?` (a word that is a number
followed by something else is not modelled).  `mcutils::ParsingCheck` and `mcutils::ParsingError`, absent from the
checkout, end the run.  A line is first read and then carried out; when both fail, the program may report the other
failure.  `set-basis` of `obmixer` also reads the orbital file; here only its name is kept.
-/

namespace Verif.Mixer.Control
open Verif Verif.Mapping Verif.Xform Verif.Obme Verif.Mixer

/-- `line_stream.eof()` after a successful `operator>>`. -/
def atEnd (trailing : Bool) (ws : List String) : Bool := ws.isEmpty && !trailing

/-- An optional string with default `""`. -/
def optWord (trailing : Bool) (ws : List String) : Except Err String :=
  if atEnd trailing ws then .ok "" else do
    let r ← word ws
    pure r.1

/-- An optional number with default `1`. -/
def optNum (nm : Numbers) (trailing : Bool) (ws : List String) : Except Err ℝ :=
  if atEnd trailing ws then .ok 1 else do
    let r ← num nm ws
    pure r.1

/-- The five weights. -/
structure Weights where
  wp : ℝ
  wn : ℝ
  wpp : ℝ
  wnn : ℝ
  wpn : ℝ

def weights (nm : Numbers) (ws : List String) : Except Err (Weights × List String) := do
  let a ← num nm ws
  let b ← num nm a.2
  let c ← num nm b.2
  let d ← num nm c.2
  let e ← num nm d.2
  pure (⟨a.1, b.1, c.1, d.1, e.1⟩, e.2)

/-! ## Declarations -/

/-- `shell::RadialOperatorType`, `obme_operator.h` 39-44. -/
inductive Coord where
  | r | k | o | g
  deriving DecidableEq, Repr

/-- `OperatorType`, `obmixer.cpp` 79-85. -/
inductive SrcType where
  | radial (c : Coord)
  | am (t : AMType)
  | isospin
  | ladder (raising : Bool)
  deriving DecidableEq, Repr

/-- A one-body source as declared; the two programs use `builtin` and `generated` respectively. -/
inductive ObDecl where
  | input (id file : String) (qn : QN)
  | builtin (id orbitals : String)
  | generated (id : String) (type : SrcType) (order : Int) (qn : QN) (orbitals : String)
  | linear (id : String) (terms : List (String × ℝ))
  | product (id a b : String) (J0 : Int) (factor : ℝ)
  | xform (id src xf : String)

/-- A two-body source as declared. -/
inductive TbDecl where
  | input (id file : String)
  | builtin (id : String)
  | opU (id ob : String)
  | opV (id a b : String) (factor : ℝ)
  | xform (id file : String) (w : Weights) (xf : String)

/-- `basis::Rank`, the two values that can be chosen. -/
inductive Rank where
  | one | two
  deriving DecidableEq, Repr

/-- `basis::WeightMax` as constructed: not at all, from five numbers, from rank and cutoff. -/
inductive WeightMax where
  | default
  | general (w : Weights)
  | rank (r : Rank) (N : Int)

/-! ## `h2mixer` -/

/-- A line, once read. -/
inductive Cmd where
  | indexing (file : String) (w : Weights)
  | oscillator (r : Rank) (N : Int)
  | multipolarity (qn : QN)
  | mass (A : Int)
  | format (f : Int)
  | xform (id file : String)
  | ob (d : ObDecl)
  | addOb (id : String) (c : ℝ)
  | tb (d : TbDecl)
  | target (file : String)
  | add (id : String) (c : ℝ)

/-- Names accepted by `define-ob-source builtin`, 798-804. -/
def obNames : List String := "identity" :: builtinTable.map (·.1)

/-- `kIdentityOperatorIdSet`, 506-508. -/
def tbNames : List String := ["identity", "loop-test"]

/-- `define-ob-source`, 773-861. -/
def parseOb (nm : Numbers) (trailing : Bool) (ws : List String) : Except Err ObDecl := do
  let sub ← word ws
  if sub.1 = "input" then do
    let id ← word sub.2
    let f ← word id.2
    let J0 ← int nm f.2
    let g0 ← int nm J0.2
    let Tz0 ← int nm g0.2
    pure (.input id.1 f.1 ⟨J0.1, g0.1, Tz0.1⟩)
  else if sub.1 = "builtin" then do
    let id ← word sub.2
    let f ← optWord trailing id.2
    if id.1 ∈ obNames then pure (.builtin id.1 f) else .error .parseError
  else if sub.1 = "linear-combination" then do
    let id ← word sub.2
    pure (.linear id.1 [])
  else if sub.1 = "tensor-product" then do
    let id ← word sub.2
    let a ← word id.2
    let b ← word a.2
    let J0 ← int nm b.2
    let x ← optNum nm trailing J0.2
    pure (.product id.1 a.1 b.1 J0.1 x)
  else if sub.1 = "xform" then do
    let id ← word sub.2
    let s ← word id.2
    let x ← word s.2
    pure (.xform id.1 s.1 x.1)
  else .error .parseError

/-- `define-tb-source`, 883-959. -/
def parseTb (nm : Numbers) (trailing : Bool) (ws : List String) : Except Err TbDecl := do
  let sub ← word ws
  if sub.1 = "input" then do
    let id ← word sub.2
    let f ← word id.2
    pure (.input id.1 f.1)
  else if sub.1 = "builtin" then do
    let id ← word sub.2
    if id.1 ∈ tbNames then pure (.builtin id.1) else .error .parseError
  else if sub.1 = "operatorU" then do
    let id ← word sub.2
    let a ← word id.2
    pure (.opU id.1 a.1)
  else if sub.1 = "operatorV" then do
    let id ← word sub.2
    let a ← word id.2
    let b ← word a.2
    let x ← optNum nm trailing b.2
    pure (.opV id.1 a.1 b.1 x)
  else if sub.1 = "xform" then do
    let id ← word sub.2
    let f ← word id.2
    let w ← weights nm f.2
    let x ← word w.2
    pure (.xform id.1 f.1 w.1 x.1)
  else .error .parseError

/-- `set-target-indexing-oscillator`, 735-753. -/
def parseOsc (nm : Numbers) (ws : List String) : Except Err Cmd := do
  let c ← word ws
  let N ← int nm c.2
  if c.1 = "ob" then pure (.oscillator .one N.1)
  else if c.1 = "tb" then pure (.oscillator .two N.1)
  else .error .parseError

/-- A term, `add-source` and `add-ob-source`. -/
def parseTerm (nm : Numbers) (ws : List String) : Except Err (String × ℝ) := do
  let id ← word ws
  let x ← num nm id.2
  pure (id.1, x.1)

/-- `define-xform`, 770-783: not checked, so what is missing is empty. -/
def parseXf (ws : List String) : String × String := (ws.getD 0 "", ws.getD 1 "")

/-- One line of the control file of `h2mixer`, 719-990. -/
def parse (nm : Numbers) (l : CLine) : Except Err Cmd :=
  match l.words with
  | [] => .error .parseError
  | kw :: ws =>
    if kw = "set-target-indexing" then do
      let f ← word ws
      let w ← weights nm f.2
      pure (.indexing f.1 w.1)
    else if kw = "set-target-indexing-oscillator" then parseOsc nm ws
    else if kw = "set-target-multipolarity" then do
      let J0 ← int nm ws
      let g0 ← int nm J0.2
      let Tz0 ← int nm g0.2
      pure (.multipolarity ⟨J0.1, g0.1, Tz0.1⟩)
    else if kw = "set-mass" then do
      let A ← int nm ws
      pure (.mass A.1)
    else if kw = "set-output-format" then do
      let f ← int nm ws
      pure (.format f.1)
    else if kw = "define-xform" then .ok (.xform (parseXf ws).1 (parseXf ws).2)
    else if kw = "define-ob-source" then do
      let d ← parseOb nm l.trailing ws
      pure (.ob d)
    else if kw = "add-ob-source" then do
      let t ← parseTerm nm ws
      pure (.addOb t.1 t.2)
    else if kw = "define-tb-source" then do
      let d ← parseTb nm l.trailing ws
      pure (.tb d)
    else if kw = "define-target" then do
      let f ← word ws
      pure (.target f.1)
    else if kw = "add-source" then do
      let t ← parseTerm nm ws
      pure (.add t.1 t.2)
    else .error .parseError

/-- `RunParameters` (109-133) and the lists filled by `ReadParameters`.  `A` is `none` while uninitialised. -/
structure Config where
  cutoff : Int := -1
  orbitals : String := ""
  weights : WeightMax := .default
  qn : QN := ⟨0, 0, 0⟩
  A : Option Int := none
  format : Int := 0
  xforms : List (String × String) := []
  ob : List ObDecl := []
  tb : List TbDecl := []
  targets : List (String × List (String × ℝ)) := []

/-- `std::unordered_map::emplace`: a key that is present keeps its value. -/
def emplaceFile (m : List (String × String)) (id file : String) : List (String × String) :=
  if id ∈ m.map (·.1) then m else m ++ [(id, file)]

/-- A term for the last one-body channel, 862-882; for the last channel of `obmixer`, 614-634. -/
def addObTerm (l : List ObDecl) (id : String) (c : ℝ) : Except Err (List ObDecl) :=
  match l.getLast? with
  | none => .error .assertFail
  | some (.linear x ts) => .ok (l.dropLast ++ [.linear x (ts ++ [(id, c)])])
  | some _ => .error .parseError

/-- A term for the last target, 972-985. -/
def addTerm (l : List (String × List (String × ℝ))) (id : String) (c : ℝ) :
    Except Err (List (String × List (String × ℝ))) :=
  match l.getLast? with
  | none => .error .assertFail
  | some (f, ts) => .ok (l.dropLast ++ [(f, ts ++ [(id, c)])])

/-- Carrying out a line. -/
def exec (cfg : Config) : Cmd → Except Err Config
  | .indexing file w => .ok { cfg with orbitals := file, weights := .general w }
  | .oscillator r N => .ok { cfg with cutoff := N, weights := .rank r N }
  | .multipolarity qn => .ok { cfg with qn := qn }
  | .mass A => .ok { cfg with A := some A }
  | .format f => .ok { cfg with format := f }
  | .xform id file => .ok { cfg with xforms := emplaceFile cfg.xforms id file }
  | .ob d => .ok { cfg with ob := cfg.ob ++ [d] }
  | .addOb id c => do
    let l ← addObTerm cfg.ob id c
    pure { cfg with ob := l }
  | .tb d => .ok { cfg with tb := cfg.tb ++ [d] }
  | .target file => .ok { cfg with targets := cfg.targets ++ [(file, [])] }
  | .add id c => do
    let l ← addTerm cfg.targets id c
    pure { cfg with targets := l }

/-- One line, read and carried out. -/
def step (nm : Numbers) (cfg : Config) (l : CLine) : Except Err Config := do
  let c ← parse nm l
  exec cfg c

/-- `ReadParameters` of `h2mixer`. -/
def read (nm : Numbers) (ls : List CLine) : Except Err Config := ls.foldlM (step nm) {}

/-- The choice of `InitializeTargetIndexing`, 1430-1443: orbitals of the oscillator up to a cutoff, or those of a
file within the weights. -/
inductive TargetOrbitals where
  | oscillator (N : Int)
  | file (name : String) (w : WeightMax)

def Config.targetOrbitals (cfg : Config) : TargetOrbitals :=
  if cfg.cutoff ≥ 0 then .oscillator cfg.cutoff else .file cfg.orbitals cfg.weights

/-! ## `obmixer` -/

/-- A line of the control file of `obmixer`, once read. -/
inductive ObCmd where
  | basis (t : BasisType) (file : String)
  | length (x : ℝ)
  | xform (id file : String)
  | source (d : ObDecl)
  | add (id : String) (c : ℝ)
  | target (id file : String)

/-- `kCharCodeRadialOperatorType.at(...)`, `obme_operator.cpp` 13-19; another code throws. -/
def coordOf (s : String) : Except Err Coord :=
  if s = "r" then .ok .r
  else if s = "k" then .ok .k
  else if s = "ik" then .ok .k
  else if s = "o" then .ok .o
  else if s = "g" then .ok .g
  else .error .exitFailure

/-- Table of kinematic operators, `obmixer.cpp` 88-97. -/
def kinTable : List (String × SrcType × Int × QN) :=
  [("identity", .radial .o, 0, ⟨0, 0, 0⟩), ("r", .radial .r, 1, ⟨1, 1, 0⟩), ("ik", .radial .k, 1, ⟨1, 1, 0⟩),
   ("r.r", .radial .r, 2, ⟨0, 0, 0⟩), ("ik.ik", .radial .k, 2, ⟨0, 0, 0⟩)]

/-- Table of angular momentum operators, 99-109. -/
def amTable : List (String × SrcType × Int × QN) :=
  [("l", .am .orbital, 1, ⟨1, 0, 0⟩), ("l2", .am .orbital, 2, ⟨0, 0, 0⟩), ("s", .am .spin, 1, ⟨1, 0, 0⟩),
   ("s2", .am .spin, 2, ⟨0, 0, 0⟩), ("j", .am .total, 1, ⟨1, 0, 0⟩), ("j2", .am .total, 2, ⟨0, 0, 0⟩)]

/-- Table of isospin operators, 111-117. -/
def isoTable : List (String × SrcType × Int × QN) :=
  [("tz", .isospin, 1, ⟨0, 0, 0⟩), ("t+", .isospin, 1, ⟨0, 0, 1⟩), ("t-", .isospin, 1, ⟨0, 0, -1⟩)]

/-- Table of ladder operators, 119-124. -/
def ladTable : List (String × SrcType × Int × QN) :=
  [("c+", .ladder true, 1, ⟨1, 1, 0⟩), ("c", .ladder false, 1, ⟨1, 1, 0⟩)]

/-- A source of one of the tables, 470-541. -/
def tabulated (tab : List (String × SrcType × Int × QN)) (trailing : Bool) (id : String) (ws : List String) :
    Except Err ObDecl :=
  match tab.lookup id with
  | none => .error .parseError
  | some (t, order, qn) => do
    let f ← optWord trailing ws
    pure (.generated id t order qn f)

/-- `define-source`, 463-612. -/
def parseSource (nm : Numbers) (trailing : Bool) (ws : List String) : Except Err ObDecl := do
  let mode ← word ws
  let id ← word mode.2
  if mode.1 = "kinematic" then tabulated kinTable trailing id.1 id.2
  else if mode.1 = "am" then tabulated amTable trailing id.1 id.2
  else if mode.1 = "isospin" then tabulated isoTable trailing id.1 id.2
  else if mode.1 = "ladder" then tabulated ladTable trailing id.1 id.2
  else if mode.1 = "solid-harmonic" then do
    let c ← word id.2
    let order ← int nm c.2
    let J0 ← int nm order.2
    let t ← coordOf c.1
    let f ← optWord trailing J0.2
    pure (.generated id.1 (.radial t) order.1 ⟨J0.1, J0.1.tmod 2, 0⟩ f)
  else if mode.1 = "input" then do
    let f ← word id.2
    let J0 ← int nm f.2
    let g0 ← int nm J0.2
    let Tz0 ← int nm g0.2
    pure (.input id.1 f.1 ⟨J0.1, g0.1, Tz0.1⟩)
  else if mode.1 = "linear-combination" then pure (.linear id.1 [])
  else if mode.1 = "tensor-product" then do
    let a ← word id.2
    let b ← word a.2
    let J0 ← int nm b.2
    let x ← optNum nm trailing J0.2
    pure (.product id.1 a.1 b.1 J0.1 x)
  else if mode.1 = "xform" then do
    let s ← word id.2
    let x ← word s.2
    pure (.xform id.1 s.1 x.1)
  else .error .parseError

/-- `set-basis`, 432-450. -/
def parseBasis (ws : List String) : Except Err ObCmd := do
  let t ← word ws
  let f ← word t.2
  if t.1 = "oscillator" then pure (.basis .oscillator f.1)
  else if t.1 = "laguerre" then pure (.basis .laguerre f.1)
  else .error .parseError

/-- One line of the control file of `obmixer`, 424-648. -/
def parseO (nm : Numbers) (l : CLine) : Except Err ObCmd :=
  match l.words with
  | [] => .error .parseError
  | kw :: ws =>
    if kw = "set-basis" then parseBasis ws
    else if kw = "set-length-parameter" then do
      let x ← num nm ws
      pure (.length x.1)
    else if kw = "define-xform" then .ok (.xform (parseXf ws).1 (parseXf ws).2)
    else if kw = "define-source" then do
      let d ← parseSource nm l.trailing ws
      pure (.source d)
    else if kw = "add-source" then do
      let t ← parseTerm nm ws
      pure (.add t.1 t.2)
    else if kw = "define-target" then do
      let id ← word ws
      let f ← word id.2
      pure (.target id.1 f.1)
    else .error .parseError

/-- `RunParameters` of `obmixer` (138-160) and the lists; no orbital file means no orbitals. -/
structure ObConfig where
  basis : BasisType := .oscillator
  orbitals : Option String := none
  length : ℝ := 1
  xforms : List (String × String) := []
  sources : List ObDecl := []
  targets : List (String × String) := []

/-- Carrying out a line. -/
def execO (cfg : ObConfig) : ObCmd → Except Err ObConfig
  | .basis t f => .ok { cfg with basis := t, orbitals := some f }
  | .length x => .ok { cfg with length := x }
  | .xform id file => .ok { cfg with xforms := emplaceFile cfg.xforms id file }
  | .source d => .ok { cfg with sources := cfg.sources ++ [d] }
  | .add id c => do
    let l ← addObTerm cfg.sources id c
    pure { cfg with sources := l }
  | .target id file => .ok { cfg with targets := cfg.targets ++ [(id, file)] }

/-- One line, read and carried out. -/
def stepO (nm : Numbers) (cfg : ObConfig) (l : CLine) : Except Err ObConfig := do
  let c ← parseO nm l
  execO cfg c

/-- `ReadParameters` of `obmixer`. -/
noncomputable def readO (nm : Numbers) (ls : List CLine) : Except Err ObConfig := ls.foldlM (stepO nm) {}

end Verif.Mixer.Control
