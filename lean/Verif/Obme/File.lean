import Verif.Obme.Lemmas

/-!
# Model of the one-body operator files

`libraries/obme/obme_io.cpp`, and the two programs built from it and `radial.cpp`:
`programs/obutils/radial-compose.cpp`, `programs/obutils/radial-xform.cpp`.

Simplifications: a text file is a list of lines, a line a list of whitespace-separated tokens; a comment
line begins with a `#` token.  A number printed with format `16.8e` becomes the token of its rounded
value; `rnd` is this rounding.  A negative orbital count is a parse error.  The `basis` library (absent
from the checkout) enters through the record `Lib`: the list of orbitals of a space and back, and the
printed form of an orbital list and back.  `mcutils::GetLine` (absent too) skips blank and comment lines
and gives an empty line at the end of the file; `mcutils::ParsingCheck` stops the program when an
extraction failed.
-/

namespace Verif.Obme
open Verif Verif.Mapping Verif.Xform
open Verif.H2 hiding Mat

/-- A token of a text line. -/
inductive Tok where
  | int (z : Int)
  | num (x : ℝ)
  | chr (c : Char)
  | hash

/-- A text line. -/
abbrev Line := List Tok

/-- Lines with content: neither blank nor a comment. -/
def Line.content : Line → Bool
  | [] => false
  | .hash :: _ => false
  | _ => true

/-- Extraction of a `double`. -/
def Tok.real? : Tok → Option ℝ
  | .int z => some z
  | .num x => some x
  | _ => none

/-- `mcutils::GetLine`. -/
def nextLine : List Line → Line × List Line
  | [] => ([], [])
  | l :: ls => if l.content then (l, ls) else nextLine ls

/-- The orbital lists of the `basis` library: `Orb` is `basis::OrbitalPNInfo`.  `fmt` is
`OrbitalDefinitionStr(·,false,kVersion15200)`, `parse` is `ParseOrbitalPNStream(·,false,format)` where the
flag says whether the format is the older one. -/
structure Lib (Orb : Type) where
  info : Space → List Orb
  mkSpace : List Orb → Space
  fmt : List Orb → List Line
  parse : Bool → List Line → Except Err (List Orb)

/-- Contents of a file: operator type code (`none` where the code leaves the member uninitialised),
spaces, sectors. -/
structure Header where
  type : Option Char
  bra : Space
  ket : Space
  secs : Sectors

/-! ## Writer -/

/-- `mcutils::ChopMatrix(·,1e-14)`. -/
noncomputable def chop (x : ℝ) : ℝ := if |x| < 1e-14 then 0 else x

/-- `OutOBMEStream::WriteHeader`, 266-337. -/
def writeHeader {Orb : Type} (lib : Lib Orb) (verbose : Bool) (type : Char) (bra ket : Space) (secs : Sectors) :
    List Line :=
  let nb := lib.info bra
  let nk := lib.info ket
  [[.hash], [.hash], [.hash], [.hash], [.hash], [.int 2],
    [.chr type, .int secs.qn.J0, .int secs.qn.g0, .int secs.qn.Tz0],
    [.int nb.length, .int nk.length], []]
  ++ (if verbose then [[.hash]] else []) ++ lib.fmt nb ++ [[]]
  ++ (if verbose then [[.hash]] else []) ++ lib.fmt nk ++ [[]]

/-- `OutOBMEStream::WriteNextSector`, 339-373. -/
noncomputable def writeSector (rnd : ℝ → ℝ) (verbose : Bool) (bra ket : Space) (p : ℕ × ℕ) (m : Mat) :
    Except Err (List Line) := do
  let b ← getE bra p.1
  let k ← getE ket p.2
  assertE (b.ns.length = m.rows)
  assertE (k.ns.length = m.cols)
  pure ((if verbose then [[.hash], [.hash]] else []) ++
    ((List.range m.rows).map fun i => (List.range m.cols).map fun j => Tok.num (rnd (chop (m.val i j)))) ++ [[]])

/-- `OutOBMEStream` constructor and `Write`, 232-264. -/
noncomputable def writeFile {Orb : Type} (lib : Lib Orb) (rnd : ℝ → ℝ) (verbose : Bool) (type : Char)
    (bra ket : Space) (secs : Sectors) (mats : List Mat) : Except Err (List Line) := do
  assertE (mats.length = secs.pairs.length)
  let body ← (secs.pairs.zip mats).mapM fun pm => writeSector rnd verbose bra ket pm.1 pm.2
  pure (writeHeader lib verbose type bra ket secs ++ body.flatten)

/-! ## Reader -/

/-- The orbital lines, one `GetLine` each; older versions prepend the index. -/
def orbitalLines (old : Bool) : ℕ → ℕ → List Line → List Line × List Line
  | 0, _, ls => ([], ls)
  | n + 1, i, ls =>
    let l := nextLine ls
    let r := orbitalLines old n (i + 1) l.2
    ((if old then .int i :: l.1 else l.1) :: r.1, r.2)

/-- Orbital counts line. -/
def readCounts (l : Line) : Except Err (ℕ × ℕ) :=
  match l with
  | .int a :: .int b :: _ => if 0 ≤ a ∧ 0 ≤ b then .ok (a.toNat, b.toNat) else .error .parseError
  | _ => .error .parseError

/-- Operator information: type, quantum numbers, orbital counts, older orbital format, remaining lines;
one case per version, 75-154.  An unknown version leaves everything uninitialised. -/
def readInfo (version : Int) (ls : List Line) :
    Except Err (Option Char × QN × (ℕ × ℕ) × Bool × List Line) :=
  if version = 0 then
    let l := nextLine ls
    match l.1 with
    | .chr _ :: .int l0max :: .int Tz0 :: rest => do
      let n ← readCounts rest
      assertE (l0max = 0)
      pure (none, ⟨0, 0, Tz0⟩, n, true, l.2)
    | _ => .error .parseError
  else if version = 1 then
    let l1 := nextLine ls
    match l1.1 with
    | .chr _ :: .int _ :: _ =>
      let l2 := nextLine l1.2
      match l2.1 with
      | .chr mode :: rest => do
        let q ← (if mode = 'R' then
          match rest with
          | .int l0max :: .int Tz0 :: _ => do
            assertE (l0max = 0)
            pure (⟨0, 0, Tz0⟩ : QN)
          | _ => .error .parseError
        else if mode = 'S' then
          match rest with
          | .int J0 :: .int g0 :: .int Tz0 :: _ => .ok (⟨J0, g0, Tz0⟩ : QN)
          | _ => .error .parseError
        else .error .undefinedBehaviour)
        let l3 := nextLine l2.2
        let n ← readCounts l3.1
        pure (some 'R', q, n, true, l3.2)
      | _ => .error .parseError
    | _ => .error .parseError
  else if version = 2 then
    let l1 := nextLine ls
    match l1.1 with
    | .chr type :: .int J0 :: .int g0 :: .int Tz0 :: _ => do
      let l2 := nextLine l1.2
      let n ← readCounts l2.1
      pure (some type, ⟨J0, g0, Tz0⟩, n, false, l2.2)
    | _ => .error .parseError
  else .error .undefinedBehaviour

/-- Version line, 66-72. -/
def readVersion (l : Line) : Except Err Int :=
  match l with
  | .int v :: _ => .ok v
  | _ => .error .parseError

/-- `InOBMEStream::ReadHeader`, 57-202. -/
def readHeader {Orb : Type} (lib : Lib Orb) (ls : List Line) : Except Err (Header × List Line) := do
  let l0 := nextLine ls
  let version ← readVersion l0.1
  let (type, qn, n, old, rest) ← readInfo version l0.2
  let ob := orbitalLines old n.1 0 rest
  let bo ← lib.parse old ob.1
  let ok := orbitalLines old n.2 0 ob.2
  let ko ← lib.parse old ok.1
  let bra := lib.mkSpace bo
  let ket := lib.mkSpace ko
  pure (⟨type, bra, ket, allSectors qn bra ket⟩, ok.2)

/-- One row: the first `cols` tokens as numbers. -/
def readRow (cols : ℕ) (l : Line) : Except Err (List ℝ) :=
  (List.range cols).mapM fun j => match l[j]? with
    | some t => (match t.real? with
      | some x => .ok x
      | none => .error .parseError)
    | none => .error .parseError

/-- The rows of a sector. -/
def readRows (cols : ℕ) : ℕ → List Line → Except Err (List (List ℝ) × List Line)
  | 0, ls => .ok ([], ls)
  | n + 1, ls => do
    let l := nextLine ls
    let r ← readRow cols l.1
    let (rs, rest) ← readRows cols n l.2
    pure (r :: rs, rest)

/-- `InOBMEStream::ReadNextSector`, 204-230. -/
def readSector (bra ket : Space) (p : ℕ × ℕ) (ls : List Line) : Except Err (Mat × List Line) := do
  let b ← getE bra p.1
  let k ← getE ket p.2
  let (rows, rest) ← readRows k.ns.length b.ns.length ls
  pure (⟨b.ns.length, k.ns.length, fun i j => (rows.getD i []).getD j 0⟩, rest)

/-- `InOBMEStream::Read`, 47-53. -/
def readSectors (bra ket : Space) : List (ℕ × ℕ) → List Line → Except Err (List Mat)
  | [], _ => .ok []
  | p :: ps, ls => do
    let (m, rest) ← readSector bra ket p ls
    let ms ← readSectors bra ket ps rest
    pure (m :: ms)

/-- Opening a file and reading everything. -/
def readFile {Orb : Type} (lib : Lib Orb) (ls : List Line) : Except Err (Header × List Mat) := do
  let (h, rest) ← readHeader lib ls
  let mats ← readSectors h.bra h.ket h.secs.pairs rest
  pure (h, mats)

/-! ## Programs -/

/-- Comparison of the operator type with `OneBodyOperatorType::kRadial`; comparing the uninitialised
member is undefined behaviour. -/
def checkRadial (h : Header) : Except Err Unit :=
  match h.type with
  | none => .error .undefinedBehaviour
  | some c => if c = 'R' then .ok () else .error .exitFailure

/-- `radial-compose.cpp` main, 115-180: the files are given by their lines.  The type of the first
operand is checked twice, that of the second never. -/
noncomputable def radialCompose {Orb : Type} [DecidableEq Orb] (lib : Lib Orb) (rnd : ℝ → ℝ)
    (file1 file2 : List Line) : Except Err (List Line) := do
  let (h1, rest1) ← readHeader lib file1
  let (h2, rest2) ← readHeader lib file2
  checkRadial h1
  checkRadial h1
  if lib.info h1.ket ≠ lib.info h2.bra then .error .exitFailure
  else do
    let secs := allSectors ⟨0, 0, 0⟩ h1.bra h2.ket
    let m1 ← readSectors h1.bra h1.ket h1.secs.pairs rest1
    let m2 ← readSectors h2.bra h2.ket h2.secs.pairs rest2
    let m ← compose h1.bra h1.ket h1.secs m1 h2.bra h2.ket h2.secs m2 secs
    writeFile lib rnd true 'R' h1.bra h2.ket secs m

/-- `radial-xform.cpp` main, 122-211; `orbitals` are the orbitals of the orbital file. -/
noncomputable def radialXform {Orb : Type} [DecidableEq Orb] (lib : Lib Orb) (rnd : ℝ → ℝ)
    (orbitals : List Orb) (olap input : List Line) : Except Err (List Line) := do
  let (h, rest) ← readHeader lib input
  let (x, xrest) ← readHeader lib olap
  let space := lib.mkSpace orbitals
  if lib.info h.bra ≠ lib.info h.ket then .error .exitFailure
  else if lib.info space ≠ lib.info h.ket then .error .exitFailure
  else do
    checkRadial x
    if lib.info h.ket ≠ lib.info x.bra ∨ x.secs.qn.Tz0 ≠ 0 then .error .exitFailure
    else do
      let secs := allSectors h.secs.qn x.ket x.ket
      let m ← readSectors h.bra h.ket h.secs.pairs rest
      let xm ← readSectors x.bra x.ket x.secs.pairs xrest
      let r ← similarity space x.ket x.secs xm h.secs m secs
      match h.type with
      | none => .error .undefinedBehaviour
      | some t => writeFile lib rnd true t x.ket x.ket secs r

end Verif.Obme
