import Verif.Obme.File

/-!
# Model of the one-body density files

`libraries/density/obdme_io.h` and `obdme_io.cpp` (whole files).

Simplifications: `double` is `ℝ`; files are lists of lines of tokens as in `Verif/Obme/File.lean`, and a single-file
density also says whether its last line ends in a newline.  The `basis` library, absent from the checkout, enters
through the record `Lib`; `basis::MatrixElementIndicesLJPN` looks up the `(l,j)` subspaces, the states in them and
the sector, each of which may be absent.  Where the code uses a number it failed to extract and did not check (the
lines of the many-body states of a single-file density), the outcome is undefined behaviour.  A negative radial or
orbital quantum number names no orbital: the lookup fails.  The energies, the isospins and the sequence numbers
are read but used by nothing, they are left out.
-/

namespace Verif.Density
open Verif Verif.Mapping Verif.Obme

/-- `basis::FullOrbitalLabels`: species, `n`, `l` and doubled `j`. -/
structure Full where
  sp : Species1
  n : ℕ
  l : ℕ
  tj : ℕ
  deriving DecidableEq, Repr

/-- Labels of the subspace of an orbital. -/
def Full.labels (x : Full) : Obme.Labels := ⟨x.l, x.tj, x.sp⟩

/-- The orbital lists of the `basis` library, with the labels of an orbital. -/
structure Lib (Orb : Type) extends Obme.Lib Orb where
  full : Orb → Full

/-- Quantum numbers of a many-body state: doubled `J`, parity, running number. -/
structure State where
  tJ : Int
  g : Int
  n : Int
  deriving DecidableEq, Repr

/-! ## Storage -/

/-- `J0_min_`, `J0_max_`, `sectors_`, `matrices_` of `InOBDMEStream`. -/
structure Storage where
  J0min : Int
  J0max : Int
  sets : List (Sectors × List Mat)

/-- `sectors(J0)` and `matrices(J0)`, `obdme_io.h` 102-110, 135-143. -/
def Storage.at (s : Storage) (J0 : Int) : Except Err (Sectors × List Mat) := do
  assertE (s.J0min ≤ J0 ∧ J0 ≤ s.J0max)
  getE s.sets (J0 - s.J0min).toNat

/-- `GetMultipole`, 26-34. -/
def Storage.getMultipole (s : Storage) (J0 : Int) : Except Err (Sectors × List Mat) := s.at J0

/-- The sectors and zero blocks of one multipole, 43-44. -/
def zeroSet (space : Space) (q : QN) : Except Err (Sectors × List Mat) := do
  let ms ← (allSectors q space space).pairs.mapM (zeroBlock space space)
  pure (allSectors q space space, ms)

/-- `InitStorage`, 36-46.  Resizing to a negative number throws. -/
def initStorage (space : Space) (g0 Tz0 lo hi : Int) : Except Err Storage :=
  if hi - lo + 1 < 0 then .error .exitFailure
  else do
    let sets ← (List.range (hi - lo + 1).toNat).mapM fun i : ℕ => zeroSet space ⟨lo + i, g0, Tz0⟩
    pure ⟨lo, hi, sets⟩

/-- Position of a state in its subspace, `LookUpStateIndex`. -/
def lookUpState (space : Space) (x : Full) : Option (ℕ × ℕ) :=
  (lookUpSub space x.labels).bind fun i => (space[i]?).bind fun b => (b.ns.idxOf? x.n).map fun a => (i, a)

/-- `basis::MatrixElementIndicesLJPN` with the three assertions that follow it, 268-275, 527-533. -/
def indices (space : Space) (secs : Sectors) (bra ket : Full) : Except Err (ℕ × ℕ × ℕ) :=
  match lookUpState space bra, lookUpState space ket with
  | some (i, a), some (k, c) => do
    let x ← assertFound (secs.pairs.idxOf? (i, k))
    pure (x, a, c)
  | _, _ => .error .assertFail

/-- Assignment to one element of a matrix. -/
noncomputable def setElem (m : Mat) (a c : ℕ) (v : ℝ) : Mat :=
  ⟨m.rows, m.cols, fun i j => if i = a ∧ j = c then v else m.val i j⟩

/-- Storing a matrix element, 268-275 with 284, 527-533 with 539. -/
noncomputable def store (space : Space) (s : Storage) (J0 : Int) (bra ket : Full) (v : ℝ) : Except Err Storage := do
  let e ← s.at J0
  let (x, a, c) ← indices space e.1 bra ket
  let m ← getE e.2 x
  assertE (a < m.rows ∧ c < m.cols)
  pure ⟨s.J0min, s.J0max, s.sets.set (J0 - s.J0min).toNat (e.1, e.2.set x (setElem m a c v))⟩

/-- `Hat(j)` for doubled `j`. -/
noncomputable def hat (tj : ℕ) : ℝ := Real.sqrt (tj + 1)

/-- Contents of a density file: states, particle numbers, doubled `M`, elements. -/
structure Density where
  bra : State
  ket : State
  Zbra : Int
  Nbra : Int
  Zket : Int
  Nket : Int
  tMbra : Int
  tMket : Int
  data : Storage

/-- `g0()`, `obdme_io.h` 96. -/
def g0 (bra ket : State) : Int := (bra.g + ket.g).tmod 2

/-- `Tz0()`, `obdme_io.h` 97: the difference of the `(Z-N)/2`, which is an integer where it is used. -/
def tz0 (Zbra Nbra Zket Nket : Int) : Int := ((Zbra - Nbra) - (Zket - Nket)) / 2

/-! ## Single-file densities -/

/-- A single-file density: its lines, and whether the last one ends in a newline. -/
structure File where
  lines : List Line
  newline : Bool

/-- What is read from the line of a state: `Z`, `N`, `2J`, `2M`, parity, `n`. -/
structure StateLine where
  Z : Int
  N : Int
  tJ : Int
  tM : Int
  parity : Int
  n : Int

/-- Lines 2 and 3, 418-424, 432-438. -/
def readState : Line → Except Err StateLine
  | .int Z :: .int N :: .int _ :: .int tJ :: .int tM :: .int p :: .int n :: _ => .ok ⟨Z, N, tJ, tM, p, n⟩
  | _ => .error .undefinedBehaviour

/-- The assertions 426-429, 440-443. -/
def checkState (s : StateLine) (q : State) : Except Err Unit := do
  assertE (s.tJ = q.tJ)
  assertE (s.parity = 1 ∨ s.parity = -1)
  assertE (q.g = if s.parity = -1 then 1 else 0)
  assertE (s.n = q.n)

/-- Number of orbitals of a species, `basis::OrbitalSpacePN(...).GetSubspace(·).size()`. -/
def countSpecies {Orb : Type} (lib : Lib Orb) (space : Space) (sp : Species1) : ℕ :=
  ((lib.info space).filter fun o => (lib.full o).sp = sp).length

/-- Header of a single-file density. -/
structure Header where
  bra : StateLine
  ket : StateLine
  J0min : Int
  J0max : Int
  orbitals : List Full

/-- `ReadHeader` and `ReadHeader1520`, 392-503. -/
def readHeader {Orb : Type} (lib : Lib Orb) (space : Space) (bra ket : State) (ls : List Line) :
    Except Err (Header × List Line) := do
  let l1 := nextLine ls
  let version ← readVersion l1.1
  if version ≠ 1520 then .error .exitFailure
  else do
    let l2 := nextLine l1.2
    let b ← readState l2.1
    checkState b bra
    let l3 := nextLine l2.2
    let k ← readState l3.1
    checkState k ket
    assertE (((b.Z - b.N) - (k.Z - k.N)) % 2 = 0)
    let l4 := nextLine l3.2
    let lo ← readVersion l4.1
    let l5 := nextLine l4.2
    let hi ← readVersion l5.1
    let l6 := nextLine l5.2
    let n ← readCounts l6.1
    assertE (countSpecies lib space .p = n.1)
    assertE (countSpecies lib space .n = n.2)
    let l7 := nextLine l6.2
    let _ ← readCounts l7.1
    let ob := orbitalLines false (n.1 + n.2) 0 l7.2
    let os ← lib.parse false ob.1
    pure (⟨b, k, lo, hi, os.map lib.full⟩, ob.2)

/-- `orbital_list_.at(i-1)`, which throws outside the list. -/
def orbitalAt (os : List Full) (i : Int) : Except Err Full :=
  if 1 ≤ i then
    match os[(i - 1).toNat]? with
    | some o => .ok o
    | none => .error .exitFailure
  else .error .exitFailure

/-- A data line, 517-526. -/
def dataLine (os : List Full) : Line → Except Err (Int × Full × Full × ℝ)
  | .int ia :: .int ib :: .int J0 :: t :: _ =>
    match t.real? with
    | some v => do
      let a ← orbitalAt os ia
      let b ← orbitalAt os ib
      pure (J0, a, b, v)
    | none => .error .parseError
  | _ => .error .parseError

/-- Body of the loop of `ReadData1520`, 517-539. -/
noncomputable def dataStep (os : List Full) (space : Space) (s : Storage) (l : Line) : Except Err Storage := do
  let (J0, a, b, v) ← dataLine os l
  store space s J0 a b (v / hat a.tj)

/-- `ReadData1520`, 514-542: the loop ends as soon as `GetLine` has met the end of the file, and it meets the end
with the last line when no newline follows. -/
noncomputable def readData (os : List Full) (space : Space) (newline : Bool) : Storage → List Line →
    Except Err Storage
  | s, [] => .ok s
  | s, l :: ls =>
    if l.content then
      if ls.isEmpty && !newline then .ok s
      else do
        let s' ← dataStep os space s l
        readData os space newline s' ls
    else readData os space newline s ls

/-- Constructor of `InOBDMEStreamSingle`, 367-390. -/
noncomputable def readSingle {Orb : Type} (lib : Lib Orb) (space : Space) (bra ket : State) (f : File) :
    Except Err Density := do
  let (h, rest) ← readHeader lib space bra ket f.lines
  let s ← initStorage space (g0 bra ket) (tz0 h.bra.Z h.bra.N h.ket.Z h.ket.N) h.J0min h.J0max
  let s' ← readData h.orbitals space f.newline s rest
  pure ⟨bra, ket, h.bra.Z, h.bra.N, h.ket.Z, h.ket.N, h.bra.tM, h.ket.tM, s'⟩

/-! ## Multi-file densities -/

/-- `InfoLine`, `obdme_io.h` 188-194. -/
structure InfoLine where
  bra : Full
  ket : Full
  J0 : Int

/-- Header of an info file. -/
structure Info where
  version : Int
  J0max : Int
  np : ℕ
  nn : ℕ

/-- One count. -/
def readCount : Line → Except Err ℕ
  | .int a :: _ => if 0 ≤ a then .ok a.toNat else .error .parseError
  | _ => .error .parseError

/-- `ReadInfoHeader1405`, 101-138. -/
def infoHeader1405 {Orb : Type} (lib : Lib Orb) (space : Space) (ls : List Line) : Except Err (Info × List Line) := do
  let l2 := nextLine ls
  let n ← readCount l2.1
  assertE (countSpecies lib space .p = n)
  assertE (countSpecies lib space .n = n)
  let l3 := nextLine l2.2
  let hi ← readVersion l3.1
  let l4 := nextLine l3.2
  let m ← readCount l4.1
  pure (⟨1405, hi, m, m⟩, l4.2)

/-- `ReadInfoHeader1500`, 140-184; the last two lines are skipped whatever they are. -/
def infoHeader1500 {Orb : Type} (lib : Lib Orb) (space : Space) (ls : List Line) : Except Err (Info × List Line) := do
  let l2 := nextLine ls
  let hi ← readVersion l2.1
  let l3 := nextLine l2.2
  let n ← readCounts l3.1
  assertE (countSpecies lib space .p = n.1)
  assertE (countSpecies lib space .n = n.2)
  let l4 := nextLine l3.2
  let m ← readCounts l4.1
  pure (⟨1500, hi, m.1, m.2⟩, l4.2.drop 2)

/-- `ReadInfoHeader`, 79-99. -/
def infoHeader {Orb : Type} (lib : Lib Orb) (space : Space) (ls : List Line) : Except Err (Info × List Line) := do
  let l1 := nextLine ls
  let version ← readVersion l1.1
  if version = 1405 then infoHeader1405 lib space l1.2
  else if version = 1500 then infoHeader1500 lib space l1.2
  else .error .exitFailure

/-- Labels of an orbital from numbers of the file. -/
def fullOf (sp : Species1) (n l tj : Int) : Except Err Full :=
  if 0 ≤ n ∧ 0 ≤ l ∧ 0 ≤ tj then .ok ⟨sp, n.toNat, l.toNat, tj.toNat⟩ else .error .assertFail

/-- A line of version 1405, 205-215. -/
def infoLine1405 : Line → Except Err InfoLine
  | .int _ :: .int na :: .int la :: .int tja :: .int nb :: .int lb :: .int tjb :: .int J0 :: _ => do
    let a ← fullOf .p na la tja
    let b ← fullOf .p nb lb tjb
    pure ⟨a, b, J0⟩
  | _ => .error .parseError

/-- `basis::OrbitalSpeciesPN(cls-1)`; another class has no orbitals. -/
def speciesOf (cls : Int) : Except Err Species1 :=
  if cls = 1 then .ok .p else if cls = 2 then .ok .n else .error .assertFail

/-- A line of version 1500, 235-245. -/
def infoLine1500 : Line → Except Err InfoLine
  | .int _ :: .int _ :: .int na :: .int la :: .int tja :: .int _ :: .int nb :: .int lb :: .int tjb :: .int J0 ::
      .int cls :: _ => do
    let sp ← speciesOf cls
    let a ← fullOf sp na la tja
    let b ← fullOf sp nb lb tjb
    pure ⟨a, b, J0⟩
  | _ => .error .parseError

/-- The next `n` lines. -/
def takeLines {α : Type} (f : Line → Except Err α) : ℕ → List Line → Except Err (List α)
  | 0, _ => .ok []
  | n + 1, ls => do
    let l := nextLine ls
    let a ← f l.1
    let as ← takeLines f n l.2
    pure (a :: as)

/-- The copy for neutrons, 220-225. -/
def asNeutron (i : InfoLine) : InfoLine := ⟨{ i.bra with sp := .n }, { i.ket with sp := .n }, i.J0⟩

/-- `ReadInfo`, 186-247. -/
def readInfo (h : Info) (ls : List Line) : Except Err (List InfoLine) :=
  if h.version = 1405 then do
    let is ← takeLines infoLine1405 h.np ls
    pure (is ++ is.map asNeutron)
  else takeLines infoLine1500 (h.np + h.nn) ls

/-- Lines 3 and 4 of the data file, 315-341: `2M`, `2J`, `n`, `2T`. -/
def readDataState (q : State) : Line → Except Err Int
  | .int tM :: .int tJ :: .int n :: .int _ :: _ => do
    assertE (tJ = q.tJ)
    assertE (n = q.n)
    pure tM
  | _ => .error .parseError

/-- Two integers on a line. -/
def readPair : Line → Except Err (Int × Int)
  | .int a :: .int b :: _ => .ok (a, b)
  | _ => .error .parseError

/-- Line 5 of the data file, 343-359. -/
def dataCounts (h : Info) (l : Line) : Except Err Unit :=
  if h.version = 1405 then do
    let n ← readCounts l
    assertE (n.1 = h.np)
    assertE (n.2 = h.nn)
  else do
    let n ← readCount l
    assertE (n = h.np + h.nn)

/-- `ReadDataHeader`, 290-361: `Z`, `N`, doubled `M` of bra and ket, remaining lines. -/
def dataHeader (h : Info) (bra ket : State) (ls : List Line) : Except Err ((Int × Int) × Int × Int × List Line) := do
  let l1 := nextLine ls
  let version ← readVersion l1.1
  assertE (version = h.version)
  let l2 := nextLine l1.2
  let zn ← readPair l2.1
  let l3 := nextLine l2.2
  let mb ← readDataState bra l3.1
  let l4 := nextLine l3.2
  let mk ← readDataState ket l4.1
  let l5 := nextLine l4.2
  dataCounts h l5.1
  pure (zn, mb, mk, l5.2)

/-- `data_stream >> temp_matrix_element`, which nothing checks: at the end of the file the variable keeps its
value, something that is not a number makes it zero and ends the extraction. -/
def extract (prev : ℝ) : List Tok → ℝ × List Tok
  | [] => (prev, [])
  | t :: ts => match t.real? with
    | some x => (x, ts)
    | none => (0, [])

/-- `k_sqrt_4pi`, 24. -/
noncomputable def sqrt4pi : ℝ := 3.54490770181103205459633496668229

/-- Loop of `ReadData`, 265-285: the variable, the tokens left, the storage. -/
noncomputable def multiData (space : Space) : List InfoLine → ℝ → List Tok → Storage → Except Err Storage
  | [], _, _, s => .ok s
  | i :: is, prev, ts, s => do
    let (x, ts') := extract prev ts
    let v := x * sqrt4pi / hat i.bra.tj
    let s' ← store space s i.J0 i.bra i.ket v
    multiData space is v ts' s'

/-- Constructor of `InOBDMEStreamMulti`, 51-77, with `ReadData`, 249-288. -/
noncomputable def readMulti {Orb : Type} (lib : Lib Orb) (space : Space) (bra ket : State) (info data : List Line) :
    Except Err Density := do
  let (h, rest) ← infoHeader lib space info
  let is ← readInfo h rest
  let (zn, mb, mk, ls) ← dataHeader h bra ket data
  let s ← initStorage space (g0 bra ket) (tz0 zn.1 zn.2 zn.1 zn.2) 0 h.J0max
  let s' ← multiData space is 0 ls.flatten s
  pure ⟨bra, ket, zn.1, zn.2, zn.1, zn.2, mb, mk, s'⟩

end Verif.Density
