import Verif.Common
import Mathlib.Analysis.Real.Sqrt

/-!
# Model of the H2 two-body matrix element streams: sector input and output

Source: `/repo/libraries/tbme/h2_io.{h,cpp}`, `h2_io_v0.cpp`, `h2_io_v15099.cpp`,
`h2_io_v15200.cpp` (in the comments below: `h2_io`, `v0`, `v15099`, `v15200`).

Simplifications that hold for the whole file:
* `double` is `ℝ`; `float` is its 32-bit image `BitVec 32`; the conversions are the
  uninterpreted functions of `FloatModel`.
* `std::size_t`/`int` index arithmetic is on `ℕ`; words written to the file have their
  real width.
* a file is the pair of its byte content (binary mode) and its line content (text mode);
  only the component belonging to the mode is ever used.
* a text line is its list of integer fields plus its list of decimal fields; comment or blank
  lines do not occur.
-/

namespace Verif.H2

open Verif

/-- `basis::TwoBodySpeciesPN` (order pp, nn, pn: see `h2_io.cpp` 106-147 and the TODO
comments in `v15200` 190-192). -/
inductive Species where
  | pp | nn | pn
  deriving DecidableEq, Repr

/-- `int(two_body_species)`. -/
def Species.idx : Species → Nat
  | .pp => 0 | .nn => 1 | .pn => 2

/-- `basis::kTwoBodySpeciesPNCodeDecimal` (11, 22, 12).  The table is in the missing
`basis` submodule; the three values are documented in
`doc/h2/h2v15099/h2v15099-format-description.md` 166. -/
def Species.codeDecimal : Species → Int
  | .pp => 11 | .nn => 22 | .pn => 12

/-- Are the first/second orbital of a pair protons
(`orbital_subspace1().orbital_species()==kP`, `v15200` 314-317). -/
def Species.isP1 : Species → Bool
  | .pp => true | .nn => false | .pn => true
def Species.isP2 : Species → Bool
  | .pp => true | .nn => false | .pn => false

/-- `basis::TwoBodyStateJJJPN`: indices of the two orbitals in their orbital subspaces. -/
structure State where
  index1 : Nat
  index2 : Nat
  deriving DecidableEq, Repr, Inhabited

/-- `basis::TwoBodySubspaceJJJPN`. -/
structure Subspace where
  species : Species
  J : Nat
  g : Nat
  states : List State
  deriving DecidableEq, Repr

def Subspace.size (s : Subspace) : Nat := s.states.length

/-- `basis::TwoBodyStateJJJPN(subspace, index)`; the loops only use `index < size`. -/
def Subspace.state (s : Subspace) (i : Nat) : State := s.states.getD i default

/-- `basis::TwoBodySectorsJJJPN::SectorType`: a pair of subspaces, with their indices in
the space. -/
structure Sector where
  braIndex : Nat
  ketIndex : Nat
  bra : Subspace
  ket : Subspace
  deriving DecidableEq, Repr

/-- `SectorType::IsDiagonal`. -/
def Sector.isDiagonal (s : Sector) : Bool := s.braIndex == s.ketIndex
/-- `SectorType::IsUpperTriangle`. -/
def Sector.isUpperTriangle (s : Sector) : Bool := s.braIndex ≤ s.ketIndex

/-- The part of a sector-list that C++ gets for free: equal indices mean the same subspace. -/
def Sector.WF (s : Sector) : Prop := s.braIndex = s.ketIndex → s.bra = s.ket

/-- `H2Mode` (`h2_io.h`). -/
inductive Mode where
  | text | binary | matrix
  deriving DecidableEq, Repr

/-- Supported `H2Format` values (`h2_io.h`). -/
inductive Format where
  | v0 | v15099 | v15200
  deriving DecidableEq, Repr

/-- `basis::NormalizationConversion`. -/
inductive Conv where
  | none | asToNAS | nasToAS
  deriving DecidableEq, Repr

/-- `Eigen::MatrixXd`. -/
structure Mat where
  rows : Nat
  cols : Nat
  val : Nat → Nat → ℝ

def Mat.zero (r c : Nat) : Mat := ⟨r, c, fun _ _ => 0⟩

/-- `matrix(b,k) = x`. -/
def Mat.set (m : Mat) (b k : Nat) (x : ℝ) : Mat :=
  { m with val := fun i j => if i = b ∧ j = k then x else m.val i j }

/-- Conversions between `double`, `float` and text that the C++ leaves to the compiler,
`fmt` and `iostream`. -/
structure FloatModel where
  toF32 : ℝ → BitVec 32
  ofF32 : BitVec 32 → ℝ
  /-- `fmt::format("{:+16.7e}", x)` -/
  fmt : BitVec 32 → String
  /-- `line_stream >> float` -/
  scan : String → Option (BitVec 32)

/-- One line of a text file. -/
structure Line where
  ints : List Int
  decs : List String
  deriving DecidableEq, Repr

/-- File content. -/
structure File where
  bytes : List Byte
  lines : List Line

def File.empty : File := ⟨[], []⟩
def File.append (a b : File) : File := ⟨a.bytes ++ b.bytes, a.lines ++ b.lines⟩

/-- The indexing data held by `H2StreamBase` (`h2_io.h` 203-206). -/
structure Index where
  sectors : List Sector
  /-- `orbital_space().GetSubspace(0).size()` -/
  numOrbitalsP : Nat

/-! ### Counting (`h2_io.cpp` 85-147) -/

/-- `GetSectorCount`, `h2_io.cpp` 85-104. -/
def getSectorCount (s : Sector) : Nat :=
  if s.isDiagonal then
    let dimension := s.ket.size
    dimension * (dimension + 1) / 2
  else if s.isUpperTriangle then
    s.bra.size * s.ket.size
  else 0

/-- `EvaluateCountsByType`, the output `size_by_type`, `h2_io.cpp` 106-147. The C++ array of
three counters is a function on species. -/
def sizeByType (ss : List Sector) : Species → Nat :=
  ss.foldl (fun size s t => if t = s.bra.species then size t + getSectorCount s else size t)
    (fun _ => 0)

/-- `EvaluateCountsByType`, the output `num_sectors_by_type`, `h2_io.cpp` 106-147. -/
def numSectorsByType (ss : List Sector) : Species → Nat :=
  ss.foldl (fun num s t => if t = s.bra.species then num t + 1 else num t) (fun _ => 0)

/-- The inline count in the sector readers and writers (e.g. `v15099` 435-448, 550-563,
613-628; the `v0` variant at 186-188, 385-387 is the diagonal branch). -/
def inlineSectorEntries (s : Sector) : Nat :=
  if s.isDiagonal then
    let dimension := s.ket.size
    dimension * (dimension + 1) / 2
  else
    s.bra.size * s.ket.size

/-- `sectors().GetSector(k)`. -/
def getSector (ss : List Sector) (k : Nat) : Except Err Sector :=
  match ss[k]? with
  | some s => .ok s
  | none => .error .undefinedBehaviour

/-- `H2StreamBase::SectorIsFirstOfType`, `h2_io.cpp` 182-196. -/
def sectorIsFirstOfType (ss : List Sector) (k : Nat) : Except Err Bool := do
  assertE (decide (k < ss.length))
  if k = 0 then
    return true
  else
    let current ← getSector ss k
    let prev ← getSector ss (k - 1)
    return decide (current.bra.species ≠ prev.bra.species)

/-- `H2StreamBase::SectorIsLastOfType`, `h2_io.cpp` 198-212. -/
def sectorIsLastOfType (ss : List Sector) (k : Nat) : Except Err Bool := do
  assertE (decide (k < ss.length))
  if k = ss.length - 1 then
    return true
  else
    let current ← getSector ss k
    let next ← getSector ss (k + 1)
    return decide (current.bra.species ≠ next.bra.species)

/-! ### Loop over matrix elements -/

/-- The double loop over `bra_index`, `ket_index` with `continue` below the diagonal when
`restrict` (`v0` 197-205, 395-402; `v15099` 457-464, 636-643; `v15200` 342-349, 474-481). -/
def loopPairs (restrict : Bool) (nb nk : Nat) : List (Nat × Nat) :=
  (List.range nb).flatMap fun b =>
    ((List.range nk).filter fun k => !(restrict && !(decide (b ≤ k)))).map fun k => (b, k)

/-- `conversion_factor`, `v0` 409-418, `v15099` 650-659, `v15200` 488-497. -/
noncomputable def conversionFactor (conv : Conv) (bs : Species) (bra : State)
    (ks : Species) (ket : State) : ℝ :=
  match conv with
  | .asToNAS =>
    let f1 : ℝ := if bs ≠ .pn then (if bra.index1 = bra.index2 then 1 / Real.sqrt 2 else 1) else 1
    let f2 : ℝ := if ks ≠ .pn then (if ket.index1 = ket.index2 then 1 / Real.sqrt 2 else 1) else 1
    1 * f1 * f2
  | _ => 1

/-- `float output_matrix_element = conversion_factor * matrix(bra_index,ket_index)`. -/
noncomputable def outputElement (fm : FloatModel) (conv : Conv) (s : Sector) (m : Mat)
    (p : Nat × Nat) : BitVec 32 :=
  fm.toF32 (conversionFactor conv s.bra.species (s.bra.state p.1)
    s.ket.species (s.ket.state p.2) * m.val p.1 p.2)

/-- `buffer[i++] = x` for successive values; storing past the end is undefined behaviour. -/
def storeAll : List (BitVec 32) → Nat → List (BitVec 32) → Except Err (List (BitVec 32))
  | [], _, buf => .ok buf
  | v :: vs, i, buf =>
    if i < buf.length then storeAll vs (i + 1) (buf.set i v) else .error .undefinedBehaviour

/-- `matrix(b,k) = buffer[i++]` over the loop; reading past the end is undefined behaviour. -/
noncomputable def loadAll (fm : FloatModel) :
    List (Nat × Nat) → Nat → List (BitVec 32) → Mat → Except Err Mat
  | [], _, _, m => .ok m
  | p :: ps, i, buf, m =>
    match buf[i]? with
    | none => .error .undefinedBehaviour
    | some v => loadAll fm ps (i + 1) buf (m.set p.1 p.2 (fm.ofF32 v))

/-! ### `mcutils` binary primitives -/

/-- `stream.read(ptr, n)` followed by the stream check. -/
def readRaw (bs : List Byte) (pos n : Nat) : Except Err (List Byte × Nat) :=
  if n = 0 then .ok ([], pos)
  else if pos + n ≤ bs.length then .ok ((bs.drop pos).take n, pos + n)
  else .error .streamFail

/-- `mcutils::ReadBinary<int>(stream, x)`. -/
def readInt (bs : List Byte) (pos : Nat) : Except Err (BitVec 32 × Nat) := do
  let (raw, pos') ← readRaw bs pos 4
  return (word32 raw, pos')

/-- `mcutils::VerifyBinary<int>(stream, expected, ...)`. -/
def verifyInt (bs : List Byte) (pos : Nat) (expected : BitVec 32) : Except Err Nat := do
  let (v, pos') ← readInt bs pos
  if v = expected then return pos' else .error .badDelimiter

def decodeWords : Nat → List Byte → List (BitVec 32)
  | 0, _ => []
  | n + 1, bs => word32 (bs.take 4) :: decodeWords n (bs.drop 4)

/-- `mcutils::ReadBinary<float>(stream, buffer.data(), n)`. -/
def readFloats (bs : List Byte) (pos n : Nat) : Except Err (List (BitVec 32) × Nat) := do
  let (raw, pos') ← readRaw bs pos (n * 4)
  return (decodeWords n raw, pos')

/-- `mcutils::WriteBinary<float>(stream, buffer.data(), n)`: the first `n` buffer entries. -/
def encodeWords (buf : List (BitVec 32)) : List Byte := buf.flatMap bytes32

/-- Value of a record delimiter: `entries*kIntegerSize` converted to `int`. -/
def delimiter (entries : Nat) : BitVec 32 := BitVec.ofNat 32 (entries * 4)

/-- `kMaxRecordLength`, `h2_io.cpp` 40. -/
def kMaxRecordLength : Nat := 2147483647 - 2 * 4

/-! ### Text primitives -/

/-- Read the lines of a sector: for each loop step `GetLine`, parse `labels.length`
integers and one `float`, compare the labels, store (e.g. `v15099` 467-499). -/
noncomputable def loadText (fm : FloatModel) (labels : Nat × Nat → List Int) :
    List (Nat × Nat) → List Line → Nat → Mat → Except Err (Mat × Nat)
  | [], _, pos, m => .ok (m, pos)
  | p :: ps, ls, pos, m =>
    match ls[pos]? with
    | none => .error .parseError
    | some line =>
      if line.ints.length = (labels p).length then
        match line.decs.head?.bind fm.scan with
        | none => .error .parseError
        | some v =>
          if line.ints = labels p then
            loadText fm labels ps ls (pos + 1) (m.set p.1 p.2 (fm.ofF32 v))
          else .error .parseError
      else .error .parseError

/-- Labels expected on a line in format 0: `i1 i2 i3 i4 2J code` (1-based orbital numbers within
species), `v0` 225-237. -/
def labelsV0 (s : Sector) (p : Nat × Nat) : List Int :=
  let bra := s.bra.state p.1
  let ket := s.ket.state p.2
  [bra.index1 + 1, bra.index2 + 1, ket.index1 + 1, ket.index2 + 1,
   2 * s.ket.J, s.ket.species.codeDecimal]

/-- Labels printed by the format 0 writer, `v0` 426-431. -/
def outLabelsV0 (s : Sector) (p : Nat × Nat) : List Int :=
  let bra := s.bra.state p.1
  let ket := s.ket.state p.2
  [bra.index1 + 1, bra.index2 + 1, ket.index1 + 1, ket.index2 + 1,
   2 * s.ket.J, s.ket.species.codeDecimal]

/-- Labels expected in format 15099: `i1 i2 i3 i4 2J_bra 2J_ket code`, `v15099` 487-494. -/
def labelsV15099 (s : Sector) (p : Nat × Nat) : List Int :=
  let bra := s.bra.state p.1
  let ket := s.ket.state p.2
  [bra.index1 + 1, bra.index2 + 1, ket.index1 + 1, ket.index2 + 1,
   2 * s.bra.J, 2 * s.ket.J, s.ket.species.codeDecimal]

/-- Labels printed by the format 15099 writer, `v15099` 667-673. -/
def outLabelsV15099 (s : Sector) (p : Nat × Nat) : List Int :=
  let bra := s.bra.state p.1
  let ket := s.ket.state p.2
  [bra.index1 + 1, bra.index2 + 1, ket.index1 + 1, ket.index2 + 1,
   2 * s.bra.J, 2 * s.ket.J, s.ket.species.codeDecimal]

/-- `bra_index1_offset` etc., `v15200` 313-317, 450-454. -/
def indexOffset (isP : Bool) (numOrbitalsP : Nat) : Int :=
  if isP then 1 else numOrbitalsP + 1

/-- Labels expected in format 15200: `i1 i2 i3 i4 2J_bra 2J_ket` with numbers running over all
orbitals, `v15200` 373-381. -/
def labelsV15200 (np : Nat) (s : Sector) (p : Nat × Nat) : List Int :=
  let bra := s.bra.state p.1
  let ket := s.ket.state p.2
  [bra.index1 + indexOffset s.bra.species.isP1 np, bra.index2 + indexOffset s.bra.species.isP2 np,
   ket.index1 + indexOffset s.ket.species.isP1 np, ket.index2 + indexOffset s.ket.species.isP2 np,
   2 * s.bra.J, 2 * s.ket.J]

/-- Labels printed by the format 15200 writer, `v15200` 505-510. -/
def outLabelsV15200 (np : Nat) (s : Sector) (p : Nat × Nat) : List Int :=
  let bra := s.bra.state p.1
  let ket := s.ket.state p.2
  [bra.index1 + indexOffset s.bra.species.isP1 np, bra.index2 + indexOffset s.bra.species.isP2 np,
   ket.index1 + indexOffset s.ket.species.isP1 np, ket.index2 + indexOffset s.ket.species.isP2 np,
   2 * s.bra.J, 2 * s.ket.J]

/-- Skip `n` lines (`GetLine` in a loop), e.g. `v15099` 566-574.  At end of file `GetLine`
leaves the stream failed, which the caller's `StreamCheck` reports. -/
def skipLines (ls : List Line) (pos n : Nat) : Except Err Nat :=
  if n = 0 then .ok pos
  else if pos + n ≤ ls.length then .ok (pos + n)
  else .error .streamFail

/-! ### Format 0 -/

/-- `InH2Stream::ReadSector_Version0`, `v0` 136-258. -/
noncomputable def readSectorV0 (fm : FloatModel) (ix : Index) (mode : Mode) (f : File)
    (k pos : Nat) : Except Err (Mat × Nat) := do
  let s ← getSector ix.sectors k
  assertE s.isUpperTriangle
  let m := Mat.zero s.bra.size s.ket.size
  assertE s.isDiagonal
  let pairs := loopPairs s.isDiagonal s.bra.size s.ket.size
  match mode with
  | .binary =>
    let pos ← if (← sectorIsFirstOfType ix.sectors k)
      then verifyInt f.bytes pos (delimiter (sizeByType ix.sectors s.ket.species)) else pure pos
    let dimension := s.ket.size
    let entries := dimension * (dimension + 1) / 2
    let (buf, pos) ← readFloats f.bytes pos entries
    let m ← loadAll fm pairs 0 buf m
    let pos ← if (← sectorIsLastOfType ix.sectors k)
      then verifyInt f.bytes pos (delimiter (sizeByType ix.sectors s.ket.species)) else pure pos
    return (m, pos)
  | .text => loadText fm (labelsV0 s) pairs f.lines pos m
  | .matrix => if pairs.isEmpty then return (m, pos) else .error .undefinedBehaviour

/-- `InH2Stream::SkipSector_Version0`, `v0` 260-345. -/
def skipSectorV0 (ix : Index) (mode : Mode) (f : File) (k pos : Nat) : Except Err Nat := do
  let s ← getSector ix.sectors k
  assertE s.isUpperTriangle
  assertE s.isDiagonal
  match mode with
  | .binary =>
    let pos ← if (← sectorIsFirstOfType ix.sectors k)
      then verifyInt f.bytes pos (delimiter (sizeByType ix.sectors s.ket.species)) else pure pos
    let pos := pos + inlineSectorEntries s * 4
    if (← sectorIsLastOfType ix.sectors k)
      then verifyInt f.bytes pos (delimiter (sizeByType ix.sectors s.ket.species)) else pure pos
  | .text => skipLines f.lines pos (inlineSectorEntries s)
  | .matrix => return pos

/-- `OutH2Stream::WriteSector_Version0`, `v0` 347-461.  Here the loop always restricts to
the upper triangle (399-402). -/
noncomputable def writeSectorV0 (fm : FloatModel) (ix : Index) (mode : Mode) (k : Nat)
    (m : Mat) (conv : Conv) : Except Err File := do
  let s ← getSector ix.sectors k
  assertE s.isUpperTriangle
  assertE s.isDiagonal
  let pairs := loopPairs true s.bra.size s.ket.size
  match mode with
  | .binary =>
    let entries := sizeByType ix.sectors s.ket.species
    let pre ← if (← sectorIsFirstOfType ix.sectors k) then do
        assertE (decide (entries * 4 < kMaxRecordLength))
        pure (bytes32 (delimiter entries))
      else pure []
    let dimension := s.ket.size
    let sectorEntries := dimension * (dimension + 1) / 2
    let buf ← storeAll (pairs.map (outputElement fm conv s m)) 0 (List.replicate sectorEntries 0#32)
    let post := if (← sectorIsLastOfType ix.sectors k) then bytes32 (delimiter entries) else []
    return ⟨pre ++ encodeWords buf ++ post, []⟩
  | .text => return ⟨[], pairs.map fun p => ⟨outLabelsV0 s p, [fm.fmt (outputElement fm conv s m p)]⟩⟩
  | .matrix => return .empty

/-! ### Format 15099 -/

/-- `InH2Stream::ReadSector_Version15099`, `v15099` 399-514. -/
noncomputable def readSectorV15099 (fm : FloatModel) (ix : Index) (mode : Mode) (f : File)
    (k pos : Nat) : Except Err (Mat × Nat) := do
  let s ← getSector ix.sectors k
  assertE s.isUpperTriangle
  let m := Mat.zero s.bra.size s.ket.size
  let pairs := loopPairs s.isDiagonal s.bra.size s.ket.size
  match mode with
  | .binary =>
    let pos ← if (← sectorIsFirstOfType ix.sectors k)
      then verifyInt f.bytes pos (delimiter (sizeByType ix.sectors s.ket.species)) else pure pos
    let (buf, pos) ← readFloats f.bytes pos (inlineSectorEntries s)
    let m ← loadAll fm pairs 0 buf m
    let pos ← if (← sectorIsLastOfType ix.sectors k)
      then verifyInt f.bytes pos (delimiter (sizeByType ix.sectors s.ket.species)) else pure pos
    return (m, pos)
  | .text => loadText fm (labelsV15099 s) pairs f.lines pos m
  | .matrix => if pairs.isEmpty then return (m, pos) else .error .undefinedBehaviour

/-- `InH2Stream::SkipSector_Version15099`, `v15099` 516-581. -/
def skipSectorV15099 (ix : Index) (mode : Mode) (f : File) (k pos : Nat) : Except Err Nat := do
  let s ← getSector ix.sectors k
  assertE s.isUpperTriangle
  match mode with
  | .binary =>
    let pos ← if (← sectorIsFirstOfType ix.sectors k)
      then verifyInt f.bytes pos (delimiter (sizeByType ix.sectors s.ket.species)) else pure pos
    let pos := pos + inlineSectorEntries s * 4
    if (← sectorIsLastOfType ix.sectors k)
      then verifyInt f.bytes pos (delimiter (sizeByType ix.sectors s.ket.species)) else pure pos
  | .text => skipLines f.lines pos (inlineSectorEntries s)
  | .matrix => return pos

/-- `OutH2Stream::WriteSector_Version15099`, `v15099` 583-700. -/
noncomputable def writeSectorV15099 (fm : FloatModel) (ix : Index) (mode : Mode) (k : Nat)
    (m : Mat) (conv : Conv) : Except Err File := do
  let s ← getSector ix.sectors k
  assertE s.isUpperTriangle
  let pairs := loopPairs s.isDiagonal s.bra.size s.ket.size
  match mode with
  | .binary =>
    let entries := sizeByType ix.sectors s.ket.species
    let pre ← if (← sectorIsFirstOfType ix.sectors k) then do
        assertE (decide (entries * 4 < kMaxRecordLength))
        pure (bytes32 (delimiter entries))
      else pure []
    let buf ← storeAll (pairs.map (outputElement fm conv s m)) 0
      (List.replicate (inlineSectorEntries s) 0#32)
    let post := if (← sectorIsLastOfType ix.sectors k) then bytes32 (delimiter entries) else []
    return ⟨pre ++ encodeWords buf ++ post, []⟩
  | .text =>
    return ⟨[], pairs.map fun p => ⟨outLabelsV15099 s p, [fm.fmt (outputElement fm conv s m p)]⟩⟩
  | .matrix => return .empty

/-! ### Format 15200 -/

/-- `InH2Stream::ReadSector_Version15200`, `v15200` 295-396. -/
noncomputable def readSectorV15200 (fm : FloatModel) (ix : Index) (mode : Mode) (f : File)
    (k pos : Nat) : Except Err (Mat × Nat) := do
  let s ← getSector ix.sectors k
  assertE s.isUpperTriangle
  let m := Mat.zero s.bra.size s.ket.size
  let pairs := loopPairs s.isDiagonal s.bra.size s.ket.size
  match mode with
  | .binary =>
    let (buf, pos) ← readFloats f.bytes pos (inlineSectorEntries s)
    let m ← loadAll fm pairs 0 buf m
    return (m, pos)
  | .text => loadText fm (labelsV15200 ix.numOrbitalsP s) pairs f.lines pos m
  | .matrix => if pairs.isEmpty then return (m, pos) else .error .undefinedBehaviour

/-- `InH2Stream::SkipSector_Version15200`, `v15200` 398-429. -/
def skipSectorV15200 (ix : Index) (mode : Mode) (f : File) (k pos : Nat) : Except Err Nat := do
  let s ← getSector ix.sectors k
  assertE s.isUpperTriangle
  match mode with
  | .binary => return pos + getSectorCount s * 4
  | .text => skipLines f.lines pos (getSectorCount s)
  | .matrix => return pos

/-- `OutH2Stream::WriteSector_Version15200`, `v15200` 431-539. -/
noncomputable def writeSectorV15200 (fm : FloatModel) (ix : Index) (mode : Mode) (k : Nat)
    (m : Mat) (conv : Conv) : Except Err File := do
  let s ← getSector ix.sectors k
  assertE s.isUpperTriangle
  let pairs := loopPairs s.isDiagonal s.bra.size s.ket.size
  match mode with
  | .binary =>
    let buf ← storeAll (pairs.map (outputElement fm conv s m)) 0
      (List.replicate (inlineSectorEntries s) 0#32)
    return ⟨encodeWords buf, []⟩
  | .text =>
    return ⟨[], pairs.map fun p =>
      ⟨outLabelsV15200 ix.numOrbitalsP s p, [fm.fmt (outputElement fm conv s m p)]⟩⟩
  | .matrix => return .empty

/-! ### The streams -/

/-- Everything about an open stream that does not change: format, mode, indexing. -/
structure Cfg where
  fm : FloatModel
  format : Format
  mode : Mode
  ix : Index

/-- Format dispatch in `InH2Stream::ReadSector`, `h2_io.cpp` 343-356. -/
noncomputable def readSectorRaw (c : Cfg) (f : File) (k pos : Nat) : Except Err (Mat × Nat) :=
  match c.format with
  | .v0 => readSectorV0 c.fm c.ix c.mode f k pos
  | .v15099 => readSectorV15099 c.fm c.ix c.mode f k pos
  | .v15200 => readSectorV15200 c.fm c.ix c.mode f k pos

/-- Format dispatch in `InH2Stream::SkipSector`, `h2_io.cpp` 373-386. -/
def skipSectorRaw (c : Cfg) (f : File) (k pos : Nat) : Except Err Nat :=
  match c.format with
  | .v0 => skipSectorV0 c.ix c.mode f k pos
  | .v15099 => skipSectorV15099 c.ix c.mode f k pos
  | .v15200 => skipSectorV15200 c.ix c.mode f k pos

/-- Format dispatch in `OutH2Stream::WriteSector`, `h2_io.cpp` 491-498. -/
noncomputable def writeSectorRaw (c : Cfg) (k : Nat) (m : Mat) (conv : Conv) : Except Err File :=
  match c.format with
  | .v0 => writeSectorV0 c.fm c.ix c.mode k m conv
  | .v15099 => writeSectorV15099 c.fm c.ix c.mode k m conv
  | .v15200 => writeSectorV15200 c.fm c.ix c.mode k m conv

/-- Mutable part of an `InH2Stream`: `sector_index_`, file position,
`stream_sector_positions_` (`h2_io.h` 221, 288-291). -/
structure InState where
  sectorIndex : Nat
  pos : Nat
  positions : List Nat

/-- State after the header has been read (`v15099` 246-249 and the analogous lines): the
position of the first sector is pushed. -/
def InState.init (start : Nat) : InState := ⟨0, start, [start]⟩

/-- Increment the sector and remember the position of the next one if not seen before
(`h2_io.cpp` 362-367, 391-396). -/
def advance (st : InState) (pos : Nat) : InState :=
  let idx := st.sectorIndex + 1
  { sectorIndex := idx
    pos := pos
    positions := if idx > st.positions.length - 1 then st.positions ++ [pos] else st.positions }

/-- `InH2Stream::SkipSector`, `h2_io.cpp` 370-397. -/
def skipSector (c : Cfg) (f : File) (st : InState) : Except Err InState := do
  let pos ← skipSectorRaw c f st.sectorIndex st.pos
  return advance st pos

/-- `while (sector_index_<seek_index) SkipSector();`, unrolled: `n = seek_index - sector_index_`
iterations, since each one increments `sector_index_`. -/
def skipMany (c : Cfg) (f : File) : Nat → InState → Except Err InState
  | 0, st => .ok st
  | n + 1, st => do
    let st ← skipSector c f st
    skipMany c f n st

/-- `InH2Stream::SeekToSector`, `h2_io.cpp` 399-416. -/
def seekToSector (c : Cfg) (f : File) (seek : Nat) (st : InState) : Except Err InState := do
  assertE (decide (seek < c.ix.sectors.length))
  if seek ≤ st.positions.length - 1 then
    match st.positions[seek]? with
    | some p => return { st with sectorIndex := seek, pos := p }
    | none => .error .undefinedBehaviour
  else
    skipMany c f (seek - st.sectorIndex) st

/-- `InH2Stream::ReadSector`, `h2_io.cpp` 338-368. -/
noncomputable def readSector (c : Cfg) (f : File) (k : Nat) (st : InState) :
    Except Err (Mat × InState) := do
  let st ← seekToSector c f k st
  let (m, pos) ← readSectorRaw c f st.sectorIndex st.pos
  return (m, advance st pos)

/-- A history of `ReadSector` calls on one stream. -/
noncomputable def readHistory (c : Cfg) (f : File) :
    List Nat → InState → Except Err (List Mat × InState)
  | [], st => .ok ([], st)
  | k :: ks, st => do
    let (m, st) ← readSector c f k st
    let (ms, st) ← readHistory c f ks st
    return (m :: ms, st)

/-- Mutable part of an `OutH2Stream`: `sector_index_` and what has been written. -/
structure OutState where
  sectorIndex : Nat
  out : File

/-- `OutH2Stream::WriteSector`, `h2_io.cpp` 471-506. -/
noncomputable def writeSector (c : Cfg) (k : Nat) (m : Mat) (conv : Conv) (st : OutState) :
    Except Err OutState := do
  let s ← getSector c.ix.sectors st.sectorIndex
  assertE (decide (k = st.sectorIndex))
  assertE (decide (m.rows = s.bra.size ∧ m.cols = s.ket.size))
  assertE (decide (conv = .none ∨ conv = .asToNAS))
  let chunk ← writeSectorRaw c st.sectorIndex m conv
  return ⟨st.sectorIndex + 1, st.out.append chunk⟩

/-- One call `WriteSector(index, matrix, conversion_mode)`. -/
structure WriteCall where
  index : Nat
  mat : Mat
  conv : Conv

/-- A history of `WriteSector` calls on one stream. -/
noncomputable def writeHistory (c : Cfg) : List WriteCall → OutState → Except Err OutState
  | [], st => .ok st
  | w :: ws, st => do
    let st ← writeSector c w.index w.mat w.conv st
    writeHistory c ws st

/-! ### File mode (`h2_io.cpp` 157-176) -/

/-- `DeducedIOMode`: a name shorter than four characters, or with any other extension, ends
the program. -/
def deducedIOMode (filename : String) : Except Err Mode :=
  let cs := filename.toList
  if cs.length < 4 then .error .exitFailure
  else
    let ext := cs.drop (cs.length - 4)
    if ext = ".dat".toList then .ok .text
    else if ext = ".mat".toList then .ok .matrix
    else if ext = ".bin".toList then .ok .binary
    else .error .exitFailure

end Verif.H2
