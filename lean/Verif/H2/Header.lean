import Verif.H2.Model
import Mathlib.Algebra.Order.Floor.Ring
import Mathlib.Algebra.Order.Archimedean.Basic

/-!
# Model of the H2 file headers

Source: `h2_io.cpp` 56-83, 246-330, 423-469; `h2_io_v0.cpp` 12-134; `h2_io_v15099.cpp` 12-396;
`h2_io_v15200.cpp` 14-292.

The `basis` submodule is not part of the repository checkout.  What the headers need of it is the
parameter `BasisLib`: how a list of orbitals and cutoffs determines the two-body subspaces, and how
these and `J0,g0,Tz0` determine the sectors.
-/

namespace Verif.H2
open Verif

/-- Orbital data written to the header (`basis::OrbitalPNInfo` without the species). -/
structure Orb where
  n : Int
  l : Int
  twiceJ : Int
  weight : ℝ

/-- `basis::OrbitalSpacePN`: a proton and a neutron subspace. -/
structure OrbSpace where
  p : List Orb
  n : List Orb

/-- `orbital_space().OrbitalInfo()`: flat list, species first. -/
def OrbSpace.flat (o : OrbSpace) : List (Bool × Orb) :=
  o.p.map (fun x => (true, x)) ++ o.n.map (fun x => (false, x))

/-- `basis::OrbitalSpacePN(orbitals)`: split by species, keeping the order. -/
def OrbSpace.ofFlat (xs : List (Bool × Orb)) : OrbSpace :=
  ⟨(xs.filter fun x => x.1).map Prod.snd, (xs.filter fun x => !x.1).map Prod.snd⟩

/-- `basis::WeightMax(wp,wn,wpp,wnn,wpn)`. -/
structure WeightMax where
  p : ℝ
  n : ℝ
  pp : ℝ
  nn : ℝ
  pn : ℝ

/-- `basis::WeightMax(N1max,N2max)`. -/
noncomputable def WeightMax.osc (N1 N2 : Int) : WeightMax := ⟨N1, N1, N2, N2, N2⟩

/-- `basis::TwoBodySpaceJJJPNOrdering`. -/
inductive SpaceOrdering where
  | pn | tz
  deriving DecidableEq

/-- The functions of the missing `basis` submodule that the headers use. -/
structure BasisLib where
  /-- `basis::TwoBodySpaceJJJPN(orbital_space, weight_max, ordering)` -/
  space : OrbSpace → WeightMax → SpaceOrdering → List Subspace
  /-- `basis::TwoBodySectorsJJJPN(space,J0,g0,Tz0)` (canonical direction) -/
  sectors : List Subspace → Int → Int → Int → List Sector
  /-- `basis::OrbitalSpacePN(N1max)` -/
  oscOrbitals : Int → OrbSpace
  /-- `OrbitalSubspacePN::weight_max()` -/
  weightMax : List Orb → ℝ
  /-- lines of `basis::OrbitalDefinitionStr` -/
  orbLines : Format → OrbSpace → List Line
  /-- `basis::ParseOrbitalPNStream` -/
  parseOrbs : Format → List Line → Except Err (List (Bool × Orb))

/-- Conversions used by headers: `fmt::format("{:e}", x)` of a `double`. -/
structure HeaderFloat where
  fm : FloatModel
  fmtE : ℝ → String

/-- What a stream is opened with. -/
structure Desc where
  orbs : OrbSpace
  wmax : WeightMax
  ordering : SpaceOrdering
  J0 : Int
  g0 : Int
  Tz0 : Int

/-- The space and the sectors of a stream. -/
def Desc.subspaces (lib : BasisLib) (d : Desc) : List Subspace := lib.space d.orbs d.wmax d.ordering
def Desc.index (lib : BasisLib) (d : Desc) : Index :=
  ⟨lib.sectors (d.subspaces lib) d.J0 d.g0 d.Tz0, d.orbs.p.length⟩

/-- `EvaluateJmaxByType`, `h2_io.cpp` 56-83. -/
def jmaxByType (ss : List Subspace) : Species → Nat :=
  ss.foldl (fun jm s t => if t = s.species then max (jm t) s.J else jm t) (fun _ => 0)

/-- `H2Format` code (`h2_io.h` 84-86). -/
def Format.code : Format → Int
  | .v0 => 0 | .v15099 => 15099 | .v15200 => 15200

/-! ### Writing primitives -/

/-- `mcutils::WriteBinary<int>` -/
def wInt (i : Int) : List Byte := bytes32 (BitVec.ofInt 32 i)
/-- `mcutils::WriteBinary<int64_t>` -/
def wInt64 (i : Int) : List Byte := bytes64 (BitVec.ofInt 64 i)
/-- `mcutils::WriteBinary<float>` of a `double` -/
def wFloat (fm : FloatModel) (x : ℝ) : List Byte := bytes32 (fm.toF32 x)
/-- A record: delimiter, content, delimiter. -/
def wRecord (nbytes : Int) (content : List Byte) : List Byte := wInt nbytes ++ content ++ wInt nbytes

/-- `int(x)` of a `double` (truncation toward zero; out-of-range values not modelled). -/
noncomputable def truncToInt (x : ℝ) : Int := if 0 ≤ x then ⌊x⌋ else ⌈x⌉

/-- `int i = size_t` narrowing. -/
def narrow (n : Nat) : Int := (BitVec.ofNat 32 n).toInt

/-! ### Reading primitives: parsers over bytes or lines -/

/-- A reader at a position of a token list. -/
def P (τ α : Type) : Type := List τ → Nat → Except Err (α × Nat)

instance {τ : Type} : Monad (P τ) where
  pure a := fun _ pos => .ok (a, pos)
  bind p q := fun ts pos =>
    match p ts pos with
    | .error e => .error e
    | .ok (a, pos') => q a ts pos'

def P.fail {τ α : Type} (e : Err) : P τ α := fun _ _ => .error e
def P.assert {τ : Type} (b : Bool) : P τ Unit := if b then pure () else P.fail .assertFail

def pWord32 : P Byte (BitVec 32) := fun bs pos => do
  let (raw, pos') ← readRaw bs pos 4
  return (word32 raw, pos')
def pWord64 : P Byte (BitVec 64) := fun bs pos => do
  let (raw, pos') ← readRaw bs pos 8
  return (word64 raw, pos')
/-- `mcutils::ReadBinary<int>` -/
def pInt : P Byte Int := do let w ← pWord32; return w.toInt
/-- `mcutils::ReadBinary<int64_t>` -/
def pInt64 : P Byte Int := do let w ← pWord64; return w.toInt
/-- `mcutils::ReadBinary<float>` into a `double` -/
def pFloat (fm : FloatModel) : P Byte ℝ := do let w ← pWord32; return fm.ofF32 w
/-- `mcutils::VerifyBinary<int>` -/
def pVerify (v : Int) : P Byte Unit := do
  let w ← pWord32
  if w = BitVec.ofInt 32 v then return () else P.fail .badDelimiter
/-- A `for` loop of reads with `push_back`. -/
def pMany {τ α : Type} (p : P τ α) : Nat → P τ (List α)
  | 0 => return []
  | n + 1 => do
    let x ← p
    let xs ← pMany p n
    return x :: xs

/-- `mcutils::GetLine`. -/
def tLine : P Line Line := fun ls pos =>
  match ls[pos]? with
  | some l => .ok (l, pos + 1)
  | none => .error .parseError

/-- `stream >> int` fails when the value does not fit. -/
def fitsInt (x : Int) : Bool := decide (-(2 ^ 31) ≤ x ∧ x < 2 ^ 31)
def fitsLong (x : Int) : Bool := decide (-(2 ^ 63) ≤ x ∧ x < 2 ^ 63)

/-- Read the leading `n` integers of a line, each into a variable with the range check `fits`. -/
def tInts (fits : Int → Bool) (n : Nat) : P Line (List Int) := do
  let l ← tLine
  if n ≤ l.ints.length ∧ (l.ints.take n).all fits then return l.ints.take n else P.fail .parseError

/-- Read the leading `n` decimals of a line into `float`s, converted to `double`. -/
def tFloats (fm : FloatModel) (n : Nat) : P Line (List ℝ) := do
  let l ← tLine
  match (l.decs.take n).mapM fm.scan with
  | some ws => if ws.length = n then return ws.map fm.ofF32 else P.fail .parseError
  | none => P.fail .parseError

/-! ### Version (`h2_io.cpp` 246-294) -/

/-- `OutH2Stream::WriteVersion`, `h2_io.cpp` 275-294. -/
def writeVersion (mode : Mode) (fmt : Format) : File :=
  match mode with
  | .text => ⟨[], [⟨[fmt.code], []⟩]⟩
  | .binary => ⟨wRecord 4 (wInt fmt.code), []⟩
  | .matrix => .empty

/-- `InH2Stream::ReadVersion`, `h2_io.cpp` 246-273, binary branch. -/
def readVersionB : P Byte Int := do
  pVerify 4
  let v ← pInt
  pVerify 4
  return v
/-- `InH2Stream::ReadVersion`, text branch. -/
def readVersionT : P Line Int := do
  let xs ← tInts fitsInt 1
  return xs.headD 0

/-- The dispatch on the version code in the constructor, `h2_io.cpp` 317-329. -/
def formatOfCode (v : Int) : Except Err Format :=
  if v = 0 then .ok .v0
  else if v = 15099 then .ok .v15099
  else if v = 15200 then .ok .v15200
  else .error .exitFailure

/-! ### Format 0 -/

/-- `OutH2Stream::WriteHeader_Version0`, `v0` 94-134. -/
noncomputable def writeHeaderV0 (lib : BasisLib) (mode : Mode) (d : Desc) : Except Err File := do
  assertE (decide (d.ordering = .pn))
  let N1max := truncToInt d.wmax.p
  let N2max := truncToInt d.wmax.pp
  let sz := sizeByType (d.index lib).sectors
  let size_pp_nn := narrow (sz .pp)
  let size_pn := narrow (sz .pn)
  match mode with
  | .text => return ⟨[], [⟨[2], []⟩, ⟨[N1max], []⟩, ⟨[N2max], []⟩, ⟨[size_pp_nn, size_pn], []⟩]⟩
  | .binary => return ⟨wRecord 20 (wInt 2 ++ wInt N1max ++ wInt N2max ++ wInt size_pp_nn ++ wInt size_pn), []⟩
  | .matrix => return .empty

/-- The five integers of a format 0 header. -/
structure RawV0 where
  numTypes : Int
  N1max : Int
  N2max : Int
  sizePPNN : Int
  sizePN : Int

/-- `v0` 18-65, binary. -/
def readRawV0B : P Byte RawV0 := do
  pVerify 20
  let a ← pInt
  let b ← pInt
  let c ← pInt
  let d ← pInt
  let e ← pInt
  pVerify 20
  return ⟨a, b, c, d, e⟩
/-- `v0` 18-53, text. -/
def readRawV0T : P Line RawV0 := do
  let a ← tInts fitsInt 1
  let b ← tInts fitsInt 1
  let c ← tInts fitsInt 1
  let d ← tInts fitsInt 2
  return ⟨a.headD 0, b.headD 0, c.headD 0, d.getD 0 0, d.getD 1 0⟩

/-- `v0` 67-91: set up indexing and validate. -/
noncomputable def finishV0 (lib : BasisLib) (r : RawV0) : Except Err Desc := do
  let d : Desc := ⟨lib.oscOrbitals r.N1max, .osc r.N1max r.N2max, .pn, 0, 0, 0⟩
  let sz := sizeByType (d.index lib).sectors
  assertE (decide (r.numTypes = 2))
  assertE (decide (r.sizePPNN = sz .pp))
  assertE (decide (r.sizePN = sz .pn))
  return d

/-! ### Format 15099 -/

/-- Binary orbital listing for one species, `v15099` 317-346. -/
def writeOrbsV15099 (fm : FloatModel) (os : List Orb) : List Byte :=
  let nb : Int := (os.length * 4 : Nat)
  wRecord nb (os.flatMap fun o => wInt o.n) ++ wRecord nb (os.flatMap fun o => wInt o.l) ++
  wRecord nb (os.flatMap fun o => wInt o.twiceJ) ++ wRecord nb (os.flatMap fun o => wFloat fm o.weight)

/-- `OutH2Stream::WriteHeader_Version15099`, `v15099` 267-396.  The number of orbitals is written
as `int`. -/
noncomputable def writeHeaderV15099 (lib : BasisLib) (hf : HeaderFloat) (mode : Mode) (d : Desc) :
    Except Err File := do
  assertE (decide (d.ordering = .pn))
  let jm := jmaxByType (d.subspaces lib)
  let sz := sizeByType (d.index lib).sectors
  match mode with
  | .text => return ⟨[], [⟨[(d.orbs.p.length : Int), (d.orbs.n.length : Int)], []⟩]
      ++ lib.orbLines .v15099 d.orbs ++
      [⟨[d.J0, d.g0, d.Tz0], []⟩,
       ⟨[], [hf.fmtE d.wmax.p, hf.fmtE d.wmax.n]⟩,
       ⟨[], [hf.fmtE d.wmax.pp, hf.fmtE d.wmax.nn, hf.fmtE d.wmax.pn]⟩,
       ⟨[2 * (jm .pp : Int), 2 * (jm .nn : Int), 2 * (jm .pn : Int)], []⟩,
       ⟨[(sz .pp : Int), (sz .nn : Int), (sz .pn : Int)], []⟩]⟩
  | .binary => return ⟨
      wRecord 8 (wInt d.orbs.p.length ++ wInt d.orbs.n.length) ++
      (writeOrbsV15099 hf.fm d.orbs.p ++ writeOrbsV15099 hf.fm d.orbs.n) ++
      wRecord 12 (wInt d.J0 ++ wInt d.g0 ++ wInt d.Tz0) ++
      wRecord 8 (wFloat hf.fm d.wmax.p ++ wFloat hf.fm d.wmax.n) ++
      wRecord 12 (wFloat hf.fm d.wmax.pp ++ wFloat hf.fm d.wmax.nn ++ wFloat hf.fm d.wmax.pn) ++
      wRecord 12 (wInt (2 * (jm .pp : Int)) ++ wInt (2 * (jm .nn : Int)) ++ wInt (2 * (jm .pn : Int))) ++
      wRecord 12 (wInt (sz .pp) ++ wInt (sz .nn) ++ wInt (sz .pn)), []⟩
  | .matrix => return .empty

/-- Everything a 15099 header contains. -/
structure RawV15099 where
  orbs : List (Bool × Orb)
  J0 : Int
  g0 : Int
  Tz0 : Int
  wmax : WeightMax
  twiceJmax : Species → Int
  size : Species → Int

def bySpecies {α : Type} (pp nn pn : α) : Species → α
  | .pp => pp | .nn => nn | .pn => pn

/-- Orbital listing of one species, `v15099` 103-170.  `num_orbitals` is a `size_t` converted
from the `int` in the file; a negative number (a loop that never ends) is reported as
undefined behaviour. -/
def readOrbsV15099 (fm : FloatModel) (num : Int) : P Byte (List Orb) := do
  if num < 0 then P.fail .undefinedBehaviour else
  let k := num.toNat
  let nb : Int := (k * 4 : Nat)
  pVerify nb
  let ns ← pMany pInt k
  pVerify nb
  pVerify nb
  let ls ← pMany pInt k
  pVerify nb
  pVerify nb
  let js ← pMany pInt k
  pVerify nb
  pVerify nb
  let ws ← pMany (pFloat fm) k
  pVerify nb
  return (List.range k).map fun i => ⟨ns.getD i 0, ls.getD i 0, js.getD i 0, ws.getD i 0⟩

/-- `v15099` 86-217, binary. -/
def readRawV15099B (fm : FloatModel) : P Byte RawV15099 := do
  pVerify 8
  let np ← pInt
  let nn ← pInt
  pVerify 8
  let op ← readOrbsV15099 fm np
  let on ← readOrbsV15099 fm nn
  pVerify 12
  let J0 ← pInt
  let g0 ← pInt
  let Tz0 ← pInt
  pVerify 12
  pVerify 8
  let wp ← pFloat fm
  let wn ← pFloat fm
  pVerify 8
  pVerify 12
  let wpp ← pFloat fm
  let wnn ← pFloat fm
  let wpn ← pFloat fm
  pVerify 12
  pVerify 12
  let jpp ← pInt
  let jnn ← pInt
  let jpn ← pInt
  pVerify 12
  pVerify 12
  let spp ← pInt
  let snn ← pInt
  let spn ← pInt
  pVerify 12
  return ⟨op.map (fun x => (true, x)) ++ on.map (fun x => (false, x)), J0, g0, Tz0,
    ⟨wp, wn, wpp, wnn, wpn⟩, bySpecies jpp jnn jpn, bySpecies spp snn spn⟩

/-- Lift a result of the parsing library. -/
def pLift {τ α : Type} (x : Except Err α) : P τ α := fun _ pos =>
  match x with
  | .ok a => .ok (a, pos)
  | .error e => .error e

/-- `v15099` 24-85, text. -/
def readRawV15099T (lib : BasisLib) (fm : FloatModel) : P Line RawV15099 := do
  let c ← tInts (fun x => decide (0 ≤ x)) 2
  let ol ← pMany tLine (c.getD 0 0 + c.getD 1 0).toNat
  let orbs ← pLift (lib.parseOrbs .v15099 ol)
  let op ← tInts fitsInt 3
  let w1 ← tFloats fm 2
  let w2 ← tFloats fm 3
  let jm ← tInts fitsInt 3
  let sz ← tInts fitsInt 3
  return ⟨orbs, op.getD 0 0, op.getD 1 0, op.getD 2 0,
    ⟨w1.getD 0 0, w1.getD 1 0, w2.getD 0 0, w2.getD 1 0, w2.getD 2 0⟩,
    bySpecies (jm.getD 0 0) (jm.getD 1 0) (jm.getD 2 0),
    bySpecies (sz.getD 0 0) (sz.getD 1 0) (sz.getD 2 0)⟩

/-- `v15099` 219-264: set up indexing and validate. -/
noncomputable def finishV15099 (lib : BasisLib) (r : RawV15099) : Except Err Desc := do
  let d : Desc := ⟨.ofFlat r.orbs, r.wmax, .pn, r.J0, r.g0, r.Tz0⟩
  if r.Tz0 ≠ 0 then .error .exitFailure else
  let jm := jmaxByType (d.subspaces lib)
  let sz := sizeByType (d.index lib).sectors
  assertE (decide (r.size .pp = sz .pp))
  assertE (decide (r.size .nn = sz .nn))
  assertE (decide (r.size .pn = sz .pn))
  assertE (decide ((r.twiceJmax .pp).tdiv 2 = jm .pp))
  assertE (decide ((r.twiceJmax .nn).tdiv 2 = jm .nn))
  assertE (decide ((r.twiceJmax .pn).tdiv 2 = jm .pn))
  return d

/-! ### Format 15200 -/

/-- `TwiceValue(kOrbitalSpeciesPNCodeTz[...])`: protons `+1`, neutrons `-1`
(`obdme_io.h` 78 uses the same convention). -/
def twiceTz (proton : Bool) : Int := if proton then 1 else -1

open Classical in
/-- `OutH2Stream::WriteHeader_Version15200`, `v15200` 195-292. -/
noncomputable def writeHeaderV15200 (lib : BasisLib) (hf : HeaderFloat) (mode : Mode) (d : Desc) :
    Except Err File := do
  assertE (decide (d.ordering = .tz))
  let sz := sizeByType (d.index lib).sectors
  let flat := d.orbs.flat
  match mode with
  | .text => do
    assertE (decide (lib.weightMax d.orbs.p = d.wmax.p))
    assertE (decide (lib.weightMax d.orbs.n = d.wmax.n))
    return ⟨[], [⟨[(d.orbs.p.length : Int), (d.orbs.n.length : Int)], []⟩]
      ++ lib.orbLines .v15200 d.orbs ++
      [⟨[d.J0, d.g0, d.Tz0], []⟩,
       ⟨[], [hf.fmtE d.wmax.pp, hf.fmtE d.wmax.pn, hf.fmtE d.wmax.nn]⟩,
       ⟨[(sz .pp : Int), (sz .pn : Int), (sz .nn : Int)], []⟩]⟩
  | .binary => do
    assertE (decide (lib.weightMax d.orbs.p = d.wmax.p))
    assertE (decide (lib.weightMax d.orbs.n = d.wmax.n))
    return ⟨
      (wInt d.orbs.p.length ++ wInt d.orbs.n.length) ++
      (flat.flatMap fun o => wInt o.2.n) ++
      (flat.flatMap fun o => wInt o.2.l) ++
      (flat.flatMap fun o => wInt o.2.twiceJ) ++
      (flat.flatMap fun o => wInt (twiceTz o.1)) ++
      (flat.flatMap fun o => wFloat hf.fm o.2.weight) ++
      (wInt d.J0 ++ wInt d.g0 ++ wInt d.Tz0) ++
      (wFloat hf.fm d.wmax.pp ++ wFloat hf.fm d.wmax.pn ++ wFloat hf.fm d.wmax.nn) ++
      (wInt64 (sz .pp) ++ wInt64 (sz .pn) ++ wInt64 (sz .nn)), []⟩
  | .matrix => return .empty

/-- Everything a 15200 header contains. -/
structure RawV15200 where
  orbs : List (Bool × Orb)
  J0 : Int
  g0 : Int
  Tz0 : Int
  wpp : ℝ
  wnn : ℝ
  wpn : ℝ
  size : Species → Int

/-- `basis::OrbitalPNInfo(n,l,j,tz,weight)`: species from `tz` (missing library; other values of
`tz` are treated as an assertion failure). -/
def speciesOfTz (t : Int) : Except Err Bool :=
  if t = 1 then .ok true else if t = -1 then .ok false else .error .assertFail

/-- `v15200` 79-161, binary. -/
def readRawV15200B (fm : FloatModel) : P Byte RawV15200 := do
  let np ← pInt
  let nn ← pInt
  if np + nn < 0 then P.fail .undefinedBehaviour else
  let k := (np + nn).toNat
  let ns ← pMany pInt k
  let ls ← pMany pInt k
  let js ← pMany pInt k
  let ts ← pMany pInt k
  let ws ← pMany (pFloat fm) k
  let ps ← pLift (ts.mapM speciesOfTz)
  let J0 ← pInt
  let g0 ← pInt
  let Tz0 ← pInt
  let wpp ← pFloat fm
  let wpn ← pFloat fm
  let wnn ← pFloat fm
  let spp ← pInt64
  let spn ← pInt64
  let snn ← pInt64
  return ⟨(List.range k).map fun i => (ps.getD i true, ⟨ns.getD i 0, ls.getD i 0, js.getD i 0, ws.getD i 0⟩),
    J0, g0, Tz0, wpp, wnn, wpn, bySpecies spp snn spn⟩

/-- `v15200` 25-78, text. -/
def readRawV15200T (lib : BasisLib) (fm : FloatModel) : P Line RawV15200 := do
  let c ← tInts (fun x => decide (0 ≤ x)) 2
  let ol ← pMany tLine (c.getD 0 0 + c.getD 1 0).toNat
  let orbs ← pLift (lib.parseOrbs .v15200 ol)
  let op ← tInts fitsInt 3
  let w2 ← tFloats fm 3
  let sz ← tInts fitsLong 3
  return ⟨orbs, op.getD 0 0, op.getD 1 0, op.getD 2 0, w2.getD 0 0, w2.getD 2 0, w2.getD 1 0,
    bySpecies (sz.getD 0 0) (sz.getD 2 0) (sz.getD 1 0)⟩

/-- `v15200` 163-192: set up indexing and validate.  `wp`, `wn` are `float` variables. -/
noncomputable def finishV15200 (lib : BasisLib) (fm : FloatModel) (r : RawV15200) : Except Err Desc := do
  let orbs := OrbSpace.ofFlat r.orbs
  let wp := fm.ofF32 (fm.toF32 (lib.weightMax orbs.p))
  let wn := fm.ofF32 (fm.toF32 (lib.weightMax orbs.n))
  let d : Desc := ⟨orbs, ⟨wp, wn, r.wpp, r.wnn, r.wpn⟩, .tz, r.J0, r.g0, r.Tz0⟩
  let sz := sizeByType (d.index lib).sectors
  assertE (decide (r.size .pp = sz .pp))
  assertE (decide (r.size .pn = sz .pn))
  assertE (decide (r.size .nn = sz .nn))
  return d

/-! ### Opening streams -/

/-- `OutH2Stream::OutH2Stream`, `h2_io.cpp` 423-469: what opening writes. -/
noncomputable def openOut (lib : BasisLib) (hf : HeaderFloat) (mode : Mode) (fmt : Format) (d : Desc) :
    Except Err File := do
  let h ← match fmt with
    | .v0 => writeHeaderV0 lib mode d
    | .v15099 => writeHeaderV15099 lib hf mode d
    | .v15200 => writeHeaderV15200 lib hf mode d
  return (writeVersion mode fmt).append h

/-- `InH2Stream::InH2Stream`, `h2_io.cpp` 301-330: the format, the description from which the
indexing was rebuilt, and the position of the first sector.  In matrix mode `h2_format_` is used
without ever having been assigned (`h2_io.h` 131-136). -/
noncomputable def openIn (lib : BasisLib) (hf : HeaderFloat) (mode : Mode) (f : File) :
    Except Err (Format × Desc × Nat) :=
  match mode with
  | .matrix => .error .undefinedBehaviour
  | .binary => do
    let (v, pos) ← readVersionB f.bytes 0
    match ← formatOfCode v with
    | .v0 => do
      let (r, pos) ← readRawV0B f.bytes pos
      let d ← finishV0 lib r
      return (.v0, d, pos)
    | .v15099 => do
      let (r, pos) ← readRawV15099B hf.fm f.bytes pos
      let d ← finishV15099 lib r
      return (.v15099, d, pos)
    | .v15200 => do
      let (r, pos) ← readRawV15200B hf.fm f.bytes pos
      let d ← finishV15200 lib hf.fm r
      return (.v15200, d, pos)
  | .text => do
    let (v, pos) ← readVersionT f.lines 0
    match ← formatOfCode v with
    | .v0 => do
      let (r, pos) ← readRawV0T f.lines pos
      let d ← finishV0 lib r
      return (.v0, d, pos)
    | .v15099 => do
      let (r, pos) ← readRawV15099T lib hf.fm f.lines pos
      let d ← finishV15099 lib r
      return (.v15099, d, pos)
    | .v15200 => do
      let (r, pos) ← readRawV15200T lib hf.fm f.lines pos
      let d ← finishV15200 lib hf.fm r
      return (.v15200, d, pos)

end Verif.H2
