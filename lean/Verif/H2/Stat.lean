import Verif.H2.Conv

/-!
# Model of `h2stat`

Source: `/repo/programs/h2utils/h2stat.cpp`, `/repo/libraries/tbme/h2_io.cpp` 214-239.

Simplifications:
* the command line is the list of its arguments after the program name, the file system a function from names to files;
* the output is the data shown, not its layout: numbers are not formatted, the listings of orbitals, subspaces and
  sectors are the lists themselves, and a sector is shown by the labels of its two subspaces, whether it is diagonal and
  its matrix;
* what was shown before an error is left out, as are `is_oscillator_like()` (of the missing `basis` submodule), the
  banner and the timing;
* `mcutils::CompleteLowerTriangle` is of the missing submodule `mcutils`; it is taken to copy each element above the
  diagonal to the place below it.
-/

namespace Verif.H2.Stat
open Verif Verif.H2

/-- The three counts `pp`, `nn`, `pn` and their total. -/
structure Counts where
  pp : Nat
  nn : Nat
  pn : Nat
  total : Nat

/-- What `H2StreamBase::DiagnosticStr` shows, `h2_io.cpp` 214-239. -/
structure Header where
  filename : String
  format : Int
  mode : Mode
  J0 : Int
  g0 : Int
  Tz0 : Int
  protonOrbitals : Nat
  neutronOrbitals : Nat
  truncation : WeightMax
  sectors : Counts
  elements : Counts

/-- `H2StreamBase::DiagnosticStr`, `h2_io.cpp` 214-239, of a stream in mode `m` for the file `name`. -/
noncomputable def diagnostic (lib : BasisLib) (name : String) (m : Mode) (fmt : Format) (d : Desc) : Header where
  filename := name
  format := fmt.code
  mode := m
  J0 := d.J0
  g0 := d.g0
  Tz0 := d.Tz0
  protonOrbitals := d.orbs.p.length
  neutronOrbitals := d.orbs.n.length
  truncation := d.wmax
  sectors :=
    let n := numSectorsByType (d.index lib).sectors
    ⟨n .pp, n .nn, n .pn, (d.index lib).sectors.length⟩
  elements :=
    let n := sizeByType (d.index lib).sectors
    ⟨n .pp, n .nn, n .pn, n .pp + n .nn + n .pn⟩

/-- `mcutils::CompleteLowerTriangle`. -/
noncomputable def completeLower (m : Mat) : Mat :=
  { m with val := fun i j => if j < i then m.val j i else m.val i j }

/-- What is shown of a sector, `h2stat.cpp` 183-205. -/
structure SectorShown where
  index : Nat
  bra : Species × Nat × Nat
  ket : Species × Nat × Nat
  diagonal : Bool
  matrix : Mat

/-- The part of the output that depends on the mode. -/
inductive Body where
  | nothing
  | orbitals (os : List (Bool × Orb))
  | indexing (os : OrbSpace) (ss : List Subspace) (xs : List Sector)
  | verified (dots : Nat)
  | matrices (xs : List SectorShown)

/-- `DoVerify`, `h2stat.cpp` 154-170: reads the sectors, shows a dot for each. -/
noncomputable def doVerify (c : Cfg) (f : File) : List Nat → InState → Except Err Nat
  | [], _ => .ok 0
  | k :: ks, st => do
    let (_, st) ← readSector c f k st
    let n ← doVerify c f ks st
    return n + 1

/-- `DoMatrices`, `h2stat.cpp` 172-208. -/
noncomputable def doMatrices (c : Cfg) (f : File) : List Nat → InState → Except Err (List SectorShown)
  | [], _ => .ok []
  | k :: ks, st => do
    let (m, st) ← readSector c f k st
    let s ← getSector c.ix.sectors k
    let m := if s.isDiagonal then completeLower m else m
    let xs ← doMatrices c f ks st
    return ⟨k, s.bra.labels, s.ket.labels, s.isDiagonal, m⟩ :: xs

/-- The choice of what to show, `h2stat.cpp` 255-270. -/
noncomputable def body (lib : BasisLib) (c : Cfg) (d : Desc) (f : File) (start : Nat) (mode : String) : Except Err Body :=
  let ks := List.range c.ix.sectors.length
  if mode = "header" then .ok .nothing
  else if mode = "orbitals" then .ok (.orbitals d.orbs.flat)
  else if mode = "indexing" then .ok (.indexing d.orbs (d.subspaces lib) c.ix.sectors)
  else if mode = "verify" then do
    let n ← doVerify c f ks (InState.init start)
    return .verified n
  else if mode = "matrices" then do
    let xs ← doMatrices c f ks (InState.init start)
    return .matrices xs
  else .error .exitFailure

/-- `ProcessArguments`, `h2stat.cpp` 48-90: the mode and the file name, or `none` if how to use the program is shown
and it ends with success. -/
def processArguments (args : List String) : Except Err (Option (String × String)) :=
  match args with
  | [] => .ok none
  | a :: rest =>
    if a = "--help" then .ok none
    else
      match rest with
      | [] => .ok (some ("header", a))
      | b :: _ =>
        if a.toList.take 2 = "--".toList then .ok (some (String.ofList (a.toList.drop 2), b))
        else .error .exitFailure

/-- The files the program can read, and the library it is linked with. -/
structure World where
  lib : BasisLib
  hf : HeaderFloat
  file? : String → Option File

/-- `main`, `h2stat.cpp` 216-286: what is shown; `none` is the usage message. -/
noncomputable def run (w : World) (args : List String) : Except Err (Option (Header × Body)) := do
  match ← processArguments args with
  | none => return none
  | some (mode, name) => do
    let m ← deducedIOMode name
    match w.file? name with
    | none => .error .streamFail
    | some f => do
      let (fmt, d, start) ← openIn w.lib w.hf m f
      let c : Cfg := ⟨w.hf.fm, fmt, m, d.index w.lib⟩
      let b ← body w.lib c d f start mode
      return some (diagnostic w.lib name m fmt d, b)

end Verif.H2.Stat
