import Verif.H2.Header

/-!
# Model of `h2conv`

Source: `/repo/programs/h2utils/h2conv.cpp`.

Simplifications:
* the command line is the list of its arguments after the program name; `operator>>` into `int` is the given function
  `int?`;
* the file system is a function from names to files; the output name does not refer to the input file (the program
  opens the output before it reads the body of the input);
* progress output and timing are left out.
-/

namespace Verif.H2
open Verif

/-- `labels()` of `basis::TwoBodySubspaceJJJPN`. -/
def Subspace.labels (s : Subspace) : Species × Nat × Nat := (s.species, s.J, s.g)

/-- `LookUpSubspaceIndex`: `none` is `basis::kNone`. -/
def lookUpSubspace (ss : List Subspace) (l : Species × Nat × Nat) : Option Nat :=
  ss.findIdx? fun s => decide (s.labels = l)

/-- `LookUpSectorIndex`: the keys of the sectors are pairs of subspace indices; `basis::kNone` is never part of a key. -/
def lookUpSector (xs : List Sector) (b k : Option Nat) : Option Nat :=
  xs.findIdx? fun s => decide (some s.braIndex = b ∧ some s.ketIndex = k)

/-- `kH2SpaceOrdering`, `h2_io.cpp` 46-50. -/
def spaceOrdering : Format → SpaceOrdering
  | .v0 => .pn
  | .v15099 => .pn
  | .v15200 => .tz

namespace Convert

/-- What the program reads from and writes to. -/
structure World where
  lib : BasisLib
  hf : HeaderFloat
  int? : String → Option Int
  /-- contents of the files that can be opened -/
  file? : String → Option File

/-- The body of the loop over sectors, `h2conv.cpp` 132-149: `si` and `so` are the two streams.
A sector not found is `basis::kNone`, which `SeekToSector` refuses (`h2_io.cpp` 401). -/
noncomputable def step (ci co : Cfg) (inSpace : List Subspace) (f : File) (k : Nat) (st : InState × OutState) :
    Except Err (InState × OutState) := do
  let s ← getSector co.ix.sectors k
  match lookUpSector ci.ix.sectors (lookUpSubspace inSpace s.bra.labels) (lookUpSubspace inSpace s.ket.labels) with
  | none => .error .assertFail
  | some i => do
    let (m, si) ← readSector ci f i st.1
    let so ← writeSector co k m .none st.2
    return (si, so)

/-- The loop over the sectors, for the given indices. -/
noncomputable def loop (ci co : Cfg) (inSpace : List Subspace) (f : File) : List Nat → InState × OutState →
    Except Err (InState × OutState)
  | [], st => .ok st
  | k :: ks, st => step ci co inSpace f k st >>= fun st => loop ci co inSpace f ks st

/-- `main` from the opening of the input on, `h2conv.cpp` 91-159: input in mode `mi`, output in mode `mo` and with
format code `code`.  `kH2SpaceOrdering.at` throws for other codes than the three. -/
noncomputable def convert (lib : BasisLib) (hf : HeaderFloat) (mi : Mode) (f : File) (code : Int) (mo : Except Err Mode) :
    Except Err File := do
  let (fi, d, start) ← openIn lib hf mi f
  let fo ← formatOfCode code
  let dOut : Desc := { d with ordering := spaceOrdering fo }
  let mo ← mo
  let hdr ← openOut lib hf mo fo dOut
  let ci : Cfg := ⟨hf.fm, fi, mi, d.index lib⟩
  let co : Cfg := ⟨hf.fm, fo, mo, dOut.index lib⟩
  let (_, so) ← loop ci co (d.subspaces lib) f (List.range (d.index lib).sectors.length) (InState.init start, ⟨0, hdr⟩)
  return so.out

/-- The program, `h2conv.cpp` 41-160: the name and the content of the file written, if any.  With fewer than three
arguments it prints how to use it and succeeds (44-48); further arguments are not looked at. -/
noncomputable def run (w : World) (args : List String) : Except Err (Option (String × File)) :=
  match args with
  | fmt :: input :: output :: _ =>
    match w.int? fmt with
    | none => .error .exitFailure
    | some code => do
      let mi ← deducedIOMode input
      match w.file? input with
      | none => .error .streamFail
      | some f => do
        let out ← convert w.lib w.hf mi f code (deducedIOMode output)
        return some (output, out)
  | _ => .ok none

end Convert

end Verif.H2
