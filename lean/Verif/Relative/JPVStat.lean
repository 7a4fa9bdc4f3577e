import Verif.Relative.JPVFile

/-!
# `jpvstat` (`programs/relutils/jpvstat.cpp`) and the report of the JPV reader

Model of the reader of JPV files called with `verbose` (`libraries/relative/jpv_io.cpp` 52-242), keeping what it prints for
each section, and of the program that only calls it.

Simplifications: those of `JPV.lean`; a report is a record of the printed fields, not text; what is printed before a failing
run stops is not kept.
-/

namespace Verif.Relative.JpvStat
open Verif Verif.H2 Verif.Relative.Jpv2Rel

/-- The fields of a header line as printed (`jpv_io.cpp` 61-86). -/
structure Raw where
  J : Int
  S : Int
  L : Int
  Lp : Int
  ipcut : Int
  dim : Int
  mn : ℝ
  hw : ℝ
  id : Int

/-- The fields the reader works with. -/
def Raw.header (r : Raw) : JHeader := ⟨r.J, r.S, r.L, r.Lp, r.dim⟩

/-- The header line with all fields (`jpv_io.cpp` 61-82). -/
noncomputable def parseRaw : Line → Except Err (Option Raw)
  | .int J :: rest =>
    if J = 99999 then .ok none
    else match rest with
      | .int S :: .int L :: .int Lp :: .int N :: .int dim :: mn :: hw :: .int id :: _ =>
        match mn.toReal, hw.toReal with
        | some m, some w => .ok (some ⟨J, S, L, Lp, N, dim, m, w, id⟩)
        | _, _ => .error .parseError
      | _ => .error .parseError
  | _ => .error .parseError

/-- What is printed for a section (`jpv_io.cpp` 83-169). -/
structure Report where
  raw : Raw
  /-- `Lp` and `L` after transposition, and whether they were exchanged -/
  LpShown : Int
  LShown : Int
  flip : Bool
  expected : Int
  nmax : Int
  NmaxBra : Int
  NmaxKet : Int
  bra : RelSub
  dimBra : ℕ
  ket : RelSub
  dimKet : ℕ
  sector : ℕ
  indexBra : ℕ
  indexKet : ℕ
  entries : ℕ

/-- The report of a section whose target has been found (`jpv_io.cpp` 91-105, 140-169). -/
def describe (Nmax Jmax : ℕ) (r : Raw) (t : Target) : Except Err Report :=
  let sp := relSpace Nmax Jmax
  let flip := decide (r.Lp > r.L)
  let L := if flip then r.Lp else r.L
  let Lp := if flip then r.L else r.Lp
  let nmax := r.dim - 1
  match (relSectors (scalarLabels 0) sp 0)[t.idx]? with
  | none => .error .undefinedBehaviour
  | some (x, y) =>
    .ok ⟨r, Lp, L, flip, r.dim * (r.dim + 1) / 2, nmax, 2 * nmax + Lp, 2 * nmax + L, x, x.size, y, y.size, t.idx,
      sp.idxOf x, sp.idxOf y, if sp.idxOf x = sp.idxOf y then y.size * (y.size + 1) else x.size * y.size⟩

/-- The file loop with its reports (`jpv_io.cpp` 52-242). -/
noncomputable def reports (Nmax Jmax : ℕ) (op : ℕ → Block) (lines : List Line) : Except Err (List Report) :=
  match lines with
  | [] => .error .parseError
  | h :: ls =>
    match parseRaw h with
    | .error e => .error e
    | .ok none => .ok []
    | .ok (some r) =>
      match prepare (jspace Nmax Jmax 0) r.header with
      | .error e => .error e
      | .ok t =>
        match describe Nmax Jmax r t with
        | .error e => .error e
        | .ok rep =>
          match hr : readSector t ⟨0, 0, 0, op t.idx⟩ ls with
          | .error e => .error e
          | .ok q =>
            match reports Nmax Jmax (Function.update op t.idx q.1.blk) q.2 with
            | .error e => .error e
            | .ok reps => .ok (rep :: reps)
termination_by lines.length
decreasing_by
  have := readSector_length hr
  simp only [List.length_cons]
  omega

/-- What a run of the program does: the usage message, or the reports. -/
inductive Output where
  | usage
  | shown (reps : List Report)

/-- The program (`jpvstat.cpp` 39-124): the name of the file stays empty unless there is exactly one argument. -/
noncomputable def run (file? : String → Option (List Line)) : List String → Except Err Output
  | [] => .ok .usage
  | a :: more =>
    if a = "--help" then .ok .usage
    else do
      let name := if more = [] then a else ""
      let ls ← openFile file? name
      let reps ← reports 99 99 (fun _ _ _ => 0) ls
      pure (.shown reps)

end Verif.Relative.JpvStat
