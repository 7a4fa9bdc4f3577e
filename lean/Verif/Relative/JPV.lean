import Verif.Relative.Isospin
import Mathlib.Logic.Function.Basic

/-!
# Reader of JPV relative operator files

Model of `ReadJPVOperator` (`libraries/relative/jpv_io.cpp` 20-243).

Simplifications: a text line is a list of tokens, each an integer, another number, or text that does
not parse as a number (a header field of the wrong kind is a parsing error; the partial consumption
of a token such as `1.5` by an `int` extraction is not modelled); the file ends with a newline;
`dimension` is small enough that `dimension*(dimension+1)` does not overflow `int`; the indexing of
the `basis` library is a record of lookup functions.
-/

namespace Verif.Relative
open Verif

/-- A whitespace-separated token. -/
inductive Tok where
  | int (z : Int)
  | dbl (x : ℝ)
  | bad

/-- Extraction as `double`. -/
noncomputable def Tok.toReal : Tok → Option ℝ
  | .int z => some z
  | .dbl x => some x
  | .bad => none

/-- A text line. -/
abbrev Line := List Tok

/-- Where the values of a sector go: sector index, whether labels were swapped, target dimensions,
number of values (`jpv_io.cpp` 92-149). -/
structure Target where
  idx : ℕ
  flip : Bool
  dimBra : ℕ
  dimKet : ℕ
  expected : ℕ

/-- Local variables of the element loop (`jpv_io.cpp` 187-189) and the block being filled. -/
structure JState where
  row : ℕ
  col : ℕ
  count : ℕ
  blk : Block

/-- `matrices[sector_index](np,n) = matrix_element`. -/
noncomputable def setEntry (blk : Block) (np n : ℕ) (v : ℝ) : Block :=
  fun i j => if i = np ∧ j = n then v else blk i j

/-- Save one value and advance (`jpv_io.cpp` 210-237). -/
noncomputable def place (t : Target) (st : JState) (v : ℝ) : JState :=
  let np := if t.flip then st.col else st.row
  let n := if t.flip then st.row else st.col
  let blk := if np < t.dimBra ∧ n < t.dimKet then setEntry st.blk np n v else st.blk
  if st.row + 1 > st.col then ⟨0, st.col + 1, st.count + 1, blk⟩
  else ⟨st.row + 1, st.col, st.count + 1, blk⟩

/-- Extract values from one line until enough have been read or extraction fails
(`jpv_io.cpp` 203-238). -/
noncomputable def readLine (t : Target) (st : JState) : Line → JState
  | [] => st
  | tok :: toks =>
    if st.count = t.expected then st
    else match tok.toReal with
      | none => st
      | some v => readLine t (place t st v) toks

/-- Read lines until enough values have been read (`jpv_io.cpp` 190-240); returns the remaining
lines. -/
noncomputable def readSector (t : Target) (st : JState) : List Line → Except Err (JState × List Line)
  | [] => if st.count = t.expected then .ok (st, []) else .error .streamFail
  | l :: ls => if st.count = t.expected then .ok (st, l :: ls) else readSector t (readLine t st l) ls

/-- Fields of a sector header line. -/
structure JHeader where
  J : Int
  S : Int
  L : Int
  Lp : Int
  dim : Int

/-- Parse a header line; `none` is the termination marker (`jpv_io.cpp` 61-82). -/
noncomputable def parseHeader : Line → Except Err (Option JHeader)
  | .int J :: rest =>
    if J = 99999 then .ok none
    else match rest with
      | .int S :: .int L :: .int Lp :: .int _Nmax :: .int dim :: mn :: hw :: .int _id :: _ =>
        match mn.toReal, hw.toReal with
        | some _, some _ => .ok (some ⟨J, S, L, Lp, dim⟩)
        | _, _ => .error .parseError
      | _ => .error .parseError
  | _ => .error .parseError

/-- Indexing of the target: `Jmax`, `LookUpSubspaceIndex` on `(L,S,J,T,g)`, subspace sizes,
`LookUpSectorIndex`. -/
structure JSpace where
  Jmax : Int
  sub : Int → Int → Int → Int → Int → Option ℕ
  size : ℕ → ℕ
  sector : ℕ → ℕ → Option ℕ

/-- From header to target sector (`jpv_io.cpp` 88-155). -/
def prepare (sp : JSpace) (h : JHeader) : Except Err Target := do
  let flip := decide (h.Lp > h.L)
  let L := if flip then h.Lp else h.L
  let Lp := if flip then h.L else h.Lp
  let expected := (h.dim * (h.dim + 1) / 2).toNat
  assertE (decide (h.J ≤ sp.Jmax))
  let T := (L + h.S + 1).tmod 2
  let Tp := (Lp + h.S + 1).tmod 2
  assertE (decide (Tp = T))
  match sp.sub Lp h.S h.J Tp (Lp.tmod 2), sp.sub L h.S h.J T (L.tmod 2) with
  | some b, some k => do
    assertE (decide (b ≤ k))
    match sp.sector b k with
    | none => throw .undefinedBehaviour
    | some idx => pure ⟨idx, flip, sp.size b, sp.size k, expected⟩
  | _, _ => throw .exitFailure

theorem readSector_length {t : Target} {st : JState} {ls : List Line} {r : JState × List Line}
    (h : readSector t st ls = .ok r) : r.2.length ≤ ls.length := by
  induction ls generalizing st with
  | nil =>
    simp only [readSector] at h
    split at h
    · cases h; simp
    · cases h
  | cons l ls ih =>
    simp only [readSector] at h
    split at h
    · cases h; simp
    · exact (ih h).trans (by simp)

/-- The file loop (`jpv_io.cpp` 52-242). -/
noncomputable def readJPV (sp : JSpace) (op : ℕ → Block) (lines : List Line) : Except Err (ℕ → Block) :=
  match lines with
  | [] => .error .parseError
  | h :: ls =>
    match parseHeader h with
    | .error e => .error e
    | .ok none => .ok op
    | .ok (some hd) =>
      match prepare sp hd with
      | .error e => .error e
      | .ok t =>
        match hr : readSector t ⟨0, 0, 0, op t.idx⟩ ls with
        | .error e => .error e
        | .ok r => readJPV sp (Function.update op t.idx r.1.blk) r.2
termination_by lines.length
decreasing_by
  have := readSector_length hr
  simp only [List.length_cons]
  omega

end Verif.Relative
