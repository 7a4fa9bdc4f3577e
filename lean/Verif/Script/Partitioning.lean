import Verif.Mixer.Words

/-!
# `script/partitioning_formatter.py`

Simplifications: a line of the orbital file is its words, the text of the other files is a list of characters; `int` is a given
function.  An exception of Python ends the run, before the output file is opened.
-/

namespace Verif.Script.Partitioning
open Verif

/-- `str.split()`. -/
def words : List Char → List (List Char)
  | [] => []
  | [c] => if c.isWhitespace then [] else [[c]]
  | c :: d :: cs =>
    if c.isWhitespace then words (d :: cs)
    else if d.isWhitespace then [c] :: words (d :: cs)
    else match words (d :: cs) with
      | w :: ws => (c :: w) :: ws
      | [] => [[c]]

/-- Lines of the orbital file that are not comments (`partitioning_formatter.py` 27-31). -/
def content (lines : List (List String)) : List (List String) :=
  lines.filter fun ws => !((ws.headD "").startsWith "#")

/-- The weights (`partitioning_formatter.py` 24-39): an empty line has no first character; the first line holds the format, the
second two numbers, the others end with a weight. -/
def weights (int? : String → Option Int) (lines : List (List String)) : Except Err (List String) :=
  if [] ∈ lines then .error .exitFailure
  else match content lines with
    | [] => .ok []
    | h :: rest =>
      if int? (h.headD "") = some 15099 then
        match rest with
        | [] => .ok []
        | n :: rest => if n.length = 2 then .ok (rest.map fun ws => ws.getLastD "") else .error .exitFailure
      else .error .exitFailure

/-- `"{:>8}".format(...)`. -/
def pad (t : List Char) : List Char := List.replicate (8 - t.length) ' ' ++ t

/-- `weights[i-1]`, which is the last one for `i = 0`. -/
def before (w : List String) (i : ℕ) : Option String := if i = 0 then w.getLast? else w[i - 1]?

/-- What is written for one orbital (`partitioning_formatter.py` 53-56). -/
def piece (w : List String) (i : ℕ) (t : List Char) : List Char :=
  (if before w i ≠ w[i]? then ['\n'] else []) ++ pad t

/-- The text after the header line (`partitioning_formatter.py` 53-57). -/
def body (w : List String) (ts : List (List Char)) : List Char :=
  (ts.zipIdx.flatMap fun p => piece w p.2 p.1) ++ ['\n']

/-- The script: the text written, from the orbital file, the header line and the rest of the partitioning file. -/
def run (int? : String → Option Int) (orbitals : List (List String)) (header rest : List Char) : Except Err (List Char) := do
  let w ← weights int? orbitals
  if w.length = (words rest).length then pure (header ++ body w (words rest)) else .error .exitFailure

end Verif.Script.Partitioning
