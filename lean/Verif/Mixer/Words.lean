import Verif.Common
import Mathlib.Data.Real.Basic

/-!
# Words of control files

Simplifications: a line is its words and whether blanks follow the last one; `operator>>` on a number takes a whole word,
by given functions `int?` and `num?` (a word that is a number followed by something else is not modelled).
`mcutils::ParsingCheck` and `mcutils::ParsingError`, absent from the checkout, end the run.
-/

namespace Verif.Mixer.Control
open Verif

/-- A line of the control file. -/
structure CLine where
  words : List String
  trailing : Bool := false

/-- `operator>>` into `int` and `double`. -/
structure Numbers where
  int? : String → Option Int
  num? : String → Option ℝ

/-! ## Reading words -/

/-- `line_stream >> s` for a string, checked. -/
def word : List String → Except Err (String × List String)
  | w :: ws => .ok (w, ws)
  | [] => .error .parseError

/-- `line_stream >> i` for an `int`, checked. -/
def int (nm : Numbers) : List String → Except Err (Int × List String)
  | w :: ws => match nm.int? w with
    | some i => .ok (i, ws)
    | none => .error .parseError
  | [] => .error .parseError

/-- `line_stream >> x` for a `double`, checked. -/
def num (nm : Numbers) : List String → Except Err (ℝ × List String)
  | w :: ws => match nm.num? w with
    | some i => .ok (i, ws)
    | none => .error .parseError
  | [] => .error .parseError

end Verif.Mixer.Control
