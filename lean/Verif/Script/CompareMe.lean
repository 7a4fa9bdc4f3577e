import Verif.Mixer.Words
import Mathlib.Data.Real.Basic
import Mathlib.Algebra.Order.Group.Unbundled.Abs

/-!
# `validation/compare_me.py`

Model of `split_and_prune_lines`, `read_me_file` and `compare_matrix_elements`.

Simplifications: a file is its lines as lists of words.  A converted label is a real number, so that labels are equal as
Python's numbers are; a matrix element is a real number or "not a number" (infinities are left out).  Arithmetic is exact.  A
printed line is the numbers it shows.  The functions that name particular files are not modelled.
-/

namespace Verif.Script.Compare
open Verif

/-- A floating-point number. -/
inductive Val where
  | num (x : ℝ)
  | nan

/-- `float(token)` and the conversions of labels, `int` or `float`. -/
structure Conversions where
  value : String → Option Val
  labels : List (String → Option ℝ)

/-- `is_active_line` (`compare_me.py` 75-86). -/
def active (ws : List String) : Bool :=
  match ws with
  | [] => false
  | w :: _ => decide (w ≠ "#")

/-- A conversion of Python: an exception if the word cannot be converted. -/
def convert {α : Type} (f : String → Option α) (w : String) : Except Err α :=
  match f w with
  | some x => .ok x
  | none => .error .exitFailure

/-- `float(tokenized_line[-1])`. -/
def lastValue (c : Conversions) (ws : List String) : Except Err Val :=
  match ws.getLast? with
  | some w => convert c.value w
  | none => .error .exitFailure

/-- One line (`compare_me.py` 116-117).  `zip` stops with the shorter list. -/
def readLine (c : Conversions) (ws : List String) : Except Err (List ℝ × Val) := do
  let labels ← (c.labels.zip ws.dropLast).mapM fun p => convert p.1 p.2
  let x ← lastValue c ws
  pure (labels, x)

open Classical in
/-- `matrix_element_dict[labels] = matrix_element`. -/
noncomputable def store (d : List ℝ → Option Val) (r : List ℝ × Val) : List ℝ → Option Val :=
  fun l => if l = r.1 then some r.2 else d l

/-- `read_me_file` (`compare_me.py` 92-123): labels in order, and the dictionary. -/
noncomputable def readFile (c : Conversions) (lines : List (List String)) (header : ℕ) :
    Except Err (List (List ℝ) × (List ℝ → Option Val)) := do
  let rows ← ((lines.filter active).drop header).mapM (readLine c)
  pure (rows.map (·.1), rows.foldl store fun _ => none)

/-- A line of the comparison. -/
structure Row where
  labels : List ℝ
  first : Val
  second : Val
  difference : Val
  ratio : Val
  flag : Bool

/-- `matrix_element2-matrix_element1`. -/
def sub : Val → Val → Val
  | .num x, .num y => .num (x - y)
  | _, _ => .nan

open Classical in
/-- `matrix_element2/matrix_element1`, not a number if an exception is raised (`compare_me.py` 166-169). -/
noncomputable def div : Val → Val → Val
  | .num x, .num y => if y = 0 then .nan else .num (x / y)
  | _, _ => .nan

open Classical in
/-- `abs(difference)>threshold`. -/
noncomputable def exceeds : Val → ℝ → Bool
  | .num x, t => decide (t < |x|)
  | .nan, _ => false

/-- `matrix_element_dict1[labels]`. -/
def look (d : List ℝ → Option Val) (l : List ℝ) : Except Err Val :=
  match d l with
  | some x => .ok x
  | none => .error .exitFailure

/-- One line of `compare_matrix_elements` (`compare_me.py` 162-179).  `setdefault` does not change later lookups. -/
noncomputable def compareLine (d1 d2 : List ℝ → Option Val) (threshold : ℝ) (l : List ℝ) : Except Err Row := do
  let x ← look d1 l
  let y := (d2 l).getD (.num 0)
  pure ⟨l, x, y, sub y x, div y x, exceeds (sub y x) threshold⟩

/-- The comparison of two files, as the functions at the end of the script make it (`compare_me.py` 191-269): labels in the
order of the first file. -/
noncomputable def compare (c1 c2 : Conversions) (f1 f2 : List (List String)) (h1 h2 : ℕ) (threshold : ℝ) :
    Except Err (List Row) := do
  let a ← readFile c1 f1 h1
  let b ← readFile c2 f2 h2
  a.1.mapM (compareLine a.2 b.2 threshold)

end Verif.Script.Compare
