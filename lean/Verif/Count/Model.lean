import Verif.Common
import Mathlib.Data.Real.Basic

/-!
# Model of `statecount` and of the triangular mode of `orbital-gen`

`programs/statecount/statecount.cpp` 37-196 and `programs/obutils/orbital-gen.cpp` 216-268.

A `for` loop is a relation between its start and its result, so that a loop that does not end has no result.  A
half-integer is twice its value.  Integers are unbounded and doubles are real numbers: overflow (`OrbitalDimension`
products are `int`, one function returns `int`) and rounding are not modelled.  The class `SPOrbitalNlj` of the absent
header `shell_indexing_nlj.h` is an enumeration of the orbitals with the laws `Enumerates`.  The functions are
modelled, not the printing of the tables.
-/

namespace Verif.Count
open Verif

/-- `for (x = start; c(x); ++x) acc = op(acc, body(x))`. -/
inductive For {M : Type} (e : M) (op : M → M → M) (c : ℕ → Prop) (body : ℕ → M → Prop) : ℕ → M → Prop
  | stop {x} : ¬ c x → For e op c body x e
  | step {x v s} : c x → body x v → For e op c body (x + 1) s → For e op c body x (op v s)

/-- A loop that adds to a counter. -/
abbrev ForSum (c : ℕ → Prop) (body : ℕ → ℤ → Prop) : ℕ → ℤ → Prop := For 0 (· + ·) c body

/-- A loop that appends to a vector. -/
abbrev ForList {α : Type} (c : ℕ → Prop) (body : ℕ → List α → Prop) : ℕ → List α → Prop := For [] (· ++ ·) c body

/-! ## Half-integers -/

/-- `IValue`: the integer value; a half-odd argument is rejected. -/
def ivalue (t : ℤ) : Except Err ℤ := if t % 2 = 0 then .ok (t / 2) else .error .assertFail

/-- `AllowedTriangle`. -/
def triangle (a b c : ℤ) : Bool := decide (|a - b| ≤ c ∧ c ≤ a + b ∧ (a + b + c) % 2 = 0)

/-- Twice `Shelljmax(N)`. -/
def jmax (N : ℕ) : ℕ := 2 * N + 1

/-! ## `statecount` -/

/-- `SPOrbitalNlj` by position: shell and twice the angular momentum. -/
structure Enumeration where
  N : ℕ → ℕ
  tj : ℕ → ℕ

/-- `OrbitalDimension`, 39-43. -/
def orbitalDimension (N : ℕ) (tj : ℤ) : Except Err ℤ := ivalue (2 * N - tj + 3)

/-- What one pair adds in 59-60. -/
def pairProduct (N : ℕ) (J : ℤ) (x y : ℕ) (v : ℤ) : Prop :=
  if triangle (2 * x + 1) (2 * y + 1) J then
    ∃ p q, orbitalDimension N (2 * x + 1) = .ok p ∧ orbitalDimension N (2 * y + 1) = .ok q ∧ v = p * q
  else v = 0

/-- `TwoBodyDimensionOneBodyCutAMCentric`, 49-62. -/
def TwoBodyAM (N : ℕ) (J : ℤ) (total : ℤ) : Prop :=
  ForSum (fun x => 2 * x + 1 ≤ jmax N) (fun x v =>
    ForSum (fun y => 2 * y + 1 ≤ jmax N) (pairProduct N J x) x v) 0 total

/-- `TwoBodyDimensionOneBodyCut`, 64-74. -/
def TwoBodyOne (e : Enumeration) (N : ℕ) (J : ℤ) (total : ℤ) : Prop :=
  ForSum (fun a => e.N a ≤ N) (fun a v =>
    ForSum (fun b => e.N b ≤ N) (fun b v => v = if triangle (e.tj a) (e.tj b) J then 1 else 0) a v) 0 total

/-- `TwoBodyDimensionTwoBodyCut`, 76-86. -/
def TwoBodyTwo (e : Enumeration) (N : ℕ) (J : ℤ) (total : ℤ) : Prop :=
  ForSum (fun a => e.N a ≤ N) (fun a v =>
    ForSum (fun b => e.N a + e.N b ≤ N) (fun b v => v = if triangle (e.tj a) (e.tj b) J then 1 else 0) a v) 0 total

/-- What one triple adds in 103-104. -/
def tripleProduct (N : ℕ) (J1 J : ℤ) (x y z : ℕ) (v : ℤ) : Prop :=
  if triangle (2 * x + 1) (2 * y + 1) J1 && triangle J1 (2 * z + 1) J then
    ∃ p q r, orbitalDimension N (2 * x + 1) = .ok p ∧ orbitalDimension N (2 * y + 1) = .ok q ∧
      orbitalDimension N (2 * z + 1) = .ok r ∧ v = p * q * r
  else v = 0

/-- `ThreeBodyDimensionOneBodyCutAMCentric` with `J1`, 92-107. -/
def ThreeBodyAMJ1 (N : ℕ) (J1 J : ℤ) (total : ℤ) : Prop :=
  ForSum (fun x => 2 * x + 1 ≤ jmax N) (fun x v =>
    ForSum (fun y => 2 * y + 1 ≤ jmax N) (fun y v =>
      ForSum (fun z => 2 * z + 1 ≤ jmax N) (tripleProduct N J1 J x y) y v) x v) 0 total

/-- `ThreeBodyDimensionOneBodyCutAMCentric`, 109-118; the bound of `J1` is twice `jmax`. -/
def ThreeBodyAM (N : ℕ) (J : ℤ) (total : ℤ) : Prop :=
  ForSum (fun x => x ≤ jmax N) (fun x v => ThreeBodyAMJ1 N (2 * x) J v) 0 total

/-- `ThreeBodyDimensionOneBodyCut` with `J1`, 120-131. -/
def ThreeBodyOneJ1 (e : Enumeration) (N : ℕ) (J1 J : ℤ) (total : ℤ) : Prop :=
  ForSum (fun a => e.N a ≤ N) (fun a v =>
    ForSum (fun b => e.N b ≤ N) (fun b v =>
      ForSum (fun c => e.N c ≤ N) (fun c v =>
        v = if triangle (e.tj a) (e.tj b) J1 && triangle J1 (e.tj c) J then 1 else 0) b v) a v) 0 total

/-- The number of intermediate `J1`, 141-151 and 181-191. -/
def couplings (a b c J : ℤ) : Except Err ℤ := do
  let d1 ← ivalue (a - b)
  let d2 ← ivalue (J - c)
  let s1 ← ivalue (a + b)
  let s2 ← ivalue (J + c)
  pure (max (-(max |d1| |d2|) + min s1 s2 + 1) 0)

/-- `ThreeBodyDimensionOneBodyCut`, 133-155. -/
def ThreeBodyOne (e : Enumeration) (N : ℕ) (J : ℤ) (total : ℤ) : Prop :=
  ForSum (fun a => e.N a ≤ N) (fun a v =>
    ForSum (fun b => e.N b ≤ N) (fun b v =>
      ForSum (fun c => e.N c ≤ N) (fun c v =>
        couplings (e.tj a) (e.tj b) (e.tj c) J = .ok v) b v) a v) 0 total

/-- `ThreeBodyDimensionThreeBodyCut` with `J1`, 158-169. -/
def ThreeBodyThreeJ1 (e : Enumeration) (N : ℕ) (J1 J : ℤ) (total : ℤ) : Prop :=
  ForSum (fun a => e.N a ≤ N) (fun a v =>
    ForSum (fun b => e.N a + e.N b ≤ N) (fun b v =>
      ForSum (fun c => e.N a + e.N b + e.N c ≤ N) (fun c v =>
        v = if triangle (e.tj a) (e.tj b) J1 && triangle J1 (e.tj c) J then 1 else 0) b v) a v) 0 total

/-- `ThreeBodyDimensionThreeBodyCut`, 171-196. -/
def ThreeBodyThree (e : Enumeration) (N : ℕ) (J : ℤ) (total : ℤ) : Prop :=
  ForSum (fun a => e.N a ≤ N) (fun a v =>
    ForSum (fun b => e.N a + e.N b ≤ N) (fun b v =>
      ForSum (fun c => e.N a + e.N b + e.N c ≤ N) (fun c v =>
        couplings (e.tj a) (e.tj b) (e.tj c) J = .ok v) b v) a v) 0 total

/-! ## `orbital-gen --triangular` -/

/-- `basis::OrbitalPNInfo`: species (0 or 1), `n`, `l`, twice `j`, weight. -/
structure OrbitalInfo where
  species : ℕ
  n : ℕ
  l : ℕ
  tj : ℤ
  weight : ℝ

/-- The body of the innermost loop, 240-246. -/
noncomputable def emit (a b : ℝ) (species n l : ℕ) : List OrbitalInfo :=
  (if 0 < l then [⟨species, n, l, 2 * l - 1, a * n + b * l⟩] else []) ++ [⟨species, n, l, 2 * l + 1, a * n + b * l⟩]

/-- The loops of the triangular mode, 233-250. -/
def Triangular (wmax a b : ℝ) (out : List OrbitalInfo) : Prop :=
  ForList (fun s => s ≤ 1) (fun s v =>
    ForList (fun n : ℕ => a * n ≤ wmax) (fun n v =>
      ForList (fun l : ℕ => a * n + b * l ≤ wmax) (fun l v => v = emit a b s n l) 0 v) 0 v) 0 out

/-- The list written, 251-263: an empty list is an error, `std::sort` with `OrbitalSortCmpWeight` puts the orbitals in
some order. -/
inductive Written (wmax a b : ℝ) : Except Err (List OrbitalInfo) → Prop
  | none : Triangular wmax a b [] → Written wmax a b (.error .exitFailure)
  | some {out sorted} : Triangular wmax a b out → out ≠ [] → sorted.Perm out → Written wmax a b (.ok sorted)

end Verif.Count
