import Verif.Common
import Mathlib.Analysis.Real.Sqrt
import Mathlib.Data.Nat.Factorial.Basic
import Mathlib.Algebra.BigOperators.Group.Finset.Basic

/-!
# Model of the Moshinsky bracket

`libraries/moshinsky/moshinsky_bracket.cpp`, all functions.

Simplifications: `double` is `ℝ`; `int` is `Int` without overflow; the recoupling coefficients of the
`am` library (`Wigner6J`, `Unitary6J`) are given functions of their six arguments; the `Memoizer` of
`mcutils` is a finite map, `Seek`/`GetValue`/`SetValue` being lookup and update; tracing output is
left out.
-/

namespace Verif.Moshinsky
open Verif

/-- The recoupling coefficients used: `am::Wigner6J` and `am::Unitary6J`. -/
structure Env where
  sixj : Int → Int → Int → Int → Int → Int → ℝ
  unitary : Int → Int → Int → Int → Int → Int → ℝ

/-- `ParitySign` of an integer. -/
def sgn (n : Int) : ℝ := if n % 2 = 0 then 1 else -1

/-- `am::AllowedTriangle` of three integers. -/
def tri (a b c : Int) : Bool := decide (|a - b| ≤ c ∧ c ≤ a + b)

/-- `gsl_sf_fact`.  The parameter is an `unsigned int`, so a negative argument wraps to a number
beyond `GSL_SF_FACT_NMAX` = 170, where the GSL error handler aborts. -/
def fact (n : Int) : Except Err ℝ :=
  if 0 ≤ n ∧ n ≤ 170 then .ok (n.toNat.factorial : ℝ) else .error .exitFailure

/-- One term of the sum over `q`, lines 57-62. -/
noncomputable def aTerm (l1 l1d l2 l2d κ q : Int) : Except Err ℝ := do
  let s := sgn ((l1d - l1 + q).tdiv 2)
  let a ← fact (q - κ)
  let b ← fact (q + κ + 1)
  let c ← fact (l1d - l1 + q)
  let d ← fact ((l1d - l1 + q).tdiv 2)
  let e ← fact ((l1d + l1 - q).tdiv 2)
  let f ← fact (l2d - l2 + q)
  let g ← fact ((l2d - l2 + q).tdiv 2)
  let h ← fact ((l2d + l2 - q).tdiv 2)
  pure (s / (a * b) * c / (d * e) * f / (g * h))

/-- The values of `q` visited by `for (int q = q_min; q <= q_max; q += 2)`, lines 48-53. -/
def qList (l1 l1d l2 l2d κ : Int) : List Int :=
  let qmin := κ + (κ + l1d + l1).tmod 2
  let qmax := min (l1d + l1) (l2d + l2)
  (List.range ((qmax - qmin + 2) / 2).toNat).map fun i : ℕ => qmin + 2 * (i : Int)

/-- `MoshinskyACoefficient`, lines 34-67. -/
noncomputable def moshinskyA (l1 l1d l2 l2d κ : Int) : Except Err ℝ := do
  let a ← fact (l1 + l1d + κ + 1)
  let b ← fact (l1 + l1d - κ)
  let c ← fact (l1 - l1d + κ)
  let d ← fact (l1d - l1 + κ)
  let e ← fact (l2 + l2d + κ + 1)
  let f ← fact (l2 + l2d - κ)
  let g ← fact (l2 - l2d + κ)
  let h ← fact (l2d - l2 + κ)
  let terms ← (qList l1 l1d l2 l2d κ).mapM (aTerm l1 l1d l2 l2d κ)
  pure (Real.sqrt ((a * b * c) / d * (e * f * g) / h) * terms.sum)

/-- The values of `kappa` visited, lines 88-98: intersection of the two product ranges. -/
def kappaList (l1 l1d l2 l2d : Int) : List Int :=
  let kmin := max |l1 - l1d| |l2 - l2d|
  let kmax := min (l1 + l1d) (l2 + l2d)
  (List.range (kmax - kmin + 1).toNat).map fun i : ℕ => kmin + (i : Int)

/-- One term of the sum over `kappa`, lines 101-104; `Hat(x)` is `sqrt(2x+1)`. -/
noncomputable def seedTerm (env : Env) (l1d l2d l1 l2 Λ κ : Int) : Except Err ℝ := do
  let a ← moshinskyA l1 l1d l2 l2d κ
  pure ((2 * κ + 1) * a / (Real.sqrt (2 * Λ + 1) * Real.sqrt (2 * κ + 1))
    * env.unitary l1d l2d Λ l2 l1 κ)

/-- `SeedMoshinskyBracket`, lines 69-108. -/
noncomputable def seed (env : Env) (n1d l1d n2d l2d l1 l2 Λ : Int) : Except Err ℝ := do
  let a ← fact l1
  let b ← fact l2
  let c ← fact (2 * l1)
  let d ← fact (2 * l2)
  let e ← fact (n1d + l1d)
  let f ← fact n1d
  let g ← fact (2 * n1d + 2 * l1d + 1)
  let h ← fact (n2d + l2d)
  let i ← fact n2d
  let j ← fact (2 * n2d + 2 * l2d + 1)
  let prefactor := sgn (n1d + l1d + l2d - Λ) * Real.sqrt ((a * b) / (c * d)
    * ((2 * l1d + 1) * (2 * l2d + 1)) / (2 : ℝ) ^ (l1d + l2d) * e / (f * g) * h / (i * j))
  let terms ← (kappaList l1 l1d l2 l2d).mapM (seedTerm env l1d l2d l1 l2 Λ)
  pure (prefactor * terms.sum)

/-- Arguments of a bracket: the memo key, lines 146-155. -/
structure Key where
  n1d : Int
  l1d : Int
  n2d : Int
  l2d : Int
  n1 : Int
  l1 : Int
  n2 : Int
  l2 : Int
  Λ : Int
  deriving DecidableEq

/-- Negative argument test, lines 134-135. -/
def Key.negative (k : Key) : Bool :=
  decide (k.n1d < 0) || decide (k.l1d < 0) || decide (k.n2d < 0) || decide (k.l2d < 0)
    || decide (k.n1 < 0) || decide (k.l1 < 0) || decide (k.n2 < 0) || decide (k.l2 < 0)

/-- `rho_dot`, line 142. -/
def Key.rhoDot (k : Key) : Int := 2 * k.n1d + k.l1d + 2 * k.n2d + k.l2d

/-- `rho`, line 143. -/
def Key.rho (k : Key) : Int := 2 * k.n1 + k.l1 + 2 * k.n2 + k.l2

/-- Forbidden case, lines 171-174. -/
def Key.forbidden (k : Key) : Bool :=
  !decide (k.rhoDot = k.rho) || !tri k.l1d k.l2d k.Λ || !tri k.l1 k.l2 k.Λ

/-- `ONLYIF(c,x*bracket)`: the bracket is requested only if the condition holds. -/
def onlyIf (c : Prop) [Decidable c] (x : ℝ) (k : Key) : List (ℝ × Key) := if c then [(x, k)] else []

/-- The six terms of the recursion, lines 202-250: coefficient and requested bracket. -/
noncomputable def terms (env : Env) (k : Key) : List (ℝ × Key) :=
  onlyIf (k.n1d ≠ 0) (1 / 2 * Real.sqrt (k.n1d * (k.n1d + k.l1d + 1 / 2)))
      ⟨k.n1d - 1, k.l1d, k.n2d, k.l2d, k.n1 - 1, k.l1, k.n2, k.l2, k.Λ⟩
  ++ onlyIf (k.n2d ≠ 0) (1 / 2 * Real.sqrt (k.n2d * (k.n2d + k.l2d + 1 / 2)))
      ⟨k.n1d, k.l1d, k.n2d - 1, k.l2d, k.n1 - 1, k.l1, k.n2, k.l2, k.Λ⟩
  ++ onlyIf (k.n1d ≠ 0 ∧ k.n2d ≠ 0)
      (sgn (k.l1d + k.l2d + k.Λ) * Real.sqrt (k.n1d * k.n2d * (k.l1d + 1) * (k.l2d + 1))
        * env.sixj k.l1d (k.l1d + 1) 1 (k.l2d + 1) k.l2d k.Λ)
      ⟨k.n1d - 1, k.l1d + 1, k.n2d - 1, k.l2d + 1, k.n1 - 1, k.l1, k.n2, k.l2, k.Λ⟩
  ++ onlyIf (k.n1d ≠ 0 ∧ k.l2d ≠ 0)
      (sgn (k.l1d + k.l2d + k.Λ) * Real.sqrt (k.n1d * (k.n2d + k.l2d + 1 / 2) * (k.l1d + 1) * k.l2d)
        * env.sixj k.l1d (k.l1d + 1) 1 (k.l2d - 1) k.l2d k.Λ)
      ⟨k.n1d - 1, k.l1d + 1, k.n2d, k.l2d - 1, k.n1 - 1, k.l1, k.n2, k.l2, k.Λ⟩
  ++ onlyIf (k.l1d ≠ 0 ∧ k.n2d ≠ 0)
      (sgn (k.l1d + k.l2d + k.Λ) * Real.sqrt ((k.n1d + k.l1d + 1 / 2) * k.n2d * k.l1d * (k.l2d + 1))
        * env.sixj k.l1d (k.l1d - 1) 1 (k.l2d + 1) k.l2d k.Λ)
      ⟨k.n1d, k.l1d - 1, k.n2d - 1, k.l2d + 1, k.n1 - 1, k.l1, k.n2, k.l2, k.Λ⟩
  ++ onlyIf (k.l1d ≠ 0 ∧ k.l2d ≠ 0)
      (sgn (k.l1d + k.l2d + k.Λ)
        * Real.sqrt ((k.n1d + k.l1d + 1 / 2) * (k.n2d + k.l2d + 1 / 2) * k.l1d * k.l2d)
        * env.sixj k.l1d (k.l1d - 1) 1 (k.l2d - 1) k.l2d k.Λ)
      ⟨k.n1d, k.l1d - 1, k.n2d, k.l2d - 1, k.n1 - 1, k.l1, k.n2, k.l2, k.Λ⟩

/-- The bracket with the ket exchanged, line 192. -/
def Key.swapped (k : Key) : Key := ⟨k.n1d, k.l1d, k.n2d, k.l2d, k.n2, k.l2, k.n1, k.l1, k.Λ⟩

/-- The static memo table. -/
abbrev Memo := Key → Option ℝ

/-- Ways an evaluation can fail to return: the nesting limit given to the model is exhausted, or the
program stops. -/
inductive Stop where
  | depth
  | err (e : Err)
  deriving DecidableEq

/-- Run a computation that can only stop by an error. -/
def lift {α : Type} : Except Err α → Except Stop α
  | .ok a => .ok a
  | .error e => .error (.err e)

/-- Evaluate the requested brackets one after the other, threading the memo table, and add up. -/
noncomputable def sumTerms (f : Key → Memo → Except Stop (ℝ × Memo)) :
    List (ℝ × Key) → Memo → Except Stop (ℝ × Memo)
  | [], m => .ok (0, m)
  | t :: ts, m => do
    let r ← f t.2 m
    let s ← sumTerms f ts r.2
    pure (t.1 * r.1 + s.1, s.2)

/-- `MoshinskyBracket`, lines 114-265, nested at most `d` calls deep.  C++ leaves the order in which
the six operands of the sum are evaluated unspecified: `order` chooses it. -/
noncomputable def run (env : Env) (order : List (ℝ × Key) → List (ℝ × Key)) :
    ℕ → Key → Memo → Except Stop (ℝ × Memo)
  | 0, _, _ => .error .depth
  | d + 1, k, m =>
    if k.negative then .ok (0, m)
    else match m k with
      | some v => .ok (v, m)
      | none => do
        let r ←
          if k.forbidden then pure (0, m)
          else if k.n1 = 0 ∧ k.n2 = 0 then do
            let v ← lift (seed env k.n1d k.l1d k.n2d k.l2d k.l1 k.l2 k.Λ)
            pure (v, m)
          else if k.n1 = 0 then do
            let r ← run env order d k.swapped m
            pure (sgn (k.l2d - k.Λ) * r.1, r.2)
          else do
            let r ← sumTerms (run env order d) (order (terms env k)) m
            pure (1 / Real.sqrt (k.n1 * (k.n1 + k.l1 + 1 / 2)) * r.1, r.2)
        pure (r.1, Function.update r.2 k (some r.1))

/-- A history of requests by the rest of the program, starting from memo table `m`: the values
returned. -/
noncomputable def runAll (env : Env) (order : List (ℝ × Key) → List (ℝ × Key)) (d : ℕ) :
    List Key → Memo → Except Stop (List ℝ × Memo)
  | [], m => .ok ([], m)
  | k :: ks, m => do
    let r ← run env order d k m
    let s ← runAll env order d ks r.2
    pure (r.1 :: s.1, s.2)

end Verif.Moshinsky
