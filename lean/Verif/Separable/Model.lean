import Verif.Obme.Model

/-!
# Model of separable two-body operators

`libraries/tbme/tbme_separable.cpp` 23-408: the upgrade of a one-body operator to a two-body operator and
the two-body operator built from a product of two one-body operators.

Simplifications: `double` is `ℝ`.  The three recoupling factors of `am/racah_reduction.h` are given
functions.  `basis::MatrixElementLJPN` and the equality of `OrbitalStatePN` belong to the absent `basis`
library: the first is the lookup of subspace, sector and state (a failed lookup is `undefinedBehaviour`), the second
is equality of species and quantum numbers.  The iterations of the parallel loop write distinct elements
and read only shared constants, so the loop is the function of its two indices.
-/

namespace Verif.Separable
open Verif Verif.Mapping Verif.Xform Verif.Obme

/-- `basis::OrbitalStatePN`: species and `(n,l,j)`; `j` is doubled. -/
structure SpOrb where
  sp : Species1
  n : ℕ
  l : ℕ
  tj : ℕ
  deriving DecidableEq, Repr

/-- The `(l,j,tz)` labels of an orbital. -/
def SpOrb.labels (a : SpOrb) : Obme.Labels := ⟨a.l, a.tj, a.sp⟩

/-- `basis::TwoBodySubspaceJJJPN` as read here: `J` and, for each state, its two orbitals. -/
structure PairSub where
  J : ℕ
  states : List (SpOrb × SpOrb)
  deriving DecidableEq, Repr

/-- The recoupling factors of `am/racah_reduction.h` in the order of arguments of the calls; the
single-particle angular momenta are doubled. -/
structure Am where
  f1 : ℕ → ℕ → ℕ → ℕ → ℕ → ℕ → Int → ℝ
  f2 : ℕ → ℕ → ℕ → ℕ → ℕ → ℕ → Int → ℝ
  f12 : ℕ → ℕ → ℕ → ℕ → ℕ → ℕ → Int → Int → Int → ℝ

/-- `ParitySign` of a half-integer given by its double. -/
def psign (twice : Int) : Int := powNegOne (twice / 2)

/-- `one_body_sector_allowed`, `tbme_separable.cpp` 23-34; `g` is `l % 2`, and `Tz` is `1/2` for protons. -/
def sectorAllowed (q : QN) (bra ket : SpOrb) : Bool :=
  decide (|(ket.tj : Int) - 2 * q.J0| ≤ bra.tj ∧ (bra.tj : Int) ≤ ket.tj + 2 * q.J0) &&
    decide ((((ket.l % 2 : ℕ) : Int) + q.g0 + ((bra.l % 2 : ℕ) : Int)).tmod 2 = 0) &&
    decide (bra.labels.tz = ket.labels.tz + 2 * q.Tz0)

/-- A lookup that is taken to succeed. -/
def found : Option ℕ → Except Err ℕ
  | some i => .ok i
  | none => .error .undefinedBehaviour

/-- `basis::MatrixElementLJPN`: subspaces by labels, sector by subspaces, states by `n`. -/
noncomputable def matrixElementLJPN (space : Space) (secs : Sectors) (mats : List Mat) (bra ket : SpOrb) :
    Except Err ℝ := do
  let i ← found (lookUpSub space bra.labels)
  let k ← found (lookUpSub space ket.labels)
  let bs ← getE space i
  let ks ← getE space k
  let s ← found (secs.pairs.idxOf? (i, k))
  let m ← getE mats s
  let x ← found (bs.ns.idxOf? bra.n)
  let y ← found (ks.ns.idxOf? ket.n)
  pure (m.val x y)

/-- A guarded one-body matrix element, e.g. `tbme_separable.cpp` 85-105: zero unless the sector is allowed. -/
noncomputable def matel (space : Space) (secs : Sectors) (mats : List Mat) (bra ket : SpOrb) : Except Err ℝ :=
  if sectorAllowed secs.qn bra ket then matrixElementLJPN space secs mats bra ket else .ok 0

/-- The accumulation of `UpgradeOneBodyOperatorJJJPN`, `tbme_separable.cpp` 108-194, without the final
`1/(A-1)`.  The bra state is `(c,d)`, the ket state `(a,b)`. -/
noncomputable def upgradeFormula (am : Am) (J0 : Int) (J' J : ℕ) (c d a b : SpOrb) (ca cb da db : ℝ) : ℝ :=
  let me : ℝ := 0
  let phase : ℝ := 1
  let me := if d = b then me + phase * am.f1 c.tj d.tj J' a.tj b.tj J J0 * ca else me
  let me := if c = a then me + phase * am.f2 c.tj d.tj J' a.tj b.tj J J0 * db else me
  let phase : ℝ := ((- psign (2 * J - a.tj - b.tj) : Int) : ℝ)
  let me := if d = a then me + phase * am.f1 c.tj d.tj J' b.tj a.tj J J0 * cb else me
  let me := if c = b then me + phase * am.f2 c.tj d.tj J' b.tj a.tj J J0 * da else me
  let phase : ℝ := ((- psign (2 * J' - c.tj - d.tj) : Int) : ℝ)
  let me := if c = b then me + phase * am.f1 d.tj c.tj J' a.tj b.tj J J0 * da else me
  let me := if d = a then me + phase * am.f2 d.tj c.tj J' a.tj b.tj J J0 * cb else me
  let phase : ℝ := ((psign (2 * J' - c.tj - d.tj + 2 * J - a.tj - b.tj) : Int) : ℝ)
  let me := if c = a then me + phase * am.f1 d.tj c.tj J' b.tj a.tj J J0 * db else me
  let me := if d = b then me + phase * am.f2 d.tj c.tj J' b.tj a.tj J J0 * ca else me
  let me := me * (1 / 2)
  let me := if a = b then me * (1 / Real.sqrt 2) else me
  if c = d then me * (1 / Real.sqrt 2) else me

/-- One iteration of the loop, `tbme_separable.cpp` 72-200. -/
noncomputable def upgradeElement (am : Am) (space : Space) (secs : Sectors) (mats : List Mat) (J' J : ℕ)
    (bra ket : SpOrb × SpOrb) : Except Err ℝ := do
  let a := ket.1
  let b := ket.2
  let c := bra.1
  let d := bra.2
  let ca ← matel space secs mats c a
  let cb ← matel space secs mats c b
  let da ← matel space secs mats d a
  let db ← matel space secs mats d b
  pure (upgradeFormula am secs.qn.J0 J' J c d a b ca cb da db)

/-- Fill a matrix by an element function that may fail. -/
noncomputable def fill (bra ket : PairSub) (f : SpOrb × SpOrb → SpOrb × SpOrb → Except Err ℝ) :
    Except Err Mat := do
  let rows ← bra.states.mapM fun x => ket.states.mapM fun y => f x y
  pure ⟨bra.states.length, ket.states.length, fun i j => (rows.getD i []).getD j 0⟩

/-- `UpgradeOneBodyOperatorJJJPN`, `tbme_separable.cpp` 40-202.  For `A = 1` the factor `1./(A-1)` is not a
number; `A-1` is `int` arithmetic. -/
noncomputable def upgrade (am : Am) (space : Space) (secs : Sectors) (mats : List Mat) (bra ket : PairSub)
    (A : Int) : Except Err Mat :=
  if ¬ tri bra.J ket.J secs.qn.J0 then
    .ok ⟨bra.states.length, ket.states.length, fun _ _ => 0⟩
  else do
    let m ← fill bra ket (upgradeElement am space secs mats bra.J ket.J)
    if ¬ (-(2 ^ 31) ≤ A - 1 ∧ A - 1 < 2 ^ 31) then .error .undefinedBehaviour
    else if A = 1 then .error .notANumber
    else pure (scale (1 / ((A - 1 : Int) : ℝ)) m)

/-- The accumulation of `RacahReduceTensorProductJJJPN`, `tbme_separable.cpp` 308-401; `x1`, `x2` are the
elements of the two factors. -/
noncomputable def racahFormula (am : Am) (J1 J2 J0 : Int) (J' J : ℕ) (c d a b : SpOrb)
    (c1a c1b d1a d1b c2a c2b d2a d2b : ℝ) : ℝ :=
  let me : ℝ := 0
  let f_c1a_d2b := am.f12 c.tj d.tj J' a.tj b.tj J J1 J2 J0
  let me := me + 2 * f_c1a_d2b * d2b * c1a
  let swap : ℝ := ((psign (2 * J' + c.tj + d.tj + 2 * J + a.tj + b.tj + 2 * J1 + 2 * J2 + 2 * J0) : Int) : ℝ)
  let f_d1b_c2a := if J1 = J2 then swap * f_c1a_d2b else am.f12 d.tj c.tj J' b.tj a.tj J J1 J2 J0
  let me := me + 2 * ((psign (2 * J' - c.tj - d.tj + 2 * J - a.tj - b.tj) : Int) : ℝ) * f_d1b_c2a * d1b * c2a
  let f_c1b_d2a := am.f12 c.tj d.tj J' b.tj a.tj J J1 J2 J0
  let me := me + (-2) * ((psign (2 * J - a.tj - b.tj) : Int) : ℝ) * f_c1b_d2a * d2a * c1b
  let f_d1a_c2b := if J1 = J2 then swap * f_c1b_d2a else am.f12 d.tj c.tj J' a.tj b.tj J J1 J2 J0
  let me := me + (-2) * ((psign (2 * J' - c.tj - d.tj) : Int) : ℝ) * f_d1a_c2b * d1a * c2b
  let me := me * (1 / 4)
  let me := if a = b then me * (1 / Real.sqrt 2) else me
  if c = d then me * (1 / Real.sqrt 2) else me

/-- One iteration of the loop, `tbme_separable.cpp` 243-406.  `same` says that the two factors are the same
objects (277-283), in which case the elements of the second factor are copied. -/
noncomputable def racahElement (am : Am) (space : Space) (secs1 : Sectors) (mats1 : List Mat) (secs2 : Sectors)
    (mats2 : List Mat) (same : Bool) (J0 : Int) (J' J : ℕ) (bra ket : SpOrb × SpOrb) : Except Err ℝ := do
  let a := ket.1
  let b := ket.2
  let c := bra.1
  let d := bra.2
  let c1a ← matel space secs1 mats1 c a
  let c1b ← matel space secs1 mats1 c b
  let d1a ← matel space secs1 mats1 d a
  let d1b ← matel space secs1 mats1 d b
  let c2a ← if same then pure c1a else matel space secs2 mats2 c a
  let c2b ← if same then pure c1b else matel space secs2 mats2 c b
  let d2a ← if same then pure d1a else matel space secs2 mats2 d a
  let d2b ← if same then pure d1b else matel space secs2 mats2 d b
  pure (racahFormula am secs1.qn.J0 secs2.qn.J0 J0 J' J c d a b c1a c1b d1a d1b c2a c2b d2a d2b)

/-- `RacahReduceTensorProductJJJPN`, `tbme_separable.cpp` 209-408. -/
noncomputable def racahReduce (am : Am) (space : Space) (secs1 : Sectors) (mats1 : List Mat) (secs2 : Sectors)
    (mats2 : List Mat) (same : Bool) (bra ket : PairSub) (J0 : Int) : Except Err Mat := do
  assertE (tri secs1.qn.J0 secs2.qn.J0 J0)
  if ¬ tri bra.J ket.J J0 then
    pure ⟨bra.states.length, ket.states.length, fun _ _ => 0⟩
  else
    fill bra ket (racahElement am space secs1 mats1 secs2 mats2 same J0 bra.J ket.J)

end Verif.Separable
