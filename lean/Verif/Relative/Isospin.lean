import Verif.Common
import Mathlib.Analysis.Real.Sqrt
import Mathlib.Tactic.LinearCombination
import Mathlib.Tactic.FieldSimp
import Mathlib.Tactic.Ring
import Mathlib.Tactic.FinCases

/-!
# Isospin components of relative operators

Model of the conversion of `pp`, `nn`, `pn` matrix elements to isospin components on input
(`ReadJPVOperatorPN`, `libraries/relative/jpv_io.cpp` 245-399, and `ReadPNOperatorPN`,
`libraries/relative/pn_io.cpp` 114-242), of the branching table used on output (`TwoBodyMatrixJJJPN`,
`libraries/moshinsky/moshinsky_xform.cpp` 829-850), of the single-species isospin factors and of the
SU(4) Casimir rule (`libraries/relative/relative_me.cpp` 881-987).
-/

namespace Verif.Relative
open Verif

/-- A matrix block. -/
abbrev Block := ℕ → ℕ → ℝ

/-- Two-body species in the order of `basis::TwoBodySpeciesPN`. -/
inductive Sp where
  | pp | nn | pn
  deriving DecidableEq, Repr

/-- `basis::kTwoBodySpeciesPNCodeTz`. -/
def Sp.Tz : Sp → Int
  | .pp => 1
  | .nn => -1
  | .pn => 0

/-- `kIsospinCoefficientMatrixTzToTForT1` of the JPV reader, indexed by `(T0, species)`
(`jpv_io.cpp` 287-292). -/
noncomputable def jpvTable (T0 : ℕ) (s : Sp) : ℝ :=
  (1 / 3) * match T0, s with
    | 0, _ => 1
    | 1, .pp => Real.sqrt (9 / 2)
    | 1, .nn => -Real.sqrt (9 / 2)
    | 1, .pn => 0
    | _, .pp => Real.sqrt (5 / 2)
    | _, .nn => Real.sqrt (5 / 2)
    | _, .pn => -Real.sqrt 10

/-- `kIsospinCoefficientMatrixTzToTForT1` of the pn reader, indexed by `(T0, column)`
(`pn_io.cpp` 154-159); the column is `Tz+1` for the file's `Tz`, which labels `pp` by `-1`. -/
noncomputable def pnTable (T0 : ℕ) (col : ℕ) : ℝ :=
  (1 / 3) * match T0, col with
    | 0, _ => 1
    | 1, 0 => Real.sqrt (9 / 2)
    | 1, 1 => 0
    | 1, _ => -Real.sqrt (9 / 2)
    | _, 0 => Real.sqrt (5 / 2)
    | _, 1 => -Real.sqrt 10
    | _, _ => Real.sqrt (5 / 2)

/-- `kIsospinCoefficientsTToTzForT11`, indexed by `(Tz0, Tz_ket+1, T0)` (`moshinsky_xform.cpp`
829-850). -/
noncomputable def branchT11 (Tz0 tk T0 : ℕ) : ℝ :=
  match Tz0, tk, T0 with
  | 0, _, 0 => 1
  | 0, 0, 1 => -Real.sqrt (1 / 2)
  | 0, 0, 2 => Real.sqrt (1 / 10)
  | 0, 1, 2 => -Real.sqrt (2 / 5)
  | 0, 2, 1 => Real.sqrt (1 / 2)
  | 0, 2, 2 => Real.sqrt (1 / 10)
  | 1, 0, 1 => -Real.sqrt (1 / 2)
  | 1, 0, 2 => Real.sqrt (3 / 10)
  | 1, 1, 1 => -Real.sqrt (1 / 2)
  | 1, 1, 2 => -Real.sqrt (3 / 10)
  | 2, 0, 2 => Real.sqrt (3 / 5)
  | _, _, _ => 0

/-- `kSingleSpeciesOperatorIsospinFactors` (`relative_me.cpp` 979-987); `proton` is
`OperatorTypePN::kP`. -/
noncomputable def singleSpecies (proton : Bool) (T0 : ℕ) : ℝ :=
  match proton, T0 with
  | _, 0 => 1 / 3
  | true, 1 => 1 / Real.sqrt 2
  | false, 1 => -1 / Real.sqrt 2
  | _, _ => Real.sqrt 10 / 6

/-- Operator types of `ConstructCoulombOperator`. -/
inductive OpType where
  | p | n | total
  deriving DecidableEq, Repr

/-- Isospin factor chosen for a diagonal sector, `none` when the sector is skipped
(`relative_me.cpp` 1057-1076). -/
noncomputable def coulombFactor (o : OpType) (T T0 : ℕ) : Option ℝ :=
  match o with
  | .total => if T0 = 0 then some 1 else none
  | .p => if T = 1 then some (singleSpecies true T0) else none
  | .n => if T = 1 then some (singleSpecies false T0) else none

/-- The SU(4) Casimir matrix element of a diagonal sector (`relative_me.cpp` 937-940). -/
def casimir (S T : Int) : Int :=
  let S2 := S * (S + 1)
  let T2 := T * (T + 1)
  2 * S2 * T2 - 2 * S2 - 2 * T2 + 9

/-! ## Accumulation into isospin components -/

/-- Sector of the isoscalar input operator: subspace indices and isospins. -/
structure Sec where
  bra : ℕ
  ket : ℕ
  braT : ℕ
  ketT : ℕ
  deriving DecidableEq, Repr

/-- One accumulation `matrices[T0][idx] += coef * block`. -/
structure Add where
  T0 : ℕ
  idx : ℕ
  coef : ℝ
  block : Block

/-- Operator: isospin component, sector index, entry. -/
abbrev Op := ℕ → ℕ → Block

/-- Perform one accumulation. -/
def Add.apply (op : Op) (a : Add) : Op := fun T0 idx i j =>
  if T0 = a.T0 ∧ idx = a.idx then op T0 idx i j + a.coef * a.block i j else op T0 idx i j

/-- Target sector of component `T0`; `GetSector(kNone)` is out of range. -/
def targetOf (look : ℕ → ℕ → ℕ → Option ℕ) (sec : Sec) (T0 : ℕ) : Except Err ℕ :=
  match look T0 sec.bra sec.ket with
  | none => .error .undefinedBehaviour
  | some i => .ok i

/-- Body of the sector loop (`jpv_io.cpp` 331-369, `pn_io.cpp` 199-236): the accumulations made for
one sector and one species. -/
def sectorAdds (look : ℕ → ℕ → ℕ → Option ℕ) (coef : ℕ → ℝ) (tz0 : Bool) (idx : ℕ) (sec : Sec)
    (m : Block) : Except Err (List Add) :=
  if sec.braT ≠ sec.ketT then .ok []
  else if sec.ketT = 0 then
    if tz0 then .ok [⟨0, idx, 1, m⟩] else .ok []
  else if sec.ketT = 1 then do
    let i0 ← targetOf look sec 0
    let i1 ← targetOf look sec 1
    let i2 ← targetOf look sec 2
    pure [⟨0, i0, coef 0, m⟩, ⟨1, i1, coef 1, m⟩, ⟨2, i2, coef 2, m⟩]
  else .ok []

/-- `ReadJPVOperatorPN` after reading the three files (`jpv_io.cpp` 294-399): species outermost.
`input s k` is the block of sector `k` in the file of species `s`. -/
noncomputable def jpvAdds (look : ℕ → ℕ → ℕ → Option ℕ) (sectors : List (ℕ × Sec)) (input : Sp → ℕ → Block) :
    Except Err (List Add) := do
  let l ← [Sp.pp, Sp.nn, Sp.pn].mapM fun s =>
    sectors.mapM fun p => sectorAdds look (fun T0 => jpvTable T0 s) (s.Tz = 0) p.1 p.2 (input s p.1)
  pure l.flatten.flatten

/-- `ReadPNOperatorPN` after reading the file (`pn_io.cpp` 186-241): sectors outermost. `input c k`
is the block of sector `k` in column `c = Tz+1`. -/
noncomputable def pnAdds (look : ℕ → ℕ → ℕ → Option ℕ) (sectors : List (ℕ × Sec)) (input : ℕ → ℕ → Block) :
    Except Err (List Add) := do
  let l ← sectors.mapM fun p =>
    [0, 1, 2].mapM fun c => sectorAdds look (fun T0 => pnTable T0 c) (c = 1) p.1 p.2 (input c p.1)
  pure l.flatten.flatten

/-- Run the accumulations on the initial operator. -/
def accumulate (op : Op) (l : List Add) : Op := l.foldl Add.apply op

end Verif.Relative
