import Verif.Mixer.Words
import Verif.Relative.Space
import Verif.Relative.N2LO

/-!
# `relative-gen`

Model of `programs/relutils/relative-gen.cpp`.

Simplifications: the words of lines as in `Mixer/Words.lean`; the program is built without `USE_DAEJEON16`; a negative
label of the operator, and whatever the absent `basis` library does with labels or places it does not have, is
`undefinedBehaviour`; the space and its sectors are those of `Space.lean`.  The result is what is handed to
`basis::WriteRelativeOperatorLSJT`.
-/

namespace Verif.Relative.Gen
open Verif Verif.H2 Verif.Mixer.Control

/-- Standard input: the words of its lines, and whether the last line ends with a newline. -/
structure Input where
  lines : List (List String)
  newline : Bool

/-- The `i`-th `std::getline(std::cin,line)`.  After the last line it leaves an empty line, unless the end of the file
was met by the previous call: then it does nothing, and `line` is still the last one. -/
def Input.line (f : Input) (i : ℕ) : List String :=
  match f.lines[i]? with
  | some l => l
  | none => if f.newline then [] else f.lines.getLastD []

/-- `UnitTensorLabels` (`relative-gen.cpp` 152-157). -/
structure UnitLabels where
  T0 : Int
  Np : Int
  Lp : Int
  Sp : Int
  Jp : Int
  Tp : Int
  N : Int
  L : Int
  S : Int
  J : Int
  T : Int
  deriving DecidableEq

/-- The operator named in line 3, with the parameters that belong to it (`relative-gen.cpp` 159-175). -/
inductive Choice where
  | coordinateSqr (c : Coord) (T0 : Int)
  | dipole (c : Coord) (T0 : Int)
  | quadrupole (c : Coord) (T0 : Int)
  | orbital (T0 : Int)
  | spin (T0 : Int)
  | coulomb (t : OpType) (steps : Int)
  | symmunit (u : UnitLabels)
  | interaction (name : String)
  | n2logt (R b : ℝ) (steps : Int)
  | plain (name : String)

/-- `Parameters` (`relative-gen.cpp` 159-175). -/
structure Params where
  J0 : Int
  g0 : Int
  T0min : Int
  T0max : Int
  Nmax : Int
  Jmax : Int
  choice : Choice
  file : String

/-- `r|k T0` (`relative-gen.cpp` 244-256). -/
def readCoord (nm : Numbers) (ws : List String) : Except Err (Coord × Int) := do
  let (c, ws) ← word ws
  let (t, _) ← int nm ws
  if c = "r" then pure (.r, t) else if c = "k" then pure (.k, t) else throw .parseError

/-- Line 3 (`relative-gen.cpp` 219-310). -/
def readChoice (nm : Numbers) (ws : List String) : Except Err Choice := do
  let (name, ws) ← word ws
  if name = "orbital-am" then do
    let (t, _) ← int nm ws
    pure (.orbital t)
  else if name = "spin-am" then do
    let (t, _) ← int nm ws
    pure (.spin t)
  else if name = "coordinate-sqr" then do
    let (c, t) ← readCoord nm ws
    pure (.coordinateSqr c t)
  else if name = "dipole" then do
    let (c, t) ← readCoord nm ws
    pure (.dipole c t)
  else if name = "quadrupole" then do
    let (c, t) ← readCoord nm ws
    pure (.quadrupole c t)
  else if name = "coulomb" then do
    let (s, ws) ← word ws
    let (n, _) ← int nm ws
    if s = "p" then pure (.coulomb .p n)
    else if s = "n" then pure (.coulomb .n n)
    else if s = "total" then pure (.coulomb .total n)
    else throw .parseError
  else if name = "symmunit" then do
    let (T0, ws) ← int nm ws
    let (Np, ws) ← int nm ws
    let (Lp, ws) ← int nm ws
    let (Sp, ws) ← int nm ws
    let (Jp, ws) ← int nm ws
    let (Tp, ws) ← int nm ws
    let (N, ws) ← int nm ws
    let (L, ws) ← int nm ws
    let (S, ws) ← int nm ws
    let (J, ws) ← int nm ws
    let (T, _) ← int nm ws
    pure (.symmunit ⟨T0, Np, Lp, Sp, Jp, Tp, N, L, S, J, T⟩)
  else if name = "interaction" then do
    let (s, _) ← word ws
    pure (.interaction s)
  else if name = "LENPIC-N2LOGT" then do
    let (R, ws) ← num nm ws
    let (b, ws) ← num nm ws
    let (n, _) ← int nm ws
    pure (.n2logt R b n)
  else pure (.plain name)

/-- `ReadParameters` (`relative-gen.cpp` 177-322). -/
def readParams (nm : Numbers) (f : Input) : Except Err Params := do
  let (J0, ws) ← int nm (f.line 0)
  let (g0, ws) ← int nm ws
  let (T0min, ws) ← int nm ws
  let (T0max, _) ← int nm ws
  let (Nmax, _) ← int nm (f.line 1)
  let choice ← readChoice nm (f.line 2)
  let (file, _) ← word (f.line 3)
  pure ⟨J0, g0, T0min, T0max, Nmax, Nmax + 1, choice, file⟩

/-! ## Operators -/

/-- What the absent libraries provide. -/
structure Lib where
  am : Am
  am12 : Am12
  /-- spline integration -/
  cubic : List ℝ → List ℝ → ℝ
  /-- radial integrals of `1/r` with a number of steps -/
  coulomb : Int → ℕ → ℕ → ℕ → ℝ
  /-- `basis::ConstructIdentityOperatorRelativeLSJT` -/
  identity : OpLabels → (ℕ → List RSec) → Except Err RelOp

/-- `basis::ConstructZeroOperatorRelativeLSJT`. -/
def constructZero (sectors : ℕ → List RSec) : RelOp := fun t => (sectors t).map fun _ => zeroE

/-- Place of a state with `N` quanta in a subspace; `none` is `basis::kNone`. -/
def stateIndex (s : RelSub) (N : Int) : Option ℕ := (List.range s.size).find? fun n => decide ((s.L : Int) + 2 * n = N)

/-- Comparison of places, `basis::kNone` being the largest number. -/
def indexLe : Option ℕ → Option ℕ → Bool
  | some i, some j => decide (i ≤ j)
  | _, none => true
  | none, some _ => false

/-- Look-up of a subspace; the parity is that of `L` (`relative-gen.cpp` 464-465, 481-482). -/
def lookUp (sp : List RelSub) (L S J T : Int) : Option RelSub :=
  sp.find? fun s => decide ((s.L : Int) = L ∧ (s.S : Int) = S ∧ (s.J : Int) = J ∧ (s.T : Int) = T)

/-- Assignment of 1 to an element. -/
def setOne (b : Entries) (i j : ℕ) : Entries := fun i' j' => if i' = i ∧ j' = j then .ok 1 else b i' j'

/-- The unit tensor (`relative-gen.cpp` 453-537). -/
def constructUnit (sp : List RelSub) (sectors : ℕ → List RSec) (u : UnitLabels) : Except Err RelOp :=
  match lookUp sp u.Lp u.Sp u.Jp u.Tp, lookUp sp u.L u.S u.J u.T with
  | some bra, some ket =>
    let i := stateIndex bra u.Np
    let j := stateIndex ket u.N
    if u.T0 < 0 ∨ 2 < u.T0 then .error .undefinedBehaviour
    else
      let T0 := u.T0.toNat
      match (sectors T0).findIdx? fun p => decide (p = (bra, ket)) with
      | none => .error .undefinedBehaviour
      | some k => (if bra = ket then assertE (indexLe i j) else .ok ()) >>= fun _ =>
        match i, j with
        | some i, some j =>
          .ok fun t =>
            if t = T0 then (constructZero sectors t).set k (setOne zeroE i j) else constructZero sectors t
        | _, _ => .error .undefinedBehaviour
  | _, _ => .error .undefinedBehaviour

/-- A `T0` argument of the constructors, which assert that it is 0 or 1. -/
def argT0 (T0 : Int) : Except Err ℕ := if T0 < 0 then .error .assertFail else .ok T0.toNat

/-- The choice of the operator (`relative-gen.cpp` 353-582). -/
noncomputable def dispatch (lib : Lib) (o : OpLabels) (Nmax : ℕ) (sp : List RelSub) (sectors : ℕ → List RSec) :
    Choice → Except Err RelOp
  | .coordinateSqr c T0 => do constructCoordinateSqr o sectors c (← argT0 T0)
  | .dipole c T0 => do constructDipole lib.am o sectors c (← argT0 T0)
  | .quadrupole c T0 => do constructQuadrupole lib.am o sectors c (← argT0 T0)
  | .orbital T0 => do constructOrbital lib.am o sectors (← argT0 T0)
  | .spin T0 => do constructSpin lib.am o sectors (← argT0 T0)
  | .coulomb t steps => constructCoulomb (lib.coulomb steps) o sectors t
  | .symmunit u => constructUnit sp sectors u
  | .interaction _ => .error .exitFailure
  | .n2logt R b steps => constructN2LOGT lib.am lib.am12 lib.cubic o Nmax sectors R b steps.toNat
  | .plain name =>
    if name = "zero" then .ok (constructZero sectors)
    else if name = "identity" then lib.identity o sectors
    else if name = "rsqr" then constructCoordinateSqr o sectors .r 0
    else if name = "ksqr" then constructCoordinateSqr o sectors .k 0
    else if name = "isospin" then constructIsospin lib.am o sectors
    else if name = "su4casimir" then constructCasimir o sectors
    else if name = "LENPIC-LOGT" then constructLOGT lib.am o sectors
    else .error .exitFailure

/-- What is written. -/
structure Output where
  file : String
  labels : OpLabels
  Nmax : ℕ
  Jmax : ℕ
  sectors : ℕ → List RSec
  blocks : RelOp

/-- The names for which containers are set up. -/
def known : Choice → Bool
  | .interaction _ => false
  | .plain name => name ∈ ["zero", "identity", "rsqr", "ksqr", "isospin", "su4casimir", "LENPIC-LOGT"]
  | _ => true

/-- `PopulateOperator` (`relative-gen.cpp` 328-583) and `main` (589-623).  The containers have three components, and every
constructor sets them up before anything else.  Simplified: negative labels and truncations are undefined behaviour. -/
noncomputable def run (nm : Numbers) (lib : Lib) (f : Input) : Except Err Output := do
  let p ← readParams nm f
  if p.J0 < 0 ∨ p.g0 < 0 ∨ p.T0min < 0 ∨ p.T0max < 0 ∨ p.Nmax < 0 then .error .undefinedBehaviour
  else
    let o : OpLabels := ⟨p.J0.toNat, p.g0.toNat, p.T0min.toNat, p.T0max.toNat⟩
    let sp := relSpace p.Nmax.toNat p.Jmax.toNat
    let sectors := relSectors o sp
    if known p.choice && decide (2 < o.T0max) then .error .undefinedBehaviour
    else do
      let op ← dispatch lib o p.Nmax.toNat sp sectors p.choice
      pure ⟨p.file, o, p.Nmax.toNat, p.Jmax.toNat, sectors, op⟩

end Verif.Relative.Gen
