import Verif.Common
import Mathlib.Data.Real.Basic

/-!
# Model of the two-body remapping (`libraries/tbme/tbme_mapping.{h,cpp}`)

`std::size_t` indices are natural numbers and `basis::kNone` is the largest of them, as in the
code: comparisons such as `target_orbital1_index > target_orbital2_index` are made on it.
-/

namespace Verif.Mapping
open Verif

/-- `basis::kNone`: `std::numeric_limits<std::size_t>::max()`. -/
def kNone : Nat := 2 ^ 64 - 1

/-- Labels `(n,l,j)` of an orbital within its species. -/
structure Orb where
  n : Nat
  l : Nat
  twiceJ : Nat
  deriving DecidableEq, Repr

/-- `basis::OrbitalSpacePN`: proton (0) and neutron (1) orbital subspaces. -/
structure Orbitals where
  p : List Orb
  n : List Orb

/-- `basis::OrbitalSpeciesPN`. -/
inductive Species1 where
  | p | n
  deriving DecidableEq, Repr

def Orbitals.of (o : Orbitals) : Species1 → List Orb
  | .p => o.p
  | .n => o.n

/-- `basis::TwoBodySpeciesPN`. -/
inductive Species2 where
  | pp | nn | pn
  deriving DecidableEq, Repr

/-- Species of the first and second orbital of a pair. -/
def Species2.first : Species2 → Species1
  | .pp => .p | .nn => .n | .pn => .p
def Species2.second : Species2 → Species1
  | .pp => .p | .nn => .n | .pn => .n

/-- Labels of a `basis::TwoBodySubspaceJJJPN`. -/
structure Labels where
  species : Species2
  J : Nat
  g : Nat
  deriving DecidableEq, Repr

/-- `basis::TwoBodySubspaceJJJPN`: states are pairs of orbital indices. -/
structure Subspace where
  labels : Labels
  states : List (Nat × Nat)
  deriving DecidableEq, Repr

/-- `LookUpStateIndex` / `LookUpSubspaceIndex` of the `basis` library: position of the labels, or
`kNone`. -/
def lookUp {α : Type} [DecidableEq α] (x : α) (xs : List α) : Nat :=
  if x ∈ xs then xs.idxOf x else kNone

/-- `orbital_mapping[species][index]`, `tbme_mapping.cpp` 38-74. -/
def orbitalMapping (src tgt : Orbitals) (s : Species1) : List Nat :=
  (src.of s).map fun o => lookUp o (tgt.of s)

/-- `std::pow(-1, k)` for an integer exponent. -/
def powNegOne (k : Int) : Int := if k % 2 = 0 then 1 else -1

/-- Storing an `int` in the `std::size_t` slot of the tuple (`tbme_mapping.h` 91, `cpp` 168-169). -/
def toSizeT (i : Int) : BitVec 64 := BitVec.ofInt 64 i
/-- Converting it back by `std::tie(..., int&)` (`cpp` 298, 304). -/
def toIntFromSizeT (b : BitVec 64) : Int := (b.setWidth 32).toInt

/-- Mapping of one two-body state, `tbme_mapping.cpp` 132-169.  Orbital indices are looked up
with bounds check. -/
def mapState (src tgt : Orbitals) (lab : Labels) (tgtStates : List (Nat × Nat)) (st : Nat × Nat) :
    Except Err (Nat × BitVec 64) :=
  let s1 := lab.species.first
  let s2 := lab.species.second
  match (orbitalMapping src tgt s1)[st.1]?, (orbitalMapping src tgt s2)[st.2]?,
      (src.of s1)[st.1]?, (src.of s2)[st.2]? with
  | some t1, some t2, some o1, some o2 =>
    let swap := decide (s1 = s2) && decide (t1 > t2)
    let grel : Int := ((o1.twiceJ + o2.twiceJ : Nat) : Int) / 2 + lab.J
    let phase := if swap then powNegOne (grel + 1) else 1
    let labels := if swap then (t2, t1) else (t1, t2)
    let t := lookUp labels tgtStates
    let phase := if t = kNone then 0 else phase
    .ok (t, toSizeT phase)
  | _, _, _, _ => .error .undefinedBehaviour

/-- The data of a `TwoBodyMapping`. -/
structure TwoBodyMapping where
  subspaceMapping : List Nat
  stateMapping : List (List (Nat × BitVec 64))
  domainSubspacesCovered : Bool
  domainStatesCovered : Bool
  rangeSubspacesCovered : Bool
  rangeStatesCovered : Bool

/-- Accumulator of the loop over source subspaces. -/
structure Acc where
  m : TwoBodyMapping
  numTargetSubspacesFound : Nat

/-- One pass of the loop over source subspaces, `tbme_mapping.cpp` 82-187. -/
def mapSubspace (src tgt : Orbitals) (tgtSpace : List Subspace) (acc : Acc) (s : Subspace) :
    Except Err Acc := do
  let ti := lookUp s.labels (tgtSpace.map (·.labels))
  let subspaceMapping := acc.m.subspaceMapping ++ [ti]
  if ti = kNone then
    return {
      m := ⟨subspaceMapping, acc.m.stateMapping ++ [[]], false, false,
        acc.m.rangeSubspacesCovered, acc.m.rangeStatesCovered⟩
      numTargetSubspacesFound := acc.numTargetSubspacesFound }
  else
    match tgtSpace[ti]? with
    | none => .error .undefinedBehaviour
    | some t => do
      let sm ← s.states.mapM (mapState src tgt s.labels t.states)
      let found := (sm.filter fun x => x.1 ≠ kNone).length
      return {
        m := ⟨subspaceMapping, acc.m.stateMapping ++ [sm], acc.m.domainSubspacesCovered,
          acc.m.domainStatesCovered && sm.all (fun x => x.1 ≠ kNone),
          acc.m.rangeSubspacesCovered,
          acc.m.rangeStatesCovered && decide (found = t.states.length)⟩
        numTargetSubspacesFound := acc.numTargetSubspacesFound + 1 }

/-- `TwoBodyMapping::TwoBodyMapping`, `tbme_mapping.cpp` 20-193. -/
def twoBodyMapping (src : Orbitals) (srcSpace : List Subspace) (tgt : Orbitals)
    (tgtSpace : List Subspace) : Except Err TwoBodyMapping := do
  let acc ← srcSpace.foldlM (mapSubspace src tgt tgtSpace) ⟨⟨[], [], true, true, true, true⟩, 0⟩
  let rs := acc.m.rangeSubspacesCovered && decide (acc.numTargetSubspacesFound = tgtSpace.length)
  return { acc.m with
    rangeSubspacesCovered := rs
    rangeStatesCovered := acc.m.rangeStatesCovered && rs }

/-! ### Remapping a matrix -/

/-- `Eigen::MatrixXd`. -/
structure Mat where
  rows : Nat
  cols : Nat
  val : Nat → Nat → ℝ

/-- A sector: indices and sizes of its subspaces. -/
structure SectorInfo where
  braIndex : Nat
  ketIndex : Nat
  braSize : Nat
  ketSize : Nat

/-- Body of the parallel loop, `tbme_mapping.cpp` 294-311.  The element accesses of the matrices
are checked (`eigen_assert`). -/
noncomputable def remapBody (m : TwoBodyMapping) (src : SectorInfo) (source : Mat) (t : Mat)
    (bk : Nat × Nat) : Except Err Mat :=
  match (m.stateMapping[src.braIndex]?).bind (·[bk.1]?) with
  | none => .error .undefinedBehaviour
  | some (b, pb) =>
    if b = kNone then .ok t else
    match (m.stateMapping[src.ketIndex]?).bind (·[bk.2]?) with
    | none => .error .undefinedBehaviour
    | some (k, pk) =>
      if k = kNone then .ok t else
      if b < t.rows ∧ k < t.cols ∧ bk.1 < source.rows ∧ bk.2 < source.cols then
        .ok { t with val := fun i j => if i = b ∧ j = k then
          ((toIntFromSizeT pb * toIntFromSizeT pk : Int) : ℝ) * source.val bk.1 bk.2 else t.val i j }
      else .error .assertFail

/-- The iterations of the loop nest, in program order. -/
def iterations (src : SectorInfo) : List (Nat × Nat) :=
  (List.range src.braSize).flatMap fun b => (List.range src.ketSize).map fun k => (b, k)

/-- Execute iterations in the given order.  Each iteration writes at most one element of the
shared target matrix, so an interleaving of threads is an order of iterations. -/
noncomputable def runIterations (m : TwoBodyMapping) (src : SectorInfo) (source : Mat)
    (its : List (Nat × Nat)) (t : Mat) : Except Err Mat :=
  its.foldlM (remapBody m src source) t

/-- `RemappedMatrixJJJPN`, `tbme_mapping.cpp` 264-315, with its iterations in program order. -/
noncomputable def remappedMatrix (m : TwoBodyMapping) (src tgt : SectorInfo) (source : Mat) :
    Except Err Mat :=
  runIterations m src source (iterations src) ⟨tgt.braSize, tgt.ketSize, fun _ _ => 0⟩

/-- `mcutils::CompleteLowerTriangle`: copy the upper triangle to the lower one. -/
def completeLowerTriangle (m : Mat) : Mat :=
  { m with val := fun i j => if j < i then m.val j i else m.val i j }

end Verif.Mapping
