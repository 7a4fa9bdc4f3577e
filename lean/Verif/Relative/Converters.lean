import Verif.Relative.SpaceIndex
import Verif.Relative.Gen

/-!
# `jpv2rel`, `pn2rel` and `relative-filter`

Models of `programs/relutils/jpv2rel.cpp`, `pn2rel.cpp` and `relative-filter.cpp`.

Simplifications: words of lines as in `Mixer/Words.lean`, data files as lists of lines of tokens (`JPV.lean`); a negative
truncation is `undefinedBehaviour`; the space and its sectors are those of `Space.lean`.  The result is what is handed to
`basis::WriteRelativeOperatorLSJT`.
-/

namespace Verif.Relative
open Verif Verif.H2 Verif.Mixer.Control

/-- A relative operator in a file: its labels, truncation, and blocks by component, sector and place. -/
structure RelFile where
  labels : OpLabels
  Nmax : ℕ
  Jmax : ℕ
  blocks : Op

/-- The sectors of a component of the operator. -/
def RelFile.sectors (f : RelFile) (T0 : ℕ) : List RSec := relSectors f.labels (relSpace f.Nmax f.Jmax) T0

/-- Opening of a file, with `mcutils::StreamCheck`. -/
def openFile {α : Type} (file? : String → Option α) (name : String) : Except Err α :=
  match file? name with
  | some f => .ok f
  | none => .error .streamFail

/-- The sectors of component 0 with their places, as seen by the loops that accumulate isospin components
(`jpv_io.cpp` 322-336, `pn_io.cpp` 186-199). -/
def secList (Nmax Jmax T0max : ℕ) : List (ℕ × Sec) :=
  let sp := relSpace Nmax Jmax
  (relSectors (scalarLabels T0max) sp 0).zipIdx.map fun p =>
    (p.2, ⟨sp.idxOf p.1.1, sp.idxOf p.1.2, p.1.1.T, p.1.2.T⟩)

/-- `LookUpSectorIndex` in the components of the target. -/
def lookTarget (Nmax Jmax T0max : ℕ) (T0 : ℕ) : ℕ → ℕ → Option ℕ :=
  secIndex (relSpace Nmax Jmax) (relSectors (scalarLabels T0max) (relSpace Nmax Jmax) T0)

/-! ## `jpv2rel` -/

namespace Jpv2Rel

/-- The source files, `jpv2rel.cpp` 52-54; three of them in the order of `basis::TwoBodySpeciesPN`. -/
inductive Sources where
  | one (name : String)
  | three (pp nn pn : String)
  deriving DecidableEq

/-- `Parameters` (`jpv2rel.cpp` 47-56). -/
structure Params where
  Nmax : Int
  Jmax : Int
  sources : Sources
  target : String

/-- Line 2 (`jpv2rel.cpp` 84-97). -/
def readSources (T0max : Int) (ws : List String) : Except Err Sources :=
  if T0max = 0 then do
    let (a, _) ← word ws
    pure (.one a)
  else do
    let (a, ws) ← word ws
    let (b, ws) ← word ws
    let (c, _) ← word ws
    pure (.three a b c)

/-- `ReadParameters` (`jpv2rel.cpp` 58-108). -/
def readParams (nm : Numbers) (f : Gen.Input) : Except Err Params := do
  let (N, ws) ← int nm (f.line 0)
  let (J, ws) ← int nm ws
  let (T, _) ← int nm ws
  (if T = 0 ∨ T = 2 then .ok () else .error .parseError) >>= fun _ => do
    let src ← readSources T (f.line 1)
    let (t, _) ← word (f.line 2)
    pure ⟨N, J, src, t⟩

/-- Reading of the isoscalar operator (`jpv2rel.cpp` 153-159). -/
noncomputable def readOne (Nmax Jmax : ℕ) (ls : List Line) : Except Err Op := do
  let blk ← readJPV (jspace Nmax Jmax 0) (fun _ _ _ => 0) ls
  pure fun T0 => if T0 = 0 then blk else fun _ _ _ => 0

/-- `ReadJPVOperatorPN` (`jpv_io.cpp` 245-399): the three files one after the other.  Simplified: all are read before the
accumulation begins, which matters only for which error is reported. -/
noncomputable def readThree (Nmax Jmax : ℕ) (files : Sp → Except Err (List Line)) : Except Err Op := do
  let read := fun s => files s >>= fun ls => readJPV (jspace Nmax Jmax 2) (fun _ _ _ => 0) ls
  let pp ← read .pp
  let nn ← read .nn
  let pn ← read .pn
  let adds ← jpvAdds (lookTarget Nmax Jmax 2) (secList Nmax Jmax 2) fun s => match s with
    | .pp => pp
    | .nn => nn
    | .pn => pn
  pure (accumulate (fun _ _ _ _ => 0) adds)

/-- `main` (`jpv2rel.cpp` 114-183). -/
noncomputable def run (nm : Numbers) (file? : String → Option (List Line)) (f : Gen.Input) :
    Except Err (String × RelFile) := do
  let p ← readParams nm f
  if p.Nmax < 0 ∨ p.Jmax < 0 then .error .undefinedBehaviour
  else
    let N := p.Nmax.toNat
    let J := p.Jmax.toNat
    match p.sources with
    | .one a => do
      let ls ← openFile file? a
      let op ← readOne N J ls
      pure (p.target, ⟨scalarLabels 0, N, J, op⟩)
    | .three a b c => do
      let op ← readThree N J fun s => openFile file? (match s with
        | .pp => a
        | .nn => b
        | .pn => c)
      pure (p.target, ⟨scalarLabels 2, N, J, op⟩)

end Jpv2Rel

/-! ## `pn2rel` -/

namespace Pn2Rel

/-- `ReadPNOperatorPN` (`pn_io.cpp` 114-242). -/
noncomputable def read (Nmax Jmax : ℕ) (ls : List Line) : Except Err Op := do
  let input ← readPN (jspace Nmax Jmax 2) (fun _ _ _ _ => 0) ls
  let adds ← pnAdds (lookTarget Nmax Jmax 2) (secList Nmax Jmax 2) input
  pure (accumulate (fun _ _ _ _ => 0) adds)

/-- `main` (`pn2rel.cpp` 30-79).  Fewer than two arguments are refused (33-37); with two or three, a string is built from a
null pointer (41-42). -/
noncomputable def run (int? : String → Option Int) (file? : String → Option (List Line)) (args : List String) :
    Except Err (String × RelFile) :=
  match args with
  | a :: b :: rest =>
    match int? a, int? b with
    | some N, some J =>
      match rest with
      | src :: tgt :: _ =>
        if N < 0 ∨ J < 0 then .error .undefinedBehaviour
        else do
          let ls ← openFile file? src
          let op ← read N.toNat J.toNat ls
          pure (tgt, ⟨scalarLabels 2, N.toNat, J.toNat, op⟩)
      | _ => .error .undefinedBehaviour
    | _, _ => .error .exitFailure
  | _ => .error .exitFailure

end Pn2Rel

/-! ## `relative-filter` -/

namespace Filter

/-- `ReadParameters` (`relative-filter.cpp` 59-87): only the first line is read. -/
def readParams (f : Gen.Input) : Except Err (String × String) := do
  let (a, ws) ← word (f.line 0)
  let (b, _) ← word ws
  pure (a, b)

/-- `FilterOperator` (`relative-filter.cpp` 93-167). -/
noncomputable def filter (src : RelFile) : RelFile :=
  { src with blocks := fun T0 k i j =>
      if src.labels.T0min ≤ T0 ∧ T0 ≤ src.labels.T0max then
        match (src.sectors T0)[k]? with
        | some (x, y) => if i < x.size ∧ j < y.size ∧ ¬ (x = y ∧ ¬ i ≤ j) then src.blocks T0 k i j else 0
        | none => 0
      else 0 }

/-- `main` (`relative-filter.cpp` 173-212). -/
noncomputable def run (file? : String → Option RelFile) (f : Gen.Input) : Except Err (String × RelFile) := do
  let (a, b) ← readParams f
  let src ← openFile file? a
  pure (b, filter src)

end Filter

end Verif.Relative
