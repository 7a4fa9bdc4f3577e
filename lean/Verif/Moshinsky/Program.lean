import Verif.Moshinsky.Chain
import Verif.Obme.File
import Verif.H2.Conv

/-!
# `moshinsky`

Model of `programs/relutils/moshinsky.cpp`.

Simplifications: the words of lines as in `Mixer/Words.lean`; the file system is a function from names to contents, and a relative-cm
file is what `basis::ReadRelativeCMOperatorLSJT` and the scattering by `N` make of it; the subspaces of the spaces are given lists; for
targets other than `jjjpn` the result is what is handed to the gathering and writing of the absent `basis` library; a negative
cutoff, and an isospin component outside the arrays of three, is `undefinedBehaviour`; progress output and timing are left out.
-/

namespace Verif.Moshinsky.Program
open Verif Verif.Moshinsky Verif.Mixer.Control
open Verif.H2 (Format Desc Cfg OutState Sector Subspace OrbSpace Orb Species BasisLib HeaderFloat File WeightMax formatOfCode
  spaceOrdering deducedIOMode openOut writeSector getSector)
open Verif.Relative (OpLabels RelFile openFile)
open Verif.Relative.Gen (Input)

/-! ## Control file -/

/-- `Coupling`, `moshinsky.cpp` 68-70. -/
inductive Coupling where
  | rel | relcm | lsjt | jjjt | jjjpn
  deriving DecidableEq, Repr

/-- The value of the enumerator. -/
def Coupling.code : Coupling → ℕ
  | .rel => 0 | .relcm => 1 | .lsjt => 2 | .jjjt => 3 | .jjjpn => 4

/-- `kCouplingDefinitions`, `moshinsky.cpp` 72-80; other words are a parsing error (144-147, 160-163). -/
def coupling (w : String) : Except Err Coupling :=
  if w = "rel" then .ok .rel
  else if w = "relcm" then .ok .relcm
  else if w = "lsjt" then .ok .lsjt
  else if w = "jjjt" then .ok .jjjt
  else if w = "jjjpn" then .ok .jjjpn
  else .error .parseError

/-- `Parameters`, `moshinsky.cpp` 82-100. -/
structure Params where
  /-- the cutoff is on the quanta of one nucleon -/
  oneBody : Bool
  cutoff : Int
  input : String
  source : Coupling
  output : String
  target : Coupling
  format : Int
  Tz0 : Int

/-- The truncation rank, `moshinsky.cpp` 125-131. -/
def rank (w : String) : Except Err Bool :=
  if w = "ob" then .ok true else if w = "tb" then .ok false else .error .parseError

/-- `ReadParameters`, `moshinsky.cpp` 102-177.  `kNone` is -1. -/
def readParams (nm : Numbers) (f : Input) : Except Err Params := do
  let (r, ws) ← word (f.line 0)
  let (c, _) ← int nm ws
  let r ← rank r
  let (a, ws) ← word (f.line 1)
  let (s, _) ← word ws
  let s ← coupling s
  let (b, ws) ← word (f.line 2)
  let (t, ws) ← word ws
  let t ← coupling t
  if t = .jjjpn then do
    let (fmt, ws) ← int nm ws
    let (z, _) ← int nm ws
    pure ⟨r, c, a, s, b, t, fmt, z⟩
  else pure ⟨r, c, a, s, b, t, -1, 0⟩

/-- `basis::TwoBodyCutoffs`. -/
def cutoffs (oneBody : Bool) (c : ℕ) : ℕ × ℕ := if oneBody then (c, 2 * c) else (c, c)

/-! ## What the program reads and writes -/

/-- A relative-cm operator, scattered by `N`. -/
structure RCFile where
  labels : OpLabels
  Nmax : ℕ
  blocks : ℕ → Blocks

/-- What the program depends on. -/
structure World where
  env : ChainEnv
  /-- `basis::RelativeCMSpaceLSJTN`, and `basis::TwoBodySpaceLSJTN`, `...JJJTN`, `...JJJT` by `(N1max,N2max)` -/
  rcs : ℕ → List LSSub
  lss : ℕ × ℕ → List LSSub
  jjs : ℕ × ℕ → List JJSub
  jts : ℕ × ℕ → List JTSub
  lib : BasisLib
  hf : HeaderFloat
  nm : Numbers
  rel? : String → Option RelFile
  rc? : String → Option RCFile

/-- The file written: for an H2 file its content, else the operator that is handed to `basis`. -/
inductive Output where
  | relcm (name : String) (o : OpLabels) (N2max : ℕ) (m : ℕ → Blocks)
  | lsjt (name : String) (o : OpLabels) (m : ℕ → Blocks)
  | jjjt (name : String) (o : OpLabels) (m : ℕ → Blocks)
  | h2 (name : String) (file : File)

/-! ## Branching -/

/-- Labels `(N,2j)` of an orbital. -/
def orbLab (x : Orb) : Lab := ((2 * x.n + x.l).toNat, x.twiceJ.toNat)

/-- The orbitals of the first and of the second nucleon. -/
def orbsOf (o : OrbSpace) : Species → List Orb × List Orb
  | .pp => (o.p, o.p)
  | .nn => (o.n, o.n)
  | .pn => (o.p, o.n)

/-- The isospin projection of a pair. -/
def tzOf : Species → Int
  | .pp => 1
  | .nn => -1
  | .pn => 0

/-- The label of the `i`-th orbital; indices of states are within the orbital space. -/
def labAt (os : List Orb) (i : ℕ) : Lab := (os.map orbLab).getD i (0, 0)

/-- A state as seen by `TwoBodyMatrixJJJPN`. -/
def pnState (o : OrbSpace) (sp : Species) (s : H2.State) : PnState :=
  ⟨s.index1, s.index2, labAt (orbsOf o sp).1 s.index1, labAt (orbsOf o sp).2 s.index2⟩

/-- A subspace as seen by `TwoBodyMatrixJJJPN`. -/
def pnSub (o : OrbSpace) (s : Subspace) : PnSub := ⟨tzOf s.species, s.J, s.g, s.states.map (pnState o s.species)⟩

/-- The matrix that is written, after `mcutils::ChopMatrix`. -/
noncomputable def chopped (s : Sector) (rows : List (List ℝ)) : H2.Mat :=
  ⟨s.bra.size, s.ket.size, fun i j => Obme.chop (at2 rows i j)⟩

/-- The loop over sectors, `moshinsky.cpp` 681-703. -/
noncomputable def branchLoop (c : Cfg) (src : JTSource) (o : OpLabels) (orbs : OrbSpace) : List ℕ → OutState → Except Err OutState
  | [], st => .ok st
  | k :: ks, st => do
    let s ← getSector c.ix.sectors k
    let rows ← branchMatrix src o.T0min o.T0max s.isDiagonal (pnSub orbs s.bra) (pnSub orbs s.ket)
    let st ← writeSector c k (chopped s rows) .asToNAS st
    branchLoop c src o orbs ks st

/-- What the output stream is opened with, `moshinsky.cpp` 657-678. -/
noncomputable def desc (w : World) (p : Params) (t : ℕ × ℕ) (o : OpLabels) (fmt : Format) : Desc :=
  ⟨w.lib.oscOrbitals t.1, WeightMax.osc t.1 t.2, spaceOrdering fmt, o.J0, o.g0, p.Tz0⟩

/-- Branching and writing, `moshinsky.cpp` 651-704. -/
noncomputable def branch (w : World) (p : Params) (t : ℕ × ℕ) (o : OpLabels) (src : JTSource) : Except Err Output := do
  let fmt ← formatOfCode p.format
  let mode ← deducedIOMode p.output
  let hdr ← openOut w.lib w.hf mode fmt (desc w p t o fmt)
  let c : Cfg := ⟨w.hf.fm, fmt, mode, (desc w p t o fmt).index w.lib⟩
  let st ← branchLoop c src o (w.lib.oscOrbitals t.1) (List.range c.ix.sectors.length) ⟨0, hdr⟩
  pure (.h2 p.output st.out)

/-! ## The program -/

/-- A stage, for every isospin component. -/
def components (o : OpLabels) (g : ℕ → Except Err Blocks) : Except Err (ℕ → Blocks) := do
  let l ← (List.range' o.T0min (o.T0max + 1 - o.T0min)).mapM g
  pure fun T0 => l.getD (T0 - o.T0min) []

/-- From the relative-cm operator on, `moshinsky.cpp` 519-704. -/
noncomputable def fromRC (w : World) (p : Params) (t : ℕ × ℕ) (o : OpLabels) (rc : List LSSub) (m : ℕ → Blocks) :
    Except Err Output :=
  if p.target = .relcm then .ok (.relcm p.output o t.2 m)
  else do
    let ml ← components o fun T0 => lsBlocks w.env o rc (m T0) (w.lss t) T0
    if p.target = .lsjt then pure (.lsjt p.output o ml)
    else do
      let mj ← components o fun T0 => jjBlocks w.env o (w.lss t) (ml T0) (w.jjs t) T0
      let mt ← components o fun T0 => jtBlocks w.env o (w.jjs t) (mj T0) (w.jts t) T0
      if p.target = .jjjt then pure (.jjjt p.output o mt)
      else branch w p t o (jtSource w.env o (w.jts t) mt)

/-- The input, `moshinsky.cpp` 446-509.  Input in LS or `jj` coupling is refused (555-559, 633-637); no coupling follows `jjjpn`. -/
noncomputable def fromSource (w : World) (p : Params) (t : ℕ × ℕ) : Except Err Output :=
  match p.source with
  | .rel => do
    let f ← openFile w.rel? p.input
    if 2 < f.labels.T0max then .error .undefinedBehaviour
    else do
      let m ← components f.labels (rcBlocks w.env f (w.rcs t.2))
      fromRC w p t f.labels (w.rcs t.2) m
  | .relcm => do
    let f ← openFile w.rc? p.input
    if 2 < f.labels.T0max then .error .undefinedBehaviour
    else fromRC w p t f.labels (w.rcs f.Nmax) f.blocks
  | .lsjt => .error .exitFailure
  | .jjjt => .error .exitFailure
  | .jjjpn => .error .exitFailure

/-- `main`, `moshinsky.cpp` 400-717. -/
noncomputable def run (w : World) (f : Input) : Except Err Output := do
  let p ← readParams w.nm f
  if p.source = p.target then .error .exitFailure
  else if p.target.code < p.source.code then .error .exitFailure
  else if p.cutoff < 0 then .error .undefinedBehaviour
  else fromSource w p (cutoffs p.oneBody p.cutoff.toNat)

end Verif.Moshinsky.Program
