import Verif.Mixer.Control

/-!
# Model of `h2mixer` and `obmixer` as a whole

`programs/h2utils/h2mixer.cpp` 998-1040, 1420-1454, 1964-2100; `programs/obutils/obmixer.cpp` 656-700, 1200-1270.

Simplifications: a disk gives, for each name, what the readers of two-body files, one-body files and orbital files
deliver, or the failure they end with.  The `basis` library, absent from the checkout, builds the target indexing
from the settings (`kH2SpaceOrdering.at(format)` throws for an unknown format) and the intermediate space of a
transformed source.  The files of all sources are opened before the first source is constructed; a run that fails for
two reasons may report the other one.  The writing of the two-body files is modelled in `Verif/H2`; here a
target is the sequence of matrices handed to `OutH2Stream::WriteSector`.  The transformation file is used by the
two-body transformation through `basis::MatrixElementLJPN`, whose failed lookup is undefined behaviour; here it
is zero.
-/

namespace Verif.Mixer.Control
open Verif Verif.Mapping Verif.Xform Verif.Obme Verif.Separable Verif.Mixer

/-- The files a run can read. -/
structure Disk where
  h2 : String → Except Err H2In
  obme : String → Except Err (Header × List Mat)
  orbitals : String → Except Err Space

/-- What comes from the libraries: numbers, recoupling factors, reduced matrix elements, indexing, tolerance. -/
structure Setup where
  nm : Numbers
  am : Am
  tol : ℝ
  w : QN → QN → QN → ℕ → ℕ → ℕ → ℝ
  rme : AMType → Obme.Labels → Obme.Labels → ℝ
  crme : Obme.Labels → Obme.Labels → Int → ℝ
  spl : Spline
  ovl : BasisType → BasisType → ℝ → ℕ → ℕ → ℕ → ℕ → ℝ
  inv4pi : ℝ
  indexing : TargetOrbitals → WeightMax → Int → QN → Except Err (TBIndexing × Space)
  pre : H2In → Weights → QN → List Subspace × List (ℕ × ℕ)

/-! ## Opening -/

/-- One entry of `InitializeXforms`. -/
def openXf (disk : Disk) (e : String × String) : Except Err (String × XfData) := do
  let f ← disk.obme e.2
  let d ← initXform f
  pure (e.1, d)

/-- An optional orbital file; no name means the orbitals of the target, `h2mixer.cpp` 1122-1132, `obmixer.cpp`
784-793. -/
def openSpace (disk : Disk) (file : String) : Except Err (Option Space) :=
  if file = "" then .ok none else do
    let s ← disk.orbitals file
    pure (some s)

/-- The routine of an operator type.  The coordinates `o` and `g` are not modelled: `none`. -/
def genOf : SrcType → Int → Option Gen
  | .radial .r, n => some (.radial .r n)
  | .radial .k, n => some (.radial .k n)
  | .radial .o, _ => none
  | .radial .g, _ => none
  | .am t, n => some (.am t n.toNat)
  | .isospin, _ => some .isospin
  | .ladder b, _ => some (.ladder b)

/-- A generated source; under the name `identity` the type is not looked at. -/
def openGen (id : String) (t : SrcType) (order : Int) : Except Err Gen :=
  if id = "identity" then .ok .isospin
  else match genOf t order with
    | some g => .ok g
    | none => .error .undefinedBehaviour

/-- The files a one-body source needs. -/
def openOb (disk : Disk) : ObDecl → Except Err ObChannel
  | .input id file qn => do
    let f ← disk.obme file
    pure ⟨id, .input f qn⟩
  | .builtin id file => do
    let s ← openSpace disk file
    pure ⟨id, .builtin s⟩
  | .generated id t order qn file => do
    let s ← openSpace disk file
    let g ← openGen id t order
    pure ⟨id, .generated g qn s⟩
  | .linear id terms => .ok ⟨id, .linear terms⟩
  | .product id a b J0 factor => .ok ⟨id, .product a b J0 factor⟩
  | .xform id src xf => .ok ⟨id, .xform src xf⟩

/-- The files a two-body source needs; the intermediate space is built for the tensor character of the target,
`h2mixer.cpp` 1576-1592. -/
def openTb (setup : Setup) (disk : Disk) (qn : QN) : TbDecl → Except Err Channel
  | .input id file => do
    let f ← disk.h2 file
    pure ⟨id, .input f⟩
  | .builtin id => .ok ⟨id, .builtin⟩
  | .opU id ob => .ok ⟨id, .opU ob⟩
  | .opV id a b factor => .ok ⟨id, .opV a b factor⟩
  | .xform id file w xf => do
    let f ← disk.h2 file
    pure ⟨id, .xform f (setup.pre f w qn).1 (setup.pre f w qn).2 xf⟩

/-- The overlap used by the two-body transformation: `basis::MatrixElementLJPN` on the data of the
transformation. -/
noncomputable def overlapOf (x : XfData) : Xform.Overlap := fun sp a b =>
  match x.bra.findIdx? (fun s => s.labels = ⟨a.l, a.twiceJ, sp⟩), x.ket.findIdx? (fun s => s.labels = ⟨b.l, b.twiceJ, sp⟩) with
  | some i, some k =>
    match (x.bra[i]?).bind (fun s => s.ns.idxOf? a.n), (x.ket[k]?).bind (fun s => s.ns.idxOf? b.n) with
    | some r, some c => elem x.secs x.mats i r k c
    | _, _ => 0
  | _, _ => 0

/-! ## `h2mixer` -/

/-- The map of one-body operators as the two-body sources use it; an entry without indexing is taken as absent. -/
def obView (m : ObMap) (id : String) : Option ObData := (m id).join

/-- What the one-body sources of `h2mixer` read. -/
noncomputable def obEnvOf (setup : Setup) (space : Space) (xfs : List (String × XfData)) : ObEnv where
  prog := .h2mixer
  space := space
  basis := .oscillator
  length := 1
  w := setup.w
  rme := setup.rme
  crme := setup.crme
  spl := setup.spl
  ovl := setup.ovl
  inv4pi := setup.inv4pi
  xf id := xfs.lookup id

/-- What the two-body sources read. -/
noncomputable def envOf (setup : Setup) (cfg : Config) (target : TBIndexing) (m : ObMap) (xfs : List (String × XfData)) :
    Env where
  am := setup.am
  target := target
  qn := cfg.qn
  A := cfg.A
  ob := obView m
  xf id := (xfs.lookup id).map overlapOf
  tol := setup.tol

/-- The matrices of the `t`-th target, in the order of the sectors. -/
def column (out : List (List Mat)) (t : ℕ) : List Mat := out.filterMap (·[t]?)

/-- `main` of `h2mixer`: the target files in order, each with the matrices written to it. -/
noncomputable def h2mixer (setup : Setup) (disk : Disk) (ls : List CLine) : Except Err (List (String × List Mat)) := do
  let cfg ← read setup.nm ls
  let ix ← setup.indexing cfg.targetOrbitals cfg.weights cfg.format cfg.qn
  let xfs ← cfg.xforms.mapM (openXf disk)
  let obs ← cfg.ob.mapM (openOb disk)
  let m ← buildOb (obEnvOf setup ix.2 xfs) obs
  let chans ← cfg.tb.mapM (openTb setup disk cfg.qn)
  let out ← mix (envOf setup cfg ix.1 m xfs) chans (cfg.targets.map (·.2))
  pure (cfg.targets.mapIdx fun t f => (f.1, column out t))

/-! ## `obmixer` -/

/-- The orbitals of the target; without `set-basis` there are none. -/
def openTarget (disk : Disk) : Option String → Except Err Space
  | none => .ok []
  | some f => disk.orbitals f

/-- What the sources and targets of `obmixer` read. -/
noncomputable def obEnvO (setup : Setup) (cfg : ObConfig) (space : Space) (xfs : List (String × XfData)) : ObEnv where
  prog := .obmixer
  space := space
  basis := cfg.basis
  length := cfg.length
  w := setup.w
  rme := setup.rme
  crme := setup.crme
  spl := setup.spl
  ovl := setup.ovl
  inv4pi := setup.inv4pi
  xf id := xfs.lookup id

/-- `main` of `obmixer`: the target files in order, with their lines. -/
noncomputable def obmixerRun {Orb : Type} (lib : Lib Orb) (rnd : ℝ → ℝ) (setup : Setup) (disk : Disk)
    (ls : List CLine) : Except Err (List (String × List Line)) := do
  let cfg ← readO setup.nm ls
  let space ← openTarget disk cfg.orbitals
  let xfs ← cfg.xforms.mapM (openXf disk)
  let obs ← cfg.sources.mapM (openOb disk)
  let files ← obmixer lib rnd (obEnvO setup cfg space xfs) obs (cfg.targets.map (·.1))
  pure ((cfg.targets.map (·.2)).zip files)

end Verif.Mixer.Control
