import Verif.Separable.Model

/-!
# Model of the two-body part of `h2mixer`

`programs/h2utils/h2mixer.cpp` 1460-1660 (initialisation of the two-body channels), 1667-1919 (source and
target matrices), 2039-2066 (loop over sectors).

Simplifications: `double` is `ℝ`.  An opened `InH2Stream` is its indexing and the result of `ReadSector` for each
sector index.  The pre-transformation space of a transformed source is built by the `basis` library from
the orbitals of the file; here it is part of the channel.  The transformation data enter, as in `Verif/Xform`,
through the overlap between orbitals.  `mcutils::ChopMatrix` has a default tolerance that is not in the
checkout; it is a parameter.  `std::map<std::string,...>` is a function to `Option`.
-/

namespace Verif.Mixer
open Verif Verif.Mapping Verif.Xform Verif.Obme Verif.Separable

/-- `TwoBodyOperatorIndexing`, 138-145: orbitals, subspaces and the pairs of subspace indices of the sectors. -/
structure TBIndexing where
  orbitals : Orbitals
  space : List Subspace
  sectors : List (ℕ × ℕ)

/-- An opened `shell::InH2Stream`: its indexing, the tensor character of its sectors and `ReadSector(i,·)`. -/
structure H2In where
  ix : TBIndexing
  qn : QN
  read : ℕ → Except Err Mat

/-- `OneBodyOperatorData`, 178-197. -/
structure ObData where
  space : Space
  secs : Sectors
  mats : List Mat

/-- The derived classes of `TwoBodySourceChannel`, 467-672. -/
inductive Kind where
  | input (file : H2In)
  | builtin
  | opU (ob : String)
  | opV (a b : String) (factor : ℝ)
  | xform (file : H2In) (preSpace : List Subspace) (preSectors : List (ℕ × ℕ)) (xf : String)

/-- `TwoBodySourceChannel`. -/
structure Channel where
  id : String
  kind : Kind

/-- What the channels read: recoupling factors, target indexing, tensor character, mass number (`none` while
uninitialised), one-body operators, transformations, tolerance of the chopping. -/
structure Env where
  am : Am
  target : TBIndexing
  qn : QN
  A : Option Int
  ob : String → Option ObData
  xf : String → Option Xform.Overlap
  tol : ℝ

/-! ## Lookup -/

/-- A sector of the remapping: indices and sizes. -/
def sectorInfo (ix : TBIndexing) (p : ℕ × ℕ) : Except Err SectorInfo := do
  let b ← getE ix.space p.1
  let k ← getE ix.space p.2
  pure ⟨p.1, p.2, b.states.length, k.states.length⟩

/-- `LookUpSubspaceIndex` for bra and ket and `LookUpSectorIndex`; an absent subspace is in no sector. -/
def findSector (ix : TBIndexing) (bra ket : Mapping.Labels) : Option ℕ :=
  match (ix.space.map (·.labels)).idxOf? bra, (ix.space.map (·.labels)).idxOf? ket with
  | some b, some k => ix.sectors.idxOf? (b, k)
  | _, _ => none

/-- The two orbitals of a state. -/
def stateOrbs (o : Orbitals) (sp : Species2) (st : ℕ × ℕ) : Except Err (Orb × Orb) := do
  let a ← getE (o.of sp.first) st.1
  let b ← getE (o.of sp.second) st.2
  pure (a, b)

/-- A subspace as seen by the transformation. -/
def xformSub (o : Orbitals) (s : Subspace) : Except Err Xform.Sub := do
  let states ← s.states.mapM fun st => do
    let x ← stateOrbs o s.labels.species st
    pure (⟨st.1, st.2, x.1, x.2⟩ : St)
  pure ⟨s.labels.species, s.labels.J, states⟩

/-- A sector as seen by the transformation. -/
def xformSector (ix : TBIndexing) (p : ℕ × ℕ) : Except Err Xform.Sector := do
  let b ← getE ix.space p.1
  let k ← getE ix.space p.2
  let b' ← xformSub ix.orbitals b
  let k' ← xformSub ix.orbitals k
  pure ⟨p.1, p.2, b', k'⟩

/-- A subspace as seen by the separable operators. -/
def pairSub (o : Orbitals) (s : Subspace) : Except Err PairSub := do
  let states ← s.states.mapM fun st => do
    let x ← stateOrbs o s.labels.species st
    pure ((⟨s.labels.species.first, x.1.n, x.1.l, x.1.twiceJ⟩ : SpOrb),
      (⟨s.labels.species.second, x.2.n, x.2.l, x.2.twiceJ⟩ : SpOrb))
  pure ⟨s.labels.J, states⟩

/-! ## Initialisation -/

/-- `run_parameters.A`: reading it uninitialised is undefined. -/
def massE : Option Int → Except Err Int
  | some A => .ok A
  | none => .error .undefinedBehaviour

/-- `one_body_operators.count(id)`, else `std::exit`. -/
def findOb (ob : String → Option ObData) (id : String) : Except Err ObData :=
  match ob id with
  | some d => .ok d
  | none => .error .exitFailure

/-- `xforms.count(id)`, else `std::exit`. -/
def findXf (xf : String → Option Xform.Overlap) (id : String) : Except Err Xform.Overlap :=
  match xf id with
  | some d => .ok d
  | none => .error .exitFailure

/-- Indexing before the transformation, 1574-1586: orbitals of the file, given truncation. -/
def preIndexing (file : H2In) (preSpace : List Subspace) (preSectors : List (ℕ × ℕ)) : TBIndexing :=
  ⟨file.ix.orbitals, preSpace, preSectors⟩

/-- `InitializeChannel` of each class, 1460-1650.  The result is the mapping kept by the channel, if any. -/
def initChannel (env : Env) (ch : Channel) : Except Err (Option TwoBodyMapping) :=
  match ch.kind with
  | .input file => do
    let m ← twoBodyMapping file.ix.orbitals file.ix.space env.target.orbitals env.target.space
    pure (some m)
  | .builtin => pure none
  | .opU ob => do
    let d ← findOb env.ob ob
    assertE (d.secs.qn.J0 = env.qn.J0)
    assertE (d.secs.qn.g0 = env.qn.g0)
    assertE (d.secs.qn.Tz0 = env.qn.Tz0)
    pure none
  | .opV a b _ => do
    let da ← findOb env.ob a
    let db ← findOb env.ob b
    assertE (da.space = db.space)
    assertE (tri da.secs.qn.J0 db.secs.qn.J0 env.qn.J0)
    assertE ((da.secs.qn.g0 + db.secs.qn.g0 + env.qn.g0).tmod 2 = 0)
    assertE (da.secs.qn.Tz0 + db.secs.qn.Tz0 = env.qn.Tz0)
    pure none
  | .xform file preSpace preSectors xf => do
    let pre := preIndexing file preSpace preSectors
    let m ← twoBodyMapping file.ix.orbitals file.ix.space pre.orbitals pre.space
    let _ ← findXf env.xf xf
    let _ ← twoBodyMapping pre.orbitals pre.space env.target.orbitals env.target.space
    pure (some m)

/-! ## Source matrices -/

/-- `ReadSector` and the completion of the lower triangle of a diagonal sector. -/
def readInput (file : H2In) (n : ℕ) : Except Err (SectorInfo × Mat) := do
  let p ← getE file.ix.sectors n
  let s ← sectorInfo file.ix p
  let m ← file.read n
  pure (s, if p.1 = p.2 then completeLowerTriangle m else m)

/-- The mapping stored by the initialisation. -/
def mappingE : Option TwoBodyMapping → Except Err TwoBodyMapping
  | some m => .ok m
  | none => .error .undefinedBehaviour

/-- `InputChannel::PopulateSourceMatrix`, 1667-1720. -/
noncomputable def populateInput (env : Env) (file : H2In) (m : Option TwoBodyMapping) (p : ℕ × ℕ) :
    Except Err (Option Mat) := do
  let tb ← getE env.target.space p.1
  let tk ← getE env.target.space p.2
  match findSector file.ix tb.labels tk.labels with
  | none => pure none
  | some n => do
    let (s, a) ← readInput file n
    let t ← sectorInfo env.target p
    let map ← mappingE m
    let r ← remappedMatrix map s t a
    pure (some r)

/-- `BuiltinChannel::PopulateSourceMatrix`, 1722-1747; `TimingTestMatrixJJJPN` (`tbme_separable.cpp` 438-486) sets
the upper triangle to `-1`. -/
noncomputable def populateBuiltin (env : Env) (id : String) (p : ℕ × ℕ) : Except Err (Option Mat) :=
  if id = "identity" then do
    let s ← xformSector env.target p
    let A ← massE env.A
    let r ← identityOperatorMatrix s A
    pure (some r)
  else if id = "loop-test" then do
    let s ← xformSector env.target p
    assertE (s.braIndex = s.ketIndex)
    pure (some ⟨s.ket.states.length, s.ket.states.length, fun i j => if i ≤ j then -1 else 0⟩)
  else pure (some ⟨0, 0, fun _ _ => 0⟩)

/-- `OperatorUChannel::PopulateSourceMatrix`, 1749-1773. -/
noncomputable def populateU (env : Env) (ob : String) (p : ℕ × ℕ) : Except Err (Option Mat) := do
  let d ← findOb env.ob ob
  let b ← getE env.target.space p.1
  let k ← getE env.target.space p.2
  let bra ← pairSub env.target.orbitals b
  let ket ← pairSub env.target.orbitals k
  let A ← massE env.A
  let r ← upgrade env.am d.space d.secs d.mats bra ket A
  pure (some r)

/-- `OperatorVChannel::PopulateSourceMatrix`, 1775-1804; the factors are the same objects when their names are
equal. -/
noncomputable def populateV (env : Env) (a b : String) (factor : ℝ) (p : ℕ × ℕ) : Except Err (Option Mat) := do
  let da ← findOb env.ob a
  let db ← findOb env.ob b
  let sb ← getE env.target.space p.1
  let sk ← getE env.target.space p.2
  let bra ← pairSub env.target.orbitals sb
  let ket ← pairSub env.target.orbitals sk
  let r ← racahReduce env.am da.space da.secs da.mats db.secs db.mats (decide (a = b)) bra ket env.qn.J0
  pure (some (if factor ≠ 1 then scale factor r else r))

/-- `XformChannel::PopulateSourceMatrix`, 1806-1887. -/
noncomputable def populateXform (env : Env) (file : H2In) (preSpace : List Subspace) (preSectors : List (ℕ × ℕ))
    (xf : String) (m : Option TwoBodyMapping) (p : ℕ × ℕ) : Except Err (Option Mat) := do
  let pre := preIndexing file preSpace preSectors
  let tb ← getE env.target.space p.1
  let tk ← getE env.target.space p.2
  match findSector file.ix tb.labels tk.labels, findSector pre tb.labels tk.labels with
  | some n, some n' => do
    let (s, a) ← readInput file n
    let p' ← getE pre.sectors n'
    let t ← sectorInfo pre p'
    let map ← mappingE m
    let r ← remappedMatrix map s t a
    let ov ← findXf env.xf xf
    let xs ← xformSector pre p'
    let xt ← xformSector env.target p
    let r ← transformedMatrix ov xs xt r
    pure (some r)
  | _, _ => pure none

/-- `PopulateSourceMatrix`: the matrix saved for the sector, if any. -/
noncomputable def populate (env : Env) (ch : Channel) (m : Option TwoBodyMapping) (p : ℕ × ℕ) :
    Except Err (Option Mat) :=
  match ch.kind with
  | .input file => populateInput env file m p
  | .builtin => populateBuiltin env ch.id p
  | .opU ob => populateU env ob p
  | .opV a b factor => populateV env a b factor p
  | .xform file preSpace preSectors xf => populateXform env file preSpace preSectors xf m p

/-- `OperatorBlockMap`. -/
abbrev Blocks := String → Option Mat

/-- `source_matrices[id] = matrix`. -/
def save (b : Blocks) (id : String) : Option Mat → Blocks
  | none => b
  | some m => fun x => if x = id then some m else b x

/-- One channel of the loop 2047-2053. -/
noncomputable def saveStep (env : Env) (p : ℕ × ℕ) (b : Blocks) (ch : Channel × Option TwoBodyMapping) :
    Except Err Blocks := do
  let r ← populate env ch.1 ch.2 p
  pure (save b ch.1.id r)

/-! ## Targets -/

/-- `mcutils::ChopMatrix`. -/
noncomputable def chopTo (tol x : ℝ) : ℝ := if |x| < tol then 0 else x

/-- Body of the loop of `GenerateTargetMatrix`, 1898-1914. -/
noncomputable def targetStep (b : Blocks) (acc : Mat) (t : String × ℝ) : Except Err Mat :=
  match b t.1 with
  | none => .ok acc
  | some m => addE acc (scale t.2 m)

/-- `GenerateTargetMatrix`, 1889-1919, up to writing. -/
noncomputable def targetMatrix (env : Env) (b : Blocks) (p : ℕ × ℕ) (coeffs : List (String × ℝ)) :
    Except Err Mat := do
  let s ← sectorInfo env.target p
  let m ← coeffs.foldlM (targetStep b) ⟨s.braSize, s.ketSize, fun _ _ => 0⟩
  pure ⟨m.rows, m.cols, fun i j => chopTo env.tol (m.val i j)⟩

/-- Body of the loop over sectors, 2039-2066: the matrices written to the targets. -/
noncomputable def mixSector (env : Env) (chans : List (Channel × Option TwoBodyMapping))
    (targets : List (List (String × ℝ))) (p : ℕ × ℕ) : Except Err (List Mat) := do
  let b ← chans.foldlM (saveStep env p) fun _ => none
  targets.mapM (targetMatrix env b p)

/-- Initialisation of the channels and loop over sectors, 2017-2066: for each sector the matrices written to
the targets. -/
noncomputable def mix (env : Env) (chans : List Channel) (targets : List (List (String × ℝ))) :
    Except Err (List (List Mat)) := do
  let opened ← chans.mapM fun ch => do
    let m ← initChannel env ch
    pure (ch, m)
  env.target.sectors.mapM (mixSector env opened targets)

end Verif.Mixer
