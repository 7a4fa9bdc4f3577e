import Verif.Mixer.Model
import Verif.Obme.File
import Verif.Obme.Lemmas

/-!
# Model of the one-body operators of `h2mixer` and `obmixer`

`programs/h2utils/h2mixer.cpp` 998-1412 and `programs/obutils/obmixer.cpp` 656-1193: the map of named one-body
operators, the six kinds of channel that fill it, and `obmixer`'s targets.

Simplifications: `double` is `ℝ`.  A file is what `InOBMEStream` delivers, header and matrices.  The orbitals
of a space and the space determine each other, so a comparison of `OrbitalInfo()` is one of spaces.
`basis::OrbitalSectorsLJPN(...)`, `SetOperatorToIdentity`, `SetOperatorToZero`, `OperatorLinearCombination` and
`ScalarMultiplyOperator` of the absent `basis` library are `allSectors`, identity blocks in the diagonal
sectors, zero blocks, and sector by sector operations on the lists of blocks.  The radial operator types `kO`
and `kGeneric` (coordinates `o` and `g` of `solid-harmonic`) are not modelled; under the name `identity` the type is
not looked at.
-/

namespace Verif.Mixer
open Verif Verif.Mapping Verif.Xform Verif.Obme

/-- The two programs. -/
inductive Prog where
  | h2mixer | obmixer
  deriving DecidableEq, Repr

/-- `XformData`: `h2mixer.cpp` 151-176, `obmixer.cpp` 161-186. -/
structure XfData where
  bra : Space
  ket : Space
  secs : Sectors
  mats : List Mat

/-- Operator types of `obmixer.cpp` 79-85, without `kO`. -/
inductive Gen where
  | radial (ot : RadType) (order : Int)
  | am (type : AMType) (order : ℕ)
  | isospin
  | ladder (raising : Bool)
  deriving DecidableEq, Repr

/-- The derived classes of `OneBodySourceChannel`: `h2mixer.cpp` 247-397, `obmixer.cpp` 248-397.  `builtin` is the
one of `h2mixer`, `generated` the one of `obmixer`; `space` is the content of the optional orbital file. -/
inductive ObKind where
  | input (file : Header × List Mat) (qn : QN)
  | builtin (space : Option Space)
  | generated (gen : Gen) (qn : QN) (space : Option Space)
  | linear (terms : List (String × ℝ))
  | product (a b : String) (J0 : Int) (factor : ℝ)
  | xform (src xf : String)

/-- `OneBodySourceChannel`. -/
structure ObChannel where
  id : String
  kind : ObKind

/-- What the channels read: program, orbitals of the target, kind of basis, length parameter, reduced matrix
elements, transformations. -/
structure ObEnv where
  prog : Prog
  space : Space
  basis : BasisType
  length : ℝ
  w : QN → QN → QN → ℕ → ℕ → ℕ → ℝ
  rme : AMType → Obme.Labels → Obme.Labels → ℝ
  crme : Obme.Labels → Obme.Labels → Int → ℝ
  spl : Spline
  ovl : BasisType → BasisType → ℝ → ℕ → ℕ → ℕ → ℕ → ℝ
  inv4pi : ℝ
  xf : String → Option XfData

/-- `OneBodyOperatorMap`; `some none` is an entry as `emplace(id,id)` leaves it, with no indexing. -/
abbrev ObMap := String → Option (Option ObData)

/-- `operators.emplace(id,id)`, else `std::exit`. -/
def emplace (m : ObMap) (id : String) : Except Err ObMap :=
  match m id with
  | none => .ok fun x => if x = id then some none else m x
  | some _ => .error .exitFailure

/-- Assignment to the entry. -/
def setOb (m : ObMap) (id : String) (d : Option ObData) : ObMap := fun x => if x = id then some d else m x

/-- `operators.count(id)` (else `std::exit`), `operators.at(id)` and use of its indexing. -/
def look (m : ObMap) (id : String) : Except Err ObData :=
  match m id with
  | none => .error .exitFailure
  | some none => .error .undefinedBehaviour
  | some (some d) => .ok d

/-- `xforms.count(id)` (else `std::exit`), `xforms.at(id)`. -/
def lookXf (xf : String → Option XfData) (id : String) : Except Err XfData :=
  match xf id with
  | none => .error .exitFailure
  | some d => .ok d

/-- `InitializeXforms` for one file: `h2mixer.cpp` 998-1040, `obmixer.cpp` 656-700. -/
def initXform (file : Header × List Mat) : Except Err XfData := do
  assertE (file.1.secs.qn.J0 = 0)
  assertE (file.1.secs.qn.g0 = 0)
  assertE (file.1.secs.qn.Tz0 = 0)
  pure ⟨file.1.bra, file.1.ket, file.1.secs, file.2⟩

/-- `OneBodyInputChannel`: `h2mixer.cpp` 1046-1093, where both spaces of the file are stored in the same variable,
`obmixer.cpp` 706-758, where they are asserted to be equal. -/
def readOb (prog : Prog) (file : Header × List Mat) (qn : QN) : Except Err ObData := do
  assertE (prog = .obmixer → file.1.bra = file.1.ket)
  assertE (qn.J0 = file.1.secs.qn.J0)
  assertE (qn.g0 = file.1.secs.qn.g0)
  assertE (qn.Tz0 = file.1.secs.qn.Tz0)
  pure ⟨file.1.ket, file.1.secs, file.2⟩

/-- `basis::SetOperatorToIdentity`. -/
noncomputable def identityBlocks (space : Space) (secs : Sectors) : Except Err (List Mat) :=
  secs.pairs.mapM fun p => do
    let b ← getE space p.1
    let k ← getE space p.2
    pure (if p.1 = p.2 then eye b.ns.length k.ns.length else ⟨b.ns.length, k.ns.length, fun _ _ => 0⟩)

/-- The tables of `h2mixer.cpp` 295-318, with the tensor character chosen at 1140-1199. -/
def builtinTable : List (String × Gen × QN) :=
  [("l", .am .orbital 1, ⟨1, 0, 0⟩), ("l2", .am .orbital 2, ⟨0, 0, 0⟩),
   ("s", .am .spin 1, ⟨1, 0, 0⟩), ("s2", .am .spin 2, ⟨0, 0, 0⟩),
   ("j", .am .total 1, ⟨1, 0, 0⟩), ("j2", .am .total 2, ⟨0, 0, 0⟩),
   ("tz", .isospin, ⟨0, 0, 0⟩), ("t+", .isospin, ⟨0, 0, 1⟩), ("t-", .isospin, ⟨0, 0, -1⟩),
   ("c+", .ladder true, ⟨1, 1, 0⟩), ("c", .ladder false, ⟨1, 1, 0⟩)]

/-- The names of the table of `obmixer.cpp` 88-97. -/
def kinematicNames : List String := ["identity", "r", "ik", "r.r", "ik.ik"]

/-- The tables of `obmixer.cpp` 88-126 without `identity`. -/
def generatedTable : List (String × Gen × QN) :=
  [("r", .radial .r 1, ⟨1, 1, 0⟩), ("ik", .radial .k 1, ⟨1, 1, 0⟩),
   ("r.r", .radial .r 2, ⟨0, 0, 0⟩), ("ik.ik", .radial .k 2, ⟨0, 0, 0⟩)] ++ builtinTable

/-- The routine called for an operator type: `h2mixer.cpp` 1155-1199, `obmixer.cpp` 804-872.  An angular momentum of
another order is left without matrices. -/
noncomputable def generateOb (env : ObEnv) (bt : BasisType) (id : String) (gen : Gen) (space : Space)
    (secs : Sectors) : Except Err (List Mat) :=
  match gen with
  | .radial ot order =>
    solidHarmonicSource env.spl env.crme env.inv4pi bt ot order (decide (id ∈ kinematicNames)) env.length space secs
  | .am type order =>
    if order = 1 then angularMomentum env.rme type space secs
    else if order = 2 then angularMomentumSquared type space secs
    else .ok []
  | .isospin => Obme.isospin space secs
  | .ladder raising => Obme.ladder env.crme bt raising space secs

/-- Construction in `OneBodyBuiltinChannel`, `h2mixer.cpp` 1122-1209. -/
noncomputable def builtinOb (env : ObEnv) (id : String) (space : Option Space) : Except Err ObData := do
  let sp := space.getD env.space
  if id = "identity" then do
    let secs := allSectors scalarQN sp sp
    let mats ← identityBlocks sp secs
    pure ⟨sp, secs, mats⟩
  else match builtinTable.lookup id with
    | some (gen, qn) => do
      let secs := allSectors qn sp sp
      let mats ← generateOb env .oscillator id gen sp secs
      pure ⟨sp, secs, mats⟩
    | none => .error .exitFailure

/-- Construction in `OneBodyGeneratedChannel`, `obmixer.cpp` 783-883. -/
noncomputable def generatedOb (env : ObEnv) (id : String) (gen : Gen) (qn : QN) (space : Option Space) :
    Except Err ObData := do
  let sp := space.getD env.space
  let secs := allSectors qn sp sp
  let mats ← if id = "identity" then identityBlocks sp secs else generateOb env env.basis id gen sp secs
  pure ⟨sp, secs, mats⟩

/-- `basis::OperatorLinearCombination` with first coefficient `1`. -/
noncomputable def combineBlocks (secs : Sectors) (a : List Mat) (c : ℝ) (b : List Mat) : Except Err (List Mat) :=
  (List.range secs.pairs.length).mapM fun i => do
    let x ← getE a i
    let y ← getE b i
    addE (scale 1 x) (scale c y)

/-- The indexing copied from the first source and the zero operator, `h2mixer.cpp` 1250-1261, `obmixer.cpp`
931-942. -/
def startOb (src : ObData) : Except Err ObData := do
  let secs := allSectors src.secs.qn src.space src.space
  let mats ← secs.pairs.mapM (zeroBlock src.space src.space)
  pure ⟨src.space, secs, mats⟩

/-- The assertions on later terms: `h2mixer.cpp` 1265-1268, `obmixer.cpp` 946-948, which does not compare spaces. -/
def laterOb (prog : Prog) (cur src : ObData) : Except Err ObData := do
  assertE (prog = .h2mixer → src.space = cur.space)
  assertE (cur.secs.qn.J0 = src.secs.qn.J0)
  assertE (cur.secs.qn.g0 = src.secs.qn.g0)
  assertE (cur.secs.qn.Tz0 = src.secs.qn.Tz0)
  pure cur

/-- First or later term. -/
def nextOb (prog : Prog) (acc : Option ObData) (src : ObData) : Except Err ObData :=
  match acc with
  | none => startOb src
  | some cur => laterOb prog cur src

/-- Body of the loop of `OneBodyLinearCombinationChannel`: `h2mixer.cpp` 1242-1275, `obmixer.cpp` 917-956.  `acc` is
the entry under construction, `m` the other entries; a source of the name under construction is the entry
itself, whose blocks are replaced one by one. -/
noncomputable def linearStep (prog : Prog) (m : ObMap) (id : String) (acc : Option ObData) (t : String × ℝ) :
    Except Err (Option ObData) := do
  let src ← look (setOb m id acc) t.1
  let cur ← nextOb prog acc src
  let mats ← combineBlocks cur.secs cur.mats t.2 src.mats
  pure (some ⟨cur.space, cur.secs, mats⟩)

/-- `ScalarMultiplyOperator` if the factor is not `1`. -/
noncomputable def scaleOb (factor : ℝ) (mats : List Mat) : List Mat :=
  if factor ≠ 1 then mats.map (scale factor) else mats

/-- Construction in `OneBodyTensorProductChannel`: `h2mixer.cpp` 1319-1344, `obmixer.cpp` 1009-1031. -/
noncomputable def productOb (env : ObEnv) (a b : ObData) (J0 : Int) (factor : ℝ) : Except Err ObData := do
  assertE (a.space = b.space)
  assertE (tri a.secs.qn.J0 b.secs.qn.J0 J0)
  let secs := allSectors ⟨J0, (a.secs.qn.g0 + b.secs.qn.g0).tmod 2, a.secs.qn.Tz0 + b.secs.qn.Tz0⟩ a.space a.space
  let mats ← tensorProduct env.w a.space a.secs a.mats b.secs b.mats secs
  pure ⟨a.space, secs, scaleOb factor mats⟩

/-- Construction in `OneBodyXformChannel`: `h2mixer.cpp` 1391-1410, `obmixer.cpp` 1084-1103. -/
noncomputable def xformOb (src : ObData) (x : XfData) : Except Err ObData := do
  assertE (src.space = x.bra)
  let secs := allSectors src.secs.qn x.ket x.ket
  let mats ← similarity x.bra x.ket x.secs x.mats src.secs src.mats secs
  pure ⟨x.ket, secs, mats⟩

/-- `ConstructOneBodyOperatorData` of each class. -/
noncomputable def construct (env : ObEnv) (m : ObMap) (ch : ObChannel) : Except Err ObMap :=
  match ch.kind with
  | .input file qn => do
    let m' ← emplace m ch.id
    let d ← readOb env.prog file qn
    pure (setOb m' ch.id (some d))
  | .builtin space => do
    let m' ← emplace m ch.id
    let d ← builtinOb env ch.id space
    pure (setOb m' ch.id (some d))
  | .generated gen qn space => do
    let m' ← emplace m ch.id
    let d ← generatedOb env ch.id gen qn space
    pure (setOb m' ch.id (some d))
  | .linear terms => do
    let m' ← emplace m ch.id
    let d ← terms.foldlM (linearStep env.prog m' ch.id) none
    pure (setOb m' ch.id d)
  | .product a b J0 factor => do
    let m' ← emplace m ch.id
    let da ← look m' a
    let db ← look m' b
    let d ← productOb env da db J0 factor
    pure (setOb m' ch.id (some d))
  | .xform src xf => do
    let ds ← look m src
    let dx ← lookXf env.xf xf
    let m' ← emplace m ch.id
    let d ← xformOb ds dx
    pure (setOb m' ch.id (some d))

/-- The loop over the one-body channels: `h2mixer.cpp` 1996-2006, `obmixer.cpp` 1244-1249. -/
noncomputable def buildOb (env : ObEnv) (chans : List ObChannel) : Except Err ObMap :=
  chans.foldlM (construct env) fun _ => none

/-- `TargetChannel::WriteChannel`, `obmixer.cpp` 1114-1193, up to the call of the output stream. -/
noncomputable def targetOb (env : ObEnv) (m : ObMap) (id : String) : Except Err ObData := do
  let d ← look m id
  if d.space = env.space then pure d
  else do
    let xsecs := allSectors scalarQN d.space env.space
    let xmats ← radialOverlaps env.ovl env.basis env.basis 1 d.space env.space xsecs
    let secs := allSectors d.secs.qn env.space env.space
    let mats ← similarity d.space env.space xsecs xmats d.secs d.mats secs
    pure ⟨env.space, secs, mats⟩

/-- `obmixer`, `obmixer.cpp` 1241-1258: the files written, in order.  `targets` are the names. -/
noncomputable def obmixer {Orb : Type} (lib : Lib Orb) (rnd : ℝ → ℝ) (env : ObEnv) (chans : List ObChannel)
    (targets : List String) : Except Err (List (List Line)) := do
  let m ← buildOb env chans
  targets.mapM fun id => do
    let d ← targetOb env m id
    writeFile lib rnd true 'S' d.space d.space d.secs d.mats

end Verif.Mixer
