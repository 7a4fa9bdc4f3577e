import Verif.Obme.FileProps
import Verif.Mixer.Control

/-!
# Model of the program `ew-gen`

`programs/obutils/ew-gen.cpp`: electroweak one-body operators from solid harmonics, angular momentum and isospin operators on
files.

Simplifications: as for one-body files (`Verif/Obme/File.lean`) and control files (`Verif/Mixer/Words.lean`).  A file that cannot be
opened is absent; the warning about files that are overwritten is left out.  `basis::ScalarMultiplyOperator` multiplies every block.  A
magnetic operator of negative rank is `Err.notANumber` (square root of a negative number); zero to a negative power is zero.
-/

namespace Verif.Obme.EwGen
open Verif Verif.Mapping Verif.Xform Verif.Obme
open Verif.Mixer.Control (Coord Numbers word int num coordOf)

/-- `OperatorType`, 70. -/
inductive Kind where
  | E | Dl | Ds | F | GT
  deriving DecidableEq, Repr

/-- `basis::OperatorTypePN`. -/
inductive Who where
  | p | n | total
  deriving DecidableEq, Repr

/-- `TargetChannel`, 148-160. -/
structure Target where
  kind : Kind
  lambda : Int
  who : Who
  file : String
  deriving DecidableEq, Repr

/-- What the program reads, and what comes from the libraries: numbers, orbital lists, printed precision, recoupling factor,
`am::kInvSqrt4Pi`. -/
structure World (Orb : Type) where
  nm : Numbers
  lib : Lib Orb
  rnd : ℝ → ℝ
  obme : String → Option (List Line)
  orbitals : String → Except Err (List Orb)
  w : QN → QN → QN → ℕ → ℕ → ℕ → ℝ
  inv4pi : ℝ

/-- `OperatorData`, 105-141. -/
structure Data where
  space : Space
  secs : Sectors
  mats : List Mat

/-- `OperatorData(filename)`, 108-132, after `FileExistCheck`. -/
def openData {Orb : Type} [DecidableEq Orb] (W : World Orb) (file : String) : Except Err Data :=
  match W.obme file with
  | none => .error .exitFailure
  | some ls => do
    let (h, rest) ← readHeader W.lib ls
    if W.lib.info h.bra ≠ W.lib.info h.ket then .error .exitFailure
    else match h.type with
      | none => .error .undefinedBehaviour
      | some c =>
        if c ≠ 'S' then .error .exitFailure
        else do
          let mats ← readSectors h.bra h.ket h.secs.pairs rest
          pure ⟨h.bra, h.secs, mats⟩

/-! ## The control file -/

/-- A line, once read. -/
inductive Cmd where
  | indexing (file : String)
  | scale (x : ℝ)
  | radial (c : Coord) (power : Int) (file : String)
  | am (t : AMType) (file : String)
  | isospin (Tz0 : Int) (file : String)
  | target (t : Target)

/-- `kAngularMomentumOneBodyOperatorDefinitions.at`, 81-90, 229; another name throws. -/
def amOf (s : String) : Except Err AMType :=
  if s = "l" then .ok .orbital else if s = "s" then .ok .spin else .error .exitFailure

/-- `kIsospinOneBodyOperatorDefinitions.at`, 92-98, 241. -/
def isospinOf (s : String) : Except Err Int :=
  if s = "tz" then .ok 0 else if s = "t+" then .ok 1 else if s = "t-" then .ok (-1) else .error .exitFailure

/-- `em_operator_map`, 71-73, 257-262. -/
def emOf (s : String) : Except Err Kind :=
  if s = "E" then .ok .E else if s = "Dl" then .ok .Dl else if s = "Ds" then .ok .Ds else .error .exitFailure

/-- `weak_operator_map`, 74-76, 281-286. -/
def weakOf (s : String) : Except Err Kind :=
  if s = "F" then .ok .F else if s = "GT" then .ok .GT else .error .exitFailure

/-- `basis::kCharCodeOperatorTypePN.at`, 265. -/
def whoOf (s : String) : Except Err Who :=
  if s = "p" then .ok .p else if s = "n" then .ok .n else if s = "total" then .ok .total else .error .exitFailure

/-- One line of `ReadParameters`, 185-303: words and tables. -/
def parse (nm : Numbers) : List String → Except Err (Option Cmd)
  | [] => .ok none
  | k :: ws =>
    if k = "#" then .ok none
    else if k = "set-indexing" then do
      let f ← word ws
      pure (some (.indexing f.1))
    else if k = "set-basis-scale-factor" then do
      let x ← num nm ws
      pure (some (.scale x.1))
    else if k = "define-radial-source" then do
      let t ← word ws
      let p ← int nm t.2
      let f ← word p.2
      let c ← coordOf t.1
      pure (some (.radial c p.1 f.1))
    else if k = "define-am-source" then do
      let t ← word ws
      let f ← word t.2
      let a ← amOf t.1
      pure (some (.am a f.1))
    else if k = "define-isospin-source" then do
      let t ← word ws
      let f ← word t.2
      let z ← isospinOf t.1
      pure (some (.isospin z f.1))
    else if k = "define-em-target" then do
      let o ← word ws
      let l ← int nm o.2
      let s ← word l.2
      let f ← word s.2
      let t ← emOf o.1
      let who ← whoOf s.1
      pure (some (.target ⟨t, l.1, who, f.1⟩))
    else if k = "define-weak-target" then do
      let o ← word ws
      let f ← word o.2
      let t ← weakOf o.1
      pure (some (.target ⟨t, if t = .GT then 1 else 0, .total, f.1⟩))
    else .error .exitFailure

/-- `RunParameters`, 163-171; the scale factor is uninitialised until it is set. -/
structure Config where
  space : Space := []
  scale : Option ℝ := none
  radial : Coord × Int → Option Data := fun _ => none
  am : AMType → Option Data := fun _ => none
  isospin : Int → Option Data := fun _ => none
  targets : List Target := []

/-- `std::map::insert`: an entry that exists is kept. -/
def insert {α : Type} [DecidableEq α] (m : α → Option Data) (k : α) (d : Data) : α → Option Data := fun x =>
  match m x with
  | some d' => some d'
  | none => if x = k then some d else none

/-- What a line does, 193-299. -/
def apply {Orb : Type} [DecidableEq Orb] (W : World Orb) (cfg : Config) : Cmd → Except Err Config
  | .indexing f => do
    let os ← W.orbitals f
    pure { cfg with space := W.lib.mkSpace os }
  | .scale x => .ok { cfg with scale := some x }
  | .radial c p f => do
    let d ← openData W f
    pure { cfg with radial := insert cfg.radial (c, p) d }
  | .am t f => do
    let d ← openData W f
    pure { cfg with am := insert cfg.am t d }
  | .isospin z f => do
    let d ← openData W f
    pure { cfg with isospin := insert cfg.isospin z d }
  | .target t => .ok { cfg with targets := cfg.targets ++ [t] }

/-- One turn of the loop, 181-304. -/
def step {Orb : Type} [DecidableEq Orb] (W : World Orb) (cfg : Config) (ws : List String) : Except Err Config := do
  match ← parse W.nm ws with
  | none => pure cfg
  | some c => apply W cfg c

/-- `ReadParameters`, 177-305. -/
def readParameters {Orb : Type} [DecidableEq Orb] (W : World Orb) (lines : List (List String)) : Except Err Config :=
  lines.foldlM (step W) {}

/-! ## Targets -/

/-- The species constraint, 315-318, 388-391. -/
def applies (who : Who) (s : Species1) : Bool :=
  match who with
  | .total => true
  | .p => s = .p
  | .n => s = .n

/-- The scale factor, when it is passed on (366, 477). -/
def scaleFactor (cfg : Config) : Except Err ℝ :=
  match cfg.scale with
  | some s => .ok s
  | none => .error .undefinedBehaviour

/-- `CalculatePrefactorE`, 307-324. -/
noncomputable def prefactorE (cfg : Config) (t : Target) (a b : Labels) : Except Err ℝ := do
  let s ← scaleFactor cfg
  assertE (a.sp = b.sp)
  if applies t.who a.sp then pure (s ^ t.lambda) else .ok 0

/-- `CalculatePrefactorM`, 380-404: the quotient `2 / (lambda + 1)` is one of integers. -/
noncomputable def prefactorM (cfg : Config) (t : Target) (a b : Labels) : Except Err ℝ := do
  let s ← scaleFactor cfg
  assertE (a.sp = b.sp)
  if applies t.who a.sp then
    if t.lambda < 0 then .error .notANumber
    else
      let f := s ^ (t.lambda - 1) * (Real.sqrt (2 * t.lambda + 1) * Real.sqrt t.lambda)
      if t.kind = .Dl then pure (f * ((Int.tdiv 2 (t.lambda + 1) : Int) : ℝ)) else pure f
  else .ok 0

/-- The loop over the sectors, 363-369, 474-480. -/
noncomputable def scaleAll (f : ℕ × ℕ → Except Err ℝ) : List (ℕ × ℕ) → List Mat → Except Err (List Mat)
  | [], ms => .ok ms
  | _ :: _, [] => .error .undefinedBehaviour
  | p :: ps, m :: ms => do
    let c ← f p
    let r ← scaleAll f ps ms
    pure (scale c m :: r)

/-- The factor of a sector. -/
noncomputable def sectorFactor (sp : Space) (f : Labels → Labels → Except Err ℝ) (p : ℕ × ℕ) : Except Err ℝ := do
  let b ← getE sp p.1
  let k ← getE sp p.2
  f b.labels k.labels

/-- `count`, else `std::exit`; `at`; comparison of the orbitals (346-357, 431-440, 451-462, 511-521, 532-541). -/
def look {Orb : Type} [DecidableEq Orb] (W : World Orb) (cfg : Config) : Option Data → Except Err Data
  | none => .error .exitFailure
  | some d => do
    assertE (W.lib.info d.space = W.lib.info cfg.space)
    pure d

/-- `GenerateTargetE`, 326-378. -/
noncomputable def generateE {Orb : Type} [DecidableEq Orb] (W : World Orb) (cfg : Config) (t : Target) : Except Err (List Line) := do
  let secs := allSectors ⟨t.lambda, t.lambda.tmod 2, 0⟩ cfg.space cfg.space
  let d ← look W cfg (cfg.radial (.r, t.lambda))
  let mats ← scaleAll (sectorFactor cfg.space (prefactorE cfg t)) secs.pairs d.mats
  writeFile W.lib W.rnd true 'S' cfg.space cfg.space secs mats

/-- The unscaled matrix elements of a magnetic operator, 442-471. -/
noncomputable def unscaledM {Orb : Type} [DecidableEq Orb] (W : World Orb) (cfg : Config) (order : Int) (a : Data) (secs : Sectors) :
    Except Err (List Mat) :=
  if order = 0 then .ok (a.mats.map (scale W.inv4pi))
  else do
    let r ← look W cfg (cfg.radial (.r, order))
    tensorProduct W.w cfg.space a.secs a.mats r.secs r.mats secs

/-- `GenerateTargetM`, 406-489. -/
noncomputable def generateM {Orb : Type} [DecidableEq Orb] (W : World Orb) (cfg : Config) (t : Target) : Except Err (List Line) := do
  let order := t.lambda - 1
  let secs := allSectors ⟨t.lambda, order.tmod 2, 0⟩ cfg.space cfg.space
  let a ← look W cfg (cfg.am (if t.kind = .Dl then .orbital else .spin))
  let unscaled ← unscaledM W cfg order a secs
  let mats ← scaleAll (sectorFactor cfg.space (prefactorM cfg t)) secs.pairs unscaled
  writeFile W.lib W.rnd true 'S' cfg.space cfg.space secs mats

/-- The matrix elements of a weak operator, 523-552. -/
noncomputable def weakMats {Orb : Type} [DecidableEq Orb] (W : World Orb) (cfg : Config) (kind : Kind) (z : Data) (secs : Sectors) :
    Except Err (List Mat) :=
  if kind = .F then .ok z.mats
  else do
    let a ← look W cfg (cfg.am .spin)
    tensorProduct W.w cfg.space a.secs a.mats z.secs z.mats secs

/-- `GenerateTargetWeak`, 491-561. -/
noncomputable def generateWeak {Orb : Type} [DecidableEq Orb] (W : World Orb) (cfg : Config) (t : Target) :
    Except Err (List Line) := do
  assertE (t.lambda = 0 ∨ t.lambda = 1)
  let secs := allSectors ⟨t.lambda, 0, 1⟩ cfg.space cfg.space
  let z ← look W cfg (cfg.isospin 1)
  let mats ← weakMats W cfg t.kind z secs
  writeFile W.lib W.rnd true 'S' cfg.space cfg.space secs mats

/-- `GenerateTarget`, 563-586. -/
noncomputable def generate {Orb : Type} [DecidableEq Orb] (W : World Orb) (cfg : Config) (t : Target) :
    Except Err (String × List Line) := do
  let ls ← match t.kind with
    | .E => generateE W cfg t
    | .Dl => generateM W cfg t
    | .Ds => generateM W cfg t
    | .F => generateWeak W cfg t
    | .GT => generateWeak W cfg t
  pure (t.file, ls)

/-- `main`, 588-606: names and contents of the files written, in order.  Arguments are not looked at. -/
noncomputable def run {Orb : Type} [DecidableEq Orb] (W : World Orb) (lines : List (List String)) :
    Except Err (List (String × List Line)) := do
  let cfg ← readParameters W lines
  cfg.targets.mapM (generate W cfg)

end Verif.Obme.EwGen
