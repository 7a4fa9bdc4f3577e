import Verif.Obme.RadialGen
import Verif.Obme.EwSpec
import Verif.Osc.KSquare

/-!
# Specification of `radial-gen`

The language of the control file, and the operators that its targets name.
-/

namespace Verif.Obme.RadialGen
open Verif Verif.Mapping Verif.Xform Verif.Obme MeasureTheory Set
open Verif.Mixer.Control (Coord Numbers)
open Verif.Obme.EwGen (NamesCoord)

/-! ## Control file -/

/-- What can be asked for. -/
inductive What where
  | identity
  | position
  | momentum
  | positionSqr
  | momentumSqr
  | harmonic (c : Coord) (l : Int)
  | am (t : AMType)
  | amSqr (t : AMType)
  | isospin (z : Int)
  | radial (c : Coord) (order : Int) (q : QN)
  | overlap (x : ℝ) (b : BasisType) (file : String)

/-- Names of operators: family, name. -/
inductive Names : String → String → What → Prop where
  | identity : Names "kinematic" "identity" .identity
  | position : Names "kinematic" "r" .position
  | momentum : Names "kinematic" "ik" .momentum
  | positionSqr : Names "kinematic" "r.r" .positionSqr
  | momentumSqr : Names "kinematic" "ik.ik" .momentumSqr
  | l : Names "am" "l" (.am .orbital)
  | l2 : Names "am" "l2" (.amSqr .orbital)
  | s : Names "am" "s" (.am .spin)
  | s2 : Names "am" "s2" (.amSqr .spin)
  | j : Names "am" "j" (.am .total)
  | j2 : Names "am" "j2" (.amSqr .total)
  | tz : Names "isospin" "tz" (.isospin 0)
  | plus : Names "isospin" "t+" (.isospin 1)
  | minus : Names "isospin" "t-" (.isospin (-1))

/-- Names of bases. -/
inductive NamesBasis : String → BasisType → Prop where
  | oscillator : NamesBasis "oscillator" .oscillator
  | laguerre : NamesBasis "laguerre" .laguerre

/-- A line, understood. -/
inductive Cmd where
  | basis (b : BasisType) (file : String)
  | target (w : What) (out : String)

/-- What a line says; words after those needed are ignored. -/
inductive Says (nm : Numbers) : List String → Cmd → Prop where
  | basis {w : String} {b : BasisType} (f : String) (rest : List String) : NamesBasis w b → Says nm ("set-ket-basis" :: w :: f :: rest) (.basis b f)
  | named {m i : String} {w : What} (out : String) (rest : List String) : Names m i w →
      Says nm ("define-operator-target" :: m :: i :: out :: rest) (.target w out)
  | harmonic {v p : String} {c : Coord} {l : Int} (out : String) (rest : List String) : NamesCoord v c → nm.int? p = some l →
      Says nm ("define-operator-target" :: "solid-harmonic" :: v :: p :: out :: rest) (.target (.harmonic c l) out)
  | radial {v p j g t : String} {c : Coord} {order J0 g0 Tz0 : Int} (out : String) (rest : List String) : NamesCoord v c →
      nm.int? p = some order → nm.int? j = some J0 → nm.int? g = some g0 → nm.int? t = some Tz0 →
      Says nm ("define-radial-target" :: v :: p :: j :: g :: t :: out :: rest) (.target (.radial c order ⟨J0, g0, Tz0⟩) out)
  | overlap {v w : String} {x : ℝ} {b : BasisType} (f out : String) (rest : List String) : nm.num? v = some x → NamesBasis w b →
      Says nm ("define-xform-target" :: v :: w :: f :: out :: rest) (.target (.overlap x b f) out)

/-- The commands of a control file. -/
def Script (nm : Numbers) (lines : List (List String)) (cmds : List Cmd) : Prop := List.Forall₂ (Says nm) lines cmds

/-- The basis and orbital file in force at line `y`: those of the last `set-ket-basis` before it. -/
def basisAt (cmds : List Cmd) (y : ℕ) : BasisType × String :=
  ((cmds.take y).filterMap fun
    | .basis b f => some (b, f)
    | .target .. => none).getLast?.getD (.oscillator, "orbitals.dat")

/-- Targets with their files. -/
def targetsOf (cmds : List Cmd) : List (What × String) := cmds.filterMap fun
  | .basis .. => none
  | .target w out => some (w, out)

/-- The place of the target at line `y` among the files written. -/
def place (cmds : List Cmd) (y : ℕ) : ℕ := (targetsOf (cmds.take y)).length

/-! ## Operators -/

/-- Tensor character. -/
def What.qn : What → QN
  | .identity | .positionSqr | .momentumSqr | .amSqr _ | .overlap .. => ⟨0, 0, 0⟩
  | .position | .momentum => ⟨1, 1, 0⟩
  | .harmonic _ l => ⟨l, l % 2, 0⟩
  | .am _ => ⟨1, 0, 0⟩
  | .isospin z => ⟨0, 0, z⟩
  | .radial _ _ q => q

/-- Radial integrals only, or with the angular part. -/
def What.code : What → Char
  | .radial .. | .overlap .. => 'R'
  | _ => 'S'

/-- Radial part of the gradient, from `l` to `l' = l ± 1`. -/
noncomputable def grad (l' l : ℕ) (f : ℝ → ℝ) : ℝ → ℝ :=
  if l' = l + 1 then Verif.Osc.gradUp l f else Verif.Osc.gradDown l f

/-- Radial integral of a power of the coordinate or of the gradient.  Those of first and second order in the oscillator basis are given
in closed form; for first order the code divides by a decimal literal for the square root of two.  All others are taken from the
library. -/
noncomputable def radialValue {Orb : Type} (W : World Orb) (b : BasisType) (c : Coord) (order : Int) (q : QN) (n l n' l' : ℕ) : ℝ :=
  if order = 0 then (if n = n' ∧ l = l' then 1 else 0)
  else if b = .oscillator ∧ order = 1 ∧ q.J0 = 1 ∧ q.g0 = 1 then
    Real.sqrt 2 / Verif.Osc.kSqrt2 * ∫ x in Ioi (0 : ℝ), Verif.Osc.oscFn n l 1 x *
      (if c = .k then grad l l' (Verif.Osc.oscFn n' l' 1) x else x * Verif.Osc.oscFn n' l' 1 x)
  else if b = .oscillator ∧ order = 2 ∧ (q.J0 = 0 ∨ q.J0 = 2) ∧ q.g0 = 0 then
    ∫ x in Ioi (0 : ℝ), Verif.Osc.oscFn n l 1 x *
      (if c = .k then Verif.Osc.gradSqr l l' (Verif.Osc.oscFn n' l' 1) x else x ^ 2 * Verif.Osc.oscFn n' l' 1 x)
  else W.spl b c order n l n' l'

/-- Element between two orbitals: bra labels and `n`, ket labels and `n`. -/
noncomputable def What.value {Orb : Type} (W : World Orb) (b : BasisType) : What → Labels → ℕ → Labels → ℕ → ℝ
  | .identity, x, n, y, n' => W.crme x y 0 * (if n = n' ∧ x.l = y.l then 1 else 0)
  | .position, x, n, y, n' => W.crme x y 1 * radialValue W b .r 1 ⟨1, 1, 0⟩ n x.l n' y.l
  | .momentum, x, n, y, n' => W.crme x y 1 * radialValue W b .k 1 ⟨1, 1, 0⟩ n x.l n' y.l
  | .positionSqr, x, n, y, n' => W.crme x y 0 * radialValue W b .r 2 ⟨0, 0, 0⟩ n x.l n' y.l
  | .momentumSqr, x, n, y, n' => W.crme x y 0 * radialValue W b .k 2 ⟨0, 0, 0⟩ n x.l n' y.l
  | .harmonic c l, x, n, y, n' => Real.sqrt (2 * l + 1) * W.inv4pi * (W.crme x y l * radialValue W b c l ⟨l, l % 2, 0⟩ n x.l n' y.l)
  | .am t, x, n, y, n' => if n = n' then W.rme t x y else 0
  | .amSqr t, x, n, y, n' => if x = y ∧ n = n' then eigenvalue t x.l x.tj else 0
  | .isospin z, x, n, y, n' => if x.l = y.l ∧ x.tj = y.tj ∧ n = n' then (if z ≠ 0 then 1 else if x.sp = .p then 1 / 2 else -1 / 2) else 0
  | .radial c order q, x, n, y, n' => radialValue W b c order q n x.l n' y.l
  | .overlap f b' _, x, n, y, n' => if f = 1 ∧ b' = b then (if n = n' ∧ x.l = y.l then 1 else 0) else W.ovl b' b f n x.l n' y.l

open Classical in
/-- The operator with given elements: zero between orbitals that the tensor character does not connect. -/
noncomputable def opOf (q : QN) (bra ket : Space) (v : Labels → ℕ → Labels → ℕ → ℝ) : EwGen.Op := fun i a k c =>
  match bra[i]?, ket[k]? with
  | some x, some y => if a < x.ns.length ∧ c < y.ns.length ∧ Allowed q x.labels y.labels then
      v x.labels (x.ns.getD a 0) y.labels (y.ns.getD c 0) else 0
  | _, _ => 0

/-- A written file: its type, spaces, tensor character, and elements with the printed precision. -/
def Stores {Orb : Type} (W : World Orb) (ls : List Line) (type : Char) (bra ket : Space) (q : QN) (O : EwGen.Op) : Prop :=
  ∃ mats, readFile W.lib ls = .ok (⟨some type, bra, ket, allSectors q bra ket⟩, mats) ∧ Fits (allSectors q bra ket) mats bra ket ∧
    ∀ i a k c, elem (allSectors q bra ket) mats i a k c = W.rnd (chop (O i a k c))

/-- An orbital file and the space that it describes. -/
def Orbitals {Orb : Type} (W : World Orb) (f : String) (sp : Space) : Prop :=
  ∃ os, W.orbitals f = some (.ok os) ∧ W.lib.mkSpace os = sp ∧ Built W.lib sp ∧ GoodSpace sp

end Verif.Obme.RadialGen
