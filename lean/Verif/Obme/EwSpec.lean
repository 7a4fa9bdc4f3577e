import Verif.Obme.EwGen
import Verif.Obme.ProductProps

/-!
# Specification of `ew-gen`

The language of the control file, and the operators that its targets name.
-/

namespace Verif.Obme.EwGen
open Verif Verif.Mapping Verif.Xform Verif.Obme
open Verif.Mixer.Control (Coord Numbers)

/-! ## Control file -/

/-- Names of the radial variables. -/
inductive NamesCoord : String → Coord → Prop where
  | r : NamesCoord "r" .r
  | k : NamesCoord "k" .k
  | ik : NamesCoord "ik" .k
  | o : NamesCoord "o" .o
  | g : NamesCoord "g" .g

/-- Names of the angular momenta. -/
inductive NamesAM : String → AMType → Prop where
  | l : NamesAM "l" .orbital
  | s : NamesAM "s" .spin

/-- Names of the isospin components. -/
inductive NamesIsospin : String → Int → Prop where
  | z : NamesIsospin "tz" 0
  | plus : NamesIsospin "t+" 1
  | minus : NamesIsospin "t-" (-1)

/-- Names of the electromagnetic operators. -/
inductive NamesEM : String → Kind → Prop where
  | e : NamesEM "E" .E
  | l : NamesEM "Dl" .Dl
  | s : NamesEM "Ds" .Ds

/-- Names of the nucleons. -/
inductive NamesWho : String → Who → Prop where
  | p : NamesWho "p" .p
  | n : NamesWho "n" .n
  | total : NamesWho "total" .total

/-- What a line says; words after those needed are ignored. -/
inductive Says (nm : Numbers) : List String → Cmd → Prop where
  | indexing (f : String) (rest : List String) : Says nm ("set-indexing" :: f :: rest) (.indexing f)
  | scale {w : String} {x : ℝ} (rest : List String) : nm.num? w = some x → Says nm ("set-basis-scale-factor" :: w :: rest) (.scale x)
  | radial {w p : String} {c : Coord} {i : Int} (f : String) (rest : List String) : NamesCoord w c → nm.int? p = some i →
      Says nm ("define-radial-source" :: w :: p :: f :: rest) (.radial c i f)
  | am {w : String} {t : AMType} (f : String) (rest : List String) : NamesAM w t →
      Says nm ("define-am-source" :: w :: f :: rest) (.am t f)
  | isospin {w : String} {z : Int} (f : String) (rest : List String) : NamesIsospin w z →
      Says nm ("define-isospin-source" :: w :: f :: rest) (.isospin z f)
  | em {w l v : String} {t : Kind} {i : Int} {who : Who} (f : String) (rest : List String) : NamesEM w t → nm.int? l = some i →
      NamesWho v who → Says nm ("define-em-target" :: w :: l :: v :: f :: rest) (.target ⟨t, i, who, f⟩)
  | fermi (f : String) (rest : List String) : Says nm ("define-weak-target" :: "F" :: f :: rest) (.target ⟨.F, 0, .total, f⟩)
  | gt (f : String) (rest : List String) : Says nm ("define-weak-target" :: "GT" :: f :: rest) (.target ⟨.GT, 1, .total, f⟩)

/-- Lines that count: not blank, first word not `#`. -/
def counts (ws : List String) : Bool :=
  match ws with
  | [] => false
  | w :: _ => w ≠ "#"

/-- The commands of a control file. -/
def Script (nm : Numbers) (lines : List (List String)) (cmds : List Cmd) : Prop :=
  List.Forall₂ (Says nm) (lines.filter counts) cmds

/-- Targets, in order. -/
def targetsOf (cmds : List Cmd) : List Target := cmds.filterMap fun
  | .target t => some t
  | _ => none

/-- The last orbital file. -/
def indexingOf (cmds : List Cmd) : Option String := (cmds.filterMap fun
  | .indexing f => some f
  | _ => none).getLast?

/-- The last scale factor. -/
def scaleOf (cmds : List Cmd) : Option ℝ := (cmds.filterMap fun
  | .scale x => some x
  | _ => none).getLast?

/-- The first source for a power of a radial variable. -/
def radialOf (cmds : List Cmd) (c : Coord) (p : Int) : Option String := cmds.findSome? fun
  | .radial c' p' f => if c' = c ∧ p' = p then some f else none
  | _ => none

/-- The first source for an angular momentum. -/
def amOfCmds (cmds : List Cmd) (t : AMType) : Option String := cmds.findSome? fun
  | .am t' f => if t' = t then some f else none
  | _ => none

/-- The first source for an isospin component. -/
def isospinOfCmds (cmds : List Cmd) (z : Int) : Option String := cmds.findSome? fun
  | .isospin z' f => if z' = z then some f else none
  | _ => none

/-! ## Operators -/

/-- Elements of an operator by subspace and state, bra then ket. -/
abbrev Op := ℕ → ℕ → ℕ → ℕ → ℝ

/-- The lines hold the spherical tensor operator with tensor character `q` and elements `O`. -/
def Reads {Orb : Type} (lib : Lib Orb) (ls : List Line) (sp : Space) (q : QN) (O : Op) : Prop :=
  ∃ mats, readFile lib ls = .ok (⟨some 'S', sp, sp, allSectors q sp sp⟩, mats) ∧ Fits (allSectors q sp sp) mats sp sp ∧
    ∀ i a k c, elem (allSectors q sp sp) mats i a k c = O i a k c

/-- A file on disk that holds an operator. -/
def Holds {Orb : Type} (W : World Orb) (f : String) (sp : Space) (q : QN) (O : Op) : Prop :=
  ∃ ls, W.obme f = some ls ∧ Reads W.lib ls sp q O

/-- A written file: elements with the printed precision. -/
def Stores {Orb : Type} (W : World Orb) (ls : List Line) (sp : Space) (q : QN) (O : Op) : Prop :=
  Reads W.lib ls sp q fun i a k c => W.rnd (chop (O i a k c))

/-- Pairs of states between which an operator may have elements. -/
def Within (q : QN) (sp : Space) (i a k c : ℕ) : Prop :=
  ∃ b k', sp[i]? = some b ∧ sp[k]? = some k' ∧ a < b.ns.length ∧ c < k'.ns.length ∧ Allowed q b.labels k'.labels

/-- Twice the angular momentum of the states of a subspace. -/
def tjOf (sp : Space) (i : ℕ) : ℕ := (sp[i]?.map fun s => s.labels.tj).getD 0

open Classical in
/-- The tensor product: recoupling factor, sum over all intermediate states. -/
noncomputable def times (w : QN → QN → QN → ℕ → ℕ → ℕ → ℝ) (sp : Space) (qA : QN) (A : Op) (qB : QN) (B : Op) (q : QN) : Op :=
  fun i a k c => if Within q sp i a k c then
    ∑ t ∈ states sp, w qA qB q (tjOf sp i) (tjOf sp k) (tjOf sp t.1) * (A i a t.1 t.2 * B t.1 t.2 k c) else 0

/-- The states of a subspace are those of the nucleons asked for. -/
def Carries (who : Who) (sp : Space) (i : ℕ) : Prop :=
  ∃ b, sp[i]? = some b ∧ match who with
    | .p => b.labels.sp = .p
    | .n => b.labels.sp = .n
    | .total => True

open Classical in
/-- The part of an operator that acts on the nucleons asked for, times a number. -/
noncomputable def part (who : Who) (sp : Space) (x : ℝ) (O : Op) : Op :=
  fun i a k c => if Carries who sp i then x * O i a k c else 0

/-- The orbitals of the last orbital file. -/
def OrbitalsAre {Orb : Type} (W : World Orb) (cmds : List Cmd) (sp : Space) : Prop :=
  ∃ f os, indexingOf cmds = some f ∧ W.orbitals f = .ok os ∧ W.lib.mkSpace os = sp

end Verif.Obme.EwGen
