import Verif.Count.Triangular
import Verif.Mixer.Words

/-!
# `orbital-gen` (`programs/obutils/orbital-gen.cpp`)

The program as a whole: its arguments, the three modes, the order of the orbitals and the file written.  The loops of the
triangular mode are those of `Model.lean`.

Simplifications: an argument is one word; the text of an orbital file is opaque, `basis::ParseOrbitalPNStream` and
`basis::OrbitalDefinitionStr` of the absent `basis` library being parameters, as are `OrbitalSpacePN` and
`OrbitalSortCmpWeight`; `std::sort` may leave any order in which no orbital comes before one that the comparison puts first.
-/

namespace Verif.Count.OrbitalGen
open Verif Verif.Mixer.Control

/-- What the program uses of the `basis` library: reading and writing of orbital files by format code, the orbitals of an
oscillator space, and the comparison by weight. -/
structure Basis (Text : Type) where
  parse : Int → Text → Except Err (List OrbitalInfo)
  text : Int → List OrbitalInfo → Text
  ofNmax : Int → List OrbitalInfo
  before : OrbitalInfo → OrbitalInfo → Prop

/-- `TruncationMode` with its parameters (`orbital-gen.cpp` 36-59). -/
inductive Mode where
  | convert (format : Int) (input : String)
  | Nmax (N : Int)
  | triangular (wmax a b : ℝ)

structure Params where
  mode : Mode
  format : Int
  output : String

/-- A checked extraction from an argument. -/
def need {α : Type} : Option α → Except Err α
  | some x => .ok x
  | none => .error .exitFailure

/-- `ProcessArguments` (`orbital-gen.cpp` 73-221). -/
def arguments {Text : Type} (nm : Numbers) (disk : String → Option Text) (args : List String) : Except Err Params :=
  if args.length < 3 then .error .exitFailure
  else match args with
    | [] => .error .exitFailure
    | m :: rest =>
      if m = "--convert" then
        match rest with
        | [f, i, g, o] => do
          let f ← need (nm.int? f)
          let _ ← need (disk i)
          let g ← need (nm.int? g)
          pure ⟨.convert f i, g, o⟩
        | _ => .error .exitFailure
      else if m = "--Nmax" then
        match rest with
        | [n, o] => do
          let n ← need (nm.int? n)
          pure ⟨.Nmax n, 15099, o⟩
        | _ => .error .exitFailure
      else if m = "--triangular" then
        match rest with
        | [w, a, b, o] => do
          let w ← need (nm.num? w)
          let a ← need (nm.num? a)
          let b ← need (nm.num? b)
          pure ⟨.triangular w a b, 15099, o⟩
        | _ => .error .exitFailure
      else .error .exitFailure

/-- The list of orbitals before sorting (`orbital-gen.cpp` 234-259); no result if the loops do not end. -/
inductive Generated {Text : Type} (bs : Basis Text) (disk : String → Option Text) : Mode → Except Err (List OrbitalInfo) → Prop
  | convert {f : Int} {i : String} {t : Text} : disk i = some t → Generated bs disk (.convert f i) (bs.parse f t)
  | Nmax {N : Int} : Generated bs disk (.Nmax N) (.ok (bs.ofNmax N))
  | triangular {w a b : ℝ} {out : List OrbitalInfo} : Triangular w a b out → Generated bs disk (.triangular w a b) (.ok out)

/-- `std::sort` with the comparison of the library. -/
def Sorts {Text : Type} (bs : Basis Text) (l l' : List OrbitalInfo) : Prop :=
  l'.Perm l ∧ l'.Pairwise fun x y => ¬ bs.before y x

/-- The program (`orbital-gen.cpp` 223-274): the file it writes, or how it fails. -/
inductive Run {Text : Type} (bs : Basis Text) (nm : Numbers) (disk : String → Option Text) (args : List String) :
    Except Err (String × Text) → Prop
  | refused {e : Err} : arguments nm disk args = .error e → Run bs nm disk args (.error e)
  | unread {p : Params} {e : Err} : arguments nm disk args = .ok p → Generated bs disk p.mode (.error e) →
      Run bs nm disk args (.error e)
  | none {p : Params} : arguments nm disk args = .ok p → Generated bs disk p.mode (.ok []) →
      Run bs nm disk args (.error .exitFailure)
  | written {p : Params} {l l' : List OrbitalInfo} : arguments nm disk args = .ok p → Generated bs disk p.mode (.ok l) → l ≠ [] →
      Sorts bs l l' → Run bs nm disk args (.ok (p.output, bs.text p.format l'))

end Verif.Count.OrbitalGen
