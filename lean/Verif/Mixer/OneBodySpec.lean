import Verif.Mixer.OneBody
import Verif.Obme.ProductProps

/-!
# Specification vocabulary for the named one-body operators
-/

namespace Verif.Mixer
open Verif Verif.Mapping Verif.Xform Verif.Obme

/-- A complete one-body operator: all sectors its tensor character allows on its space, each with a block of
its size. -/
structure GoodOb (d : ObData) : Prop where
  space : GoodSpace d.space
  secs : d.secs = allSectors d.secs.qn d.space d.space
  fits : Fits d.secs d.mats d.space d.space

/-- Element of an operator between state `a` of subspace `i` and state `c` of subspace `k`. -/
noncomputable def ObData.el (d : ObData) (i a k c : ℕ) : ℝ := elem d.secs d.mats i a k c

/-- The names a channel refers to. -/
def ObChannel.refs (ch : ObChannel) : List String :=
  match ch.kind with
  | .linear terms => terms.map (·.1)
  | .product a b _ _ => [a, b]
  | .xform src _ => [src]
  | _ => []

/-- An operator type some routine handles. -/
def GenOK : Gen → Prop
  | .am _ order => order = 1 ∨ order = 2
  | _ => True

/-- What is assumed of the inputs of a channel: orbital files that give good spaces, operator files with the same
bra and ket space and complete data. -/
def InputOK (ch : ObChannel) : Prop :=
  match ch.kind with
  | .input file _ => file.1.bra = file.1.ket ∧ GoodOb ⟨file.1.ket, file.1.secs, file.2⟩
  | .builtin space => ∀ s, space = some s → GoodSpace s
  | .generated gen _ space => GenOK gen ∧ ∀ s, space = some s → GoodSpace s
  | _ => True

/-- What is assumed of a transformation: a complete overlap between good spaces. -/
structure GoodXf (x : XfData) : Prop where
  bra : GoodSpace x.bra
  ket : GoodSpace x.ket
  overlap : Overlap x.secs x.mats x.bra x.ket

/-- Good inputs of a run. -/
structure RunOK (env : ObEnv) (chans : List ObChannel) : Prop where
  space : GoodSpace env.space
  xf : ∀ id x, env.xf id = some x → GoodXf x
  chans : ∀ ch ∈ chans, InputOK ch

end Verif.Mixer
