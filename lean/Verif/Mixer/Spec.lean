import Verif.Mixer.Model

/-!
# Specification vocabulary for the mixer
-/

namespace Verif.Mixer
open Verif Verif.Mapping Verif.Obme

/-- What one channel saves for a sector: a matrix or nothing. -/
noncomputable def source (env : Env) (ch : Channel) (p : ℕ × ℕ) : Except Err (Option Mat) := do
  let m ← initChannel env ch
  populate env ch m p

/-- The matrix known under a name in a sector is that of the last channel of this name that saves one. -/
def Provides (env : Env) (chans : List Channel) (p : ℕ × ℕ) (id : String) : Option Mat → Prop
  | some m => ∃ pre ch post, chans = pre ++ ch :: post ∧ ch.id = id ∧ source env ch p = .ok (some m) ∧
      ∀ c ∈ post, c.id = id → source env c p = .ok none
  | none => ∀ c ∈ chans, c.id = id → source env c p = .ok none

/-- Element of an optional matrix; an absent matrix is zero. -/
def elemOf (m : Option Mat) (i j : ℕ) : ℝ := match m with
  | some m => m.val i j
  | none => 0

/-- The sizes of a sector of the target. -/
def SectorSize (env : Env) (p : ℕ × ℕ) (m : Mat) : Prop :=
  ∃ b k, env.target.space[p.1]? = some b ∧ env.target.space[p.2]? = some k ∧ m.rows = b.states.length ∧
    m.cols = k.states.length

/-- Weighted sum of the elements of the named sources. -/
noncomputable def combination (src : String → Option Mat) (cs : List (String × ℝ)) (i j : ℕ) : ℝ :=
  (cs.map fun t => t.2 * elemOf (src t.1) i j).sum

end Verif.Mixer
