import Verif.Daejeon.Tables1
import Verif.Daejeon.Tables2
import Verif.Daejeon.Tables3
import Verif.Daejeon.Tables4
import Verif.Daejeon.Tables5
import Verif.Daejeon.Tables6
import Verif.Daejeon.Tables7
import Verif.Daejeon.Tables8
import Verif.Relative.Gen

/-!
# Daejeon16

Models of `contrib/Daejeon16/Daejeon16_public_v2.f90`, of `contrib/Daejeon16/Daejeon16_wrapper.cpp` and of `relative-gen` built
with `USE_DAEJEON16`.

Simplifications: the constants of the `data` statements are of single precision; their rounding is a given function.  Integers do
not overflow.
-/

namespace Verif.Daejeon
open Verif Verif.H2 Verif.Relative Verif.Mixer.Control

/-- The arrays (`Daejeon16_public_v2.f90` 33-35). -/
inductive Tab where
  | unc1s0 | unc3p0 | unc1p1 | unc3p1 | unc1d2 | unc3d2 | unc1f3 | unc3f3 | unc1g4 | unc3g4 | unc1h5 | unc3h5 | unc1i6 | unc3i6 | coup3sd | coup3pf | coup3dg | coup3fh | coup3gi | coup3hj
  deriving DecidableEq

/-- What the arrays hold: the numbers of a `data` statement go to the first column, then to the second, and so on; a row of the list is
a column of the array. -/
def Tab.data : Tab → List (List Num)
  | .unc1s0 => Daejeon.unc1s0
  | .unc3p0 => Daejeon.unc3p0
  | .unc1p1 => Daejeon.unc1p1
  | .unc3p1 => Daejeon.unc3p1
  | .unc1d2 => Daejeon.unc1d2
  | .unc3d2 => Daejeon.unc3d2
  | .unc1f3 => Daejeon.unc1f3
  | .unc3f3 => Daejeon.unc3f3
  | .unc1g4 => Daejeon.unc1g4
  | .unc3g4 => Daejeon.unc3g4
  | .unc1h5 => Daejeon.unc1h5
  | .unc3h5 => Daejeon.unc3h5
  | .unc1i6 => Daejeon.unc1i6
  | .unc3i6 => Daejeon.unc3i6
  | .coup3sd => Daejeon.coup3sd
  | .coup3pf => Daejeon.coup3pf
  | .coup3dg => Daejeon.coup3dg
  | .coup3fh => Daejeon.coup3fh
  | .coup3gi => Daejeon.coup3gi
  | .coup3hj => Daejeon.coup3hj

/-- Element `t(i,j)`, counted from one; outside the bounds the behaviour is undefined. -/
def Tab.at (t : Tab) (i j : Int) : Except Err Num :=
  if i < 1 ∨ j < 1 then .error .undefinedBehaviour
  else match t.data[(j - 1).toNat]? with
    | none => .error .undefinedBehaviour
    | some c => match c[(i - 1).toNat]? with
      | none => .error .undefinedBehaviour
      | some x => .ok x

/-- A branch: the labels it is for, the largest indices, the array, and the first indices in it. -/
structure Branch where
  J : Int
  S : Int
  l : Int
  l' : Int
  last : Int
  last' : Int
  tab : Tab
  off : Int
  off' : Int
  deriving DecidableEq

/-- The branches in their order (`Daejeon16_public_v2.f90` 890-1082). -/
def branches : List Branch := [
  ⟨0, 0, 0, 0, 31, 31, .unc1s0, 0, 0⟩,
  ⟨0, 1, 1, 1, 31, 31, .unc3p0, 0, 0⟩,
  ⟨1, 0, 1, 1, 31, 31, .unc1p1, 0, 0⟩,
  ⟨1, 1, 1, 1, 31, 31, .unc3p1, 0, 0⟩,
  ⟨2, 0, 2, 2, 30, 30, .unc1d2, 0, 0⟩,
  ⟨2, 1, 2, 2, 30, 30, .unc3d2, 0, 0⟩,
  ⟨3, 0, 3, 3, 30, 30, .unc1f3, 0, 0⟩,
  ⟨3, 1, 3, 3, 30, 30, .unc3f3, 0, 0⟩,
  ⟨4, 0, 4, 4, 29, 29, .unc1g4, 0, 0⟩,
  ⟨4, 1, 4, 4, 29, 29, .unc3g4, 0, 0⟩,
  ⟨5, 0, 5, 5, 29, 29, .unc1h5, 0, 0⟩,
  ⟨5, 1, 5, 5, 29, 29, .unc3h5, 0, 0⟩,
  ⟨6, 0, 6, 6, 28, 28, .unc1i6, 0, 0⟩,
  ⟨6, 1, 6, 6, 28, 28, .unc3i6, 0, 0⟩,
  ⟨1, 1, 0, 0, 31, 31, .coup3sd, 0, 0⟩,
  ⟨1, 1, 0, 2, 31, 30, .coup3sd, 0, 31⟩,
  ⟨1, 1, 2, 0, 30, 31, .coup3sd, 31, 0⟩,
  ⟨1, 1, 2, 2, 30, 30, .coup3sd, 31, 31⟩,
  ⟨2, 1, 1, 1, 31, 31, .coup3pf, 0, 0⟩,
  ⟨2, 1, 1, 3, 31, 30, .coup3pf, 0, 31⟩,
  ⟨2, 1, 3, 1, 30, 31, .coup3pf, 31, 0⟩,
  ⟨2, 1, 3, 3, 30, 30, .coup3pf, 31, 31⟩,
  ⟨3, 1, 2, 2, 30, 30, .coup3dg, 0, 0⟩,
  ⟨3, 1, 2, 4, 30, 29, .coup3dg, 0, 31⟩,
  ⟨3, 1, 4, 2, 29, 30, .coup3dg, 31, 0⟩,
  ⟨3, 1, 4, 4, 29, 29, .coup3dg, 31, 31⟩,
  ⟨4, 1, 3, 3, 30, 30, .coup3fh, 0, 0⟩,
  ⟨4, 1, 3, 5, 30, 29, .coup3fh, 0, 31⟩,
  ⟨4, 1, 5, 3, 29, 30, .coup3fh, 31, 0⟩,
  ⟨4, 1, 5, 5, 29, 29, .coup3fh, 31, 31⟩,
  ⟨5, 1, 4, 4, 29, 29, .coup3gi, 0, 0⟩,
  ⟨5, 1, 4, 6, 29, 28, .coup3gi, 0, 31⟩,
  ⟨5, 1, 6, 4, 28, 29, .coup3gi, 31, 0⟩,
  ⟨5, 1, 6, 6, 28, 28, .coup3gi, 31, 31⟩,
  ⟨6, 1, 5, 5, 29, 29, .coup3hj, 0, 0⟩,
  ⟨6, 1, 5, 7, 29, 28, .coup3hj, 0, 31⟩,
  ⟨6, 1, 7, 5, 28, 29, .coup3hj, 31, 0⟩,
  ⟨6, 1, 7, 7, 28, 28, .coup3hj, 31, 31⟩]

/-- The element found by a branch (e.g. `Daejeon16_public_v2.f90` 890-894). -/
def Branch.element (b : Branch) (single : ℚ → ℝ) (n n' : Int) : Except Err ℝ :=
  if n + 1 ≤ b.last ∧ n' + 1 ≤ b.last' then (b.tab.at (b.off + n + 1) (b.off' + n' + 1)).map fun x => single x.value else .ok 0

/-- `(-1)**(nrel+nprel)`. -/
def phase (n n' : Int) : ℝ := if (n + n') % 2 = 0 then 1 else -1

/-- Units (`Daejeon16_public_v2.f90` 1087). -/
noncomputable def units (keyhw : Int) (x : ℝ) : ℝ := if keyhw = 0 then x / 25 else x

/-- Phases (`Daejeon16_public_v2.f90` 1088). -/
noncomputable def phases (keyph n n' : Int) (x : ℝ) : ℝ := if keyph = 1 then x * phase n n' else x

/-- `mtxE` at the label 52 (`Daejeon16_public_v2.f90` 885-1083). -/
def mtxE (single : ℚ → ℝ) (n n' l l' J S : Int) : Except Err ℝ :=
  match branches.find? fun b => decide (J = b.J ∧ S = b.S ∧ l = b.l ∧ l' = b.l') with
  | some b => b.element single n n'
  | none => .ok 0

/-- `V_Daejeon16(nrel,nprel,lrel,lprel,JJ,IS,keyhw,keyph)` (`Daejeon16_public_v2.f90` 25-1093). -/
noncomputable def V (single : ℚ → ℝ) (n n' l l' J S keyhw keyph : Int) : Except Err ℝ :=
  (mtxE single n n' l l' J S).map fun x => phases keyph n n' (units keyhw x)

/-! ## `contrib::ConstructDaejeon16Operator` -/

/-- One sector (`Daejeon16_wrapper.cpp` 53-92). -/
noncomputable def block (single : ℚ → ℝ) (s' s : RelSub) : Except Err Entries :=
  .ok (if s'.S ≠ s.S then zeroE else fun n' n => V single n' n s'.L s.L s'.J s'.S 1 0)

/-- `ConstructDaejeon16Operator` (`Daejeon16_wrapper.cpp` 30-93). -/
noncomputable def constructDaejeon (single : ℚ → ℝ) (o : OpLabels) (sectors : ℕ → List RSec) : Except Err RelOp :=
  construct (decide (o.J0 = 0) && decide (o.g0 = 0) && decide (o.T0min = 0)) 0 sectors (block single)

/-! ## `relative-gen` with `USE_DAEJEON16` -/

/-- The limit on `Jmax` (`relative-gen.cpp` 299-302). -/
def limit (p : Gen.Params) : Gen.Params :=
  match p.choice with
  | .interaction name => if name = "Daejeon16" then { p with Jmax := min p.Jmax 6 } else p
  | _ => p

/-- The choice of the operator (`relative-gen.cpp` 353-582). -/
noncomputable def dispatch (single : ℚ → ℝ) (lib : Gen.Lib) (o : OpLabels) (Nmax : ℕ) (sp : List RelSub) (sectors : ℕ → List RSec) :
    Gen.Choice → Except Err RelOp
  | .interaction name => if name = "Daejeon16" then constructDaejeon single o sectors else .error .exitFailure
  | c => Gen.dispatch lib o Nmax sp sectors c

/-- The names for which containers are set up. -/
def known : Gen.Choice → Bool
  | .interaction name => decide (name = "Daejeon16")
  | c => Gen.known c

/-- `main` (`relative-gen.cpp` 589-623) in this build. -/
noncomputable def run (single : ℚ → ℝ) (nm : Numbers) (lib : Gen.Lib) (f : Gen.Input) : Except Err Gen.Output := do
  let p ← Gen.readParams nm f
  let p := limit p
  if p.J0 < 0 ∨ p.g0 < 0 ∨ p.T0min < 0 ∨ p.T0max < 0 ∨ p.Nmax < 0 then .error .undefinedBehaviour
  else
    let o : OpLabels := ⟨p.J0.toNat, p.g0.toNat, p.T0min.toNat, p.T0max.toNat⟩
    let sp := relSpace p.Nmax.toNat p.Jmax.toNat
    let sectors := relSectors o sp
    if known p.choice && decide (2 < o.T0max) then .error .undefinedBehaviour
    else do
      let op ← dispatch single lib o p.Nmax.toNat sp sectors p.choice
      pure ⟨p.file, o, p.Nmax.toNat, p.Jmax.toNat, sectors, op⟩

end Verif.Daejeon
