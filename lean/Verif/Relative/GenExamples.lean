import Verif.Relative.GenOperators
import Verif.Relative.ConstructExamples

/-!
# The theorems on `relative-gen` apply

to control files with no quanta (channels `¹S0` and `³S1`), with the coefficients of `ConstructTable`, and for unit tensors
to one with two quanta.
-/

namespace Verif.Relative.Gen.Ex
open Verif Verif.H2 Verif.Mixer.Control Verif.Relative.Ex

/-- Numbers of one digit. -/
noncomputable def nm : Numbers where
  int? s := if s = "0" then some 0 else if s = "1" then some 1 else if s = "2" then some 2 else none
  num? _ := none

/-- `¹S0` without quanta -/
def a0 : RelSub := ⟨0, 0, 0, 1, 0, 1⟩
/-- `³S1` without quanta -/
def a1 : RelSub := ⟨0, 1, 1, 0, 0, 1⟩

theorem space_zero {s : RelSub} : s ∈ relSpace 0 (0 + 1) ↔ s = a0 ∨ s = a1 := by
  have : relSpace 0 (0 + 1) = [a0, a1] := by decide
  rw [this]
  simp

theorem laws : SpaceLaws cg am harmonic unitVector 0 where
  half := half
  sym := halfSym
  ls s' h' s h := by
    rw [space_zero] at h h'
    constructor
    · intro hL hS
      rcases h' with rfl | rfl <;> rcases h with rfl | rfl <;>
        first | exact absurd hS (by decide) | exact ortho_left _
    · rcases h with rfl | rfl
      · exact half.scalar 0 (by omega)
      · exact half.scalar 1 (by omega)
    · rcases h with rfl | rfl
      · exact half.vector 0 (by omega)
      · exact half.vector 0 (by omega)
    · intro hS hL hJ
      rcases h' with rfl | rfl <;> rcases h with rfl | rfl <;> exact absurd hL (by decide)
    · intro hL hS hJ
      rcases h' with rfl | rfl <;> rcases h with rfl | rfl <;>
        first | exact absurd hS (by decide) | exact red2_zero _ _ _
  quad s' h' s h := by
    rw [space_zero] at h h'
    have e : s'.L = 0 ∧ s.L = 0 := by rcases h with rfl | rfl <;> rcases h' with rfl | rfl <;> exact ⟨rfl, rfl⟩
    exact ⟨fun _ h => absurd h (by rw [e.1, e.2]; decide), fun h => absurd h (by rw [e.1, e.2]; decide),
      fun h q m' m => if_neg h, by rw [e.1, e.2]⟩
  unit s' h' s h := by
    rw [space_zero] at h h'
    have e : s'.L = 0 ∧ s.L = 0 := by rcases h with rfl | rfl <;> rcases h' with rfl | rfl <;> exact ⟨rfl, rfl⟩
    refine ⟨fun _ _ _ _ _ _ => rfl, fun _ q m' m => ?_⟩
    simp [unitVector, e.1, e.2, unitRME]

/-- The libraries of the example. -/
noncomputable def lib : Lib where
  am := am
  am12 := ⟨fun _ _ _ _ _ _ _ _ _ => 0, fun _ _ _ _ _ _ => 0, fun _ _ _ _ _ _ => 0, fun _ _ _ => 0⟩
  cubic _ _ := 0
  coulomb _ _ _ _ := 1
  identity _ _ := .error .exitFailure

/-- Squared coordinate. -/
example : Writes cg nm lib ⟨[["0", "0", "0", "0"], ["0"], ["coordinate-sqr", "r", "0"], ["out"]], true⟩ ⟨0, 0, 0, 0⟩ 0 "out" 0 0
    (rSqrOp 0) :=
  (operator_written_partial (lib := lib) laws ⟨control_file.mp (by
    simp [readParams, Input.line, int, word, nm, readChoice, readCoord, Except.ok_bind']), by decide⟩ (.rSqr 0)).1
      (by unfold SqrLabels; decide)

/-- Gamow-Teller, and its labels refused for a scalar. -/
example : Writes cg nm lib ⟨[["1", "0", "1", "1"], ["0"], ["LENPIC-LOGT"], ["out"]], true⟩ ⟨1, 0, 1, 1⟩ 0 "out" 1 1
    gamowTellerOp :=
  (operator_written_partial (lib := lib) laws ⟨control_file.mp (by
    simp [readParams, Input.line, int, word, nm, readChoice, Except.ok_bind']), by decide⟩ .gamowTeller).1
      (by unfold AmLabels; decide)

example : run nm lib ⟨[["0", "0", "0", "0"], ["0"], ["LENPIC-LOGT"], ["out"]], true⟩ = .error .assertFail :=
  (operator_written_partial (o := ⟨0, 0, 0, 0⟩) (N := 0) (file := "out") (lib := lib) laws ⟨control_file.mp (by
    simp [readParams, Input.line, int, word, nm, readChoice, Except.ok_bind']), by decide⟩ .gamowTeller).2
      (by unfold AmLabels; decide)

/-- Coulomb. -/
example : ∃ op, run nm lib ⟨[["0", "0", "0", "2"], ["0"], ["coulomb", "total", "2"], ["out"]], true⟩ =
    .ok ⟨"out", ⟨0, 0, 0, 2⟩, 0, 1, allSectors ⟨0, 0, 0, 2⟩ 0, op⟩ := by
  obtain ⟨op, h, _⟩ := coulomb_written (o := ⟨0, 0, 0, 2⟩) (N := 0) (lib := lib) (steps := 2) (file := "out") (nm := nm)
    (f := ⟨[["0", "0", "0", "2"], ["0"], ["coulomb", "total", "2"], ["out"]], true⟩) laws
    ⟨control_file.mp (by simp [readParams, Input.line, int, word, nm, readChoice, Except.ok_bind']), by decide⟩ rfl rfl rfl
  exact ⟨op, h⟩

/-- A unit tensor between `³S1` with two quanta and the same without. -/
example : ∃ op, run nm lib ⟨[["0", "0", "0", "0"], ["2"],
      ["symmunit", "0", "0", "0", "1", "1", "0", "2", "0", "1", "1", "0"], ["out"]], true⟩ =
      .ok ⟨"out", ⟨0, 0, 0, 0⟩, 2, 3, allSectors ⟨0, 0, 0, 0⟩ 2, op⟩ ∧
    IsUnit (allSectors ⟨0, 0, 0, 0⟩ 2) op 0 ⟨0, 1, 1, 0, 2, 2⟩ ⟨0, 1, 1, 0, 2, 2⟩ 0 1 :=
  unit_written (u := ⟨0, 0, 0, 1, 1, 0, 2, 0, 1, 1, 0⟩)
    ⟨control_file.mp (by simp [readParams, Input.line, int, word, nm, readChoice, Except.ok_bind']), by decide⟩
    ⟨rfl, by decide, by decide, by decide, by decide, by decide, by decide, by decide, by decide, by decide,
      .inl ⟨rfl, by decide⟩⟩

/-- The other way round it is refused. -/
example : constructUnit (relSpace 2 3) (relSectors ⟨0, 0, 0, 0⟩ (relSpace 2 3)) ⟨0, 2, 0, 1, 1, 0, 0, 0, 1, 1, 0⟩ =
    .error .assertFail :=
  unit_order_refused_partial (T0 := 0) (s := ⟨0, 1, 1, 0, 2, 2⟩) (n' := 1) (n := 0)
    ⟨rfl, by decide, by decide, by decide, by decide, by decide, by decide, by decide, by decide, by decide,
      .inl ⟨rfl, by decide⟩⟩
    (by decide)

/-- From `³D1` to `³S1`: not recognised. -/
example : constructUnit (relSpace 2 3) (relSectors ⟨0, 0, 0, 0⟩ (relSpace 2 3)) ⟨0, 2, 2, 1, 1, 0, 0, 0, 1, 1, 0⟩ =
    .error .undefinedBehaviour :=
  unit_unchecked (bra := ⟨2, 1, 1, 0, 2, 1⟩) (ket := ⟨0, 1, 1, 0, 2, 2⟩) (by decide) (by decide) (by decide) (by decide)
    (.inl (by decide))

/-- Without the last newline a file name is invented. -/
example : readParams nm ⟨[["0", "0", "0", "0"], ["2"], ["zero"]], false⟩ = .ok ⟨0, 0, 0, 0, 2, 3, .plain "zero", "zero"⟩ :=
  missing_line_accepted (by simp [nm]) (by simp [nm]) (by simp [nm]) (by simp [nm]) (by simp [nm]) (by decide)

example : ∀ p, readParams nm ⟨[["0", "0", "0", "0"], ["2"], ["zero"]], true⟩ ≠ .ok p :=
  missing_line_refused rfl (by decide)

end Verif.Relative.Gen.Ex
