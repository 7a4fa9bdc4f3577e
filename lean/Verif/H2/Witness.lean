import Verif.H2.Spec

/-! # A small concrete operator, used to show that hypotheses of the H2 theorems can be met -/

namespace Verif.H2.Ex
open Verif Verif.H2

def pp0 : Subspace := ⟨.pp, 0, 0, [⟨0, 0⟩, ⟨1, 1⟩]⟩
def pp1 : Subspace := ⟨.pp, 1, 0, [⟨0, 1⟩]⟩
def nn0 : Subspace := ⟨.nn, 0, 0, [⟨0, 0⟩]⟩
def pn0 : Subspace := ⟨.pn, 0, 0, [⟨0, 0⟩, ⟨0, 1⟩, ⟨1, 1⟩]⟩

/-- Sectors: format 0 only knows diagonal ones. -/
def sectors : Format → List Sector
  | .v0 => [⟨0, 0, pp0, pp0⟩, ⟨2, 2, nn0, nn0⟩, ⟨3, 3, pn0, pn0⟩]
  | _ => [⟨0, 0, pp0, pp0⟩, ⟨0, 1, pp0, pp1⟩, ⟨2, 2, nn0, nn0⟩, ⟨3, 3, pn0, pn0⟩]

/-- A toy floating point model distinguishing zero and non-zero values. -/
noncomputable def fm : FloatModel where
  toF32 x := if x = 0 then 0 else 1
  ofF32 b := if b = 0 then 0 else 1
  fmt b := if b = 0 then "0" else "1"
  scan s := if s = "0" then some 0 else some 1

noncomputable def cfg (f : Format) (m : Mode) : Cfg := ⟨fm, f, m, ⟨sectors f, 2⟩⟩

noncomputable def callFor (s : Sector) (i : Nat) : WriteCall :=
  ⟨i, ⟨s.bra.size, s.ket.size, fun a b => a + 2 * b⟩, .asToNAS⟩

noncomputable def calls : Format → List WriteCall
  | .v0 => [callFor ⟨0, 0, pp0, pp0⟩ 0, callFor ⟨2, 2, nn0, nn0⟩ 1, callFor ⟨3, 3, pn0, pn0⟩ 2]
  | _ => [callFor ⟨0, 0, pp0, pp0⟩ 0, callFor ⟨0, 1, pp0, pp1⟩ 1, callFor ⟨2, 2, nn0, nn0⟩ 2,
      callFor ⟨3, 3, pn0, pn0⟩ 3]

theorem wf (f : Format) (m : Mode) : ∀ s ∈ (cfg f m).ix.sectors, s.WF := by
  unfold Sector.WF cfg
  cases f <;> cases m <;> decide

theorem calls_length (f : Format) (m : Mode) : (calls f).length = (cfg f m).ix.sectors.length := by
  cases f <;> rfl

theorem upper (f : Format) (m : Mode) : ∀ s ∈ (cfg f m).ix.sectors, s.braIndex ≤ s.ketIndex ∧
    ((cfg f m).format = .v0 → s.braIndex = s.ketIndex) := by
  unfold cfg
  cases f <;> cases m <;> decide

theorem sorted (f : Format) (m : Mode) :
    (cfg f m).ix.sectors.Pairwise fun a b => a.bra.species.idx ≤ b.bra.species.idx := by
  unfold cfg
  cases f <;> cases m <;> decide

theorem same (f : Format) (m : Mode) : ∀ s ∈ (cfg f m).ix.sectors, s.ket.species = s.bra.species := by
  unfold cfg
  cases f <;> cases m <;> decide

theorem small (f : Format) (m : Mode) (t : Species) :
    4 * sizeByType (cfg f m).ix.sectors t < 2 ^ 31 - 9 := by
  unfold cfg
  cases f <;> cases m <;> cases t <;> decide

theorem calls_fit (f : Format) (m : Mode) :
    List.Forall₂ (fun (w : WriteCall) (s : Sector) => w.mat.rows = s.bra.size ∧
      w.mat.cols = s.ket.size ∧ (w.conv = .none ∨ w.conv = .asToNAS)) (calls f)
      (cfg f m).ix.sectors := by
  cases f <;> simp [calls, callFor, cfg, sectors]

theorem calls_index (f : Format) : (calls f).map (·.index) = List.range (calls f).length := by
  cases f <;> rfl

theorem scan_fmt (x : BitVec 32) : fm.scan (fm.fmt x) = some (if x = 0 then 0 else 1) := by
  by_cases h : x = 0
  · subst h; simp [fm]
  · have h' : ¬ x = 0#32 := h
    simp [fm, h']

end Verif.H2.Ex
