import Verif.Moshinsky.NucleonAxial
import Verif.Moshinsky.NucleonGenExample

/-!
# The axial current, from its name to the H2 file

A run of `relative-gen` and one of `moshinsky` for which all hypotheses of C183 are met: an operator that changes the angular momentum, in the format 15099.
-/

namespace Verif.Moshinsky
open Verif MvPolynomial Osc Program
open Verif.SU2 hiding couple
open Verif.H2 (Format Mode Desc Sector Subspace OrbSpace Species BasisLib InState openIn readHistory Expressible formatOfCode deducedIOMode openOut writeHistory
  sizeByType fitsInt jmaxByType)
open Verif.Relative (RelFile OpLabels Cfg)
open Verif.Relative.Gen (Input)
open Verif.Mixer.Control (Numbers)

/-- Single precision holds the weights of the orbitals. -/
def SmallExact (hf : H2.HeaderFloat) : Prop := ∀ n : ℕ, n ≤ 2 → hf.fm.ofF32 (hf.fm.toF32 n) = n

example : ∃ hf, SmallExact hf := by
  refine ⟨⟨⟨fun x => if x = 0 then 0 else if x = 1 then 1 else 2, fun b => b.toNat, fun _ => "", fun _ => none⟩, fun _ => ""⟩, fun n hn => ?_⟩
  obtain rfl | rfl | rfl : n = 0 ∨ n = 1 ∨ n = 2 := by omega
  all_goals simp

def numbersV : Numbers :=
  ⟨fun s => if s = "0" then some 0 else if s = "1" then some 1 else if s = "2" then some 2 else if s = "100" then some 100 else if s = "15099" then some 15099 else none,
    fun s => if s = "1.0" then some 1 else if s = "2.0" then some 2 else none⟩

def controlV : Input := ⟨[["tb", "2"], ["op.rel", "rel"], ["op.bin", "jjjpn", "15099", "0"]], true⟩

def paramsV : Params := ⟨false, 2, "op.rel", .rel, "op.bin", .jjjpn, 15099, 0⟩

theorem asksV : Asks numbersV controlV paramsV :=
  ⟨⟨"2", [], rfl, rfl⟩, ⟨[], rfl⟩, ⟨_, rfl, fun _ => ⟨"15099", "0", [], rfl, rfl, rfl⟩, fun h => absurd rfl h⟩⟩

/-- The description of the file of a vector operator. -/
noncomputable def vectorDesc : Desc := ⟨pnLib.oscOrbitals 2, ⟨2, 2, 2, 2, 2⟩, .pn, 1, 0, 0⟩

theorem vector_size (t : Species) : sizeByType (vectorDesc.index pnLib).sectors t ≤ 6905088 := by
  have hl : (oscLabels 2).length = 6 := by decide
  refine (size_bound (n := 36) (fun s hs => ?_) t).trans ?_
  · refine (pnSpace_size hs).trans ?_
    show ((oscLabels 2).map orbOf).length * ((oscLabels 2).map orbOf).length ≤ 36
    rw [List.length_map, hl]
  · show (pnSpace _ _).length * (pnSpace _ _).length * (36 * (36 + 1)) ≤ _
    rw [pnSpace_length]
    show 12 * ((oscLabels 2).map orbOf).length * (12 * ((oscLabels 2).map orbOf).length) * (36 * (36 + 1)) ≤ _
    rw [List.length_map, hl]

theorem vector_wf : ∀ s ∈ (vectorDesc.index pnLib).sectors, s.WF := by
  intro s hs h
  obtain ⟨h1, h2, -⟩ := sector_mem hs
  rw [h] at h1
  exact Option.some.inj (h1.symm.trans h2)

theorem vector_orbs {x : H2.Orb} (hx : x ∈ vectorDesc.orbs.p ++ vectorDesc.orbs.n) : ∃ a ∈ oscLabels 2, x = orbOf a := by
  have : x ∈ (oscLabels 2).map orbOf := by
    rcases List.mem_append.mp hx with h | h <;> exact h
  obtain ⟨a, ha, rfl⟩ := List.mem_map.mp this
  exact ⟨a, ha, rfl⟩

theorem jmax_bound {n : ℕ} {ss : List Subspace} (h : ∀ s ∈ ss, s.J ≤ n) (t : Species) : jmaxByType ss t ≤ n := by
  have key : ∀ (ss : List Subspace) (f : Species → ℕ), (∀ s ∈ ss, s.J ≤ n) → f t ≤ n →
      (ss.foldl (fun jm s t => if t = s.species then max (jm t) s.J else jm t) f) t ≤ n := by
    intro ss
    induction ss with
    | nil => exact fun f _ h => h
    | cons a ss ih =>
      intro f h hf
      refine ih _ (fun s hs => h s (List.mem_cons_of_mem _ hs)) ?_
      have ha := h a List.mem_cons_self
      dsimp only
      split_ifs
      · exact max_le hf ha
      · exact hf
  exact key ss _ h (Nat.zero_le n)

theorem vector_jmax (t : Species) : jmaxByType (vectorDesc.subspaces pnLib) t ≤ 12 := by
  refine jmax_bound (fun s hs => ?_) t
  have hl : (oscLabels 2).length = 6 := by decide
  have hs' : s ∈ pnSpace vectorDesc.orbs vectorDesc.wmax := hs
  obtain ⟨⟨sp, J, g⟩, hm, rfl⟩ := List.mem_map.mp hs'
  have hJ : J < 2 * ((oscLabels 2).map orbOf).length := List.mem_range.mp (List.mem_product.mp (List.mem_product.mp hm).2).1
  rw [List.length_map, hl] at hJ
  exact hJ.le

theorem vector_expressible {hf : H2.HeaderFloat} (h : SmallExact hf) : Expressible pnLib hf .binary .v15099 vectorDesc := by
  have hl : (oscLabels 2).length = 6 := by decide
  have h2 := h 2 le_rfl
  push_cast at h2
  refine ⟨by decide, by decide, rfl, ?_, ?_, fun x hx => ?_, fun x hx => ?_, fun t => ?_, fun t => ?_⟩
  · show fitsInt (((oscLabels 2).map orbOf).length : Int) = true
    rw [List.length_map, hl]
    decide
  · show fitsInt (((oscLabels 2).map orbOf).length : Int) = true
    rw [List.length_map, hl]
    decide
  · obtain ⟨a, ha, rfl⟩ := vector_orbs hx
    rw [mem_oscLabels] at ha
    have hL : orbL a ≤ 3 := by
      unfold orbL
      split_ifs <;> omega
    refine ⟨?_, ?_, ?_, ?_⟩
    · unfold fitsInt orbOf
      rw [decide_eq_true_iff]
      dsimp only
      omega
    · unfold fitsInt orbOf
      rw [decide_eq_true_iff]
      dsimp only
      omega
    · unfold fitsInt orbOf
      rw [decide_eq_true_iff]
      dsimp only
      omega
    · exact h a.1 ha.1
  · have : x = 2 := by
      simp only [vectorDesc, List.mem_cons, List.not_mem_nil, or_false, or_self] at hx
      exact hx
    subst this
    exact h2
  · have := vector_jmax t
    unfold fitsInt
    rw [decide_eq_true_iff]
    omega
  · have := vector_size t
    unfold fitsInt
    rw [decide_eq_true_iff]
    omega

theorem vector_target {w : World} {p : Params} {o : OpLabels} (hlib : w.lib = pnLib) (hp : p.Tz0 = 0) (hJ : o.J0 = 1) (hg : o.g0 = 0) :
    targetDesc w p ⟨2, 2⟩ o .v15099 = vectorDesc := by
  unfold targetDesc vectorDesc
  rw [hlib, hp, hJ, hg]
  rfl

/-- A vector operator is written. -/
theorem vector_result {w : World} {p : Params} {o : OpLabels} (hlib : w.lib = pnLib) (hp : p.format = 15099 ∧ p.output = "op.bin" ∧ p.Tz0 = 0)
    (hJ : o.J0 = 1) (hg : o.g0 = 0) (R : RME) : ∃ out, h2Result w p ⟨2, 2⟩ o R = .ok out := by
  unfold h2Result
  have e1 : formatOfCode p.format = .ok .v15099 := by
    rw [hp.1]
    rfl
  have e2 : deducedIOMode p.output = .ok .binary := by
    rw [hp.2.1]
    decide
  rw [e1, e2]
  simp only [H2.Except.ok_bind']
  rw [vector_target hlib hp.2.2 hJ hg, hlib]
  have e3 : ∃ hdr, openOut pnLib w.hf .binary .v15099 vectorDesc = .ok hdr := ⟨_, rfl⟩
  obtain ⟨hdr, e3⟩ := e3
  rw [e3, H2.Except.ok_bind']
  have e5 : ∃ st, writeHistory ⟨w.hf.fm, .v15099, .binary, vectorDesc.index pnLib⟩ (pnCalls R o vectorDesc.orbs (vectorDesc.index pnLib).sectors) ⟨0, hdr⟩ = .ok st := by
    refine H2.valid_operator_can_be_written _ vector_wf (fun s hs => ?_) (fun t => ?_) _ hdr (calls_fit _ _ _ _) (calls_index _ _ _ _)
    · exact ⟨(sector_mem hs).2.2.1, fun h => absurd (show Format.v15099 = .v0 from h) (by decide)⟩
    · have := vector_size t
      show 4 * sizeByType (vectorDesc.index pnLib).sectors t < _
      omega
  obtain ⟨st, e5⟩ := e5
  exact ⟨_, by
    rw [e5]
    rfl⟩

/-- The control file of `relative-gen`: regulator 1 fm, oscillator length 2 fm, 100 points. -/
def axialControl : Input := ⟨[["1", "0", "1", "1"], ["2"], ["LENPIC-N2LOGT", "1.0", "2.0", "100"], ["op.rel"]], true⟩

theorem axial_request : Relative.Gen.Request numbersV axialControl ⟨1, 0, 1, 1⟩ 2 (.n2logt 1 2 (100 : ℕ)) "op.rel" :=
  ⟨Relative.Gen.control_file.mp (by
    simp [Relative.Gen.readParams, Input.line, Mixer.Control.int, Mixer.Control.num, Mixer.Control.word, numbersV, axialControl, Relative.Gen.readChoice,
      H2.Except.ok_bind']), by decide⟩

/-- The world in which there is only the file of `relative-gen`. -/
noncomputable def afterAxial (hf : H2.HeaderFloat) (out : Relative.Gen.Output) : World :=
  worldC hf numbersV (fun name => if name = out.file then some (fileFrom out) else none) fun _ => none

/-- C183 for a run: two nucleons with up to two quanta. -/
theorem axial_file_partial {hf : H2.HeaderFloat} (hx : SmallExact hf) {lib : Relative.Gen.Lib} (ham : lib.am = Relative.amD) (ham12 : lib.am12 = Relative.am12D) :
    ∃ gout file, Relative.Gen.run numbersV lib axialControl = .ok gout ∧ Program.run (afterAxial hf gout) controlV = .ok (.h2 "op.bin" file) ∧
      HoldsOperator (afterAxial hf gout) .binary .v15099 vectorDesc id "op.bin" 2 1 1 (axialCurrent lib.cubic 100 2 1 7.2) (.h2 "op.bin" file) := by
  have hR : Relative.KnownRegulator 1 7.2 := .inr ⟨by norm_num, rfl⟩
  have ho : Relative.AxialLabels ⟨1, 0, 1, 1⟩ := ⟨rfl, rfl, le_rfl, le_rfl⟩
  obtain ⟨gout, hrun, hfile, hlab, hN, hgiven, h⟩ := axial_moshinsky_partial ham ham12 axial_request (by norm_num) hR ho
  have hrel : (afterAxial hf gout).rel? paramsV.input = some (fileFrom gout) := if_pos hfile.symm
  have hout : ∃ out, Program.run (afterAxial hf gout) controlV = .ok out := by
    have hg := hgiven (afterAxial hf gout) (fileFrom gout) (wrote_from gout) rfl fun T0 => swapLaw_envC _ T0
    rw [moshinsky_h2 (p := paramsV) asksV (by decide) rfl rfl hrel hg (worldC_spaces hf numbersV _ _ (truncOf paramsV)) (by decide)
      (by show 2 ≤ gout.Nmax; rw [hN]) (fun fmt _ => pnLib_basis rfl paramsV _ _ fmt (by decide))]
    exact vector_result rfl ⟨rfl, rfl, rfl⟩ (by show gout.labels.J0 = 1; rw [hlab]) (by show gout.labels.g0 = 0; rw [hlab]) _
  obtain ⟨out, ho⟩ := hout
  have hh := h (w := afterAxial hf gout) (ctl := controlV) (p := paramsV) (mode := .binary) (fmt := .v15099) (d := vectorDesc) (r := id) (wrote_from gout)
    ⟨coefficients_envC _, rfl, fun T0 => swapLaw_envC _ T0, asksV, by decide, rfl, rfl, hrel, worldC_spaces hf numbersV _ _ (truncOf paramsV),
      by decide, by decide, fun fmt _ => pnLib_basis rfl paramsV _ _ fmt (by decide), rfl, by decide, by decide, rfl, vector_expressible hx, vector_wf,
      by simp, fun _ => rfl, ho⟩
  obtain ⟨file, rfl, hh'⟩ := hh
  exact ⟨gout, file, hrun, ho, file, rfl, hh'⟩

/-- The operators quantified over exist. -/
example (cubic : List ℝ → List ℝ → ℝ) (M0 MT0 : ℤ) : ∃ O, ActsAs O 2 (component 1 1 (axialCurrent cubic 100 2 1 7.2) M0 MT0) := acts_exists 2 _

end Verif.Moshinsky
