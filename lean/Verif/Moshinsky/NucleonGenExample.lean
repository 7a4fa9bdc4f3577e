import Verif.Moshinsky.NucleonActs
import Verif.Moshinsky.NucleonExample

/-!
# The mean square distance, from its name to the H2 file

A run of `relative-gen` and one of `moshinsky` for which all hypotheses of C172 and C173 are met.
-/

namespace Verif.Moshinsky
open Verif MvPolynomial Osc Program
open Verif.SU2 hiding couple
open Verif.H2 (Format Mode Desc Sector Subspace OrbSpace Species BasisLib WriteCall Stored storedFactor InState openIn readHistory Expressible
  formatOfCode deducedIOMode)
open Verif.Relative (RelFile OpLabels Cfg cgD amD harmD unitD IsTensor IsHermitian)
open Verif.Relative.Gen (Input)
open Verif.Mixer.Control (Numbers)

/-- The file with the numbers that `relative-gen` has written. -/
noncomputable def fileFrom (out : Relative.Gen.Output) : RelFile where
  labels := out.labels
  Nmax := out.Nmax
  Jmax := out.Jmax
  blocks T0 k i j := match (out.blocks T0)[k]? with
    | some b => match b i j with
      | .ok x => x
      | .error _ => 0
    | none => 0

theorem wrote_from (out : Relative.Gen.Output) : Wrote out (fileFrom out) := by
  refine ⟨rfl, rfl, rfl, fun T0 k b hb i j x hx => ?_⟩
  simp only [fileFrom, hb, hx]

/-- The control file of `relative-gen`. -/
def rsqrControl : Input := ⟨[["0", "0", "0", "0"], ["2"], ["rsqr"], ["op.rel"]], true⟩

theorem rsqr_request : Relative.Gen.Request numbersC rsqrControl ⟨0, 0, 0, 0⟩ 2 (.plain "rsqr") "op.rel" :=
  ⟨Relative.Gen.control_file.mp (by
    simp [Relative.Gen.readParams, Input.line, Mixer.Control.int, Mixer.Control.word, numbersC, rsqrControl, Relative.Gen.readChoice, H2.Except.ok_bind']), by decide⟩

/-- The world in which there is only the file of `relative-gen`. -/
noncomputable def afterGen (hf : H2.HeaderFloat) (out : Relative.Gen.Output) : World :=
  worldC hf numbersC (fun name => if name = out.file then some (fileFrom out) else none) fun _ => none

/-- C173, without hypotheses: asked for `rsqr`, `relative-gen` writes a file from which `moshinsky` writes the elements of the square of the
distance between the states of two nucleons with up to two quanta. -/
theorem rsqr_file (hf : H2.HeaderFloat) {lib : Relative.Gen.Lib} (hlib : lib.am = amD) :
    ∃ gout file, Relative.Gen.run numbersC lib rsqrControl = .ok gout ∧ Program.run (afterGen hf gout) controlC = .ok (.h2 "op.bin" file) ∧
      ∀ k s, (scalarDesc.index pnLib).sectors[k]? = some s → ∃ start m st,
      openIn pnLib hf .binary file = .ok (.v0, scalarDesc, start) ∧
      readHistory ⟨hf.fm, .v0, .binary, scalarDesc.index pnLib⟩ file [k] (InState.init start) = .ok ([m], st) ∧
      m.rows = s.bra.size ∧ m.cols = s.ket.size ∧
      ∀ i j x y, s.bra.states[i]? = some x → s.ket.states[j]? = some y → i ≤ j → ∃ e : ℝ,
        m.val i j = hf.fm.ofF32 (hf.fm.toF32 (if |e| < 1e-14 * (H2.pairNorm s.bra.species x * H2.pairNorm s.ket.species y) then 0 else e)) ∧
        ∀ M M', nasElement (onMotion distanceSq) scalarDesc.orbs s x y M M' = Osc.cg s.ket.J M' 0 0 s.bra.J M * e := by
  have hlab : Relative.SqrLabels ⟨0, 0, 0, 0⟩ 0 := by unfold Relative.SqrLabels; decide
  have hlaws : Relative.Gen.SpaceLaws cgD lib.am harmD unitD 2 := hlib ▸ Relative.space_laws 2
  obtain ⟨gout, hrun, hfile, glab, gN, gJ, hgiven⟩ := gen_given hlaws rsqr_request .rsqr hlab
  have hrel : (afterGen hf gout).rel? paramsC.input = some (fileFrom gout) := if_pos hfile.symm
  have hout : ∃ out, Program.run (afterGen hf gout) controlC = .ok out := by
    have hg := hgiven (afterGen hf gout) (fileFrom gout) (wrote_from gout) rfl fun T0 => swapLaw_envC _ T0
    have h := moshinsky_h2 (w := afterGen hf gout) (f := fileFrom gout) asksC (by decide) rfl rfl hrel hg
      (worldC_spaces hf numbersC _ _ (truncOf paramsC)) (by decide) (by show _ ≤ gout.Nmax; rw [gN]; exact le_refl 2)
      (fun fmt _ => pnLib_basis rfl paramsC _ _ fmt (by decide))
    rw [h]
    exact scalar_result rfl ⟨rfl, rfl, rfl⟩ (by show gout.labels.J0 = 0; rw [glab]) (by show gout.labels.g0 = 0; rw [glab]) _
  obtain ⟨out, ho⟩ := hout
  obtain ⟨gout', hrun', -, h⟩ := physical_moshinsky (w := afterGen hf gout) (ctl := controlC) (p := paramsC) (f := fileFrom gout) hlaws rsqr_request .rsqr hlab
  obtain rfl : gout = gout' := Except.ok.inj (hrun.symm.trans hrun')
  obtain ⟨file, rfl, h⟩ := h (wrote_from gout) (coefficients_envC _) rfl (fun T0 => swapLaw_envC _ T0) asksC (by decide) rfl rfl hrel
    (worldC_spaces hf numbersC _ _ (truncOf paramsC)) (by decide) (le_refl 2) (fun fmt _ => pnLib_basis rfl paramsC _ _ fmt (by decide))
    (fmt := .v0) (mode := .binary) rfl (by decide) (by decide)
    (d := scalarDesc) rfl (scalar_expressible hf _) (scalar_wf) id (by simp) (fun _ => rfl) ho
  refine ⟨gout, file, hrun, ho, fun k s hk => ?_⟩
  obtain ⟨start, m, st, q1, q2, q3, q4, q5⟩ := h k s hk
  refine ⟨start, m, st, q1, q2, q3, q4, fun i j x y hx hy hij => ?_⟩
  obtain ⟨e, he, hO⟩ := q5 i j x y hx hy fun _ => hij
  refine ⟨e, he, fun M M' => ?_⟩
  have hm := List.mem_of_getElem? hk
  have := hO 0 0 (by decide) (by rw [scalar_wf s hm (scalar_same hm), sub_self]) M M'
  rwa [if_pos (by decide)] at this

end Verif.Moshinsky
