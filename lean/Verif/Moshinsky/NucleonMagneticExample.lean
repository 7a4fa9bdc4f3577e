import Verif.Moshinsky.NucleonMagnetic
import Verif.Moshinsky.NucleonAxialExample
import Verif.Relative.TrueMagneticExample

/-!
# The magnetic dipole operator, from its name to the H2 file

A run of `relcm-gen` and one of `moshinsky` for which all hypotheses of C185 are met.
-/

namespace Verif.Moshinsky
open Verif MvPolynomial Osc Program
open Verif.SU2 hiding couple
open Verif.H2 (Format Mode)
open Verif.Relative (cgD)
open Verif.Relative.Relcm (Sub State SpaceOK)
open Verif.Relative.Gen (Input)

/-- A subspace as `relcm-gen` has it. -/
def subOf (x : LSSub) : Sub := ⟨x.L, x.S, x.J, x.T, x.g, x.states.map stateOf⟩

/-- The subspaces of the relative-cm space. -/
noncomputable def magneticSpace (N : ℕ) : List Sub := (rcSpace N).map subOf

theorem magneticSpace_ok (N : ℕ) : SpaceOK N (magneticSpace N) := by
  have m : ∀ x ∈ rcSpace N, ∀ p ∈ (subOf x).states, Relative.Relcm.StateOK N p ∧ Relative.tri p.lr p.lc x.L = true := by
    intro x hx p hp
    obtain ⟨r, hr, rfl⟩ := List.mem_map.mp hp
    obtain ⟨⟨a1, a2⟩, ⟨b1, b2⟩, c, d, _⟩ := ((rcSpace_ok N).states x hx r).mp hr
    have hN := ((rcSpace_ok N).valid x hx).N
    exact ⟨⟨a1, b1, by simp only [stateOf]; omega, by simp only [stateOf]; omega, by simp only [stateOf]; omega⟩, decide_eq_true d⟩
  refine ⟨fun s hs => ?_, fun s hs p hp => ?_⟩
  · obtain ⟨x, hx, rfl⟩ := List.mem_map.mp hs
    have v := (rcSpace_ok N).valid x hx
    exact ⟨v.S, v.T, fun p hp => (m x hx p hp).1⟩
  · obtain ⟨x, hx, rfl⟩ := List.mem_map.mp hs
    exact (m x hx p hp).2

/-- A file with the elements that `relcm-gen` has written. -/
theorem scattered_of {w : World} {out : Relative.Relcm.Output} {m : ℕ → Blocks} (hsec : out.sectors = Relative.Relcm.sectorsOf out.labels ((w.rcs out.Nmax).map subOf))
    (hJ : out.labels.J0 = 1) {A : Int → Int → Relative.Relcm.Cfg → Relative.Relcm.Cfg → ℝ} (hs : Relative.Relcm.Stores cgD 1 1 A out.sectors out.blocks)
    (hg : GivenRC w ⟨out.labels, out.Nmax, m⟩ (onlyOne (rcElements A))) : Scattered w out ⟨out.labels, out.Nmax, m⟩ := by
  refine ⟨rfl, rfl, fun T0 hmin hmax n b k x y hn hb hk i j s t hi hj => ?_⟩
  have he := hg.holds T0 hmin hmax n b k x y hn hb hk i j s t hi hj
  obtain ⟨hbk, a, a', ha, ha', hal⟩ := mem_sectorPairs.mp (List.mem_of_getElem? hn)
  rw [List.getElem?_map, hb] at ha
  rw [List.getElem?_map, hk] at ha'
  obtain rfl : LSSub.qn x = a := Option.some.inj ha
  obtain rfl : LSSub.qn y = a' := Option.some.inj ha'
  simp only [allowedQ, Bool.and_eq_true, decide_eq_true_eq] at hal
  have hm : (subOf x, subOf y) ∈ out.sectors T0 := by
    rw [hsec]
    refine Relative.Relcm.mem_sectorsOf.mpr ⟨⟨hmin, hmax⟩, b, k, hbk, ?_, ?_, hal.1.1, hal.1.2, hal.2⟩
    · rw [List.getElem?_map, hb]
      rfl
    · rw [List.getElem?_map, hk]
      rfl
  obtain ⟨κ, hκ, e⟩ := List.mem_iff_getElem.mp hm
  have si : (subOf x).states[i]? = some (stateOf s) := by
    show (x.states.map stateOf)[i]? = _
    rw [List.getElem?_map, hi]
    rfl
  have sj : (subOf y).states[j]? = some (stateOf t) := by
    show (y.states.map stateOf)[j]? = _
    rw [List.getElem?_map, hj]
    rfl
  have e1 : (out.sectors T0)[κ]? = some (subOf x, subOf y) := by
    rw [List.getElem?_eq_getElem hκ, e]
  by_cases h1 : T0 = 1
  · subst h1
    have hκ' : κ < (out.blocks 1).length := hs.1.length_eq ▸ hκ
    have hh := hs.1.get hκ hκ'
    simp only [List.get_eq_getElem, e] at hh
    obtain ⟨v, hv, hr⟩ := hh i j _ _ si sj
    refine ⟨κ, i, j, _, _, e1, List.getElem?_eq_getElem hκ', rfl, rfl, si, sj, ?_⟩
    rw [hv, he]
    have hval := value_eq (A := A) (s' := bare x.lsjt) (s := bare y.lsjt) (p' := stateOf s) (p := stateOf t) (x := v)
      (by have := hal.1.1; rw [hJ] at this; exact this) hal.1.2 (reduced_bare rfl rfl hr)
    rw [← hval]
    rfl
  · have hκ' : κ < (out.blocks T0).length := (hs.2 T0 h1).length_eq ▸ hκ
    have hh := (hs.2 T0 h1).get hκ hκ'
    simp only [List.get_eq_getElem] at hh
    refine ⟨κ, i, j, _, _, e1, List.getElem?_eq_getElem hκ', rfl, rfl, si, sj, ?_⟩
    rw [hh, he, onlyOne, if_neg h1]

def controlM : Input := ⟨[["tb", "2"], ["out", "relcm"], ["op.bin", "jjjpn", "15099", "0"]], true⟩

def paramsM : Params := ⟨false, 2, "out", .relcm, "op.bin", .jjjpn, 15099, 0⟩

theorem asksM : Asks numbersV controlM paramsM :=
  ⟨⟨"2", [], rfl, rfl⟩, ⟨[], rfl⟩, ⟨_, rfl, fun _ => ⟨"15099", "0", [], rfl, rfl, rfl⟩, fun h => absurd rfl h⟩⟩

/-- The world in which there is only the file of `relcm-gen`. -/
noncomputable def afterMagnetic (hf : H2.HeaderFloat) (name : String) (g : RCFile) : World :=
  worldC hf numbersV (fun _ => none) fun s => if s = name then some g else none

/-- C185 for a run: regulator 1 fm, oscillator length 2 fm, two nucleons with up to two quanta. -/
theorem magnetic_file {hf : H2.HeaderFloat} (hx : SmallExact hf) (cubic : List ℝ → List ℝ → ℝ) :
    ∃ gout g file, Relative.Relcm.run Relative.Relcm.Ex.nm (Relative.Relcm.libD cubic magneticSpace) (Relative.Relcm.Ex.file "1" "LENPIC-NLOM1") = .ok gout ∧
      Scattered (afterMagnetic hf gout.file g) gout g ∧ Program.run (afterMagnetic hf gout.file g) controlM = .ok (.h2 "op.bin" file) ∧
      HoldsOperatorRC (afterMagnetic hf gout.file g) .binary .v15099 vectorDesc id "op.bin" 2 (magnetic cubic 1 2) (.h2 "op.bin" file) := by
  obtain ⟨gout, hrun, hfile, hlab, hN, hsec, hst, hgiven, h⟩ := magnetic_moshinsky (cubic := cubic) (space := magneticSpace) Relative.Relcm.Ex.file_ok rfl
    ⟨by decide, by decide, by decide, by decide, by decide⟩ ⟨by decide, by decide, by decide, by decide⟩ (by norm_num) (magneticSpace_ok _)
  have hN' : gout.Nmax = 2 := by
    simp only at hN
    omega
  have hJ : gout.labels.J0 = 1 := by rw [hlab]; rfl
  have hg0 : gout.labels.g0 = 0 := by rw [hlab]; rfl
  obtain ⟨m, hm⟩ := exists_file (worldC hf numbersV (fun _ => none) fun _ => none) gout.labels gout.Nmax (onlyOne (rcElements (magnetic cubic 1 2)))
    (by rw [hlab]; decide) (fun T0 _ _ => by
      unfold onlyOne
      split_ifs
      · exact rc_sym (Relative.Relcm.m1_conjugate _ _ _ _) T0
      · intro q q' r s
        rw [mul_zero])
  let g : RCFile := ⟨gout.labels, gout.Nmax, m⟩
  have hg : GivenRC (afterMagnetic hf gout.file g) g (onlyOne (rcElements (magnetic cubic 1 2))) := ⟨hm.holds, hm.sym, hm.three⟩
  have hscat : Scattered (afterMagnetic hf gout.file g) gout g := scattered_of (by
    rw [hsec, hN']
    rfl) hJ hst hg
  have hin : (afterMagnetic hf gout.file g).rc? paramsM.input = some g := if_pos hfile.symm
  have hsp : Spaces (afterMagnetic hf gout.file g) (truncOf paramsM) g.Nmax := by
    show Spaces _ _ gout.Nmax
    rw [hN']
    exact worldC_spaces hf numbersV _ _ (truncOf paramsM)
  obtain ⟨out, ho⟩ : ∃ out, Program.run (afterMagnetic hf gout.file g) controlM = .ok out := by
    rw [moshinsky_relcm_to_h2 (p := paramsM) asksM (by decide) rfl rfl hin hg hsp (by decide) fun fmt _ => pnLib_basis rfl paramsM _ _ fmt (by decide)]
    exact vector_result rfl ⟨rfl, rfl, rfl⟩ hJ hg0 _
  have hh := h (w := afterMagnetic hf gout.file g) (ctl := controlM) (p := paramsM) (mode := .binary) (fmt := .v15099) (d := vectorDesc) (r := id) hscat
    ⟨nineC_isNine, angularEnv_angular, rfl, asksM, by decide, rfl, rfl, hin, hsp, by decide, fun fmt _ => pnLib_basis rfl paramsM _ _ fmt (by decide),
      rfl, by decide, by decide, (vector_target rfl rfl hJ hg0).symm, vector_expressible hx, vector_wf, by simp, fun _ => rfl, ho⟩
  obtain ⟨file, rfl, hh'⟩ := hh
  exact ⟨gout, g, file, hrun, hscat, ho, file, rfl, hh'⟩

/-- The operators quantified over exist. -/
example (cubic : List ℝ → List ℝ → ℝ) (M0 MT0 : ℤ) : ∃ O, ActsAsRC O 2 (componentRC (magnetic cubic 1 2) M0 MT0) := actsRC_exists 2 _

end Verif.Moshinsky
