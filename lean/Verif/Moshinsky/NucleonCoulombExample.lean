import Verif.Moshinsky.NucleonCoulomb
import Verif.Moshinsky.NucleonGenExample

/-!
# The Coulomb operator between protons, from its name to the H2 file

A run of `relative-gen` and one of `moshinsky` for which all hypotheses of C179 are met.
-/

namespace Verif.Moshinsky
open Verif MvPolynomial Osc Program
open Verif.SU2 hiding couple
open Verif.H2 (Format Mode Desc Sector Subspace OrbSpace Species BasisLib WriteCall Stored storedFactor InState openIn readHistory Expressible
  formatOfCode deducedIOMode)
open Verif.Relative (RelFile OpLabels Cfg cgD amD harmD unitD OpType)
open Verif.Relative.Gen (Input)
open Verif.Mixer.Control (Numbers)

/-! ## Operators on the distance -/

/-- The labels of two states of the same angular momentum and centre-of-mass motion, with up to `Nmax` quanta. -/
noncomputable def centralLabels (Nmax : ℕ) : Finset (ℕ × ℕ × ℕ × ℤ × ℕ × ℕ × ℤ) :=
  (Finset.range (Nmax + 1) ×ˢ Finset.range (Nmax + 1) ×ˢ Finset.range (Nmax + 1) ×ˢ Finset.Icc (-(Nmax : ℤ)) Nmax ×ˢ Finset.range (Nmax + 1) ×ˢ
    Finset.range (Nmax + 1) ×ˢ Finset.Icc (-(Nmax : ℤ)) Nmax).filter fun i => |i.2.2.2.1| ≤ i.2.2.1 ∧ |i.2.2.2.2.2.2| ≤ i.2.2.2.2.2.1

/-- There are operators on the distance with any radial elements. -/
theorem central_exists (Nmax : ℕ) (v : ℕ → ℕ → ℕ → ℝ) : ∃ V : Two →ₗ[ℝ] Two, IsCentral V Nmax v := by
  let st : ℕ → ℕ → ℤ → ℕ → ℕ → ℤ → Two := fun n l m n2 l2 m2 => single relative n l m * single centre n2 l2 m2
  refine ⟨∑ i ∈ centralLabels Nmax, v i.1 i.2.1 i.2.2.1 • (fockL (st i.2.1 i.2.2.1 i.2.2.2.1 i.2.2.2.2.1 i.2.2.2.2.2.1 i.2.2.2.2.2.2)).smulRight
    (st i.1 i.2.2.1 i.2.2.2.1 i.2.2.2.2.1 i.2.2.2.2.2.1 i.2.2.2.2.2.2), ?_⟩
  intro n l n2 l2 n' l' n2' l2' m m2 m' m2' h1 h2 h3 h4 hN hN'
  have e : ∀ i ∈ centralLabels Nmax, fock (st n l m n2 l2 m2) ((v i.1 i.2.1 i.2.2.1 • (fockL (st i.2.1 i.2.2.1 i.2.2.2.1 i.2.2.2.2.1 i.2.2.2.2.2.1 i.2.2.2.2.2.2)).smulRight
      (st i.1 i.2.2.1 i.2.2.2.1 i.2.2.2.2.1 i.2.2.2.2.2.1 i.2.2.2.2.2.2)) (st n' l' m' n2' l2' m2')) =
      if i = (n, n', l, m, n2, l2, m2) ∧ (l, m, n2, l2, m2) = (l', m', n2', l2', m2') then v n n' l else 0 := by
    rintro ⟨a, a', b, c, d, f, g⟩ hi
    simp only [centralLabels, Finset.mem_filter] at hi
    rw [LinearMap.smul_apply, LinearMap.smulRight_apply, fockL_apply, fock_smul_right, fock_smul_right]
    dsimp only [st]
    rw [motion_ortho h1 h2, motion_ortho hi.2.1 hi.2.2]
    simp only [Prod.mk.injEq]
    by_cases k : (a = n ∧ a' = n' ∧ b = l ∧ c = m ∧ d = n2 ∧ f = l2 ∧ g = m2) ∧ l = l' ∧ m = m' ∧ n2 = n2' ∧ l2 = l2' ∧ m2 = m2'
    · rw [if_pos k]
      obtain ⟨⟨rfl, rfl, rfl, rfl, rfl, rfl, rfl⟩, rfl, rfl, rfl, rfl, rfl⟩ := k
      simp
    · rw [if_neg k]
      by_cases k1 : (n = a ∧ l = b ∧ m = c) ∧ n2 = d ∧ l2 = f ∧ m2 = g
      · rw [if_neg (c := (a' = n' ∧ b = l' ∧ c = m') ∧ d = n2' ∧ f = l2' ∧ g = m2'), zero_mul, mul_zero]
        intro k2
        refine k ⟨⟨k1.1.1.symm, k2.1.1, k1.1.2.1.symm, k1.1.2.2.symm, k1.2.1.symm, k1.2.2.1.symm, k1.2.2.2.symm⟩,
          k1.1.2.1.trans k2.1.2.1, k1.1.2.2.trans k2.1.2.2, k1.2.1.trans k2.2.1, k1.2.2.1.trans k2.2.2.1, k1.2.2.2.trans k2.2.2.2⟩
      · rw [if_neg k1, mul_zero, mul_zero]
  rw [LinearMap.sum_apply, fock_sum_right]
  refine (Finset.sum_congr rfl e).trans ?_
  by_cases k : (l, m, n2, l2, m2) = (l', m', n2', l2', m2')
  · rw [if_pos k, Finset.sum_eq_single_of_mem (n, n', l, m, n2, l2, m2)]
    · rw [if_pos ⟨rfl, k⟩]
    · simp only [centralLabels, Finset.mem_filter, Finset.mem_product, Finset.mem_range, Finset.mem_Icc]
      rw [abs_le] at h1 h2
      refine ⟨⟨by omega, by omega, by omega, ⟨by omega, by omega⟩, by omega, by omega, by omega, by omega⟩, abs_le.mpr h1, abs_le.mpr h2⟩
    · intro i _ hne
      rw [if_neg fun x => hne x.1]
  · rw [if_neg k]
    refine Finset.sum_eq_zero fun i _ => if_neg fun x => k x.2

/-! ## The run -/

/-- The control file of `relative-gen`. -/
def coulombControl : Input := ⟨[["0", "0", "0", "2"], ["2"], ["coulomb", "p", "2"], ["op.rel"]], true⟩

theorem coulomb_request : Relative.Gen.Request numbersC coulombControl ⟨0, 0, 0, 2⟩ 2 (.coulomb .p 2) "op.rel" :=
  ⟨Relative.Gen.control_file.mp (by
    simp [Relative.Gen.readParams, Input.line, Mixer.Control.int, Mixer.Control.word, numbersC, coulombControl, Relative.Gen.readChoice, H2.Except.ok_bind']), by decide⟩

/-- C179 for a run: asked for the Coulomb operator between protons, `relative-gen` writes a file from which `moshinsky` writes the elements of
an operator on the distance, between protons, for the states of two nucleons with up to two quanta; and there is such an operator. -/
theorem coulomb_file (hf : H2.HeaderFloat) {lib : Relative.Gen.Lib} (hv : ∀ n' n l, lib.coulomb 2 n' n l = lib.coulomb 2 n n' l) :
    ∃ gout file V, Relative.Gen.run numbersC lib coulombControl = .ok gout ∧ Program.run (afterGen hf gout) controlC = .ok (.h2 "op.bin" file) ∧
      IsCentral V 2 (fun n' n l => 1 / √2 * lib.coulomb 2 n' n l) ∧
      ∀ k s, (scalarDesc.index pnLib).sectors[k]? = some s → ∃ start m st,
      openIn pnLib hf .binary file = .ok (.v0, scalarDesc, start) ∧
      readHistory ⟨hf.fm, .v0, .binary, scalarDesc.index pnLib⟩ file [k] (InState.init start) = .ok ([m], st) ∧
      m.rows = s.bra.size ∧ m.cols = s.ket.size ∧
      ∀ i j x y, s.bra.states[i]? = some x → s.ket.states[j]? = some y → i ≤ j → ∃ e : ℝ,
        m.val i j = hf.fm.ofF32 (hf.fm.toF32 (if |e| < 1e-14 * (H2.pairNorm s.bra.species x * H2.pairNorm s.ket.species y) then 0 else e)) ∧
        ∀ M M', (if s.ket.species = .pp then nasElement (onMotion V) scalarDesc.orbs s x y M M' else 0) = Osc.cg s.ket.J M' 0 0 s.bra.J M * e := by
  have hlab : CoulombLabels .p ⟨0, 0, 0, 2⟩ := ⟨rfl, rfl, rfl, .inr rfl⟩
  obtain ⟨gout, hrun, hfile, glab, gN, gJ, hgiven⟩ := coulomb_given coulomb_request hlab hv
  have hrel : (afterGen hf gout).rel? paramsC.input = some (fileFrom gout) := if_pos hfile.symm
  have hout : ∃ out, Program.run (afterGen hf gout) controlC = .ok out := by
    have hg := hgiven (afterGen hf gout) (fileFrom gout) (wrote_from gout) rfl fun T0 => swapLaw_envC _ T0
    have h := moshinsky_h2 (w := afterGen hf gout) (f := fileFrom gout) asksC (by decide) rfl rfl hrel hg
      (worldC_spaces hf numbersC _ _ (truncOf paramsC)) (by decide) (by show _ ≤ gout.Nmax; rw [gN]; exact le_refl 2)
      (fun fmt _ => pnLib_basis rfl paramsC _ _ fmt (by decide))
    rw [h]
    exact scalar_result rfl ⟨rfl, rfl, rfl⟩ (by show gout.labels.J0 = 0; rw [glab]) (by show gout.labels.g0 = 0; rw [glab]) _
  obtain ⟨out, ho⟩ := hout
  obtain ⟨gout', hrun', -, h⟩ := coulomb_moshinsky (w := afterGen hf gout) (ctl := controlC) (p := paramsC) (f := fileFrom gout) coulomb_request hlab hv
  obtain rfl : gout = gout' := Except.ok.inj (hrun.symm.trans hrun')
  obtain ⟨file, rfl, h⟩ := h (wrote_from gout) (coefficients_envC _) rfl (fun T0 => swapLaw_envC _ T0) asksC (by decide) rfl rfl hrel
    (worldC_spaces hf numbersC _ _ (truncOf paramsC)) (by decide) (le_refl 2) (fun fmt _ => pnLib_basis rfl paramsC _ _ fmt (by decide))
    (fmt := .v0) (mode := .binary) rfl (by decide) (by decide)
    (d := scalarDesc) rfl (scalar_expressible hf _) (scalar_wf) id (by simp) (fun _ => rfl) ho
  obtain ⟨V, hV⟩ := central_exists 2 fun n' n l => 1 / √2 * lib.coulomb 2 n' n l
  refine ⟨gout, file, V, hrun, ho, hV, fun k s hk => ?_⟩
  obtain ⟨start, m, st, q1, q2, q3, q4, q5⟩ := h k s hk
  refine ⟨start, m, st, q1, q2, q3, q4, fun i j x y hx hy hij => ?_⟩
  obtain ⟨e, he, hO⟩ := q5 i j x y hx hy fun _ => hij
  refine ⟨e, he, fun M M' => ?_⟩
  have hm := List.mem_of_getElem? hk
  exact hO (by rw [scalar_wf s hm (scalar_same hm)]) V hV M M'

end Verif.Moshinsky
