import Verif.Moshinsky.NucleonInteraction
import Verif.Relative.TrueCurrent

/-!
# The axial current

The operator `LENPIC-N2LOGT` of `relative-gen` reaches the H2 file as the two-body current between states of two nucleons.
-/

namespace Verif.Moshinsky
open Verif MvPolynomial Osc Program
open Verif.SU2 hiding couple
open Verif.H2 (Mode Desc Sector Species Format openIn readHistory InState)
open Verif.Relative (RelFile RelSub OpLabels Cfg IsTensor IsHermitian cgD)
open Verif.Relative.Gen (Input)

/-! ## Operators with given elements -/

abbrev ProdLabel := LSPair × ℤ × ℤ × Fin 2 × Fin 2 × Fin 2 × Fin 2

noncomputable def prodLabels (Nmax : ℕ) : Finset ProdLabel :=
  open Classical in
  ((Finset.range (Nmax + 1) ×ˢ Finset.range (Nmax + 1) ×ˢ Finset.range (Nmax + 1) ×ˢ Finset.range (Nmax + 1)) ×ˢ
    Finset.Icc (-(Nmax : ℤ)) Nmax ×ˢ Finset.Icc (-(Nmax : ℤ)) Nmax ×ˢ (Finset.univ : Finset (Fin 2 × Fin 2 × Fin 2 × Fin 2))).filter fun i =>
    Moshinsky.Osc i.1.1 i.1.2.1 ∧ Moshinsky.Osc i.1.2.2.1 i.1.2.2.2 ∧ i.1.1 + i.1.2.2.1 ≤ Nmax ∧ |i.2.1| ≤ i.1.2.1 ∧ |i.2.2.1| ≤ i.1.2.2.2

theorem mem_prodLabels {Nmax : ℕ} {i : ProdLabel} : i ∈ prodLabels Nmax ↔
    Moshinsky.Osc i.1.1 i.1.2.1 ∧ Moshinsky.Osc i.1.2.2.1 i.1.2.2.2 ∧ i.1.1 + i.1.2.2.1 ≤ Nmax ∧ |i.2.1| ≤ i.1.2.1 ∧ |i.2.2.1| ≤ i.1.2.2.2 := by
  unfold prodLabels
  simp only [Finset.mem_filter, Finset.mem_product, Finset.mem_range, Finset.mem_Icc, Finset.mem_univ, and_true]
  constructor
  · exact fun h => h.2
  · intro h
    refine ⟨?_, h⟩
    obtain ⟨⟨h1, h2⟩, ⟨h3, h4⟩, h5, h6, h7⟩ := h
    rw [abs_le] at h6 h7
    omega

theorem spins_ortho (σ σ' a a' : Fin 2) : ∑ x, ∑ y, spins σ σ' x y * spins a a' x y = if σ = a ∧ σ' = a' then 1 else 0 := by
  revert σ σ' a a'
  simp [spins, Fin.forall_fin_two, Fin.sum_univ_two]

/-- Product states are orthonormal. -/
theorem prod_ortho {Nmax : ℕ} {i k : ProdLabel} (hi : i ∈ prodLabels Nmax) (hk : k ∈ prodLabels Nmax) :
    inner (prodState i.1 i.2.1 i.2.2.1 i.2.2.2.1 i.2.2.2.2.1 i.2.2.2.2.2.1 i.2.2.2.2.2.2)
      (prodState k.1 k.2.1 k.2.2.1 k.2.2.2.1 k.2.2.2.2.1 k.2.2.2.2.2.1 k.2.2.2.2.2.2) = if i = k then 1 else 0 := by
  rw [mem_prodLabels] at hi hk
  obtain ⟨⟨a, b, c, d⟩, m, mc, σ, σ', τ, τ'⟩ := i
  obtain ⟨⟨a', b', c', d'⟩, m', mc', x, x', y, y'⟩ := k
  obtain ⟨⟨h1, h2⟩, ⟨h3, h4⟩, h5, h6, h7⟩ := hi
  obtain ⟨⟨k1, k2⟩, ⟨k3, k4⟩, k5, k6, k7⟩ := hk
  dsimp only at *
  unfold prodState
  rw [inner_ten, spins_ortho, spins_ortho, motion_ortho h6 h7, delta_mul, delta_mul]
  refine if_congr ?_ rfl rfl
  simp only [Prod.mk.injEq]
  constructor
  · rintro ⟨⟨⟨rfl, rfl⟩, rfl, rfl⟩, ⟨e1, e2, rfl⟩, e3, e4, rfl⟩
    refine ⟨⟨?_, ?_, ?_, ?_⟩, rfl, rfl, rfl, rfl, rfl, rfl⟩ <;> omega
  · rintro ⟨⟨rfl, rfl, rfl, rfl⟩, rfl, rfl, rfl, rfl, rfl, rfl⟩
    simp

/-- For all elements there is an operator that has them. -/
theorem acts_exists (Nmax : ℕ) (A : Cfg → Cfg → ℝ) : ∃ O, ActsAs O Nmax A := by
  obtain ⟨O, hO⟩ := exists_operator (prodLabels Nmax) (fun i => prodState i.1 i.2.1 i.2.2.1 i.2.2.2.1 i.2.2.2.2.1 i.2.2.2.2.2.1 i.2.2.2.2.2.2)
    (fun i hi => (prod_ortho hi hi).trans (if_pos rfl)) (fun i hi k hk hne => (prod_ortho hi hk).trans (if_neg hne)) fun i k =>
    if (i.1.2.2, i.2.2.1) = (k.1.2.2, k.2.2.1) then A (cfg i.1 i.2.1 i.2.2.2.1 i.2.2.2.2.1 i.2.2.2.2.2.1 i.2.2.2.2.2.2)
      (cfg k.1 k.2.1 k.2.2.2.1 k.2.2.2.2.1 k.2.2.2.2.2.1 k.2.2.2.2.2.2) else 0
  refine ⟨O, fun r r' m mc m' mc' σ σ' τ τ' a a' b b' h1 h2 h3 h4 h5 h6 h7 h8 h9 h10 => ?_⟩
  exact hO (r, m, mc, σ, σ', τ, τ') (mem_prodLabels.mpr ⟨h1, h2, h5, h7, h8⟩) (r', m', mc', a, a', b, b') (mem_prodLabels.mpr ⟨h3, h4, h6, h9, h10⟩)

variable {w : World} {ctl : Input} {p : Params} {f : RelFile}

/-- In the file that `moshinsky` writes to `output`, opened again, the element between two states is, but for the rounding to single precision and values
below `10⁻¹⁴`, the reduced element of the operator `A` on the relative motion. -/
def HoldsOperator (w : World) (mode : Mode) (fmt : Format) (d : Desc) (r : BitVec 32 → BitVec 32) (output : String) (Nmax J0 T0 : ℕ)
    (A : Int → Int → Cfg → Cfg → ℝ) (out : Output) : Prop :=
  ∃ file, out = .h2 output file ∧ ∀ k s, (d.index w.lib).sectors[k]? = some s → ∃ start m st,
    openIn w.lib w.hf mode file = .ok (fmt, d, start) ∧
    readHistory ⟨w.hf.fm, fmt, mode, d.index w.lib⟩ file [k] (InState.init start) = .ok ([m], st) ∧
    m.rows = s.bra.size ∧ m.cols = s.ket.size ∧
    ∀ i j x y, s.bra.states[i]? = some x → s.ket.states[j]? = some y → (s.braIndex = s.ketIndex → i ≤ j) → ∃ e : ℝ,
      m.val i j = w.hf.fm.ofF32 (r (w.hf.fm.toF32
        (if |e| < 1e-14 * (H2.pairNorm s.bra.species x * H2.pairNorm s.ket.species y) then 0 else e))) ∧
      ∀ (M0 : ℤ) (O : Nucl →ₗ[ℝ] Nucl), ActsAs O Nmax (component J0 T0 A M0 (projection s.bra.species - projection s.ket.species)) →
        ∀ M M', nasElement O d.orbs s x y M M' = Osc.cg s.ket.J M' J0 M0 s.bra.J M * e

/-- A Hermitian tensor operator that the relative file holds is in the H2 file. -/
theorem stored_moshinsky {o : OpLabels} {N : ℕ} {gfile : String} {op : Relative.RelOp} {T0 : ℕ} {A : Int → Int → Cfg → Cfg → ℝ}
    (hs : Relative.Stores cgD o.J0 T0 A (Relative.Gen.allSectors o N) op) (hten : IsTensor o.J0 T0 A) (hher : IsHermitian o.J0 T0 A) (h3 : o.T0max ≤ 2)
    (hT : o.T0min ≤ T0 ∧ T0 ≤ o.T0max) {mode : Mode} {fmt : Format} {d : Desc} {r : BitVec 32 → BitVec 32} {out : Output}
    (hw : Wrote ⟨gfile, o, N, N + 1, Relative.Gen.allSectors o N, op⟩ f) (h : MakesH2 w ctl p f o N mode fmt d r out) :
    HoldsOperator w mode fmt d r p.output (truncOf p).N2max o.J0 T0 A out := by
  have hlab : f.labels = o := hw.labels
  have hNm : f.Nmax = N := hw.Nmax
  have hJm : f.Jmax = N + 1 := hw.Jmax
  have hg : Given w f (onlyIn T0 (relElements o.J0 T0 A)) := by
    refine ⟨fun t _ _ => ?_, by rw [hlab]; exact h.law, by rw [hlab]; exact h3⟩
    rw [h.swap]
    exact file_holds hw hs hher t
  obtain ⟨file, hout, hall⟩ := moshinsky_operator h.coefficients h.asks h.cutoff h.source h.target h.input hg h.spaces h.bound (by rw [hNm]; exact h.enough)
    (by rw [hlab]; exact h.basis) h.format h.modeOf h.matrix (by rw [hlab]; exact h.desc) h.expressible h.wf r h.text h.binary h.run
  refine ⟨file, hout, fun k s hk => ?_⟩
  obtain ⟨start, m, st, q1, q2, q3, q4, q5⟩ := hall k s hk
  refine ⟨start, m, st, q1, q2, q3, q4, fun i j x y hxi hyj hij => ?_⟩
  obtain ⟨e, he, hO⟩ := q5 i j x y hxi hyj hij
  refine ⟨e, he, fun M0 O hact M M' => ?_⟩
  have hrel := hO M0 (fun t => if t = T0 then O else 0) (fun t _ _ => ?_) M M'
  · rw [hlab] at hrel
    rw [← hrel, trueElement, Finset.sum_eq_single_of_mem T0 (Finset.mem_Icc.mpr hT)]
    · rw [if_pos rfl]
      rfl
    · intro t _ hne
      rw [if_neg hne, LinearMap.zero_apply, ← innerL_apply, map_zero]
  · rw [hlab, hJm]
    unfold onlyIn
    by_cases h0 : t = T0
    · subst h0
      rw [if_pos rfl, if_pos rfl]
      exact acts_relative hten hact (by have := h.enough; push_cast; omega)
    · rw [if_neg h0, if_neg h0]
      exact relative_zero _ _ _ _ _ _

/-- The current that `relative-gen` means: radial integrals by the rule of the program with `steps` points, the contact term between all states of equal `L`. -/
noncomputable def axialCurrent (cubic : List ℝ → List ℝ → ℝ) (steps : ℕ) (b R cD : ℝ) : Int → Int → Cfg → Cfg → ℝ :=
  Relative.Axial.current cgD Relative.harmC (Relative.radialInt cubic steps (Real.sqrt 2 * b)) (Real.sqrt 2 * b) R
    (Relative.Axial.contactAll (Relative.radialInt cubic steps (Real.sqrt 2 * b)) (Real.sqrt 2 * b) R (Relative.Axial.dConst cD))

/-- **C183 (`_partial`).**  Asked for `LENPIC-N2LOGT`, with labels and regulator that belong to it, `relative-gen` writes a relative file, and `moshinsky`, given that
file, writes the elements of the two-body axial current between states of two nucleons.  Missing: the radial integrals are those of the rule that the program
uses, and the contact term is not confined to `L = 0` (C115). -/
theorem axial_moshinsky_partial {lib : Relative.Gen.Lib} (ham : lib.am = Relative.amD) (ham12 : lib.am12 = Relative.am12D) {nm : Mixer.Control.Numbers} {gctl : Input}
    {o : OpLabels} {N : ℕ} {R b : ℝ} {steps : ℕ} {gfile : String} (hq : Relative.Gen.Request nm gctl o N (.n2logt R b steps) gfile) (hb : 0 < b) {cD : ℝ}
    (hR : Relative.KnownRegulator R cD) (ho : Relative.AxialLabels o) :
    ∃ gout, Relative.Gen.run nm lib gctl = .ok gout ∧ gout.file = gfile ∧ gout.labels = o ∧ gout.Nmax = N ∧
      (∀ (w : World) (f : RelFile), Wrote gout f → (w.env.swap = fun _ => roseSwap) → (∀ T0, SwapLaw w.env o.J0 T0) →
        Given w f (onlyIn 1 (relElements 1 1 (axialCurrent lib.cubic steps b R cD)))) ∧
      ∀ {w : World} {ctl : Input} {p : Params} {f : RelFile} {mode : Mode} {fmt : Format} {d : Desc} {r : BitVec 32 → BitVec 32} {out : Output},
        Wrote gout f → MakesH2 w ctl p f o N mode fmt d r out →
        HoldsOperator w mode fmt d r p.output (truncOf p).N2max 1 1 (axialCurrent lib.cubic steps b R cD) out := by
  obtain ⟨op, hop, hst⟩ := Relative.Gen.n2lo_written_partial (C := Relative.harmC) (by rw [ham]; exact Relative.space_laws N)
    (by rw [ham, ham12]; exact Relative.half_laws12) (fun s' _ s _ => by rw [ham, ham12]; exact Relative.tensor_laws s' s) hq hb hR ho
  obtain ⟨hJ, hg, h1, h2⟩ := ho
  refine ⟨_, hop, rfl, rfl, rfl, fun w f hw hsw hlaw => ?_, fun {w ctl p f mode fmt d r out} hw h => ?_⟩
  · have hlab : f.labels = o := hw.labels
    refine ⟨fun t _ _ => ?_, by rw [hlab]; exact hlaw, by rw [hlab]; exact hq.three⟩
    rw [hsw]
    have := file_holds (T0 := 1) (A := axialCurrent lib.cubic steps b R cD) hw (by rw [hJ]; exact hst)
      (by rw [hJ]; exact Relative.current_hermitian _ _ _ (Relative.contactAll_comm _ _ _ _)) t
    rwa [hJ] at this
  have := stored_moshinsky (T0 := 1) (A := axialCurrent lib.cubic steps b R cD) (by rw [hJ]; exact hst) (by rw [hJ]; exact Relative.current_tensor _ _ _ _)
    (by rw [hJ]; exact Relative.current_hermitian _ _ _ (Relative.contactAll_comm _ _ _ _)) hq.three ⟨h1, h2⟩ hw h
  rwa [hJ] at this

end Verif.Moshinsky
