import Verif.Moshinsky.NucleonUnit
import Verif.Moshinsky.RelCMSource

/-!
# What `moshinsky` writes

The elements in the H2 file that a run writes from a relative file, as elements of the operator between normalised antisymmetrised states of two
nucleons of given species.
-/

namespace Verif.Moshinsky
open Verif MvPolynomial Osc Program
open Verif.SU2 hiding couple
open Verif.H2 (Format Mode Desc Sector Subspace OrbSpace Species BasisLib WriteCall Stored storedFactor InState openIn readHistory Expressible
  formatOfCode deducedIOMode)
open Verif.Relative (RelFile OpLabels)
open Verif.Relative.Gen (Input)

/-- The coefficients of the `am` library are those that their documentation says. -/
structure Coefficients (env : ChainEnv) : Prop where
  nine : IsNine env.nine
  mosh : Angular env.mosh
  z : IsZ env.am.z
  rose : IsRose env.am.rose

/-- The element of `∑ O T0` between two states of the proton-neutron basis, normalised and antisymmetrised. -/
noncomputable def trueElement (T0min T0max : ℕ) (O : ℕ → Nucl →ₗ[ℝ] Nucl) (orbs : OrbSpace) (s : Sector) (x y : H2.State) (M M' : ℤ) : ℝ :=
  ∑ T0 ∈ Finset.Icc T0min T0max,
    inner (nasState (pairOf orbs s.bra.species x).1 (pairOf orbs s.bra.species x).2 s.bra.J M s.bra.species)
      (O T0 (nasState (pairOf orbs s.ket.species y).1 (pairOf orbs s.ket.species y).2 s.ket.J M' s.ket.species))

theorem pairNorm_eq {t : Trunc} {orbs : OrbSpace} (h : OscOrbitals orbs) {s : Subspace} (hs : PnStates t orbs s) {x : H2.State} (hx : x ∈ s.states) :
    H2.pairNorm s.species x =
      1 / √(1 + if s.species ≠ .pn ∧ (pairOf orbs s.species x).1 = (pairOf orbs s.species x).2 then 1 else 0) := by
  obtain ⟨⟨-, he, -, -⟩, -, -⟩ := pn_good h hs hx
  obtain ⟨e1, e2⟩ := labAt_eq orbs s.species x
  simp only [Program.pnState, e1, e2] at he
  unfold H2.pairNorm
  simp only [he]

theorem orbitals_of {t : Trunc} {orbs : OrbSpace} (h : OscOrbitals orbs) {s : Subspace} (hs : PnStates t orbs s) {x : H2.State} (hx : x ∈ s.states) :
    IsOrbital (pairOf orbs s.species x).1 ∧ IsOrbital (pairOf orbs s.species x).2 := by
  obtain ⟨⟨-, -, h1, h2⟩, h3, h4⟩ := pn_good h hs hx
  obtain ⟨e1, e2⟩ := labAt_eq orbs s.species x
  simp only [Program.pnState, e1, e2] at h1 h2
  exact ⟨⟨h1, h3⟩, ⟨h2, h4⟩⟩

/-- The element that is written, before it is rounded. -/
theorem written_element {env : ChainEnv} (hn : IsNine env.nine) (ha : Angular env.mosh) {t : Trunc} {o : OpLabels} {A : ℕ → RCOp} {orbs : OrbSpace} (h : OscOrbitals orbs)
    {s : Sector} (hb : PnStates t orbs s.bra) (hk : PnStates t orbs s.ket) {x y : H2.State} (hx : x ∈ s.bra.states) (hy : y ∈ s.ket.states) {M0 : ℤ}
    {O : ℕ → Nucl →ₗ[ℝ] Nucl} (hO : ∀ T0, o.T0min ≤ T0 → T0 ≤ o.T0max →
      HasElements (O T0) t.N2max o.J0 T0 M0 (projection s.bra.species - projection s.ket.species) (A T0)) (M M' : ℤ) :
    trueElement o.T0min o.T0max O orbs s x y M M' = Osc.cg s.ket.J M' o.J0 M0 s.bra.J M *
      (H2.pairNorm s.bra.species x * H2.pairNorm s.ket.species y * pnElement (twoBody env t A) o orbs s x y) := by
  obtain ⟨a1, a2⟩ := orbitals_of h hb hx
  obtain ⟨a3, a4⟩ := orbitals_of h hk hy
  obtain ⟨-, -, t1, -, g1⟩ := hb x hx
  obtain ⟨-, -, t2, -, g2⟩ := hk y hy
  have e := species_operator hn ha (A := A) hO a1 a2 a3 a4 t1 t2 g1 g2 0 0 0 0 M M' (J := s.bra.J) (J' := s.ket.J)
  unfold trueElement nasState
  simp only [map_smul, inner_smul_smul]
  rw [← Finset.mul_sum, e, pairNorm_eq h hb hx, pairNorm_eq h hk hy]
  unfold pnElement
  ring

variable {w : World} {ctl : Input} {p : Params} {f : RelFile} {g : RCFile} {R : ℕ → RelRME} {A : ℕ → RCOp}

/-- What is read back, as elements of an operator. -/
theorem result_operator {t : Trunc} {o : OpLabels} (hn : IsNine w.env.nine) (ha : Angular w.env.mosh)
    (hpn : ∀ fmt, formatOfCode p.format = .ok fmt → PnBasis t w.lib (targetDesc w p t o fmt))
    {fmt : Format} {mode : Mode} (hfmt : formatOfCode p.format = .ok fmt) (hmode : deducedIOMode p.output = .ok mode)
    (hmat : mode ≠ .matrix) {d : Desc} (hd : d = targetDesc w p t o fmt)
    (hx : Expressible w.lib w.hf mode fmt d) (hwf : ∀ s ∈ (d.index w.lib).sectors, s.WF)
    (r : BitVec 32 → BitVec 32) (hr : mode = .text → ∀ x, w.hf.fm.scan (w.hf.fm.fmt x) = some (r x)) (hb : mode = .binary → r = id)
    {out : Output} (h : h2Result w p t o (twoBody w.env t A) = .ok out) :
    ∃ file, out = .h2 p.output file ∧ ∀ k s, (d.index w.lib).sectors[k]? = some s → ∃ start m st,
      openIn w.lib w.hf mode file = .ok (fmt, d, start) ∧
      readHistory ⟨w.hf.fm, fmt, mode, d.index w.lib⟩ file [k] (InState.init start) = .ok ([m], st) ∧
      m.rows = s.bra.size ∧ m.cols = s.ket.size ∧
      ∀ i j x y, s.bra.states[i]? = some x → s.ket.states[j]? = some y → (s.braIndex = s.ketIndex → i ≤ j) → ∃ e : ℝ,
        m.val i j = w.hf.fm.ofF32 (r (w.hf.fm.toF32
          (if |e| < 1e-14 * (H2.pairNorm s.bra.species x * H2.pairNorm s.ket.species y) then 0 else e))) ∧
        ∀ (M0 : ℤ) (O : ℕ → Nucl →ₗ[ℝ] Nucl), (∀ T0, o.T0min ≤ T0 → T0 ≤ o.T0max →
          HasElements (O T0) t.N2max o.J0 T0 M0 (projection s.bra.species - projection s.ket.species) (A T0)) →
        ∀ M M', trueElement o.T0min o.T0max O d.orbs s x y M M' = Osc.cg s.ket.J M' o.J0 M0 s.bra.J M * e := by
  obtain ⟨file, ho, hall⟩ := h2Result_reads_back hfmt hmode hmat hd hx hwf r hr hb h
  refine ⟨file, ho, fun k s hk => ?_⟩
  obtain ⟨start, m, st, q1, q2, q3, q4, q5⟩ := hall k s hk
  refine ⟨start, m, st, q1, q2, q3, q4, fun i j x y hxi hyj hij => ?_⟩
  have hP : PnBasis t w.lib d := hd ▸ hpn fmt hfmt
  have hsm : s ∈ (d.index w.lib).sectors := List.mem_of_getElem? hk
  have hxm : x ∈ s.bra.states := List.mem_of_getElem? hxi
  have hym : y ∈ s.ket.states := List.mem_of_getElem? hyj
  have hpos : 0 < H2.pairNorm s.bra.species x * H2.pairNorm s.ket.species y := by
    unfold H2.pairNorm
    have : ∀ q : Prop, ∀ [Decidable q], (0 : ℝ) < 1 / √(1 + if q then 1 else 0) := by
      intro q _
      split_ifs <;> positivity
    exact mul_pos (this _) (this _)
  refine ⟨H2.pairNorm s.bra.species x * H2.pairNorm s.ket.species y *
    pnElement (twoBody w.env t A) o d.orbs s x y, ?_, ?_⟩
  · have hst : Stored s i j := ⟨(List.getElem?_eq_some_iff.mp hxi).1, (List.getElem?_eq_some_iff.mp hyj).1, hij⟩
    rw [q5 i j, if_pos hst]
    congr 3
    have s1 : s.bra.state i = x := by rw [Subspace.state, List.getD_eq_getElem?_getD, hxi]; rfl
    have s2 : s.ket.state j = y := by rw [Subspace.state, List.getD_eq_getElem?_getD, hyj]; rfl
    unfold storedFactor pnMatrix
    simp only [if_true, s1, s2, hxi, hyj]
    generalize pnElement (twoBody w.env t A) o d.orbs s x y = E
    generalize H2.pairNorm s.bra.species x * H2.pairNorm s.ket.species y = n at hpos
    have hab : |n * E| < 1e-14 * n ↔ |E| < 1e-14 := by
      rw [abs_mul, abs_of_pos hpos, mul_comm n]
      exact mul_lt_mul_iff_left₀ hpos
    by_cases hE : |E| < 1e-14
    · rw [if_pos (Or.inr hE), if_pos (hab.mpr hE), mul_zero]
    · rw [if_neg, if_neg (mt hab.mp hE)]
      rintro (⟨hd', hlt⟩ | hE')
      · exact absurd (hij hd') (by omega)
      · exact hE hE'
  · intro M0 O hO M M'
    exact written_element hn ha hP.orbitals (hP.bra s hsm) (hP.ket s hsm) hxm hym hO M M'

/-! ## Properties -/

/-- **C169.**  From the relative file to the H2 file: if the relative file holds the reduced elements `R T0` of the isospin components of an
operator, the file that is written, opened again, holds for every stored pair of states a number that is, but for the rounding to single
precision and the values below `10⁻¹⁴` that are dropped, the reduced element `e` of that operator between the normalised antisymmetrised
states of the two nucleons. -/
theorem moshinsky_operator (hcf : Coefficients w.env) (ha : Asks w.nm ctl p) (hc : 0 ≤ p.cutoff) (hs : p.source = .rel) (ht : p.target = .jjjpn)
    (hf : w.rel? p.input = some f) (hg : Given w f R) (hsp : Spaces w (truncOf p) (truncOf p).N2max)
    (h84 : (truncOf p).N2max ≤ 84) (hN : (truncOf p).N2max ≤ f.Nmax)
    (hpn : ∀ fmt, formatOfCode p.format = .ok fmt → PnBasis (truncOf p) w.lib (targetDesc w p (truncOf p) f.labels fmt))
    {fmt : Format} {mode : Mode} (hfmt : formatOfCode p.format = .ok fmt) (hmode : deducedIOMode p.output = .ok mode)
    (hmat : mode ≠ .matrix) {d : Desc} (hd : d = targetDesc w p (truncOf p) f.labels fmt)
    (hx : Expressible w.lib w.hf mode fmt d) (hwf : ∀ s ∈ (d.index w.lib).sectors, s.WF)
    (r : BitVec 32 → BitVec 32) (hr : mode = .text → ∀ x, w.hf.fm.scan (w.hf.fm.fmt x) = some (r x)) (hb : mode = .binary → r = id)
    {out : Output} (h : Program.run w ctl = .ok out) :
    ∃ file, out = .h2 p.output file ∧ ∀ k s, (d.index w.lib).sectors[k]? = some s → ∃ start m st,
      openIn w.lib w.hf mode file = .ok (fmt, d, start) ∧
      readHistory ⟨w.hf.fm, fmt, mode, d.index w.lib⟩ file [k] (InState.init start) = .ok ([m], st) ∧
      m.rows = s.bra.size ∧ m.cols = s.ket.size ∧
      ∀ i j x y, s.bra.states[i]? = some x → s.ket.states[j]? = some y → (s.braIndex = s.ketIndex → i ≤ j) → ∃ e : ℝ,
        m.val i j = w.hf.fm.ofF32 (r (w.hf.fm.toF32
          (if |e| < 1e-14 * (H2.pairNorm s.bra.species x * H2.pairNorm s.ket.species y) then 0 else e))) ∧
        ∀ (M0 : ℤ) (O : ℕ → Nucl →ₗ[ℝ] Nucl), (∀ T0, f.labels.T0min ≤ T0 → T0 ≤ f.labels.T0max →
          IsRelative (O T0) (truncOf p).N2max f.Jmax f.labels.J0 T0 M0 (projection s.bra.species - projection s.ket.species) (R T0)) →
        ∀ M M', trueElement f.labels.T0min f.labels.T0max O d.orbs s x y M M' = Osc.cg s.ket.J M' f.labels.J0 M0 s.bra.J M * e := by
  rw [moshinsky_h2 ha hc hs ht hf hg hsp h84 hN hpn] at h
  obtain ⟨file, ho, hall⟩ := result_operator hcf.nine hcf.mosh hpn hfmt hmode hmat hd hx hwf r hr hb h
  refine ⟨file, ho, fun k s hk => ?_⟩
  obtain ⟨start, m, st, q1, q2, q3, q4, q5⟩ := hall k s hk
  refine ⟨start, m, st, q1, q2, q3, q4, fun i j x y hxi hyj hij => ?_⟩
  obtain ⟨e, he, hO⟩ := q5 i j x y hxi hyj hij
  exact ⟨e, he, fun M0 O h => hO M0 O fun T0 h1 h2 => relative_elements hcf.z hcf.rose (h T0 h1 h2)⟩

/-- **C171.**  The same from a relative-cm file, for operators that act on the relative and on the centre-of-mass motion. -/
theorem moshinsky_relcm_operator (hn : IsNine w.env.nine) (hm : Angular w.env.mosh) (ha : Asks w.nm ctl p) (hc : 0 ≤ p.cutoff) (hs : p.source = .relcm)
    (ht : p.target = .jjjpn) (hf : w.rc? p.input = some g) (hg : GivenRC w g A) (hsp : Spaces w (truncOf p) g.Nmax)
    (h84 : (truncOf p).N2max ≤ 84)
    (hpn : ∀ fmt, formatOfCode p.format = .ok fmt → PnBasis (truncOf p) w.lib (targetDesc w p (truncOf p) g.labels fmt))
    {fmt : Format} {mode : Mode} (hfmt : formatOfCode p.format = .ok fmt) (hmode : deducedIOMode p.output = .ok mode)
    (hmat : mode ≠ .matrix) {d : Desc} (hd : d = targetDesc w p (truncOf p) g.labels fmt)
    (hx : Expressible w.lib w.hf mode fmt d) (hwf : ∀ s ∈ (d.index w.lib).sectors, s.WF)
    (r : BitVec 32 → BitVec 32) (hr : mode = .text → ∀ x, w.hf.fm.scan (w.hf.fm.fmt x) = some (r x)) (hb : mode = .binary → r = id)
    {out : Output} (h : Program.run w ctl = .ok out) :
    ∃ file, out = .h2 p.output file ∧ ∀ k s, (d.index w.lib).sectors[k]? = some s → ∃ start m st,
      openIn w.lib w.hf mode file = .ok (fmt, d, start) ∧
      readHistory ⟨w.hf.fm, fmt, mode, d.index w.lib⟩ file [k] (InState.init start) = .ok ([m], st) ∧
      m.rows = s.bra.size ∧ m.cols = s.ket.size ∧
      ∀ i j x y, s.bra.states[i]? = some x → s.ket.states[j]? = some y → (s.braIndex = s.ketIndex → i ≤ j) → ∃ e : ℝ,
        m.val i j = w.hf.fm.ofF32 (r (w.hf.fm.toF32
          (if |e| < 1e-14 * (H2.pairNorm s.bra.species x * H2.pairNorm s.ket.species y) then 0 else e))) ∧
        ∀ (M0 : ℤ) (O : ℕ → Nucl →ₗ[ℝ] Nucl), (∀ T0, g.labels.T0min ≤ T0 → T0 ≤ g.labels.T0max →
          HasElements (O T0) (truncOf p).N2max g.labels.J0 T0 M0 (projection s.bra.species - projection s.ket.species) (A T0)) →
        ∀ M M', trueElement g.labels.T0min g.labels.T0max O d.orbs s x y M M' = Osc.cg s.ket.J M' g.labels.J0 M0 s.bra.J M * e := by
  rw [moshinsky_relcm_to_h2 ha hc hs ht hf hg hsp h84 hpn] at h
  exact result_operator hn hm hpn hfmt hmode hmat hd hx hwf r hr hb h

end Verif.Moshinsky
