import Verif.Moshinsky.NucleonBridge
import Verif.Moshinsky.NucleonRun

/-!
# From `relative-gen` to `moshinsky`

`moshinsky`, given the file that `relative-gen` writes for an operator it knows by name, writes the elements of that operator between
normalised antisymmetrised states of two nucleons.
-/

namespace Verif.Moshinsky
open Verif MvPolynomial Osc Program
open Verif.SU2 hiding couple
open Verif.H2 (Format Mode Desc Sector Subspace OrbSpace Species BasisLib WriteCall Stored storedFactor InState openIn readHistory Expressible
  formatOfCode deducedIOMode)
open Verif.Relative (RelFile OpLabels Cfg cgD harmD unitD IsTensor IsHermitian)
open Verif.Relative.Gen (Input)
open Verif.Mixer.Control (Numbers)

/-! ## Specification -/

/-- `f` is the file that `relative-gen` has written. -/
structure Wrote (out : Relative.Gen.Output) (f : RelFile) : Prop where
  labels : f.labels = out.labels
  Nmax : f.Nmax = out.Nmax
  Jmax : f.Jmax = out.Jmax
  blocks : ∀ T0 k b, (out.blocks T0)[k]? = some b → ∀ i j x, b i j = .ok x → f.blocks T0 k i j = x

/-- The reduced elements of the components of an operator: those of `A` in component `T0`, and zero in the others. -/
noncomputable def onlyIn (T0 : ℕ) (R : RelRME) (t : ℕ) : RelRME := if t = T0 then R else fun _ _ _ _ => 0

/-- The element of `O` between two states of the proton-neutron basis, normalised and antisymmetrised. -/
noncomputable def nasElement (O : Nucl →ₗ[ℝ] Nucl) (orbs : OrbSpace) (s : Sector) (x y : H2.State) (M M' : ℤ) : ℝ :=
  inner (nasState (pairOf orbs s.bra.species x).1 (pairOf orbs s.bra.species x).2 s.bra.J M s.bra.species)
    (O (nasState (pairOf orbs s.ket.species y).1 (pairOf orbs s.ket.species y).2 s.ket.J M' s.ket.species))

/-! ## The relative file -/

theorem file_holds {o : OpLabels} {N : ℕ} {file : String} {op : Relative.RelOp} {f : RelFile} {T0 : ℕ} {A : Int → Int → Cfg → Cfg → ℝ}
    (hf : Wrote ⟨file, o, N, N + 1, Relative.Gen.allSectors o N, op⟩ f) (hs : Relative.Stores cgD o.J0 T0 A (Relative.Gen.allSectors o N) op)
    (hA : IsHermitian o.J0 T0 A) (t : ℕ) : FileHolds (fun _ => roseSwap) f t (onlyIn T0 (relElements o.J0 T0 A) t) := by
  have hsec : f.sectors t = Relative.Gen.allSectors o N t := by
    unfold RelFile.sectors Relative.Gen.allSectors
    rw [hf.labels, hf.Nmax, hf.Jmax]
  refine ⟨?_, ?_⟩
  · unfold onlyIn
    split_ifs
    · exact relElements_sym hA t
    · intro l S J T N l' S' J' T' N'
      rw [mul_zero]
  · intro k x y hk i j hi hj _
    rw [hsec] at hk
    have get : ∀ {α β : Type} {P : α → β → Prop} {l : List α} {m : List β}, List.Forall₂ P l m → ∀ {k : ℕ} {a : α}, l[k]? = some a → ∃ b, m[k]? = some b ∧ P a b := by
      intro α β P l m h k a hk
      obtain ⟨hlt, rfl⟩ := List.getElem?_eq_some_iff.mp hk
      have hlt' : k < m.length := h.length_eq ▸ hlt
      exact ⟨m[k], List.getElem?_eq_getElem hlt', (List.forall₂_iff_get.mp h).2 k hlt hlt'⟩
    unfold onlyIn
    by_cases ht : t = T0
    · subst ht
      obtain ⟨b, hb, hold⟩ := get hs.1 hk
      obtain ⟨v, hv, hr⟩ := hold i hi j hj
      rw [if_pos rfl, hf.blocks t k b hb i j v hv, relElements_nat]
      have ok := Relative.Gen.sec_ok (List.mem_of_getElem? hk)
      have hJ := ok.J
      have hT := ok.T
      simp only [Relative.tri, decide_eq_true_eq] at hJ hT
      rw [show (x.L + 2 * i - x.L) / 2 = i by omega, show (y.L + 2 * j - y.L) / 2 = j by omega]
      exact Relative.redValue_eq hr (by rw [Coupled, abs_le]; dsimp only at hJ ⊢; omega) (by rw [Coupled, abs_le]; dsimp only at hT ⊢; omega)
    · obtain ⟨b, hb, hz⟩ := get (hs.2 t ht) hk
      rw [if_neg ht, hf.blocks t k b hb i j 0 (hz i j)]

/-- The zero operator has zero elements. -/
theorem relative_zero (Nmax : ℕ) (Jmax : Int) (J0 T0 : ℕ) (M0 MT0 : ℤ) : IsRelative 0 Nmax Jmax J0 T0 M0 MT0 fun _ _ _ _ => 0 := by
  intro r r' S Jr T S' Jr' T' mr mc MT mr' mc' MT' _ _ _ _ _ _ _ _ _ _
  rw [LinearMap.zero_apply, ← innerL_apply, map_zero, mul_zero, ite_self]

theorem named_labels {o : OpLabels} {c : Relative.Gen.Choice} {Lab : OpLabels → Prop} {J0 T0 : ℕ}
    {A : Int → Int → Cfg → Cfg → ℝ} (hn : Relative.Gen.Named harmD unitD c Lab J0 T0 A) (ho : Lab o) :
    o.J0 = J0 ∧ o.T0min ≤ T0 ∧ (T0 ≤ o.T0max ∨ T0 = 0) := by
  cases hn with
  | rSqr => exact ⟨ho.1, ho.2.2.2.1, .inl ho.2.2.2.2⟩
  | rsqr => exact ⟨ho.1, ho.2.2.2.1, .inl ho.2.2.2.2⟩
  | quadrupole => exact ⟨ho.1, ho.2.2.2.1, .inl ho.2.2.2.2⟩
  | orbital => exact ⟨ho.1, ho.2.2.2.1, .inl ho.2.2.2.2⟩
  | spin => exact ⟨ho.1, ho.2.2.2.1, .inl ho.2.2.2.2⟩
  | isospin => exact ⟨ho.1, ho.2.2.1, .inl ho.2.2.2⟩
  | casimir => exact ⟨ho.1, ho.2.2.le, .inr rfl⟩
  | gamowTeller => exact ⟨ho.1, ho.2.2.2.1, .inl ho.2.2.2.2⟩

/-- The file that is written holds the reduced elements of the operator. -/
theorem gen_given {lib : Relative.Gen.Lib} {nm : Numbers} {gctl : Input} {o : OpLabels} {N : ℕ} {c : Relative.Gen.Choice} {gfile : String}
    (hl : Relative.Gen.SpaceLaws cgD lib.am harmD unitD N) (hq : Relative.Gen.Request nm gctl o N c gfile) {Lab : OpLabels → Prop} {J0 T0 : ℕ}
    {A : Int → Int → Cfg → Cfg → ℝ} (hn : Relative.Gen.Named harmD unitD c Lab J0 T0 A) (ho : Lab o) :
    ∃ gout, Relative.Gen.run nm lib gctl = .ok gout ∧ gout.file = gfile ∧ gout.labels = o ∧ gout.Nmax = N ∧ gout.Jmax = N + 1 ∧
    ∀ (w : World) (f : RelFile), Wrote gout f → (w.env.swap = fun _ => roseSwap) → (∀ T0, SwapLaw w.env o.J0 T0) →
      Given w f (onlyIn T0 (relElements J0 T0 A)) := by
  obtain ⟨rfl, -, -⟩ := named_labels hn ho
  obtain ⟨hten, hher⟩ := Relative.named_tensor hn ho
  obtain ⟨op, hop, hst⟩ := (Relative.Gen.operator_written_partial hl hq hn).1 ho
  refine ⟨_, hop, rfl, rfl, rfl, rfl, fun w f hw hsw hlaw => ?_⟩
  have hlab : f.labels = o := hw.labels
  refine ⟨fun t _ _ => ?_, ?_, ?_⟩
  · rw [hsw]
    exact file_holds hw hst hher t
  · rw [hlab]
    exact hlaw
  · rw [hlab]
    exact hq.three

variable {w : World} {ctl : Input} {p : Params} {f : RelFile}

/-! ## Property -/

/-- **C172.**  From the name of an operator to the H2 file: if `relative-gen` is asked for an operator by name, with labels and truncation
that belong to it, it writes a relative file, and `moshinsky`, given that file, writes a file which, opened again, holds for every stored
pair of states a number that is, but for the rounding to single precision and the values below `10⁻¹⁴` that are dropped, the reduced
element `e` of the operator between the normalised antisymmetrised states of the two nucleons. -/
theorem gen_moshinsky {lib : Relative.Gen.Lib} {nm : Numbers} {gctl : Input} {o : OpLabels} {N : ℕ} {c : Relative.Gen.Choice} {gfile : String}
    (hl : Relative.Gen.SpaceLaws cgD lib.am harmD unitD N) (hq : Relative.Gen.Request nm gctl o N c gfile) {Lab : OpLabels → Prop} {J0 T0 : ℕ}
    {A : Int → Int → Cfg → Cfg → ℝ} (hn : Relative.Gen.Named harmD unitD c Lab J0 T0 A) (ho : Lab o) :
    ∃ gout, Relative.Gen.run nm lib gctl = .ok gout ∧ gout.file = gfile ∧
    ∀ (_ : Wrote gout f) (_ : Coefficients w.env) (_ : w.env.swap = fun _ => roseSwap) (_ : ∀ T0, SwapLaw w.env o.J0 T0) (_ : Asks w.nm ctl p)
      (_ : 0 ≤ p.cutoff) (_ : p.source = .rel) (_ : p.target = .jjjpn) (_ : w.rel? p.input = some f) (_ : Spaces w (truncOf p) (truncOf p).N2max)
      (_ : (truncOf p).N2max ≤ 84) (_ : (truncOf p).N2max ≤ N)
      (_ : ∀ fmt, formatOfCode p.format = .ok fmt → PnBasis (truncOf p) w.lib (targetDesc w p (truncOf p) o fmt))
      {fmt : Format} {mode : Mode} (_ : formatOfCode p.format = .ok fmt) (_ : deducedIOMode p.output = .ok mode)
      (_ : mode ≠ .matrix) {d : Desc} (_ : d = targetDesc w p (truncOf p) o fmt)
      (_ : Expressible w.lib w.hf mode fmt d) (_ : ∀ s ∈ (d.index w.lib).sectors, s.WF)
      (r : BitVec 32 → BitVec 32) (_ : mode = .text → ∀ x, w.hf.fm.scan (w.hf.fm.fmt x) = some (r x)) (_ : mode = .binary → r = id)
      {out : Output} (_ : Program.run w ctl = .ok out),
    ∃ file, out = .h2 p.output file ∧ ∀ k s, (d.index w.lib).sectors[k]? = some s → ∃ start m st,
      openIn w.lib w.hf mode file = .ok (fmt, d, start) ∧
      readHistory ⟨w.hf.fm, fmt, mode, d.index w.lib⟩ file [k] (InState.init start) = .ok ([m], st) ∧
      m.rows = s.bra.size ∧ m.cols = s.ket.size ∧
      ∀ i j x y, s.bra.states[i]? = some x → s.ket.states[j]? = some y → (s.braIndex = s.ketIndex → i ≤ j) → ∃ e : ℝ,
        m.val i j = w.hf.fm.ofF32 (r (w.hf.fm.toF32
          (if |e| < 1e-14 * (H2.pairNorm s.bra.species x * H2.pairNorm s.ket.species y) then 0 else e))) ∧
        ∀ (M0 : ℤ) (O : Nucl →ₗ[ℝ] Nucl),
          ActsAs O (truncOf p).N2max (component J0 T0 A M0 (projection s.bra.species - projection s.ket.species)) →
        ∀ M M', nasElement O d.orbs s x y M M' = Osc.cg s.ket.J M' J0 M0 s.bra.J M * e := by
  have hJ0 := named_labels hn ho
  obtain ⟨rfl, hT1, hT2⟩ := hJ0
  have hT2 : T0 ≤ o.T0max := hT2.elim id fun h => by omega
  obtain ⟨hten, hher⟩ := Relative.named_tensor hn ho
  obtain ⟨gout, hrun, hfile, glab, gN, gJ, hgiven⟩ := gen_given hl hq hn ho
  refine ⟨gout, hrun, hfile, ?_⟩
  intro hw hcf hsw hlaw ha hc hs ht hf hsp h84 hN hpn fmt mode hfmt hmode hmat d hd hx hwf r hr hb out h
  have hlab : f.labels = o := hw.labels.trans glab
  have hNm : f.Nmax = N := hw.Nmax.trans gN
  have hJm : f.Jmax = N + 1 := hw.Jmax.trans gJ
  have hg := hgiven w f hw hsw hlaw
  obtain ⟨file, hout, hall⟩ := moshinsky_operator hcf ha hc hs ht hf hg hsp h84 (by rw [hNm]; exact hN) (by rw [hlab]; exact hpn) hfmt hmode hmat
    (by rw [hlab]; exact hd) hx hwf r hr hb h
  refine ⟨file, hout, fun k s hk => ?_⟩
  obtain ⟨start, m, st, q1, q2, q3, q4, q5⟩ := hall k s hk
  refine ⟨start, m, st, q1, q2, q3, q4, fun i j x y hxi hyj hij => ?_⟩
  obtain ⟨e, he, hO⟩ := q5 i j x y hxi hyj hij
  refine ⟨e, he, fun M0 O hact M M' => ?_⟩
  have hrel := hO M0 (fun t => if t = T0 then O else 0) (fun t _ _ => ?_) M M'
  · rw [hlab] at hrel
    rw [← hrel, trueElement, Finset.sum_eq_single_of_mem T0 (Finset.mem_Icc.mpr ⟨hT1, hT2⟩)]
    · rw [if_pos rfl]
      rfl
    · intro t _ hne
      rw [if_neg hne, LinearMap.zero_apply, ← innerL_apply, map_zero]
  · rw [hlab, hJm]
    unfold onlyIn
    by_cases h0 : t = T0
    · subst h0
      rw [if_pos rfl, if_pos rfl]
      exact acts_relative hten hact (by push_cast; omega)
    · rw [if_neg h0, if_neg h0]
      exact relative_zero _ _ _ _ _ _

end Verif.Moshinsky
