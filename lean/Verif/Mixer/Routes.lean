import Verif.Mixer.JoinedNamed

/-!
# Property C178: two routes to the elements of an operator

The elements of an operator between the states of two nucleons are obtained by `relative-gen` and `moshinsky` from its elements in the relative motion, and by
`h2mixer` from one-body operators.
-/

namespace Verif.Mixer.Control
open Verif Verif.Mapping Verif.Xform Verif.Obme Verif.Separable Verif.Mixer Verif.SU2
open Verif.Moshinsky (Nucl Physical nasElement nasState Wrote)
open Verif.Moshinsky.Program (World Params Output Asks truncOf Spaces PnBasis targetDesc projection)
open Verif.Relative (OpLabels RelFile cgD harmD unitD)
open Verif.Relative.Gen (Input)
open scoped TensorProduct

/-- The states of two nucleons in the orbitals `a1`, `a2`, coupled to `J`, in both programs. -/
structure SameState (orbs : H2.OrbSpace) (s : H2.Subspace) (x : H2.State) (b : Subspace) (a1 a2 : Orb) : Prop where
  species : b.labels.species = speciesOf s.species
  momentum : b.labels.J = s.J
  first : (Moshinsky.Program.pairOf orbs s.species x).1 = labOf a1
  second : (Moshinsky.Program.pairOf orbs s.species x).2 = labOf a2
  spin1 : HasSpin a1
  spin2 : HasSpin a2

/-- Reduced elements of the same operator between the same states. -/
theorem reduced_agree {J0 : ℕ} {O2 : ℤ → Op2} {O : ℤ → Nucl →ₗ[ℝ] Nucl} (hj : ∀ q : ℤ, |q| ≤ J0 → Joins (O2 (2 * q)) (O q)) {orbs : H2.OrbSpace} {s : H2.Sector}
    {x y : H2.State} {b k : Subspace} {a1 a2 c1 c2 : Orb} (hb : SameState orbs s.bra x b a1 a2) (hk : SameState orbs s.ket y k c1 c2)
    (ht : |(b.labels.J : ℤ) - k.labels.J| ≤ J0 ∧ (J0 : ℤ) ≤ b.labels.J + k.labels.J) {e v : ℝ}
    (he : ∀ M0 : ℤ, |M0| ≤ J0 → ∀ M M', nasElement (O M0) orbs s x y M M' = Moshinsky.Osc.cg s.ket.J M' J0 M0 s.bra.J M * e)
    (hv : Reduced form1 J0 O2 b.labels.J k.labels.J (pairOf nucleon b.labels.species b.labels.J a1 a2) (pairOf nucleon k.labels.species k.labels.J c1 c2) v) : e = v := by
  rw [← hv.redForm_eq ht]
  symm
  refine Reduced.redForm_eq ?_ ht
  intro M' hM' q hq M hM
  obtain ⟨M', rfl⟩ : ∃ n, M' = 2 * n := ⟨M' / 2, by rw [mem_projs] at hM'; omega⟩
  obtain ⟨q, rfl⟩ : ∃ n, q = 2 * n := ⟨q / 2, by rw [mem_projs] at hq; omega⟩
  obtain ⟨M, rfl⟩ : ∃ n, M = 2 * n := ⟨M / 2, by rw [mem_projs] at hM; omega⟩
  have hq' : |q| ≤ J0 := by
    rw [mem_projs] at hq
    rw [abs_le]
    omega
  rw [joined_element (hj q hq'), hb.species, hk.species, joined_nas _ _ _ hb.spin1 hb.spin2, joined_nas _ _ _ hk.spin1 hk.spin2, cgd_even]
  have := he q hq' M' M
  rw [nasElement, hb.first, hb.second, hk.first, hk.second] at this
  rw [hb.momentum, hk.momentum]
  exact this

variable {w : World} {ctl : Input} {p : Params} {f : RelFile}

/-- **C178.** Two routes to the same numbers.  An operator asked for by name from `relative-gen` and passed through `moshinsky`, and the same operator as a target of
`h2mixer` whose sources add up to it, written with operators on one nucleon: for states of two nucleons in the same orbitals, the number in the file of `moshinsky`
and the number in the target come from one number `e`, the first by rounding to single precision and the second by setting small values to zero. -/
theorem routes_agree {lib : Relative.Gen.Lib} {nm : Numbers} {gctl : Input} {o : OpLabels} {N : ℕ} {c : Relative.Gen.Choice} {gfile : String}
    (hl : Relative.Gen.SpaceLaws cgD lib.am harmD unitD N) (hq : Relative.Gen.Request nm gctl o N c gfile) {Lab : OpLabels → Prop} {J0 T0 : ℕ}
    {O : ℤ → ℤ → Nucl →ₗ[ℝ] Nucl} (hn : Physical c Lab J0 T0 O) (ho : Lab o) {MT0 : ℤ} (hMT0 : |MT0| ≤ T0) {sep : ℤ → Op2} (hs : Separates c MT0 sep) :
    ∃ gout, Relative.Gen.run nm lib gctl = .ok gout ∧ gout.file = gfile ∧
    ∀ (_ : Wrote gout f) (_ : Moshinsky.Coefficients w.env) (_ : w.env.swap = fun _ => Moshinsky.Program.roseSwap) (_ : ∀ T0, Moshinsky.SwapLaw w.env o.J0 T0)
      (_ : Asks w.nm ctl p) (_ : 0 ≤ p.cutoff) (_ : p.source = .rel) (_ : p.target = .jjjpn) (_ : w.rel? p.input = some f)
      (_ : Spaces w (truncOf p) (truncOf p).N2max) (_ : (truncOf p).N2max ≤ 84) (_ : (truncOf p).N2max ≤ N)
      (_ : ∀ fmt, H2.formatOfCode p.format = .ok fmt → PnBasis (truncOf p) w.lib (targetDesc w p (truncOf p) o fmt))
      {fmt : H2.Format} {mode : H2.Mode} (_ : H2.formatOfCode p.format = .ok fmt) (_ : H2.deducedIOMode p.output = .ok mode)
      (_ : mode ≠ .matrix) {d : H2.Desc} (_ : d = targetDesc w p (truncOf p) o fmt)
      (_ : H2.Expressible w.lib w.hf mode fmt d) (_ : ∀ s ∈ (d.index w.lib).sectors, s.WF)
      (r : BitVec 32 → BitVec 32) (_ : mode = .text → ∀ x, w.hf.fm.scan (w.hf.fm.fmt x) = some (r x)) (_ : mode = .binary → r = id)
      {out : Output} (_ : Moshinsky.Program.run w ctl = .ok out)
      {setup : Setup} (_ : setup.am = amS) (_ : setup.w = trueW) (_ : setup.crme = trueCrme) (_ : setup.rme = trueRme) {disk : Disk}
      {ls : List CLine} {cfg : Config} {mixed : List (String × List Mat)} (_ : read setup.nm ls = .ok cfg) (_ : h2mixer setup disk ls = .ok mixed)
      {target : TBIndexing} {space : Space} (_ : setup.indexing cfg.targetOrbitals cfg.weights cfg.format cfg.qn = .ok (target, space)) (_ : IndexOK target)
      (_ : GoodSpace space) (_ : cfg.qn.J0 = J0) (_ : Triangles target J0) (_ : SourcesOK disk cfg.xforms cfg.ob) (_ : (cfg.tb.map (·.id)).Nodup)
      {t : ℕ} {tfile : String} {terms : List (String × ℝ)} (_ : cfg.targets[t]? = some (tfile, terms)) {op : String → ℤ → Op2}
      (_ : ∀ x ∈ terms, Denotes2 ⟨disk, setup.pre, target, space, cfg.xforms, cfg.ob, cfg.tb, cfg.qn, cfg.A, nucleon⟩ x.1 (op x.1))
      (_ : ∀ q ∈ projs (2 * J0), (terms.map fun x => x.2 • op x.1 q).sum = sep q),
    ∃ file Ms, out = .h2 p.output file ∧ mixed[t]? = some (tfile, Ms) ∧
    ∀ k s, (d.index w.lib).sectors[k]? = some s → MT0 = projection s.bra.species - projection s.ket.species →
    ∀ n z b κ, IsSector target n z b κ → ∃ start m st M,
      H2.openIn w.lib w.hf mode file = .ok (fmt, d, start) ∧
      H2.readHistory ⟨w.hf.fm, fmt, mode, d.index w.lib⟩ file [k] (H2.InState.init start) = .ok ([m], st) ∧ Ms[n]? = some M ∧
      ∀ i j x y, s.bra.states[i]? = some x → s.ket.states[j]? = some y → (s.braIndex = s.ketIndex → i ≤ j) →
      ∀ i' j' u v a1 a2 c1 c2, b.states[i']? = some u → κ.states[j']? = some v → IsPair target.orbitals b.labels.species u a1 a2 →
        IsPair target.orbitals κ.labels.species v c1 c2 → SameState d.orbs s.bra x b a1 a2 → SameState d.orbs s.ket y κ c1 c2 →
        ∃ e : ℝ, m.val i j = w.hf.fm.ofF32 (r (w.hf.fm.toF32
            (if |e| < 1e-14 * (H2.pairNorm s.bra.species x * H2.pairNorm s.ket.species y) then 0 else e))) ∧
          ChopOf setup.tol e (M.val i' j') := by
  obtain ⟨gout, g1, g2, g3⟩ := Moshinsky.physical_moshinsky (w := w) (ctl := ctl) (p := p) (f := f) hl hq hn ho
  refine ⟨gout, g1, g2, ?_⟩
  intro m1 m2 m3 m4 m5 m6 m7 m8 m9 m10 m11 m12 m13 fmt mode m14 m15 m16 d m17 m18 m19 r m20 m21 out m22
  intro setup h1 h2 h3 h4 disk ls cfg mixed h5 h6 target space h7 h8 h9 h10 h11 h12 h13 t tfile terms h14 op h15 h16
  obtain ⟨file, e1, e2⟩ := g3 m1 m2 m3 m4 m5 m6 m7 m8 m9 m10 m11 m12 m13 m14 m15 m16 m17 m18 m19 r m20 m21 m22
  have hJ : cfg.qn.J0.toNat = J0 := by rw [h10, Int.toNat_natCast]
  obtain ⟨Ms, f1, -, f2⟩ := h2mixer_denotes h1 h2 h3 h4 h5 h6 h7 h8 h9 (by rw [h10]; exact Int.natCast_nonneg J0) (by rw [hJ]; exact h11) h12 h13 nucleon h14 h15
  refine ⟨file, Ms, e1, f1, ?_⟩
  intro k s hk hMT n z b κ hsec
  obtain ⟨start, m, st, q1, q2, -, -, q3⟩ := e2 k s hk
  obtain ⟨M, w1, -, -, w2⟩ := f2 n z b κ hsec
  refine ⟨start, m, st, M, q1, q2, w1, ?_⟩
  intro i j x y hx hy hij i' j' u v a1 a2 c1 c2 hu hv ha hc hb hkk
  obtain ⟨e, v1, v2⟩ := q3 i j x y hx hy hij
  obtain ⟨e', u1, u2⟩ := w2 i' j' u v a1 a2 c1 c2 hu hv ha hc
  refine ⟨e, v1, ?_⟩
  have : e = e' := by
    rw [hJ] at u2
    refine reduced_agree (O2 := sep) (O := fun q => O q MT0) (fun q hq => separates_joins hn hs hq) hb hkk (h11 _ _ _ _ hsec) (fun M0 hM0 M M' => ?_) ?_
    · have := v2 M0 MT0 hM0 hMT M M'
      rwa [if_pos hMT0] at this
    · intro M' hM' q hq M hM
      rw [← h16 q hq]
      exact u2 M' hM' q hq M hM
  rw [this]
  exact u1

end Verif.Mixer.Control
