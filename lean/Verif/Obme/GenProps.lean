import Verif.Obme.ProductProps
import Verif.Osc.IntegralProps
import Verif.Osc.SquareIntegral

/-!
# Properties of the generated one-body operators
-/

namespace Verif.Obme
open Verif Verif.Mapping Verif.Xform
open Verif.H2 hiding Mat
open MeasureTheory Set

/-! ## Angular momentum and isospin -/

/-- Identity-type blocks: one factor per sector, times one on the diagonal by position. -/
theorem eye_blocks {sp : Space} {secs : Sectors} (f : ℕ × ℕ → Except Err Mat) (v : Labels → Labels → ℝ)
    (hs : SectorsOf secs sp sp)
    (hf : ∀ p ∈ secs.pairs, ∀ b k, sp[p.1]? = some b → sp[p.2]? = some k →
      f p = .ok (scale (v b.labels k.labels) (eye b.ns.length k.ns.length))) :
    ∃ mats, secs.pairs.mapM f = .ok mats ∧ Fits secs mats sp sp ∧
      ∀ i k b k' a c, (i, k) ∈ secs.pairs → sp[i]? = some b → sp[k]? = some k' → a < b.ns.length →
        c < k'.ns.length → elem secs mats i a k c = v b.labels k'.labels * if a = c then 1 else 0 := by
  obtain ⟨mats, h1, h2, h3⟩ := assemble (s := secs) (bra := sp) (ket := sp) f
    (fun i a k c => match sp[i]?, sp[k]? with
      | some b, some k' => v b.labels k'.labels * if a = c then 1 else 0
      | _, _ => 0) (by
      intro p hp
      obtain ⟨b, k, hb, hk, _⟩ := sectors_some hs hp
      rw [hf p hp b k hb hk]
      exact ⟨_, rfl, (dim_some hb).symm, (dim_some hk).symm, fun a c _ _ => by simp [hb, hk, scale, eye]⟩)
  refine ⟨mats, h1, h2, ?_⟩
  intro i k b k' a c hik hb hk ha hc
  rw [h3 i k hik a c (by rwa [dim_some hb]) (by rwa [dim_some hk])]
  simp [hb, hk]

/-- Eigenvalue of a squared angular momentum on a state of given `l` and `2j`: `l(l+1)`, `s(s+1)` with
`s = 1/2`, `j(j+1)`. -/
noncomputable def eigenvalue : AMType → ℕ → ℕ → ℝ
  | .orbital, l, _ => (l : ℝ) * (l + 1)
  | .spin, _, _ => (1 / 2 : ℝ) * (1 / 2 + 1)
  | .total, _, tj => (tj / 2 : ℝ) * (tj / 2 + 1)

/-- **C54.** The squared angular momenta: the assertion that all sectors are diagonal never fires, and
the operator is the eigenvalue on every orbital and zero between different orbitals. -/
theorem squared_element {type : AMType} {sp : Space} {secs : Sectors} (g : GoodSpace sp)
    (hs : SectorsOf secs sp sp) (hq : secs.qn = scalarQN) :
    ∃ mats, angularMomentumSquared type sp secs = .ok mats ∧ Overlap secs mats sp sp ∧
      ∀ i a k c b k', sp[i]? = some b → sp[k]? = some k' → a < b.ns.length → c < k'.ns.length →
        elem secs mats i a k c =
          if i = k ∧ a = c then eigenvalue type b.labels.l b.labels.tj else 0 := by
  have hdiag : ∀ i k, (i, k) ∈ secs.pairs ↔ i = k ∧ i < sp.length := by
    intro i k
    rw [hs.mem]
    constructor
    · rintro ⟨b, k', hb, hk, hal⟩
      rw [scalar_allowed g g (mem_of_getElem? hb) (mem_of_getElem? hk) hq] at hal
      exact ⟨sub_unique g hb hk hal, (List.getElem?_eq_some_iff.mp hb).1⟩
    · rintro ⟨rfl, hi⟩
      have e := List.getElem?_eq_getElem hi
      exact ⟨_, _, e, e, (scalar_allowed g g (mem_of_getElem? e) (mem_of_getElem? e) hq).mpr rfl⟩
  obtain ⟨mats, h1, h2, h3⟩ := eye_blocks (secs := secs) (fun p => do
    let b ← getE sp p.1
    let k ← getE sp p.2
    assertE (p.1 = p.2)
    pure (scale (squareFactor type b.labels) (eye b.ns.length k.ns.length)))
    (fun b _ => eigenvalue type b.l b.tj) hs (by
      intro p hp b k hb hk
      have hpp : decide (p.1 = p.2) = true := by simpa using ((hdiag p.1 p.2).mp hp).1
      have hv : squareFactor type b.labels = eigenvalue type b.labels.l b.labels.tj := by
        cases type <;> simp only [squareFactor, eigenvalue]
        · push_cast; ring
        · norm_num
        · ring
      simp only [getE_ok hb, getE_ok hk, Except.ok_bind', Except.pure_ok, hpp, assertE, if_true, hv])
  refine ⟨mats, ?_, ⟨hq, hs, h2⟩, ?_⟩
  · unfold angularMomentumSquared
    rw [hq]
    simpa [scalarQN, assertE] using h1
  · intro i a k c b k' hb hk ha hc
    by_cases hik : i = k
    · subst hik
      rw [h3 i i b k' a c ((hdiag i i).mpr ⟨rfl, (List.getElem?_eq_some_iff.mp hb).1⟩) hb hk ha hc]
      by_cases hac : a = c <;> simp [hac]
    · rw [elem_absent (fun h => hik ((hdiag i k).mp h).1), if_neg (fun h => hik h.1)]

/-- Every subspace lists the radial quantum numbers `0,1,2,…`, as in a truncated oscillator basis. -/
def Complete (s : Space) : Prop := ∀ b ∈ s, b.ns = List.range b.ns.length

/-- **C67** (partial: for spaces whose subspaces list `n = 0,1,2,…`).  The angular momentum operators are
the reduced matrix element of the angular and spin part, between orbitals of equal `n` only. -/
theorem angularMomentum_element_partial {rme : AMType → Labels → Labels → ℝ} {type : AMType} {sp : Space}
    {secs : Sectors} (hc : Complete sp) (hs : SectorsOf secs sp sp) (hq : secs.qn = ⟨1, 0, 0⟩) :
    ∃ mats, angularMomentum rme type sp secs = .ok mats ∧ Fits secs mats sp sp ∧
      ∀ i a k c b k', (i, k) ∈ secs.pairs → sp[i]? = some b → sp[k]? = some k' → a < b.ns.length →
        c < k'.ns.length → elem secs mats i a k c =
          if b.ns.getD a 0 = k'.ns.getD c 0 then rme type b.labels k'.labels else 0 := by
  obtain ⟨mats, h1, h2, h3⟩ := eye_blocks (secs := secs) (fun p => do
    let b ← getE sp p.1
    let k ← getE sp p.2
    pure (scale (rme type b.labels k.labels) (eye b.ns.length k.ns.length)))
    (fun b k => rme type b k) hs (by
      intro p hp b k hb hk
      simp only [getE_ok hb, getE_ok hk, Except.ok_bind', Except.pure_ok])
  refine ⟨mats, ?_, h2, ?_⟩
  · unfold angularMomentum
    rw [hq]
    simpa [assertE] using h1
  · intro i a k c b k' hik hb hk ha hc'
    rw [h3 i k b k' a c hik hb hk ha hc']
    have e1 : b.ns.getD a 0 = a := by
      rw [hc b (mem_of_getElem? hb), List.getD_eq_getElem?_getD, List.getElem?_range ha]; rfl
    have e2 : k'.ns.getD c 0 = c := by
      rw [hc k' (mem_of_getElem? hk), List.getD_eq_getElem?_getD, List.getElem?_range hc']; rfl
    rw [e1, e2, mul_ite, mul_one, mul_zero]

/-- **C67** is false in general: with `0p3/2` and `1p1/2` only, the angular momentum operators connect the
two, although they are orthogonal radial functions. -/
theorem angularMomentum_connects_different_n :
    ∃ sp : Space, GoodSpace sp ∧ ∀ (rme : AMType → Labels → Labels → ℝ) (type : AMType), ∃ mats b k' : _,
      angularMomentum rme type sp (allSectors ⟨1, 0, 0⟩ sp sp) = .ok mats ∧
      sp[0]? = some b ∧ sp[1]? = some k' ∧ b.ns = [0] ∧ k'.ns = [1] ∧
      elem (allSectors ⟨1, 0, 0⟩ sp sp) mats 0 0 1 0 = rme type b.labels k'.labels := by
  refine ⟨[⟨⟨1, 3, .p⟩, [0]⟩, ⟨⟨1, 1, .p⟩, [1]⟩], ⟨by decide, by decide, by decide⟩, ?_⟩
  intro rme type
  have hs := allSectors_spec ⟨1, 0, 0⟩ ([⟨⟨1, 3, .p⟩, [0]⟩, ⟨⟨1, 1, .p⟩, [1]⟩] : Space)
    [⟨⟨1, 3, .p⟩, [0]⟩, ⟨⟨1, 1, .p⟩, [1]⟩]
  obtain ⟨mats, h1, h2, h3⟩ := eye_blocks (fun p => do
    let b ← getE ([⟨⟨1, 3, .p⟩, [0]⟩, ⟨⟨1, 1, .p⟩, [1]⟩] : Space) p.1
    let k ← getE ([⟨⟨1, 3, .p⟩, [0]⟩, ⟨⟨1, 1, .p⟩, [1]⟩] : Space) p.2
    pure (scale (rme type b.labels k.labels) (eye b.ns.length k.ns.length)))
    (fun b k => rme type b k) hs (by
      intro p hp b k hb hk
      simp only [getE_ok hb, getE_ok hk, Except.ok_bind', Except.pure_ok])
  refine ⟨mats, ⟨⟨1, 3, .p⟩, [0]⟩, ⟨⟨1, 1, .p⟩, [1]⟩, ?_, rfl, rfl, rfl, rfl, ?_⟩
  · unfold angularMomentum
    simpa [assertE, allSectors] using h1
  · rw [h3 0 1 ⟨⟨1, 3, .p⟩, [0]⟩ ⟨⟨1, 1, .p⟩, [1]⟩ 0 0 (by decide) rfl rfl (by decide) (by decide)]
    simp

/-- **C67.** Isospin projection: half the charge label on every orbital, zero between different ones. -/
theorem isospin_projection {sp : Space} {secs : Sectors} (g : GoodSpace sp) (hs : SectorsOf secs sp sp)
    (hq : secs.qn = scalarQN) :
    ∃ mats, isospin sp secs = .ok mats ∧ Overlap secs mats sp sp ∧
      ∀ i a k c b k', sp[i]? = some b → sp[k]? = some k' → a < b.ns.length → c < k'.ns.length →
        elem secs mats i a k c =
          if i = k ∧ a = c then (if b.labels.sp = .p then 1 / 2 else -1 / 2) else 0 := by
  obtain ⟨mats, h1, h2, h3⟩ := eye_blocks (secs := secs) (fun p => do
    let b ← getE sp p.1
    let k ← getE sp p.2
    let me : ℝ := if secs.qn.Tz0 = 0 then (k.labels.tz : ℝ) / 2 else 1
    pure (scale me (eye b.ns.length k.ns.length)))
    (fun _ k => (k.tz : ℝ) / 2) hs (by
      intro p hp b k hb hk
      simp only [getE_ok hb, getE_ok hk, Except.ok_bind', Except.pure_ok, hq, scalarQN, if_true])
  refine ⟨mats, ?_, ⟨hq, hs, h2⟩, ?_⟩
  · unfold isospin
    rw [hq] at h1 ⊢
    simpa [scalarQN, assertE] using h1
  · intro i a k c b k' hb hk ha hc
    by_cases hik : (i, k) ∈ secs.pairs
    · rw [h3 i k b k' a c hik hb hk ha hc]
      obtain ⟨b', k'', hb', hk', hal⟩ := (hs.mem _ _).mp hik
      rw [hb] at hb'; rw [hk] at hk'
      simp only [Option.some.injEq] at hb' hk'
      subst hb' hk'
      rw [scalar_allowed g g (mem_of_getElem? hb) (mem_of_getElem? hk) hq] at hal
      have := sub_unique g hb hk hal
      subst this
      rw [hb] at hk
      simp only [Option.some.injEq] at hk
      subst hk
      by_cases hac : a = c
      · simp only [hac, if_true, and_self, mul_one, Labels.tz]
        cases b.labels.sp <;> simp
      · simp [hac]
    · rw [elem_absent hik, if_neg]
      rintro ⟨rfl, _⟩
      rw [hb] at hk
      simp only [Option.some.injEq] at hk
      subst hk
      exact hik ((hs.mem _ _).mpr ⟨b, b, hb, hb,
        (scalar_allowed g g (mem_of_getElem? hb) (mem_of_getElem? hb) hq).mpr rfl⟩)

/-- Selection rules of the isospin ladder operators. -/
theorem ladder_allowed {b k : Sub} {s : Space} (g : GoodSpace s) (mb : b ∈ s) (mk : k ∈ s) {t : Int}
    (ht : t = 1 ∨ t = -1) : Allowed ⟨0, 0, t⟩ b.labels k.labels ↔
      b.labels.l = k.labels.l ∧ b.labels.tj = k.labels.tj ∧ b.labels.tz = t ∧ k.labels.tz = -t := by
  have h1 := g.half b mb
  have h2 := g.half k mk
  obtain ⟨⟨l, tj, sp⟩, ns⟩ := b
  obtain ⟨⟨l', tj', sp'⟩, ns'⟩ := k
  simp only [Allowed, Labels.tz] at h1 h2 ⊢
  constructor
  · rintro ⟨⟨h3, h4⟩, h5, h6⟩
    rw [abs_le'] at h3
    refine ⟨by omega, by omega, ?_⟩
    cases sp <;> cases sp' <;> simp at h6 ⊢ <;> omega
  · rintro ⟨rfl, rfl, h3, h4⟩
    simp only [mul_zero, sub_zero, add_zero]
    refine ⟨⟨by rw [abs_of_nonneg (by omega)], le_refl _⟩, by omega, ?_⟩
    rw [h3, h4]; ring

/-- **C67** (partial, as above).  Isospin raising and lowering: one between orbitals with equal `n`, `l`,
`j` of opposite charge in the right order, zero otherwise. -/
theorem isospin_ladder_partial {sp : Space} {secs : Sectors} {t : Int} (ht : t = 1 ∨ t = -1)
    (g : GoodSpace sp) (hc : Complete sp) (hs : SectorsOf secs sp sp) (hq : secs.qn = ⟨0, 0, t⟩) :
    ∃ mats, isospin sp secs = .ok mats ∧ Fits secs mats sp sp ∧
      ∀ i a k c b k', sp[i]? = some b → sp[k]? = some k' → a < b.ns.length → c < k'.ns.length →
        elem secs mats i a k c =
          if b.labels.l = k'.labels.l ∧ b.labels.tj = k'.labels.tj ∧ b.labels.tz = t ∧
            k'.labels.tz = -t ∧ b.ns.getD a 0 = k'.ns.getD c 0 then 1 else 0 := by
  have ht0 : t ≠ 0 := by omega
  obtain ⟨mats, h1, h2, h3⟩ := eye_blocks (secs := secs) (fun p => do
    let b ← getE sp p.1
    let k ← getE sp p.2
    let me : ℝ := if secs.qn.Tz0 = 0 then (k.labels.tz : ℝ) / 2 else 1
    pure (scale me (eye b.ns.length k.ns.length)))
    (fun _ _ => 1) hs (by
      intro p hp b k hb hk
      simp only [getE_ok hb, getE_ok hk, Except.ok_bind', Except.pure_ok, hq, if_neg ht0])
  refine ⟨mats, ?_, h2, ?_⟩
  · unfold isospin
    rw [hq] at h1 ⊢
    simpa [assertE] using h1
  · intro i a k c b k' hb hk ha hc'
    have e1 : b.ns.getD a 0 = a := by
      rw [hc b (mem_of_getElem? hb), List.getD_eq_getElem?_getD, List.getElem?_range ha]; rfl
    have e2 : k'.ns.getD c 0 = c := by
      rw [hc k' (mem_of_getElem? hk), List.getD_eq_getElem?_getD, List.getElem?_range hc']; rfl
    rw [e1, e2]
    have hal : (i, k) ∈ secs.pairs ↔ b.labels.l = k'.labels.l ∧ b.labels.tj = k'.labels.tj ∧
        b.labels.tz = t ∧ k'.labels.tz = -t := by
      rw [hs.mem, hq, ← ladder_allowed g (mem_of_getElem? hb) (mem_of_getElem? hk) ht]
      simp [hb, hk]
    by_cases hik : (i, k) ∈ secs.pairs
    · rw [h3 i k b k' a c hik hb hk ha hc', one_mul]
      obtain ⟨p1, p2, p3, p4⟩ := hal.mp hik
      simp [p1, p2, p3, p4]
    · rw [elem_absent hik, if_neg]
      rintro ⟨p1, p2, p3, p4, _⟩
      exact hik (hal.mpr ⟨p1, p2, p3, p4⟩)

/-! ## Radial operators -/

theorem generateE_element {bra ket : Space} {secs : Sectors} {f : Labels → ℕ → Labels → ℕ → Except Err ℝ}
    {v : Labels → ℕ → Labels → ℕ → ℝ} (hs : SectorsOf secs bra ket)
    (hf : ∀ b ∈ bra, ∀ k ∈ ket, Allowed secs.qn b.labels k.labels → ∀ n ∈ b.ns, ∀ n' ∈ k.ns,
      f b.labels n k.labels n' = .ok (v b.labels n k.labels n')) :
    ∃ mats, generateE bra ket secs f = .ok mats ∧ Fits secs mats bra ket ∧
      ∀ i k b k' a c, (i, k) ∈ secs.pairs → bra[i]? = some b → ket[k]? = some k' → a < b.ns.length →
        c < k'.ns.length → elem secs mats i a k c = v b.labels (b.ns.getD a 0) k'.labels (k'.ns.getD c 0) := by
  obtain ⟨mats, h1, h2, h3⟩ := assemble (s := secs) (bra := bra) (ket := ket) (fun p => do
    let b ← getE bra p.1
    let k ← getE ket p.2
    let rows ← b.ns.mapM fun n => k.ns.mapM fun n' => f b.labels n k.labels n'
    pure ⟨b.ns.length, k.ns.length, fun i j => (rows.getD i []).getD j 0⟩)
    (fun i a k c => match bra[i]?, ket[k]? with
      | some b, some k' => v b.labels (b.ns.getD a 0) k'.labels (k'.ns.getD c 0)
      | _, _ => 0) (by
      intro p hp
      obtain ⟨b, k, hb, hk, hal⟩ := sectors_some hs hp
      have hm : (b.ns.mapM fun n => k.ns.mapM fun n' => f b.labels n k.labels n')
          = .ok (b.ns.map fun n => k.ns.map fun n' => v b.labels n k.labels n') := by
        apply Verif.Relative.mapM_ok
        intro n hn
        apply Verif.Relative.mapM_ok
        intro n' hn'
        exact hf b (mem_of_getElem? hb) k (mem_of_getElem? hk) hal n hn n' hn'
      simp only [getE_ok hb, getE_ok hk, Except.ok_bind', Except.pure_ok, hm]
      refine ⟨_, rfl, (dim_some hb).symm, (dim_some hk).symm, fun a c ha hc => ?_⟩
      rw [dim_some hb] at ha; rw [dim_some hk] at hc
      simp [hb, hk, List.getD_eq_getElem?_getD, List.getElem?_eq_getElem ha, List.getElem?_eq_getElem hc])
  refine ⟨mats, h1, h2, ?_⟩
  intro i k b k' a c hik hb hk ha hc
  rw [h3 i k hik a c (by rwa [dim_some hb]) (by rwa [dim_some hk])]
  simp [hb, hk]

/-- A vector operator of odd parity connects `l` with `l ± 1` only. -/
theorem vector_selection {b k : Sub} {s : Space} (g : GoodSpace s) (mb : b ∈ s) (mk : k ∈ s) {q : QN}
    (hJ : q.J0 = 1) (hg : q.g0 = 1) (h : Allowed q b.labels k.labels) :
    b.labels.l = k.labels.l + 1 ∨ k.labels.l = b.labels.l + 1 := by
  have h1 := g.half b mb
  have h2 := g.half k mk
  obtain ⟨⟨h3, h4⟩, h5, _⟩ := h
  rw [abs_le'] at h3
  omega

/-- A quadrupole or monopole operator of even parity connects `l` with `l`, `l ± 2` only. -/
theorem quadrupole_selection {b k : Sub} {s : Space} (g : GoodSpace s) (mb : b ∈ s) (mk : k ∈ s) {q : QN}
    (hJ : q.J0 = 0 ∨ q.J0 = 2) (hg : q.g0 = 0) (h : Allowed q b.labels k.labels) :
    b.labels.l = k.labels.l ∨ b.labels.l = k.labels.l + 2 ∨ k.labels.l = b.labels.l + 2 := by
  have h1 := g.half b mb
  have h2 := g.half k mk
  obtain ⟨⟨h3, h4⟩, h5, _⟩ := h
  rw [abs_le'] at h3
  omega

/-- Integral of `r^p` between the oscillator functions of `oscillator_wf.h` at unit length. -/
noncomputable def radialIntegral (p n' l' n l : ℕ) : ℝ :=
  ∫ x in Ioi (0 : ℝ), Verif.Osc.oscFn n' l' 1 x * (x ^ p * Verif.Osc.oscFn n l 1 x)

/-- **C68.** The vector operator `r`: generation in the oscillator basis never fails the assertion of the
analytic formula, and every element is the radial integral of `r` (up to the decimal literal for the
square root of two). -/
theorem radial_order_one {spl : Spline} {sp : Space} {secs : Sectors} (g : GoodSpace sp)
    (hs : SectorsOf secs sp sp) (hJ : secs.qn.J0 = 1) (hg : secs.qn.g0 = 1) :
    ∃ mats, radialOperator spl .oscillator .r 1 sp secs = .ok mats ∧ Fits secs mats sp sp ∧
      ∀ i k b k' a c, (i, k) ∈ secs.pairs → sp[i]? = some b → sp[k]? = some k' → a < b.ns.length →
        c < k'.ns.length → elem secs mats i a k c = Real.sqrt 2 / Verif.Osc.kSqrt2 *
          radialIntegral 1 (b.ns.getD a 0) b.labels.l (k'.ns.getD c 0) k'.labels.l := by
  unfold radialOperator
  apply generateE_element
    (v := fun b n k n' => Real.sqrt 2 / Verif.Osc.kSqrt2 * radialIntegral 1 n b.l n' k.l) hs
  intro b mb k mk hal n hn n' hn'
  have hl := vector_selection g mb mk hJ hg hal
  have := Verif.Osc.coordinate_is_integral n b.labels.l n' k.labels.l hl
  push_cast at this
  simp only [radialElement, hJ, hg, and_self, if_true, reduceCtorEq, if_false, radialIntegral, pow_one,
    one_ne_zero]
  exact this

/-- **C68.** The operators `r²` (rank 0 and 2): generation never fails and every element is the radial
integral of `r²`. -/
theorem radial_order_two {spl : Spline} {sp : Space} {secs : Sectors} (g : GoodSpace sp)
    (hs : SectorsOf secs sp sp) (hJ : secs.qn.J0 = 0 ∨ secs.qn.J0 = 2) (hg : secs.qn.g0 = 0) :
    ∃ mats, radialOperator spl .oscillator .r 2 sp secs = .ok mats ∧ Fits secs mats sp sp ∧
      ∀ i k b k' a c, (i, k) ∈ secs.pairs → sp[i]? = some b → sp[k]? = some k' → a < b.ns.length →
        c < k'.ns.length → elem secs mats i a k c =
          radialIntegral 2 (b.ns.getD a 0) b.labels.l (k'.ns.getD c 0) k'.labels.l := by
  unfold radialOperator
  apply generateE_element (v := fun b n k n' => radialIntegral 2 n b.l n' k.l) hs
  intro b mb k mk hal n hn n' hn'
  have hl := quadrupole_selection g mb mk hJ hg hal
  have := Verif.Osc.coordinateSqr_is_integral n b.labels.l n' k.labels.l hl
  push_cast at this
  have h1 : ¬ ((2 : Int) = 1 ∧ secs.qn.J0 = 1 ∧ secs.qn.g0 = 1) := by omega
  simp only [radialElement, h1, hJ, hg, and_self, if_true, reduceCtorEq, if_false, radialIntegral]
  exact this

/-- **C68.** The vector operator `ik` never fails, and every element is the integral of the radial part of
the gradient acting on the reduced radial function: `d/dr - (l+1)/r` towards `l + 1`, `d/dr + l/r` towards
`l - 1`. -/
theorem radial_momentum {spl : Spline} {sp : Space} {secs : Sectors} (g : GoodSpace sp)
    (hs : SectorsOf secs sp sp) (hJ : secs.qn.J0 = 1) (hg : secs.qn.g0 = 1) :
    ∃ mats, radialOperator spl .oscillator .k 1 sp secs = .ok mats ∧ Fits secs mats sp sp ∧
      ∀ i k b k' a c, (i, k) ∈ secs.pairs → sp[i]? = some b → sp[k]? = some k' → a < b.ns.length →
        c < k'.ns.length → elem secs mats i a k c = Real.sqrt 2 / Verif.Osc.kSqrt2 *
          ∫ x in Ioi (0 : ℝ), Verif.Osc.oscFn (b.ns.getD a 0) b.labels.l 1 x *
            (deriv (Verif.Osc.oscFn (k'.ns.getD c 0) k'.labels.l 1) x +
              (if b.labels.l = k'.labels.l + 1 then -(k'.labels.l + 1 : ℝ) else k'.labels.l) / x *
                Verif.Osc.oscFn (k'.ns.getD c 0) k'.labels.l 1 x) := by
  unfold radialOperator
  apply generateE_element (v := fun b n k n' => Real.sqrt 2 / Verif.Osc.kSqrt2 *
          ∫ x in Ioi (0 : ℝ), Verif.Osc.oscFn n b.l 1 x *
            (deriv (Verif.Osc.oscFn n' k.l 1) x +
              (if b.l = k.l + 1 then -(k.l + 1 : ℝ) else k.l) / x * Verif.Osc.oscFn n' k.l 1 x)) hs
  intro b mb k mk hal n hn n' hn'
  simp only [radialElement, hJ, hg, and_self, if_true, if_false, one_ne_zero]
  rcases vector_selection g mb mk hJ hg hal with hl | hl
  · have := Verif.Osc.momentum_up_is_integral n n' k.labels.l
    rw [hl]
    push_cast at this ⊢
    rw [this]
    simp only [if_true]
    congr 3
    funext x
    ring
  · have := Verif.Osc.momentum_down_is_integral n n' b.labels.l
    rw [hl, if_neg (by omega)]
    push_cast at this ⊢
    rw [this]

/-- **C68.** The radial operator of order zero is the identity in `n` and `l`, in every basis. -/
theorem radial_order_zero {spl : Spline} {bt : BasisType} {ot : RadType} {sp : Space} {secs : Sectors}
    (hs : SectorsOf secs sp sp) :
    ∃ mats, radialOperator spl bt ot 0 sp secs = .ok mats ∧ Fits secs mats sp sp ∧
      ∀ i k b k' a c, (i, k) ∈ secs.pairs → sp[i]? = some b → sp[k]? = some k' → a < b.ns.length →
        c < k'.ns.length → elem secs mats i a k c =
          if b.ns.getD a 0 = k'.ns.getD c 0 ∧ b.labels.l = k'.labels.l then 1 else 0 := by
  unfold radialOperator
  apply generateE_element (v := fun b n k n' => if n = n' ∧ b.l = k.l then 1 else 0) hs
  intro b mb k mk hal n hn n' hn'
  simp [radialElement]

/-- **C69.** The ladder operators never fail in the oscillator basis, and the lowering operator has the
transposed elements of the raising operator whenever the angular factor is symmetric. -/
theorem ladder_adjoint {crme : Labels → Labels → Int → ℝ} {sp : Space} {secs : Sectors}
    (g : GoodSpace sp) (hs : SectorsOf secs sp sp) (hT : secs.qn.Tz0 = 0)
    (ph : Labels → Labels → ℝ) (hsym : ∀ b k, crme b k secs.qn.J0 = ph b k * crme k b secs.qn.J0) :
    ∃ up down, ladder crme .oscillator true sp secs = .ok up ∧
      ladder crme .oscillator false sp secs = .ok down ∧
      ∀ i k b k' a c, sp[i]? = some b → sp[k]? = some k' → a < b.ns.length → c < k'.ns.length →
        elem secs down i a k c = ph b.labels k'.labels * elem secs up k c i a := by
  have phys : ∀ n l : ℕ, Verif.Osc.Physical (2 * (n : Int) + l) l := by
    intro n l
    refine ⟨by omega, by omega, by omega⟩
  have num : ∀ (n l n' l' : ℕ), ∃ x, Verif.Osc.cDagger (2 * (n : Int) + l) l (2 * (n' : Int) + l') l' = .ok x :=
    fun n l n' l' => (Verif.Osc.elements_are_numbers (phys n l) (phys n' l') 1).1
  choose val hval using num
  obtain ⟨up, hup, fup, vup⟩ := generateE_element (secs := secs) (bra := sp) (ket := sp)
    (f := fun b n k n' => do
      let me ← if true then Verif.Osc.cDagger (2 * n + b.l) b.l (2 * n' + k.l) k.l
        else Verif.Osc.cLower (2 * n + b.l) b.l (2 * n' + k.l) k.l
      pure (crme b k secs.qn.J0 * me))
    (v := fun b n k n' => crme b k secs.qn.J0 * val n b.l n' k.l) hs (by
      intro b _ k _ _ n _ n' _
      simp [hval, Except.ok_bind', Except.pure_ok])
  obtain ⟨down, hdown, fdown, vdown⟩ := generateE_element (secs := secs) (bra := sp) (ket := sp)
    (f := fun b n k n' => do
      let me ← if false then Verif.Osc.cDagger (2 * n + b.l) b.l (2 * n' + k.l) k.l
        else Verif.Osc.cLower (2 * n + b.l) b.l (2 * n' + k.l) k.l
      pure (crme b k secs.qn.J0 * me))
    (v := fun b n k n' => crme b k secs.qn.J0 * val n' k.l n b.l) hs (by
      intro b _ k _ _ n _ n' _
      simp [hval, Except.ok_bind', Except.pure_ok, Verif.Osc.lowering_is_adjoint])
  refine ⟨up, down, ?_, ?_, ?_⟩
  · unfold ladder
    simpa [assertE] using hup
  · unfold ladder
    simpa [assertE] using hdown
  · intro i k b k' a c hb hk ha hc
    have hsw : (i, k) ∈ secs.pairs ↔ (k, i) ∈ secs.pairs := by
      have e : ∀ {i k : ℕ} {b k' : Sub}, sp[i]? = some b → sp[k]? = some k' →
          ((i, k) ∈ secs.pairs ↔ Allowed secs.qn b.labels k'.labels) := by
        intro i k b k' hb hk
        rw [hs.mem]
        simp [hb, hk]
      rw [e hb hk, e hk hb]
      simp only [Allowed, hT, abs_le']
      omega
    by_cases hik : (i, k) ∈ secs.pairs
    · rw [vdown i k b k' a c hik hb hk ha hc, vup k i k' b c a (hsw.mp hik) hk hb hc ha,
        hsym b.labels k'.labels]
      ring
    · rw [elem_absent hik, elem_absent (fun h => hik (hsw.mpr h)), mul_zero]

/-! ## Solid harmonics -/

theorem solidHarmonic_element {spl : Spline} {crme : Labels → Labels → Int → ℝ} {bt : BasisType}
    {ot : RadType} {order : Int} {sp : Space} {secs : Sectors} {rad : List Mat}
    (hs : SectorsOf secs sp sp) (hr : radialOperator spl bt ot order sp secs = .ok rad)
    (hf : Fits secs rad sp sp) :
    ∃ mats, solidHarmonic spl crme bt ot order sp secs = .ok mats ∧ Fits secs mats sp sp ∧
      ∀ i k b k' a c, sp[i]? = some b → sp[k]? = some k' → elem secs mats i a k c =
        crme b.labels k'.labels secs.qn.J0 * elem secs rad i a k c := by
  have key : ∀ pm ∈ secs.pairs.zip rad, ∃ m, (do
      let b ← getE sp pm.1.1
      let k ← getE sp pm.1.2
      pure (scale (crme b.labels k.labels secs.qn.J0) pm.2) : Except Err Mat) = .ok m ∧
      ∃ b k, sp[pm.1.1]? = some b ∧ sp[pm.1.2]? = some k ∧
        m = scale (crme b.labels k.labels secs.qn.J0) pm.2 := by
    rintro ⟨p, m⟩ hpm
    obtain ⟨b, k, hb, hk, _⟩ := sectors_some hs (List.of_mem_zip hpm).1
    simp only at hb hk ⊢
    simp only [getE_ok hb, getE_ok hk, Except.ok_bind', Except.pure_ok]
    exact ⟨_, rfl, b, k, hb, hk, rfl⟩
  obtain ⟨mats, h1, h2⟩ := mapM_forall₂ key
  have hget : ∀ (x : ℕ) (p : ℕ × ℕ) (m : Mat), secs.pairs[x]? = some p → rad[x]? = some m →
      ∃ m', mats[x]? = some m' ∧ ∃ b k : Sub, sp[p.1]? = some b ∧ sp[p.2]? = some k ∧
        m' = scale (crme b.labels k.labels secs.qn.J0) m := by
    intro x p m hp hm
    exact forall₂_getElem? h2 (a := (p, m)) (by rw [List.getElem?_zip_eq_some]; exact ⟨hp, hm⟩)
  have hlen : mats.length = secs.pairs.length := by
    rw [← h2.length_eq, List.length_zip, hf.length, min_self]
  have hfit : Fits secs mats sp sp := by
    refine ⟨hlen, ?_⟩
    intro x i k m hp hm
    have hlt : x < rad.length := by
      rw [hf.length, ← hlen]
      exact (List.getElem?_eq_some_iff.mp hm).1
    have hrx := List.getElem?_eq_getElem hlt
    obtain ⟨m', hm', b, k', _, _, rfl⟩ := hget x (i, k) _ hp hrx
    rw [hm] at hm'
    simp only [Option.some.injEq] at hm'
    subst hm'
    exact hf.size x i k rad[x] hp hrx
  refine ⟨mats, ?_, hfit, ?_⟩
  · unfold solidHarmonic
    rw [hr]
    simpa using h1
  · intro i k b k' a c hb hk
    by_cases hik : (i, k) ∈ secs.pairs
    · obtain ⟨x, hx⟩ := idxOf?_mem hik
      obtain ⟨m, hm, hmr, hmc, _⟩ := fits_block hf hx
      obtain ⟨m', hm', b1, k1, hb1, hk1, rfl⟩ := hget x (i, k) m (idxOf?_getElem? hx) hm
      simp only at hb1 hk1
      rw [hb] at hb1; rw [hk] at hk1
      simp only [Option.some.injEq] at hb1 hk1
      subst hb1 hk1
      simp only [elem, hx, hm, hm', scale]
      split_ifs <;> simp
    · rw [elem_absent hik, elem_absent hik, mul_zero]

/-- Element of the solid-harmonic source of `obmixer`. -/
theorem solidHarmonicSource_element {spl : Spline} {crme : Labels → Labels → Int → ℝ} {inv4pi : ℝ}
    {bt : BasisType} {ot : RadType} {order : Int} {kin : Bool} {len : ℝ} {sp : Space} {secs : Sectors}
    {rad : List Mat} (hs : SectorsOf secs sp sp)
    (hr : radialOperator spl bt ot order sp secs = .ok rad) (hf : Fits secs rad sp sp) :
    ∃ mats, solidHarmonicSource spl crme inv4pi bt ot order kin len sp secs = .ok mats ∧
      ∀ i k b k' a c, sp[i]? = some b → sp[k]? = some k' → elem secs mats i a k c =
        (if ot = .r then len ^ order else len ^ (-order)) *
          (if kin then 1 else Real.sqrt (2 * order + 1) * inv4pi) *
          (crme b.labels k'.labels secs.qn.J0 * elem secs rad i a k c) := by
  obtain ⟨mats, h1, h2, h3⟩ := solidHarmonic_element (crme := crme) hs hr hf
  refine ⟨_, by unfold solidHarmonicSource; rw [h1]; rfl, ?_⟩
  intro i k b k' a c hb hk
  rw [← h3 i k b k' a c hb hk]
  rcases hx : secs.pairs.idxOf? (i, k) with _ | x
  · simp [elem, hx]
  · simp only [elem, hx, List.getElem?_map]
    rcases mats[x]? with _ | m
    · simp
    · simp only [Option.map_some, scale]
      split_ifs <;> ring

/-- **C70** (partial: only when the radial power equals the rank).  A solid-harmonic source holds the
elements of `r^λ Y_λ`: the radial element times the reduced element of `C_λ` times
`sqrt((2λ+1)/4π)`, in units of the length parameter. -/
theorem solid_harmonic_Y_partial {spl : Spline} {crme : Labels → Labels → Int → ℝ} {inv4pi : ℝ}
    {bt : BasisType} {J0 : Int} {len : ℝ} {sp : Space} {secs : Sectors} {rad : List Mat}
    (hs : SectorsOf secs sp sp) (hJ : secs.qn.J0 = J0)
    (hr : radialOperator spl bt .r J0 sp secs = .ok rad) (hf : Fits secs rad sp sp) :
    ∃ mats, solidHarmonicSource spl crme inv4pi bt .r J0 false len sp secs = .ok mats ∧
      ∀ i k b k' a c, sp[i]? = some b → sp[k]? = some k' → elem secs mats i a k c =
        len ^ J0 * elem secs rad i a k c *
          (Real.sqrt (2 * secs.qn.J0 + 1) * inv4pi * crme b.labels k'.labels secs.qn.J0) := by
  obtain ⟨mats, h1, h2⟩ := solidHarmonicSource_element (crme := crme) (inv4pi := inv4pi) (kin := false)
    (len := len) hs hr hf
  refine ⟨mats, h1, ?_⟩
  intro i k b k' a c hb hk
  rw [h2 i k b k' a c hb hk, hJ]
  simp only [if_true, Bool.false_eq_true, if_false]
  ring

/-- **C70** is false in general: the factor is taken from the radial power, not from the rank, so `r² Y_0`
comes out too large by `sqrt 5`. -/
theorem solid_harmonic_wrong_factor :
    ∃ (sp : Space) (secs : Sectors), GoodSpace sp ∧ SectorsOf secs sp sp ∧ secs.qn = scalarQN ∧
    ∀ (spl : Spline) (crme : Labels → Labels → Int → ℝ) (inv4pi : ℝ), ∃ rad mats,
      radialOperator spl .oscillator .r 2 sp secs = .ok rad ∧
      solidHarmonicSource spl crme inv4pi .oscillator .r 2 false 1 sp secs = .ok mats ∧
      ∀ i k b k' a c, sp[i]? = some b → sp[k]? = some k' → elem secs mats i a k c =
        Real.sqrt 5 * (elem secs rad i a k c *
          (Real.sqrt (2 * secs.qn.J0 + 1) * inv4pi * crme b.labels k'.labels secs.qn.J0)) := by
  refine ⟨sampleSpace, allSectors scalarQN sampleSpace sampleSpace, sampleSpace_good, allSectors_spec _ _ _,
    rfl, ?_⟩
  intro spl crme inv4pi
  obtain ⟨rad, r1, r2, _⟩ := radial_order_two (spl := spl) sampleSpace_good
    (allSectors_spec scalarQN sampleSpace sampleSpace) (Or.inl rfl) rfl
  obtain ⟨mats, h1, h2⟩ := solidHarmonicSource_element (crme := crme) (inv4pi := inv4pi) (kin := false)
    (len := 1) (allSectors_spec scalarQN sampleSpace sampleSpace) r1 r2
  refine ⟨rad, mats, r1, h1, ?_⟩
  intro i k b k' a c hb hk
  rw [h2 i k b k' a c hb hk]
  have e : (Real.sqrt (2 * ((2 : Int) : ℝ) + 1)) = Real.sqrt 5 := by norm_num
  have e2 : (Real.sqrt (2 * ((allSectors scalarQN sampleSpace sampleSpace).qn.J0 : ℝ) + 1)) = 1 := by
    simp [allSectors, scalarQN]
  rw [e, e2]
  simp only [if_true, Bool.false_eq_true, if_false, one_zpow]
  ring

/-! ## Examples -/

theorem sampleSpace_complete : Complete sampleSpace := by
  intro b hb
  simp only [sampleSpace, List.mem_cons, List.not_mem_nil, or_false] at hb
  rcases hb with rfl | rfl <;> decide

example : ∃ mats, angularMomentumSquared .total sampleSpace (allSectors scalarQN sampleSpace sampleSpace) = .ok mats ∧
    elem (allSectors scalarQN sampleSpace sampleSpace) mats 0 1 0 1 = 3 / 4 := by
  obtain ⟨mats, h1, _, h3⟩ := squared_element (type := .total) sampleSpace_good
    (allSectors_spec scalarQN sampleSpace sampleSpace) rfl
  refine ⟨mats, h1, ?_⟩
  rw [h3 0 1 0 1 ⟨⟨0, 1, .p⟩, [0, 1]⟩ ⟨⟨0, 1, .p⟩, [0, 1]⟩ rfl rfl (by decide) (by decide)]
  norm_num [eigenvalue]

example : ∃ mats, radialOperator (fun _ _ _ _ _ _ _ => 0) .oscillator .r 1 sampleSpace
    (allSectors ⟨1, 1, 0⟩ sampleSpace sampleSpace) = .ok mats ∧ (0, 1) ∈ (allSectors ⟨1, 1, 0⟩ sampleSpace sampleSpace).pairs := by
  obtain ⟨mats, h1, _⟩ := radial_order_one (spl := fun _ _ _ _ _ _ _ => 0) sampleSpace_good
    (allSectors_spec ⟨1, 1, 0⟩ sampleSpace sampleSpace) rfl rfl
  exact ⟨mats, h1, by decide⟩

example : ∃ up, ladder (fun _ _ _ => 1) .oscillator true sampleSpace
    (allSectors ⟨1, 1, 0⟩ sampleSpace sampleSpace) = .ok up := by
  obtain ⟨up, _, h1, _⟩ := ladder_adjoint (crme := fun _ _ _ => 1) sampleSpace_good
    (allSectors_spec ⟨1, 1, 0⟩ sampleSpace sampleSpace) rfl (fun _ _ => 1) (by simp)
  exact ⟨up, h1⟩

/-- A space with a proton and a neutron orbital. -/
example : ∃ sp : Space, GoodSpace sp ∧ Complete sp ∧ (allSectors ⟨0, 0, 1⟩ sp sp).pairs = [(0, 1)] := by
  refine ⟨[⟨⟨0, 1, .p⟩, [0]⟩, ⟨⟨0, 1, .n⟩, [0, 1]⟩], ⟨by decide, by decide, by decide⟩, ?_, by decide⟩
  intro b hb
  simp only [List.mem_cons, List.not_mem_nil, or_false] at hb
  rcases hb with rfl | rfl <;> decide

end Verif.Obme
