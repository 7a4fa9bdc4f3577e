import Verif.Obme.ProductProps

/-!
# Properties of the similarity transformation of one-body operators
-/

namespace Verif.Obme
open Verif Verif.Mapping Verif.Xform
open Verif.H2 hiding Mat

theorem dim_pos_lt {s : Space} {i a : ℕ} (h : a < dim s i) : i < s.length := by
  by_contra hn
  rw [dim, List.getElem?_eq_none (by omega)] at h
  simp at h

theorem mem_states' {s : Space} {i a : ℕ} : (⟨i, a⟩ : (_ : ℕ) × ℕ) ∈ states s ↔ a < dim s i := by
  rw [mem_states]
  exact ⟨fun h => h.2, fun h => ⟨dim_pos_lt h, h⟩⟩

/-- A scalar operator only connects subspaces with the same labels. -/
theorem overlap_labels {s : Sectors} {mats : List Mat} {bra ket : Space} (gb : GoodSpace bra)
    (gk : GoodSpace ket) (h : Overlap s mats bra ket) {i a k c : ℕ} (hne : elem s mats i a k c ≠ 0) :
    ∃ b k', bra[i]? = some b ∧ ket[k]? = some k' ∧ b.labels = k'.labels := by
  by_cases hik : (i, k) ∈ s.pairs
  · obtain ⟨b, k', hb, hk, hal⟩ := (h.secs.mem _ _).mp hik
    exact ⟨b, k', hb, hk, (scalar_allowed gb gk (mem_of_getElem? hb) (mem_of_getElem? hk) h.qn).mp hal⟩
  · exact absurd (elem_absent hik a c) hne

/-- Sum over the states of a space with weights supported on one subspace. -/
theorem sum_states_single {s : Space} {f : (_ : ℕ) × ℕ → ℝ} {i : ℕ}
    (h : ∀ t, t.1 ≠ i → f t = 0) : ∑ t ∈ states s, f t = ∑ a ∈ Finset.range (dim s i), f ⟨i, a⟩ := by
  rw [states, Finset.sum_sigma]
  by_cases hi : i < s.length
  · rw [Finset.sum_eq_single_of_mem i (Finset.mem_range.mpr hi)]
    intro j _ hj
    exact Finset.sum_eq_zero fun a _ => h ⟨j, a⟩ hj
  · rw [Finset.sum_eq_zero, eq_comm, Finset.sum_eq_zero]
    · intro a ha
      exact absurd (dim_pos_lt (Finset.mem_range.mp ha)) hi
    · intro j hj
      refine Finset.sum_eq_zero fun a _ => h ⟨j, a⟩ ?_
      rintro rfl
      exact hi (Finset.mem_range.mp hj)

/-- **C52.** The transformed operator: never fails, and between any two target states its element is
`Σ U(s,t) O(s,s') U(s',t')` over all pairs of source states, absent sectors and source subspaces counting
as zero. -/
theorem similarity_element {source target : Space} {xsecs osecs secs : Sectors} {xmats omats : List Mat}
    (gs : GoodSpace source) (gt : GoodSpace target) (hX : Overlap xsecs xmats source target)
    (sO : SectorsOf osecs source source) (hO : Fits osecs omats source source)
    (hs : SectorsOf secs target target) (hq : secs.qn = osecs.qn) :
    ∃ mats, similarity source target xsecs xmats osecs omats secs = .ok mats ∧ Fits secs mats target target ∧
      ∀ i a k c, elem secs mats i a k c = ∑ s ∈ states source, ∑ s' ∈ states source,
        elem xsecs xmats s.1 s.2 i a * elem osecs omats s.1 s.2 s'.1 s'.2 *
          elem xsecs xmats s'.1 s'.2 k c := by
  have key : ∀ p ∈ secs.pairs, ∃ m, similarityBlock source target xsecs xmats osecs omats p = .ok m ∧
      m.rows = dim target p.1 ∧ m.cols = dim target p.2 ∧
      ∀ a c, a < dim target p.1 → c < dim target p.2 → m.val a c =
        ∑ s ∈ states source, ∑ s' ∈ states source,
        elem xsecs xmats s.1 s.2 p.1 a * elem osecs omats s.1 s.2 s'.1 s'.2 *
          elem xsecs xmats s'.1 s'.2 p.2 c := by
    rintro ⟨i, k⟩ hp
    obtain ⟨b, k', hb, hk, hal⟩ := sectors_some hs hp
    simp only at hb hk ⊢
    unfold similarityBlock
    simp only [zeroBlock, getE_ok hb, getE_ok hk, Except.ok_bind', Except.pure_ok]
    rcases hsb : lookUpSub source b.labels with _ | sb
    · refine ⟨_, rfl, (dim_some hb).symm, (dim_some hk).symm, ?_⟩
      intro a c _ _
      rw [Finset.sum_eq_zero]
      intro s _
      refine Finset.sum_eq_zero fun s' _ => ?_
      have : elem xsecs xmats s.1 s.2 i a = 0 := by
        by_contra hne
        obtain ⟨b1, k1, h1, h2, h3⟩ := overlap_labels gs gt hX hne
        rw [hb] at h2
        simp only [Option.some.injEq] at h2
        subst h2
        exact lookUpSub_eq_none hsb _ _ h1 h3
      rw [this, zero_mul, zero_mul]
    rcases hsk : lookUpSub source k'.labels with _ | sk
    · refine ⟨_, rfl, (dim_some hb).symm, (dim_some hk).symm, ?_⟩
      intro a c _ _
      rw [Finset.sum_eq_zero]
      intro s _
      refine Finset.sum_eq_zero fun s' _ => ?_
      have : elem xsecs xmats s'.1 s'.2 k c = 0 := by
        by_contra hne
        obtain ⟨b1, k1, h1, h2, h3⟩ := overlap_labels gs gt hX hne
        rw [hk] at h2
        simp only [Option.some.injEq] at h2
        subst h2
        exact lookUpSub_eq_none hsk _ _ h1 h3
      rw [this, mul_zero]
    obtain ⟨ub, hub, lub⟩ := lookUpSub_eq_some hsb
    obtain ⟨uk, huk, luk⟩ := lookUpSub_eq_some hsk
    have mo : (sb, sk) ∈ osecs.pairs :=
      (sO.mem _ _).mpr ⟨ub, uk, hub, huk, by rw [lub, luk, ← hq]; exact hal⟩
    have ml : (sb, i) ∈ xsecs.pairs := (hX.secs.mem _ _).mpr ⟨ub, b, hub, hb,
      (scalar_allowed gs gt (mem_of_getElem? hub) (mem_of_getElem? hb) hX.qn).mpr lub⟩
    have mr : (sk, k) ∈ xsecs.pairs := (hX.secs.mem _ _).mpr ⟨uk, k', huk, hk,
      (scalar_allowed gs gt (mem_of_getElem? huk) (mem_of_getElem? hk) hX.qn).mpr luk⟩
    obtain ⟨xo, hxo⟩ := idxOf?_mem mo
    obtain ⟨xl, hxl⟩ := idxOf?_mem ml
    obtain ⟨xr, hxr⟩ := idxOf?_mem mr
    obtain ⟨Mo, ho1, ho2, ho3, ho4⟩ := fits_block hO hxo
    obtain ⟨Ml, hl1, hl2, hl3, hl4⟩ := fits_block hX.fits hxl
    obtain ⟨Mr, hr1, hr2, hr3, hr4⟩ := fits_block hX.fits hxr
    simp only [hxo, hxl, hxr, assertFound, getE_ok ho1, getE_ok hl1, getE_ok hr1, Except.ok_bind']
    rw [mul_ok (show (Mat.transpose Ml).cols = Mo.rows from hl2.trans ho2.symm)]
    simp only [Except.ok_bind']
    rw [mul_ok (by exact ho3.trans hr2.symm)]
    refine ⟨_, rfl, hl3, hr3, ?_⟩
    intro a c ha hc
    have z1 : ∀ t : (_ : ℕ) × ℕ, t.1 ≠ sb → elem xsecs xmats t.1 t.2 i a = 0 := by
      intro t ht
      by_contra hne
      obtain ⟨b1, k1, h1, h2, h3⟩ := overlap_labels gs gt hX hne
      rw [hb] at h2
      simp only [Option.some.injEq] at h2
      subst h2
      exact ht (sub_unique gs h1 hub (h3.trans lub.symm))
    have z2 : ∀ t : (_ : ℕ) × ℕ, t.1 ≠ sk → elem xsecs xmats t.1 t.2 k c = 0 := by
      intro t ht
      by_contra hne
      obtain ⟨b1, k1, h1, h2, h3⟩ := overlap_labels gs gt hX hne
      rw [hk] at h2
      simp only [Option.some.injEq] at h2
      subst h2
      exact ht (sub_unique gs h1 huk (h3.trans luk.symm))
    rw [sum_states_single (i := sb) (fun t ht => Finset.sum_eq_zero fun s' _ => by rw [z1 t ht, zero_mul, zero_mul])]
    simp only
    have e2 : ∀ d, (∑ s' ∈ states source, elem xsecs xmats sb d i a * elem osecs omats sb d s'.1 s'.2 *
        elem xsecs xmats s'.1 s'.2 k c) = ∑ e ∈ Finset.range (dim source sk),
        elem xsecs xmats sb d i a * elem osecs omats sb d sk e * elem xsecs xmats sk e k c := by
      intro d
      rw [sum_states_single (i := sk) (fun t ht => by rw [z2 t ht, mul_zero])]
    rw [Finset.sum_congr rfl fun d _ => e2 d, Finset.sum_comm, ho3]
    refine Finset.sum_congr rfl fun e he => ?_
    rw [← Finset.sum_mul]
    have he' := Finset.mem_range.mp he
    rw [hr4 e c he' hc]
    congr 1
    show ∑ d ∈ Finset.range Ml.rows, Ml.val d a * Mo.val d e = _
    rw [hl2]
    refine Finset.sum_congr rfl fun d hd => ?_
    have hd' := Finset.mem_range.mp hd
    rw [hl4 d a hd' ha, ho4 d e hd' he']
  obtain ⟨mats, h1, h2, h3⟩ := assemble (bra := target) (ket := target) _
    (fun i a k c => ∑ s ∈ states source, ∑ s' ∈ states source,
        elem xsecs xmats s.1 s.2 i a * elem osecs omats s.1 s.2 s'.1 s'.2 *
          elem xsecs xmats s'.1 s'.2 k c) key
  refine ⟨mats, ?_, h2, ?_⟩
  · unfold similarity
    rw [hX.qn]
    simpa [scalarQN] using h1
  intro i a k c
  by_cases hd : a < dim target i ∧ c < dim target k
  · by_cases hik : (i, k) ∈ secs.pairs
    · exact h3 i k hik a c hd.1 hd.2
    · rw [elem_absent hik, Finset.sum_eq_zero]
      intro s _
      refine Finset.sum_eq_zero fun s' _ => ?_
      by_contra hne
      have n1 : elem xsecs xmats s.1 s.2 i a ≠ 0 := fun h => hne (by rw [h, zero_mul, zero_mul])
      have n2 : elem osecs omats s.1 s.2 s'.1 s'.2 ≠ 0 := fun h => hne (by rw [h, mul_zero, zero_mul])
      have n3 : elem xsecs xmats s'.1 s'.2 k c ≠ 0 := fun h => hne (by rw [h, mul_zero])
      obtain ⟨u, b, hu, hb, l1⟩ := overlap_labels gs gt hX n1
      obtain ⟨u', k', hu', hk, l2⟩ := overlap_labels gs gt hX n3
      have hos : (s.1, s'.1) ∈ osecs.pairs := by
        by_contra hn
        exact n2 (elem_absent hn _ _)
      obtain ⟨v, v', hv, hv', hal⟩ := (sO.mem _ _).mp hos
      rw [hu] at hv; rw [hu'] at hv'
      simp only [Option.some.injEq] at hv hv'
      subst hv hv'
      exact hik ((hs.mem _ _).mpr ⟨b, k', hb, hk, by rw [hq, ← l1, ← l2]; exact hal⟩)
  · rw [elem_outside h2 hd, Finset.sum_eq_zero]
    intro s _
    refine Finset.sum_eq_zero fun s' _ => ?_
    by_cases ha : a < dim target i
    · rw [elem_outside hX.fits (fun h => hd ⟨ha, h.2⟩), mul_zero]
    · rw [elem_outside hX.fits (a := s.2) (fun h => ha h.2), zero_mul, zero_mul]

/-- **C52.** Transforming by `U` and then by `V` is transforming by the composition of `U` and `V`. -/
theorem similarity_compose {x y z : Space} {sU sV sUV sO sY sZ : Sectors} {mU mV mUV mO mY mZ mZ' : List Mat}
    (gx : GoodSpace x) (gy : GoodSpace y) (gz : GoodSpace z) (hU : Overlap sU mU x y) (hV : Overlap sV mV y z)
    (hUV : SectorsOf sUV x z) (qUV : sUV.qn = scalarQN) (sOx : SectorsOf sO x x) (hO : Fits sO mO x x)
    (hY : SectorsOf sY y y) (qY : sY.qn = sO.qn) (hZ : SectorsOf sZ z z) (qZ : sZ.qn = sO.qn)
    (h1 : similarity x y sU mU sO mO sY = .ok mY) (h2 : similarity y z sV mV sY mY sZ = .ok mZ)
    (h3 : compose x y sU mU y z sV mV sUV = .ok mUV) (h4 : similarity x z sUV mUV sO mO sZ = .ok mZ') :
    ∀ i a k c, elem sZ mZ i a k c = elem sZ mZ' i a k c := by
  obtain ⟨_, e1, f1, v1⟩ := similarity_element gx gy hU sOx hO hY qY
  obtain rfl := Except.ok.inj (h1.symm.trans e1)
  obtain ⟨_, e2, f2, v2⟩ := similarity_element gy gz hV hY f1 hZ (qZ.trans qY.symm)
  obtain rfl := Except.ok.inj (h2.symm.trans e2)
  obtain ⟨_, e3, o3, v3⟩ := compose_overlaps gx gy hU hV hUV qUV
  obtain rfl := Except.ok.inj (h3.symm.trans e3)
  obtain ⟨_, e4, f4, v4⟩ := similarity_element gx gz o3 sOx hO hZ qZ
  obtain rfl := Except.ok.inj (h4.symm.trans e4)
  intro i a k c
  rw [v2, v4]
  simp only [v1, v3, Finset.sum_mul, Finset.mul_sum]
  -- both sides are sums over four states
  have l : ∀ (f : (_ : ℕ) × ℕ → (_ : ℕ) × ℕ → (_ : ℕ) × ℕ → (_ : ℕ) × ℕ → ℝ),
      (∑ t ∈ states y, ∑ t' ∈ states y, ∑ s ∈ states x, ∑ s' ∈ states x, f t t' s s') =
      ∑ s ∈ states x, ∑ s' ∈ states x, ∑ t' ∈ states y, ∑ t ∈ states y, f t t' s s' := by
    intro f
    calc (∑ t ∈ states y, ∑ t' ∈ states y, ∑ s ∈ states x, ∑ s' ∈ states x, f t t' s s')
        = ∑ t ∈ states y, ∑ s ∈ states x, ∑ t' ∈ states y, ∑ s' ∈ states x, f t t' s s' :=
          Finset.sum_congr rfl fun t _ => Finset.sum_comm
      _ = ∑ s ∈ states x, ∑ t ∈ states y, ∑ t' ∈ states y, ∑ s' ∈ states x, f t t' s s' := Finset.sum_comm
      _ = ∑ s ∈ states x, ∑ t ∈ states y, ∑ s' ∈ states x, ∑ t' ∈ states y, f t t' s s' :=
          Finset.sum_congr rfl fun s _ => Finset.sum_congr rfl fun t _ => Finset.sum_comm
      _ = ∑ s ∈ states x, ∑ s' ∈ states x, ∑ t ∈ states y, ∑ t' ∈ states y, f t t' s s' :=
          Finset.sum_congr rfl fun s _ => Finset.sum_comm
      _ = _ := Finset.sum_congr rfl fun s _ => Finset.sum_congr rfl fun s' _ => Finset.sum_comm
  rw [l]
  refine Finset.sum_congr rfl fun s _ => Finset.sum_congr rfl fun s' _ =>
    Finset.sum_congr rfl fun t' _ => Finset.sum_congr rfl fun t _ => ?_
  ring

/-- **C52.** A symmetry relation between transposed elements with factors depending on the quantum numbers
`(l,j,tz)` only (Hermiticity, with whatever phase the reduced matrix element convention has) is preserved. -/
theorem similarity_symmetry {source target : Space} {xsecs osecs secs : Sectors} {xmats omats mats : List Mat}
    (ph : Labels → Labels → ℝ)
    (gs : GoodSpace source) (gt : GoodSpace target) (hX : Overlap xsecs xmats source target)
    (sO : SectorsOf osecs source source) (hO : Fits osecs omats source source)
    (hs : SectorsOf secs target target) (hq : secs.qn = osecs.qn)
    (hsym : ∀ i k b k' a c, source[i]? = some b → source[k]? = some k' →
      elem osecs omats i a k c = ph b.labels k'.labels * elem osecs omats k c i a)
    (h : similarity source target xsecs xmats osecs omats secs = .ok mats) :
    ∀ i k b k' a c, target[i]? = some b → target[k]? = some k' →
      elem secs mats i a k c = ph b.labels k'.labels * elem secs mats k c i a := by
  obtain ⟨_, e1, f1, v1⟩ := similarity_element gs gt hX sO hO hs hq
  obtain rfl := Except.ok.inj (h.symm.trans e1)
  intro i k b k' a c hb hk
  rw [v1 i a k c, v1 k c i a, Finset.sum_comm, Finset.mul_sum]
  refine Finset.sum_congr rfl fun s' _ => ?_
  rw [Finset.mul_sum]
  refine Finset.sum_congr rfl fun s _ => ?_
  by_cases h1 : elem xsecs xmats s.1 s.2 i a = 0
  · rw [h1]; ring
  by_cases h2 : elem xsecs xmats s'.1 s'.2 k c = 0
  · rw [h2]; ring
  obtain ⟨u, b1, hu, hb1, l1⟩ := overlap_labels gs gt hX h1
  obtain ⟨u', k1, hu', hk1, l2⟩ := overlap_labels gs gt hX h2
  rw [hb] at hb1; rw [hk] at hk1
  simp only [Option.some.injEq] at hb1 hk1
  subst hb1 hk1
  rw [hsym s.1 s'.1 u u' s.2 s'.2 hu hu', l1, l2]
  ring

/-- **C52.** The identity overlaps between two truncations of one basis: the transformed operator has the
source element between orbitals that both spaces have, identified by their quantum numbers. -/
theorem similarity_identity {spl : BasisType → BasisType → ℝ → ℕ → ℕ → ℕ → ℕ → ℝ} {bt : BasisType}
    {source target : Space} {xsecs osecs secs : Sectors} {xmats omats mats : List Mat}
    (gs : GoodSpace source) (gt : GoodSpace target) (sX : SectorsOf xsecs source target)
    (qX : xsecs.qn = scalarQN) (hX : radialOverlaps spl bt bt 1 source target xsecs = .ok xmats)
    (sO : SectorsOf osecs source source) (hO : Fits osecs omats source source)
    (hs : SectorsOf secs target target) (hq : secs.qn = osecs.qn)
    (h : similarity source target xsecs xmats osecs omats secs = .ok mats)
    {i k i' k' a c a' c' : ℕ} {b m b' m' : Sub}
    (hb : source[i]? = some b) (hk : source[k]? = some m) (hb' : target[i']? = some b')
    (hk' : target[k']? = some m') (ha : a < b.ns.length) (hc : c < m.ns.length) (ha' : a' < b'.ns.length)
    (hc' : c' < m'.ns.length) (lb : b.labels = b'.labels) (lm : m.labels = m'.labels)
    (nb : b.ns.getD a 0 = b'.ns.getD a' 0) (nm : m.ns.getD c 0 = m'.ns.getD c' 0) :
    elem secs mats i' a' k' c' = elem osecs omats i a k c := by
  obtain ⟨_, e0, o0, v0⟩ := overlaps_identity (spl := spl) (bt := bt) gs gt sX qX
  obtain rfl := Except.ok.inj (hX.symm.trans e0)
  obtain ⟨_, e1, f1, v1⟩ := similarity_element gs gt o0 sO hO hs hq
  obtain rfl := Except.ok.inj (h.symm.trans e1)
  have uniq : ∀ {j j' : ℕ} {p p' : Sub} {x x' : ℕ}, source[j]? = some p → target[j']? = some p' →
      x < p.ns.length → x' < p'.ns.length → p.labels = p'.labels → p.ns.getD x 0 = p'.ns.getD x' 0 →
      ∀ t ∈ states source, elem xsecs xmats t.1 t.2 j' x' = if t = ⟨j, x⟩ then 1 else 0 := by
    intro j j' p p' x x' hp hp' hx hx' hl hn t ht
    obtain ⟨ht1, ht2⟩ := mem_states.mp ht
    have et := List.getElem?_eq_getElem ht1
    rw [dim_some et] at ht2
    rw [v0 t.1 j' _ p' t.2 x' et hp' ht2 hx']
    congr 1
    obtain ⟨t1, t2⟩ := t
    simp only [Sigma.mk.injEq, heq_eq_eq, eq_iff_iff] at ht1 ht2 et ⊢
    constructor
    · rintro ⟨h1, h2⟩
      have hj := sub_unique gs et hp (h1.trans hl.symm)
      subst hj
      refine ⟨rfl, ?_⟩
      rw [et] at hp
      simp only [Option.some.injEq] at hp
      subst hp
      have hnd := gs.ns _ (mem_of_getElem? et)
      rw [← hn] at h2
      simp only [List.getD_eq_getElem?_getD, List.getElem?_eq_getElem ht2, List.getElem?_eq_getElem hx,
        Option.getD_some] at h2
      exact (List.Nodup.getElem_inj_iff hnd).mp h2
    · rintro ⟨rfl, rfl⟩
      rw [et] at hp
      simp only [Option.some.injEq] at hp
      subst hp
      exact ⟨hl, hn⟩
  rw [v1]
  have m1 : (⟨i, a⟩ : (_ : ℕ) × ℕ) ∈ states source := mem_states'.mpr (by rwa [dim_some hb])
  have m2 : (⟨k, c⟩ : (_ : ℕ) × ℕ) ∈ states source := mem_states'.mpr (by rwa [dim_some hk])
  rw [Finset.sum_eq_single_of_mem _ m1, Finset.sum_eq_single_of_mem _ m2]
  · rw [uniq hb hb' ha ha' lb nb _ m1, uniq hk hk' hc hc' lm nm _ m2]
    simp
  · intro t ht hne
    rw [uniq hk hk' hc hc' lm nm t ht, if_neg hne, mul_zero]
  · intro t ht hne
    refine Finset.sum_eq_zero fun t' _ => ?_
    rw [uniq hb hb' ha ha' lb nb t ht, if_neg hne, zero_mul, zero_mul]

/-- **C52.** A transformation that is not scalar is rejected. -/
theorem similarity_rejects {source target : Space} {xsecs osecs secs : Sectors} {xmats omats mats : List Mat}
    (h : similarity source target xsecs xmats osecs omats secs = .ok mats) : xsecs.qn = scalarQN := by
  unfold similarity at h
  simp only [Except.bind_eq_ok, assertE_ok, decide_eq_true_eq] at h
  obtain ⟨_, h1, _, h2, _, h3, _⟩ := h
  obtain ⟨⟨J0, g0, Tz0⟩, ps⟩ := xsecs
  simp_all [scalarQN]

/-- A larger target space than the sample: one more subspace and another order. -/
def sampleTarget : Space := [⟨⟨1, 1, .p⟩, [0, 1]⟩, ⟨⟨0, 1, .p⟩, [1, 0]⟩, ⟨⟨1, 3, .n⟩, [0]⟩]

theorem sampleTarget_good : GoodSpace sampleTarget := ⟨by decide, by decide, by decide⟩

example : (allSectors scalarQN sampleSpace sampleTarget).pairs = [(0, 1), (1, 0)] := by decide

example : ∃ xmats mats, radialOverlaps (fun _ _ _ _ _ _ _ => 0) .oscillator .oscillator 1 sampleSpace
    sampleTarget (allSectors scalarQN sampleSpace sampleTarget) = .ok xmats ∧
    similarity sampleSpace sampleTarget (allSectors scalarQN sampleSpace sampleTarget) xmats
      (allSectors ⟨1, 1, 0⟩ sampleSpace sampleSpace) (sampleOp ⟨1, 1, 0⟩)
      (allSectors ⟨1, 1, 0⟩ sampleTarget sampleTarget) = .ok mats := by
  obtain ⟨xmats, h1, o1, _⟩ := overlaps_identity (spl := fun _ _ _ _ _ _ _ => 0) (bt := .oscillator)
    sampleSpace_good sampleTarget_good (allSectors_spec scalarQN sampleSpace sampleTarget) rfl
  obtain ⟨mats, h2, _⟩ := similarity_element sampleSpace_good sampleTarget_good o1 (allSectors_spec _ _ _)
    (sampleOp_fits ⟨1, 1, 0⟩) (allSectors_spec ⟨1, 1, 0⟩ sampleTarget sampleTarget) rfl
  exact ⟨xmats, mats, h1, h2⟩

end Verif.Obme
