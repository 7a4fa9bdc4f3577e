import Verif.Obme.Lemmas

/-!
# Properties of products of one-body operators
-/

namespace Verif.Obme
open Verif Verif.Mapping Verif.Xform
open Verif.H2 hiding Mat

/-- States of a space: `(subspace, position)`. -/
def states (s : Space) : Finset ((_ : ℕ) × ℕ) := (Finset.range s.length).sigma fun i => Finset.range (dim s i)

theorem mem_states {s : Space} {p : (_ : ℕ) × ℕ} : p ∈ states s ↔ p.1 < s.length ∧ p.2 < dim s p.1 := by
  simp [states]

/-- Selection rules of the product contain those of the factors. -/
def Covers (q qA qB : QN) (bra inner ket : Space) : Prop :=
  ∀ b ∈ bra, ∀ m ∈ inner, ∀ k ∈ ket, Allowed qA b.labels m.labels → Allowed qB m.labels k.labels →
    Allowed q b.labels k.labels

theorem covers_scalar_left {q qA : QN} {bra inner ket : Space} (hb : GoodSpace bra) (hi : GoodSpace inner)
    (hq : qA = scalarQN) : Covers q qA q bra inner ket := by
  intro b mb m mm k _ h1 h2
  rw [scalar_allowed hb hi mb mm hq] at h1
  rw [h1]; exact h2

theorem covers_scalar_right {q qB : QN} {bra inner ket : Space} (hk : GoodSpace ket) (hi : GoodSpace inner)
    (hq : qB = scalarQN) : Covers q q qB bra inner ket := by
  intro b _ m mm k mk h1 h2
  rw [scalar_allowed hi hk mm mk hq] at h2
  rw [← h2]; exact h1

theorem composeStep_ok {secsA secsB : Sectors} {matsA matsB : List Mat} {braA inner ketB : Space}
    (hA : Fits secsA matsA braA inner) (hB : Fits secsB matsB inner ketB) (i k : ℕ) (acc : Mat) (j : ℕ)
    (hr : acc.rows = dim braA i) (hc : acc.cols = dim ketB k) :
    ∃ m, composeStep secsA secsB matsA matsB i k acc j = .ok m ∧ m.rows = dim braA i ∧ m.cols = dim ketB k ∧
      ∀ a c, a < dim braA i → c < dim ketB k → m.val a c = acc.val a c +
        ∑ b ∈ Finset.range (dim inner j), elem secsA matsA i a j b * elem secsB matsB j b k c := by
  unfold composeStep
  rcases hxa : secsA.pairs.idxOf? (i, j) with _ | xa
  · refine ⟨acc, rfl, hr, hc, ?_⟩
    intro a c _ _
    rw [Finset.sum_eq_zero, add_zero]
    intro b _
    rw [elem_absent (idxOf?_none.mp hxa), zero_mul]
  rcases hxb : secsB.pairs.idxOf? (j, k) with _ | xb
  · refine ⟨acc, rfl, hr, hc, ?_⟩
    intro a c _ _
    rw [Finset.sum_eq_zero, add_zero]
    intro b _
    rw [elem_absent (idxOf?_none.mp hxb), mul_zero]
  obtain ⟨ma, hma, har, hac, hav⟩ := fits_block hA hxa
  obtain ⟨mb, hmb, hbr, hbc, hbv⟩ := fits_block hB hxb
  simp only [getE_ok hma, getE_ok hmb, Except.ok_bind', mul_ok (hac.trans hbr.symm), addE]
  rw [if_pos ⟨hr.trans har.symm, hc.trans hbc.symm⟩]
  refine ⟨_, rfl, hr, hc, ?_⟩
  intro a c ha hc'
  simp only
  rw [hac]
  congr 1
  refine Finset.sum_congr rfl fun b hb => ?_
  rw [hav a b ha (Finset.mem_range.mp hb), hbv b c (Finset.mem_range.mp hb) hc']

/-- **C50.** The product of one-body operators never fails on stored operators of matching sizes, and in
each sector of the result its elements are the sums over all intermediate states of the products of the
elements, absent sectors counting as zero. -/
theorem compose_sector {secsA secsB secs : Sectors} {matsA matsB : List Mat} {bra inner ket : Space}
    (hA : Fits secsA matsA bra inner) (hB : Fits secsB matsB inner ket) (hs : SectorsOf secs bra ket) :
    ∃ mats, compose bra inner secsA matsA inner ket secsB matsB secs = .ok mats ∧ Fits secs mats bra ket ∧
      ∀ i k, (i, k) ∈ secs.pairs → ∀ a c, a < dim bra i → c < dim ket k → elem secs mats i a k c =
        ∑ t ∈ states inner, elem secsA matsA i a t.1 t.2 * elem secsB matsB t.1 t.2 k c := by
  unfold compose
  simp only [assertE_ok, Except.ok_bind', decide_true]
  apply assemble
  intro p hp
  obtain ⟨b, k, hb, hk, _⟩ := sectors_some hs hp
  simp only [zeroBlock, getE_ok hb, getE_ok hk, Except.ok_bind', Except.pure_ok]
  obtain ⟨m, hm, hr, hc, hv⟩ := foldlM_sum
    (fun j a c => ∑ b ∈ Finset.range (dim inner j), elem secsA matsA p.1 a j b * elem secsB matsB j b p.2 c)
    (composeStep_ok hA hB p.1 p.2) inner.length
    ⟨b.ns.length, k.ns.length, fun _ _ => 0⟩ (dim_some hb).symm (dim_some hk).symm
  refine ⟨m, hm, hr, hc, ?_⟩
  intro a c ha hc'
  rw [hv a c ha hc', states, Finset.sum_sigma]
  simp

/-- **C50.** When the sectors of the result cover the product, this holds for every pair of states. -/
theorem compose_element {secsA secsB secs : Sectors} {matsA matsB : List Mat} {bra inner ket : Space}
    (hA : Fits secsA matsA bra inner) (hB : Fits secsB matsB inner ket) (hs : SectorsOf secs bra ket)
    (sA : SectorsOf secsA bra inner) (sB : SectorsOf secsB inner ket)
    (hcov : Covers secs.qn secsA.qn secsB.qn bra inner ket) :
    ∃ mats, compose bra inner secsA matsA inner ket secsB matsB secs = .ok mats ∧ Fits secs mats bra ket ∧
      ∀ i a k c, elem secs mats i a k c =
        ∑ t ∈ states inner, elem secsA matsA i a t.1 t.2 * elem secsB matsB t.1 t.2 k c := by
  obtain ⟨mats, hm, hf, he⟩ := compose_sector hA hB hs
  refine ⟨mats, hm, hf, ?_⟩
  intro i a k c
  by_cases hd : a < dim bra i ∧ c < dim ket k
  · by_cases hik : (i, k) ∈ secs.pairs
    · exact he i k hik a c hd.1 hd.2
    · rw [elem_absent hik, Finset.sum_eq_zero]
      intro t _
      by_cases h1 : (i, t.1) ∈ secsA.pairs
      · by_cases h2 : (t.1, k) ∈ secsB.pairs
        · exfalso
          obtain ⟨b, m, hb, hm1, hal⟩ := (sA.mem _ _).mp h1
          obtain ⟨m', k', hm2, hk, hal'⟩ := (sB.mem _ _).mp h2
          rw [hm1] at hm2
          simp only [Option.some.injEq] at hm2
          subst hm2
          exact hik ((hs.mem _ _).mpr ⟨b, k', hb, hk, hcov b (mem_of_getElem? hb) m (mem_of_getElem? hm1) k'
            (mem_of_getElem? hk) hal hal'⟩)
        · rw [elem_absent h2, mul_zero]
      · rw [elem_absent h1, zero_mul]
  · rw [elem_outside hf hd, Finset.sum_eq_zero]
    intro t _
    by_cases h1 : a < dim bra i
    · rw [elem_outside hB (fun h => hd ⟨h1, h.2⟩), mul_zero]
    · rw [elem_outside hA (fun h => h1 h.1), zero_mul]

/-- Overlap sectors: scalar, parity and charge conserving. -/
structure Overlap (s : Sectors) (mats : List Mat) (bra ket : Space) : Prop where
  qn : s.qn = scalarQN
  secs : SectorsOf s bra ket
  fits : Fits s mats bra ket

/-- **C50.** Composition of radial overlaps is the matrix product over all intermediate orbitals. -/
theorem compose_overlaps {secsA secsB secs : Sectors} {matsA matsB : List Mat} {bra inner ket : Space}
    (gb : GoodSpace bra) (gi : GoodSpace inner) (hA : Overlap secsA matsA bra inner)
    (hB : Overlap secsB matsB inner ket) (hs : SectorsOf secs bra ket) (hq : secs.qn = scalarQN) :
    ∃ mats, compose bra inner secsA matsA inner ket secsB matsB secs = .ok mats ∧
      Overlap secs mats bra ket ∧
      ∀ i a k c, elem secs mats i a k c =
        ∑ t ∈ states inner, elem secsA matsA i a t.1 t.2 * elem secsB matsB t.1 t.2 k c := by
  obtain ⟨mats, h1, h2, h3⟩ := compose_element hA.fits hB.fits hs hA.secs hB.secs
    (by rw [hB.qn, hq, ← hB.qn]; exact covers_scalar_left gb gi hA.qn)
  exact ⟨mats, h1, ⟨hq, hs, h2⟩, h3⟩

/-- **C50.** Composition of overlaps is associative. -/
theorem compose_assoc {sA sB sC sAB sBC s : Sectors} {mA mB mC mAB mBC m m' : List Mat}
    {w x y z : Space} (gw : GoodSpace w) (gx : GoodSpace x) (gy : GoodSpace y)
    (hA : Overlap sA mA w x) (hB : Overlap sB mB x y) (hC : Overlap sC mC y z)
    (hAB : SectorsOf sAB w y) (qAB : sAB.qn = scalarQN) (hBC : SectorsOf sBC x z) (qBC : sBC.qn = scalarQN)
    (hs : SectorsOf s w z) (hq : s.qn = scalarQN)
    (h1 : compose w x sA mA x y sB mB sAB = .ok mAB) (h2 : compose w y sAB mAB y z sC mC s = .ok m)
    (h3 : compose x y sB mB y z sC mC sBC = .ok mBC) (h4 : compose w x sA mA x z sBC mBC s = .ok m') :
    ∀ i a k c, elem s m i a k c = elem s m' i a k c := by
  obtain ⟨_, e1, o1, f1⟩ := compose_overlaps gw gx hA hB hAB qAB
  obtain rfl := Except.ok.inj (h1.symm.trans e1)
  obtain ⟨_, e3, o3, f3⟩ := compose_overlaps gx gy hB hC hBC qBC
  obtain rfl := Except.ok.inj (h3.symm.trans e3)
  obtain ⟨_, e2, _, f2⟩ := compose_overlaps gw gy o1 hC hs hq
  obtain rfl := Except.ok.inj (h2.symm.trans e2)
  obtain ⟨_, e4, _, f4⟩ := compose_overlaps gw gx hA o3 hs hq
  obtain rfl := Except.ok.inj (h4.symm.trans e4)
  intro i a k c
  rw [f2, f4]
  simp only [f1, f3, Finset.sum_mul, Finset.mul_sum]
  rw [Finset.sum_comm]
  simp only [mul_assoc]

/-! ## Generated overlaps -/

theorem generate_element {bra ket : Space} {secs : Sectors} (f : Labels → ℕ → Labels → ℕ → ℝ)
    (hs : SectorsOf secs bra ket) :
    ∃ mats, generate bra ket secs f = .ok mats ∧ Fits secs mats bra ket ∧
      ∀ i k b k' a c, (i, k) ∈ secs.pairs → bra[i]? = some b → ket[k]? = some k' → a < b.ns.length →
        c < k'.ns.length → elem secs mats i a k c = f b.labels (b.ns.getD a 0) k'.labels (k'.ns.getD c 0) := by
  obtain ⟨mats, h1, h2, h3⟩ := assemble (s := secs) (bra := bra) (ket := ket) (fun p => do
    let b ← getE bra p.1
    let k ← getE ket p.2
    pure ⟨b.ns.length, k.ns.length, fun i j => f b.labels (b.ns.getD i 0) k.labels (k.ns.getD j 0)⟩)
    (fun i a k c => match bra[i]?, ket[k]? with
      | some b, some k' => f b.labels (b.ns.getD a 0) k'.labels (k'.ns.getD c 0)
      | _, _ => 0) (by
      intro p hp
      obtain ⟨b, k, hb, hk, _⟩ := sectors_some hs hp
      simp only [getE_ok hb, getE_ok hk, Except.ok_bind', Except.pure_ok]
      exact ⟨_, rfl, (dim_some hb).symm, (dim_some hk).symm, fun a c _ _ => by simp [hb, hk]⟩)
  refine ⟨mats, h1, h2, ?_⟩
  intro i k b k' a c hik hb hk ha hc
  rw [h3 i k hik a c (by rwa [dim_some hb]) (by rwa [dim_some hk])]
  simp [hb, hk]

/-- **C50.** Overlaps generated at scale one within one basis are the identity between orbitals: one for
orbitals with the same `(n,l,j,tz)`, zero otherwise. -/
theorem overlaps_identity {spl : BasisType → BasisType → ℝ → ℕ → ℕ → ℕ → ℕ → ℝ} {bt : BasisType}
    {bra ket : Space} {secs : Sectors} (gb : GoodSpace bra) (gk : GoodSpace ket) (hs : SectorsOf secs bra ket)
    (hq : secs.qn = scalarQN) :
    ∃ mats, radialOverlaps spl bt bt 1 bra ket secs = .ok mats ∧ Overlap secs mats bra ket ∧
      ∀ i k b k' a c, bra[i]? = some b → ket[k]? = some k' → a < b.ns.length → c < k'.ns.length →
        elem secs mats i a k c =
          if b.labels = k'.labels ∧ b.ns.getD a 0 = k'.ns.getD c 0 then 1 else 0 := by
  obtain ⟨mats, h1, h2, h3⟩ := generate_element (secs := secs)
    (fun b n k n' => overlapElement spl bt bt 1 b.l n k.l n') hs
  refine ⟨mats, ?_, ⟨hq, hs, h2⟩, ?_⟩
  · unfold radialOverlaps
    rw [hq]
    simpa [scalarQN, assertE_ok] using h1
  · intro i k b k' a c hb hk ha hc
    by_cases hik : (i, k) ∈ secs.pairs
    · rw [h3 i k b k' a c hik hb hk ha hc]
      obtain ⟨b', k'', hb', hk', hal⟩ := (hs.mem _ _).mp hik
      rw [hb] at hb'; rw [hk] at hk'
      simp only [Option.some.injEq] at hb' hk'
      subst hb' hk'
      rw [scalar_allowed gb gk (mem_of_getElem? hb) (mem_of_getElem? hk) hq] at hal
      simp [overlapElement, hal]
    · rw [elem_absent hik, if_neg]
      rintro ⟨hl, _⟩
      exact hik ((hs.mem _ _).mpr ⟨b, k', hb, hk,
        (scalar_allowed gb gk (mem_of_getElem? hb) (mem_of_getElem? hk) hq).mpr hl⟩)

/-- Identity of a space: one on the diagonal of all its states, zero elsewhere. -/
theorem overlaps_identity_same {spl : BasisType → BasisType → ℝ → ℕ → ℕ → ℕ → ℕ → ℝ} {bt : BasisType}
    {sp : Space} {secs : Sectors} (g : GoodSpace sp) (hs : SectorsOf secs sp sp) (hq : secs.qn = scalarQN) :
    ∃ mats, radialOverlaps spl bt bt 1 sp sp secs = .ok mats ∧ Overlap secs mats sp sp ∧
      ∀ s t : (_ : ℕ) × ℕ, s ∈ states sp → t ∈ states sp →
        elem secs mats s.1 s.2 t.1 t.2 = if s = t then 1 else 0 := by
  obtain ⟨mats, h1, h2, h3⟩ := overlaps_identity (spl := spl) (bt := bt) g g hs hq
  refine ⟨mats, h1, h2, ?_⟩
  rintro ⟨i, a⟩ ⟨k, c⟩ hs ht
  obtain ⟨hi, ha⟩ := mem_states.mp hs
  obtain ⟨hk, hc⟩ := mem_states.mp ht
  simp only at hi ha hk hc
  have ei : sp[i]? = some sp[i] := List.getElem?_eq_getElem hi
  have ek : sp[k]? = some sp[k] := List.getElem?_eq_getElem hk
  rw [dim_some ei] at ha; rw [dim_some ek] at hc
  simp only
  rw [h3 i k _ _ a c ei ek ha hc]
  congr 1
  simp only [Sigma.mk.injEq, heq_eq_eq, eq_iff_iff]
  constructor
  · rintro ⟨hl, hn⟩
    have hik := sub_unique g ei ek hl
    subst hik
    refine ⟨rfl, ?_⟩
    have hnd := g.ns _ (mem_of_getElem? ei)
    simp only [List.getD_eq_getElem?_getD, List.getElem?_eq_getElem ha, List.getElem?_eq_getElem hc,
      Option.getD_some] at hn
    exact (List.Nodup.getElem_inj_iff hnd).mp hn
  · rintro ⟨rfl, rfl⟩
    exact ⟨rfl, rfl⟩

/-- **C50.** Composing with the identity on the right changes nothing. -/
theorem compose_identity_right {secsA secsI secs : Sectors} {matsA matsI mats : List Mat} {bra ket : Space}
    {spl : BasisType → BasisType → ℝ → ℕ → ℕ → ℕ → ℕ → ℝ} {bt : BasisType}
    (gk : GoodSpace ket) (hA : Fits secsA matsA bra ket) (sA : SectorsOf secsA bra ket)
    (sI : SectorsOf secsI ket ket) (qI : secsI.qn = scalarQN) (hs : SectorsOf secs bra ket)
    (hq : secs.qn = secsA.qn) (hI : radialOverlaps spl bt bt 1 ket ket secsI = .ok matsI)
    (h : compose bra ket secsA matsA ket ket secsI matsI secs = .ok mats) :
    ∀ i a k c, elem secs mats i a k c = elem secsA matsA i a k c := by
  obtain ⟨_, e1, o1, f1⟩ := overlaps_identity_same (spl := spl) (bt := bt) gk sI qI
  obtain rfl := Except.ok.inj (hI.symm.trans e1)
  obtain ⟨_, e2, o2, f2⟩ := compose_element hA o1.fits hs sA sI
    (by rw [hq]; exact covers_scalar_right gk gk qI)
  obtain rfl := Except.ok.inj (h.symm.trans e2)
  intro i a k c
  by_cases hd : (⟨k, c⟩ : (_ : ℕ) × ℕ) ∈ states ket
  · rw [f2, Finset.sum_eq_single_of_mem _ hd]
    · rw [f1 _ ⟨k, c⟩ hd hd, if_pos rfl, mul_one]
    · intro t ht hne
      rw [f1 t ⟨k, c⟩ ht hd, if_neg hne, mul_zero]
  · have hc : ¬ c < dim ket k := by
      intro hc
      apply hd
      rw [mem_states]
      refine ⟨?_, hc⟩
      by_contra hn
      simp only at hn
      rw [dim, List.getElem?_eq_none (by omega)] at hc
      simp at hc
    rw [elem_outside o2 (fun h => hc h.2), elem_outside hA (fun h => hc h.2)]

/-- **C50.** Composing with the identity on the left changes nothing. -/
theorem compose_identity_left {secsA secsI secs : Sectors} {matsA matsI mats : List Mat} {bra ket : Space}
    {spl : BasisType → BasisType → ℝ → ℕ → ℕ → ℕ → ℕ → ℝ} {bt : BasisType}
    (gb : GoodSpace bra) (hA : Fits secsA matsA bra ket) (sA : SectorsOf secsA bra ket)
    (sI : SectorsOf secsI bra bra) (qI : secsI.qn = scalarQN) (hs : SectorsOf secs bra ket)
    (hq : secs.qn = secsA.qn) (hI : radialOverlaps spl bt bt 1 bra bra secsI = .ok matsI)
    (h : compose bra bra secsI matsI bra ket secsA matsA secs = .ok mats) :
    ∀ i a k c, elem secs mats i a k c = elem secsA matsA i a k c := by
  obtain ⟨_, e1, o1, f1⟩ := overlaps_identity_same (spl := spl) (bt := bt) gb sI qI
  obtain rfl := Except.ok.inj (hI.symm.trans e1)
  obtain ⟨_, e2, o2, f2⟩ := compose_element o1.fits hA hs sI sA
    (by rw [hq]; exact covers_scalar_left gb gb qI)
  obtain rfl := Except.ok.inj (h.symm.trans e2)
  intro i a k c
  by_cases hd : (⟨i, a⟩ : (_ : ℕ) × ℕ) ∈ states bra
  · rw [f2, Finset.sum_eq_single_of_mem _ hd]
    · rw [f1 ⟨i, a⟩ ⟨i, a⟩ hd hd, if_pos rfl, one_mul]
    · intro t ht hne
      rw [f1 ⟨i, a⟩ t hd ht, if_neg (Ne.symm hne), zero_mul]
  · have hc : ¬ a < dim bra i := by
      intro hc
      apply hd
      rw [mem_states]
      refine ⟨?_, hc⟩
      by_contra hn
      simp only at hn
      rw [dim, List.getElem?_eq_none (by omega)] at hc
      simp at hc
    rw [elem_outside o2 (fun h => hc h.1), elem_outside hA (fun h => hc h.1)]

/-! ## Tensor products -/

theorem tensorStep_ok {w : ℕ → ℕ → ℕ → ℝ} {secsA secsB : Sectors} {matsA matsB : List Mat} {sp : Space}
    (hA : Fits secsA matsA sp sp) (hB : Fits secsB matsB sp sp) (sA : SectorsOf secsA sp sp)
    {i k : ℕ} {b k' : Sub} (hi : sp[i]? = some b) (hk : sp[k]? = some k') (acc : Mat) (j : ℕ)
    (hr : acc.rows = dim sp i) (hc : acc.cols = dim sp k) :
    ∃ m, tensorStep w sp secsA secsB matsA matsB i k acc j = .ok m ∧ m.rows = dim sp i ∧ m.cols = dim sp k ∧
      ∀ a c, a < dim sp i → c < dim sp k → m.val a c = acc.val a c +
        ∑ d ∈ Finset.range (dim sp j),
          w b.labels.tj k'.labels.tj ((sp[j]?.map fun s => s.labels.tj).getD 0) *
            (elem secsA matsA i a j d * elem secsB matsB j d k c) := by
  unfold tensorStep
  rcases hxa : secsA.pairs.idxOf? (i, j) with _ | xa
  · refine ⟨acc, rfl, hr, hc, ?_⟩
    intro a c _ _
    rw [Finset.sum_eq_zero, add_zero]
    intro d _
    rw [elem_absent (idxOf?_none.mp hxa), zero_mul, mul_zero]
  rcases hxb : secsB.pairs.idxOf? (j, k) with _ | xb
  · refine ⟨acc, rfl, hr, hc, ?_⟩
    intro a c _ _
    rw [Finset.sum_eq_zero, add_zero]
    intro d _
    rw [elem_absent (idxOf?_none.mp hxb), mul_zero, mul_zero]
  obtain ⟨ma, hma, har, hac, hav⟩ := fits_block hA hxa
  obtain ⟨mb, hmb, hbr, hbc, hbv⟩ := fits_block hB hxb
  obtain ⟨_, j', _, hj, _⟩ := (sA.mem _ _).mp (mem_of_idxOf? hxa)
  simp only [getE_ok hi, getE_ok hk, getE_ok hj, getE_ok hma, getE_ok hmb, Except.ok_bind',
    mul_ok (show (scale (w b.labels.tj k'.labels.tj j'.labels.tj) ma).cols = mb.rows from hac.trans hbr.symm), addE]
  rw [if_pos ⟨hr.trans har.symm, hc.trans hbc.symm⟩]
  refine ⟨_, rfl, hr, hc, ?_⟩
  intro a c ha hc'
  simp only [scale, hj, Option.map_some, Option.getD_some]
  rw [hac]
  congr 1
  refine Finset.sum_congr rfl fun d hd => ?_
  rw [hav a d ha (Finset.mem_range.mp hd), hbv d c (Finset.mem_range.mp hd) hc', mul_assoc]

/-- **C66.** The spherical tensor product of one-body operators: never fails when the ranks, parities and
charges are compatible; its elements are the sums over all intermediate states of the recoupling factor
times the products of the elements. -/
theorem tensorProduct_element {w : QN → QN → QN → ℕ → ℕ → ℕ → ℝ} {secsA secsB secs : Sectors}
    {matsA matsB : List Mat} {sp : Space} (hA : Fits secsA matsA sp sp) (hB : Fits secsB matsB sp sp)
    (sA : SectorsOf secsA sp sp) (hs : SectorsOf secs sp sp)
    (h1 : |secsA.qn.J0 - secsB.qn.J0| ≤ secs.qn.J0 ∧ secs.qn.J0 ≤ secsA.qn.J0 + secsB.qn.J0)
    (h2 : (2 : Int) ∣ secsA.qn.g0 + secsB.qn.g0 + secs.qn.g0)
    (h3 : secsA.qn.Tz0 + secsB.qn.Tz0 = secs.qn.Tz0) :
    ∃ mats, tensorProduct w sp secsA matsA secsB matsB secs = .ok mats ∧ Fits secs mats sp sp ∧
      ∀ i k b k' a c, (i, k) ∈ secs.pairs → sp[i]? = some b → sp[k]? = some k' → a < b.ns.length →
        c < k'.ns.length → elem secs mats i a k c = ∑ t ∈ states sp,
          w secsA.qn secsB.qn secs.qn b.labels.tj k'.labels.tj ((sp[t.1]?.map fun s => s.labels.tj).getD 0) *
            (elem secsA matsA i a t.1 t.2 * elem secsB matsB t.1 t.2 k c) := by
  have h2' : (secsA.qn.g0 + secsB.qn.g0 + secs.qn.g0).tmod 2 = 0 := Int.tmod_eq_zero_of_dvd h2
  unfold tensorProduct
  simp only [assertE_ok, Except.ok_bind', decide_true, tri, h1.1, h1.2, and_self, h2', h3]
  obtain ⟨mats, e1, e2, e3⟩ := assemble (s := secs) (bra := sp) (ket := sp) (fun p => do
    let z ← zeroBlock sp sp p
    (List.range sp.length).foldlM
      (tensorStep (w secsA.qn secsB.qn secs.qn) sp secsA secsB matsA matsB p.1 p.2) z)
    (fun i a k c => ∑ t ∈ states sp,
          w secsA.qn secsB.qn secs.qn ((sp[i]?.map fun s => s.labels.tj).getD 0)
            ((sp[k]?.map fun s => s.labels.tj).getD 0) ((sp[t.1]?.map fun s => s.labels.tj).getD 0) *
            (elem secsA matsA i a t.1 t.2 * elem secsB matsB t.1 t.2 k c)) (by
      intro p hp
      obtain ⟨b, k, hb, hk, _⟩ := sectors_some hs hp
      simp only [zeroBlock, getE_ok hb, getE_ok hk, Except.ok_bind', Except.pure_ok]
      obtain ⟨m, hm, hr, hc, hv⟩ := foldlM_sum _
        (tensorStep_ok (w := w secsA.qn secsB.qn secs.qn) hA hB sA hb hk) sp.length
        ⟨b.ns.length, k.ns.length, fun _ _ => 0⟩ (dim_some hb).symm (dim_some hk).symm
      refine ⟨m, hm, hr, hc, ?_⟩
      intro a c ha hc'
      rw [hv a c ha hc', states, Finset.sum_sigma]
      simp [hb, hk])
  refine ⟨mats, e1, e2, ?_⟩
  intro i k b k' a c hik hb hk ha hc
  rw [e3 i k hik a c (by rwa [dim_some hb]) (by rwa [dim_some hk])]
  simp [hb, hk]

/-- **C66.** An incompatible tensor product is rejected. -/
theorem tensorProduct_rejects {w : QN → QN → QN → ℕ → ℕ → ℕ → ℝ} {secsA secsB secs : Sectors}
    {matsA matsB mats : List Mat} {sp : Space}
    (h : tensorProduct w sp secsA matsA secsB matsB secs = .ok mats) :
    (|secsA.qn.J0 - secsB.qn.J0| ≤ secs.qn.J0 ∧ secs.qn.J0 ≤ secsA.qn.J0 + secsB.qn.J0) ∧
      (2 : Int) ∣ secsA.qn.g0 + secsB.qn.g0 + secs.qn.g0 ∧
      secsA.qn.Tz0 + secsB.qn.Tz0 = secs.qn.Tz0 := by
  unfold tensorProduct at h
  simp only [Except.bind_eq_ok, assertE_ok, decide_eq_true_eq, tri] at h
  obtain ⟨_, h1, _, h2, _, h3, _⟩ := h
  exact ⟨h1, Int.dvd_of_tmod_eq_zero h2, h3⟩

/-! ## Examples -/

/-- A space with `s1/2` (two radial functions) and `p1/2`, protons. -/
def sampleSpace : Space := [⟨⟨0, 1, .p⟩, [0, 1]⟩, ⟨⟨1, 1, .p⟩, [0]⟩]

theorem sampleSpace_good : GoodSpace sampleSpace := ⟨by decide, by decide, by decide⟩

example : (allSectors scalarQN sampleSpace sampleSpace).pairs = [(0, 0), (1, 1)] := by decide

example : (allSectors ⟨1, 1, 0⟩ sampleSpace sampleSpace).pairs = [(0, 1), (1, 0)] := by decide

/-- A stored operator on the sample space: every element of every sector is `1`. -/
noncomputable def sampleOp (q : QN) : List Mat := (allSectors q sampleSpace sampleSpace).pairs.map fun p =>
  ⟨dim sampleSpace p.1, dim sampleSpace p.2, fun _ _ => 1⟩

theorem sampleOp_fits (q : QN) :
    Fits (allSectors q sampleSpace sampleSpace) (sampleOp q) sampleSpace sampleSpace := by
  refine ⟨by simp [sampleOp], ?_⟩
  intro x i k m hx hm
  simp only [sampleOp, List.getElem?_map, hx, Option.map_some, Option.some.injEq] at hm
  subst hm
  exact ⟨rfl, rfl⟩

theorem sampleOp_overlap : Overlap (allSectors scalarQN sampleSpace sampleSpace) (sampleOp scalarQN)
    sampleSpace sampleSpace := ⟨rfl, allSectors_spec _ _ _, sampleOp_fits _⟩

example : elem (allSectors scalarQN sampleSpace sampleSpace) (sampleOp scalarQN) 0 0 0 1 = 1 := by
  have h : (allSectors scalarQN sampleSpace sampleSpace).pairs = [(0, 0), (1, 1)] := by decide
  have hi : ([(0, 0), (1, 1)] : List (ℕ × ℕ)).idxOf? (0, 0) = some 0 := by decide
  have hd : dim sampleSpace 0 = 2 := by decide
  simp [elem, sampleOp, h, hi, hd]

example : ∃ mats, compose sampleSpace sampleSpace (allSectors scalarQN sampleSpace sampleSpace)
    (sampleOp scalarQN) sampleSpace sampleSpace (allSectors scalarQN sampleSpace sampleSpace)
    (sampleOp scalarQN) (allSectors scalarQN sampleSpace sampleSpace) = .ok mats ∧
    Overlap (allSectors scalarQN sampleSpace sampleSpace) mats sampleSpace sampleSpace := by
  obtain ⟨mats, h1, h2, _⟩ := compose_overlaps sampleSpace_good sampleSpace_good sampleOp_overlap
    sampleOp_overlap (allSectors_spec _ _ _) rfl
  exact ⟨mats, h1, h2⟩

example : ∃ mats, radialOverlaps (fun _ _ _ _ _ _ _ => 0) .oscillator .oscillator 1 sampleSpace sampleSpace
    (allSectors scalarQN sampleSpace sampleSpace) = .ok mats := by
  obtain ⟨mats, h, _⟩ := overlaps_identity_same (spl := fun _ _ _ _ _ _ _ => 0) (bt := .oscillator)
    sampleSpace_good (allSectors_spec scalarQN _ _) rfl
  exact ⟨mats, h⟩

example : ∃ mats, tensorProduct (fun _ _ _ _ _ _ => 1) sampleSpace (allSectors ⟨1, 1, 0⟩ sampleSpace sampleSpace)
    (sampleOp ⟨1, 1, 0⟩) (allSectors ⟨1, 1, 0⟩ sampleSpace sampleSpace) (sampleOp ⟨1, 1, 0⟩)
    (allSectors scalarQN sampleSpace sampleSpace) = .ok mats := by
  obtain ⟨mats, h, _⟩ := tensorProduct_element (w := fun _ _ _ _ _ _ => 1) (sampleOp_fits ⟨1, 1, 0⟩)
    (sampleOp_fits ⟨1, 1, 0⟩) (allSectors_spec _ _ _) (allSectors_spec scalarQN sampleSpace sampleSpace)
    (by decide) (by decide) (by decide)
  exact ⟨mats, h⟩

end Verif.Obme
