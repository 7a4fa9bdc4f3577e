import Verif.Moshinsky.ChainLS

/-!
# From LS to jj states, and gathering
-/

namespace Verif.Moshinsky
open Verif
open Verif.H2 hiding Mat
open Verif.Relative (OpLabels RelFile RelSub relSpace subIndex secIndex mapM_ok)

/-! ## Lists -/

theorem mapM_range_ok {α β : Type} {l : List α} {f : ℕ → Except Err β} {g : α → β}
    (h : ∀ i x, l[i]? = some x → f i = .ok (g x)) : (List.range l.length).mapM f = .ok (l.map g) := by
  cases l with
  | nil => rfl
  | cons d l =>
    rw [mapM_ok (g := fun i => g ((d :: l).getD i d))]
    · congr 1
      refine List.ext_getElem (by simp) ?_
      intro i h1 h2
      simp only [List.getElem_map, List.getElem_range, List.getD_eq_getElem?_getD]
      rw [List.getElem?_eq_getElem (by simpa using h2)]
      rfl
    · intro i hi
      have hlt := List.mem_range.mp hi
      rw [h i _ (List.getElem?_eq_getElem hlt), List.getD_eq_getElem?_getD, List.getElem?_eq_getElem hlt]
      rfl

theorem sum_filter_if {α : Type} (l : List α) (p P : α → Prop) [DecidablePred p] [DecidablePred P] (f : α → ℝ) :
    ((l.filter fun a => decide (p a)).map fun a => if P a then f a else 0).sum
      = ((l.filter fun a => decide (p a ∧ P a)).map f).sum := by
  induction l with
  | nil => rfl
  | cons a l ih =>
    by_cases h : p a <;> by_cases h' : P a <;> simp [h, h', ih]

theorem sum_zipIdx {α : Type} (l : List α) (p : α → Prop) [DecidablePred p] (f : α → ℝ) :
    ((l.zipIdx.filter fun a => decide (p a.1)).map fun a => f a.1).sum = ((l.filter fun a => decide (p a)).map f).sum := by
  have : (l.zipIdx.filter fun a => decide (p a.1)).map (fun a => f a.1)
      = ((l.zipIdx.map Prod.fst).filter fun a => decide (p a)).map f := by
    rw [List.filter_map, List.map_map]
    rfl
  rw [this, List.zipIdx_map_fst]

theorem nodup_place {α : Type} {l : List α} (hn : l.Nodup) {i j : ℕ} {a : α} (hi : l[i]? = some a) (hj : l[j]? = some a) : i = j := by
  obtain ⟨h1, e1⟩ := List.getElem?_eq_some_iff.mp hi
  obtain ⟨h2, e2⟩ := List.getElem?_eq_some_iff.mp hj
  exact (List.Nodup.getElem_inj_iff hn).mp (e1.trans e2.symm)

/-! ## Orbitals -/

theorem orbL_good {a : Lab} (h1 : a.2 % 2 = 1) (h2 : a.2 ≤ 2 * a.1 + 1) : GoodOrbital a.1 (orbL a) a.2 := by
  unfold GoodOrbital orbL
  split <;> omega

/-- A canonical pair as a canonical `jj` state. -/
theorem pair_good {t : Trunc} {q : QN} {a b : Lab} (h : IsPair t q a b) : GoodOrbital a.1 (orbL a) a.2 ∧ GoodOrbital b.1 (orbL b) b.2 ∧
    lexLE (a.1, orbL a) (b.1, orbL b) :=
  ⟨orbL_good h.odd1 h.top1, orbL_good h.odd2 h.top2,
    canonical_order_carries_over (orbL_good h.odd1 h.top1) (orbL_good h.odd2 h.top2) h.order⟩

theorem mem_lsOf {J T : ℕ} {x : JJState} {c : ℕ × ℕ} : c ∈ lsOf J T x ↔ c.2 ≤ 1 ∧ Tri x.l1 x.l2 c.1 ∧ Tri c.1 c.2 J ∧
    ((x.N1, x.l1) = (x.N2, x.l2) → (c.1 + c.2 + T) % 2 = 1) := by
  simp only [lsOf, Finset.mem_filter, Finset.mem_product, Finset.mem_range]
  unfold Tri
  constructor
  · rintro ⟨⟨h1, h2⟩, h⟩
    exact ⟨by omega, h⟩
  · rintro ⟨h1, h⟩
    exact ⟨by omega, h⟩

/-- The LS subspaces which hold the orbitals of a `jj` state, by `(L,S)`. -/
theorem ls_of_state {t : Trunc} {ls : List LSSub} (hls : LSSpace t ls) {s : JJSub} {a b : Lab} (hp : IsPair t s.qn a b)
    (hN : s.N = a.1 + b.1) (G : ℕ × ℕ → ℝ) :
    ((ls.filter fun u => decide (SameLabels u s ∧ (jjOf a b).pair ∈ u.states)).map fun u => G (u.L, u.S)).sum
      = ∑ c ∈ lsOf s.J s.T (jjOf a b), G c := by
  obtain ⟨ga, gb, hord⟩ := pair_good hp
  have htr := hp.trunc
  have hpar := hp.parity
  have hT := hp.isospin
  simp only [JJSub.qn] at hpar hT
  set l := (ls.filter fun u => decide (SameLabels u s ∧ (jjOf a b).pair ∈ u.states)) with hl
  have hmap : (l.map fun u => G (u.L, u.S)) = (l.map fun u => (u.L, u.S)).map G := by rw [List.map_map]; rfl
  have hnd : (l.map fun u => (u.L, u.S)).Nodup := by
    have h0 : (l.map LSSub.labels).Nodup := hls.labels.sublist (List.filter_sublist.map _)
    refine List.Nodup.of_map (fun c : ℕ × ℕ => (c.1, c.2, s.J, s.T, s.g, s.N)) ?_
    rw [List.map_map]
    have he : l.map ((fun c : ℕ × ℕ => (c.1, c.2, s.J, s.T, s.g, s.N)) ∘ fun u : LSSub => (u.L, u.S)) = l.map LSSub.labels :=
      List.map_congr_left ?_
    · rw [he]
      exact h0
    intro u hu
    rw [hl] at hu
    obtain ⟨⟨e1, e2, e3, e4⟩, _⟩ := of_decide_eq_true (List.mem_filter.mp hu).2
    simp [LSSub.labels, e1, e2, e3, e4]
  rw [hmap, ← List.sum_toFinset _ hnd]
  refine Finset.sum_congr ?_ fun _ _ => rfl
  ext ⟨L, S⟩
  simp only [List.mem_toFinset, List.mem_map, hl, List.mem_filter, decide_eq_true_eq, mem_lsOf, Prod.mk.injEq]
  constructor
  · rintro ⟨u, ⟨hu, hsame, hmem⟩, rfl, rfl⟩
    obtain ⟨hadm, _⟩ := (hls.states u hu _).mp hmem
    have hv := hls.valid u hu
    obtain ⟨e1, e2, e3, e4⟩ := hsame
    refine ⟨hv.S, (admissible_osc hadm).2.2.2, e2 ▸ hv.J, ?_⟩
    intro he
    have := hadm.2.2.2.2 (by simpa [JJState.pair] using he)
    rw [← e3]
    exact this
  · rintro ⟨h1, h2, h3, h4⟩
    have hadm : Admissible ⟨L, S, s.J, s.T, s.g, s.N, []⟩ (jjOf a b).pair := by
      refine ⟨?_, hN.symm, h2, hord, fun he => h4 (Prod.mk.inj he)⟩
      exact ⟨ga.1, ga.2.1, gb.1, gb.2.1⟩
    have hv : ValidLS t.N2max ⟨L, S, s.J, s.T, s.g, s.N, []⟩ := ⟨h1, hT, h3, by simp only []; omega, by
      unfold InTrunc at htr
      simp only []
      omega⟩
    have hmem := hls.complete _ _ hv hadm htr
    obtain ⟨u, hu, hul⟩ := List.mem_map.mp hmem
    simp only [LSSub.labels, Prod.mk.injEq] at hul
    obtain ⟨e1, e2, e3, e4, e5, e6⟩ := hul
    refine ⟨u, ⟨hu, ⟨e6, e3, e4, e5⟩, ?_⟩, e1, e2⟩
    rw [hls.states u hu]
    refine ⟨?_, htr⟩
    unfold Admissible at hadm ⊢
    rw [e1, e2, e4, e6]
    exact hadm

theorem ls_of_state' {t : Trunc} {ls : List LSSub} (hls : LSSpace t ls) {s : JJSub} {a b : Lab} (hp : IsPair t s.qn a b)
    (hN : s.N = a.1 + b.1) (G : ℕ × ℕ → ℝ) : ∑ c ∈ lsOf s.qn.J s.qn.T (jjOf a b), G c
      = ((ls.zipIdx.filter fun u => decide (SameLabels u.1 s)).map fun u =>
        if (jjOf a b).pair ∈ u.1.states then G (u.1.L, u.1.S) else 0).sum := by
  rw [sum_zipIdx ls (fun u => SameLabels u s) (fun u => if (jjOf a b).pair ∈ u.states then G (u.L, u.S) else 0),
    sum_filter_if, ls_of_state hls hp hN]
  rfl

/-! ## LS to jj -/

theorem jtAt_ok {σ : Type} {subs : List σ} {qn : σ → QN} {b : ℕ} {x : σ} (h : subs[b]? = some x) :
    jtAt (subs.map qn) b = ((qn x).J, (qn x).T) := by
  simp [jtAt, h]

/-- The elements of the LS operator by place of subspace. -/
noncomputable def lsAt (env : ChainEnv) (A : RCOp) (ls : List LSSub) : LSRME := fun b p k q =>
  match ls[b]?, ls[k]? with
  | some sb, some sk => lsSpec env A sb.lsjt p sk.lsjt q
  | _, _ => 0

theorem ls_represents {env : ChainEnv} {o : OpLabels} {T0 : ℕ} {A : RCOp}
    (hA : RCSym env.swap T0 A) {ls : List LSSub} {m : Blocks}
    (hm : Holds o T0 ls LSSub.qn LSSub.states m fun b x k y => lsSpec env A b.lsjt x k.lsjt y) {bra ket : JJSub}
    (hall : allowedQ o T0 bra.qn ket.qn = true) :
    LSRepresents (lsSource env o ls m T0) bra ket (lsAt env A ls) := by
  intro b k sb sk hb hk sameB sameK
  simp only [lsSource] at hb hk ⊢
  have qb : sb.qn = bra.qn := by simp [LSSub.qn, JJSub.qn, sameB.2.1, sameB.2.2.1, sameB.2.2.2]
  have qk : sk.qn = ket.qn := by simp [LSSub.qn, JJSub.qn, sameK.2.1, sameK.2.2.1, sameK.2.2.2]
  rw [← qb, ← qk] at hall
  by_cases hle : b ≤ k
  · obtain ⟨n, h1, h2⟩ := lookSector_some (o := o) (T0 := T0) (qs := ls.map LSSub.qn) hle (x := sb.qn) (y := sk.qn)
      (by simp [hb]) (by simp [hk]) hall
    refine ⟨n, by simpa only [if_pos hle] using h1, ?_⟩
    intro r s p q hp hq
    simp only [if_pos hle, lsAt, hb, hk]
    exact hm n b k sb sk h2 hb hk r s p q hp hq
  · obtain ⟨n, h1, h2⟩ := lookSector_some (o := o) (T0 := T0) (qs := ls.map LSSub.qn) (b := k) (k := b) (by omega) (x := sk.qn)
      (y := sb.qn) (by simp [hk]) (by simp [hb]) (allowedQ_swap hall)
    refine ⟨n, by simpa only [if_neg hle] using h1, ?_⟩
    intro r s p q hp hq
    simp only [if_neg hle, if_true, lsAt, hb, hk, jtAt_ok hb, jtAt_ok hk]
    rw [hm n k b sk sb h2 hk hb s r q p hq hp]
    exact (lsSpec_swap hA sb.lsjt sk.lsjt p q).symm

/-- The jj stage: the elements are sums over `L` and `S`. -/
theorem jj_stage {env : ChainEnv} {o : OpLabels} {T0 : ℕ} {A : RCOp}
    (hA : RCSym env.swap T0 A) {t : Trunc} {ls : List LSSub} (hls : LSSpace t ls) {jj : List JJSub} (hjj : JJSpace t jj) {m : Blocks}
    (hm : Holds o T0 ls LSSub.qn LSSub.states m fun b x k y => lsSpec env A b.lsjt x k.lsjt y) :
    ∃ m', jjBlocks env o ls m jj T0 = .ok m' ∧ Holds o T0 jj JJSub.qn JJSub.states m' fun b x k y =>
      jjSpec env A b.qn x k.qn y := by
  refine stage_ok o T0 jj JJSub.qn JJSub.states _ _ ?_
  intro b k x y hx hy hle hall
  have mx := List.mem_of_getElem? hx
  have my := List.mem_of_getElem? hy
  simp only [getSub_ok hx, getSub_ok hy, Except.ok_bind']
  refine mapM_range_ok fun i s hi => mapM_range_ok fun j u hj => ?_
  rw [recoupled_element env.nine (lsSource env o ls m T0) x y (lsAt env A ls) (ls_represents hA hm hall)
    (fun v hv => hls.nodup v hv) i j s u hi hj]
  congr 1
  obtain ⟨a, b', rfl, hp, hN⟩ := (hjj.states x mx s).mp (List.mem_of_getElem? hi)
  obtain ⟨c, d, rfl, hp', hN'⟩ := (hjj.states y my u).mp (List.mem_of_getElem? hj)
  have hsubs : (lsSource env o ls m T0).subs = ls := rfl
  rw [hsubs]
  unfold jjSpec
  rw [ls_of_state' hls hp hN]
  congr 1
  refine List.map_congr_left fun v hv => ?_
  obtain ⟨hv1, hv2⟩ := List.mem_filter.mp hv
  have hv3 := List.mk_mem_zipIdx_iff_getElem?.mp (show (v.1, v.2) ∈ _ from hv1)
  have hv4 := of_decide_eq_true hv2
  by_cases hmem : (jjOf a b').pair ∈ v.1.states
  · rw [if_pos hmem]
    rw [ls_of_state' hls hp' hN']
    congr 1
    refine List.map_congr_left fun w hw => ?_
    obtain ⟨hw1, hw2⟩ := List.mem_filter.mp hw
    have hw3 := List.mk_mem_zipIdx_iff_getElem?.mp (show (w.1, w.2) ∈ _ from hw1)
    have hw4 := of_decide_eq_true hw2
    by_cases hmem' : (jjOf c d).pair ∈ w.1.states
    · rw [if_pos hmem', if_pos ⟨hmem, hmem'⟩]
      simp only [lsAt, hv3, hw3, LSSub.lsjt, hv4.2.1, hw4.2.1, hv4.2.2.1, hw4.2.2.1, JJSub.qn]
      rfl
    · rw [if_neg hmem', if_neg (fun hc => hmem' hc.2)]
  · rw [if_neg hmem]
    refine List.sum_eq_zero ?_
    intro z hz
    obtain ⟨w, _, rfl⟩ := List.mem_map.mp hz
    rw [if_neg (fun hc => hmem hc.1)]

/-! ## Gathering -/

theorem locate_ok {t : Trunc} {jj : List JJSub} (hjj : JJSpace t jj) {q : QN} {x : Lab × Lab} (hx : IsPair t q x.1 x.2) :
    ∃ (b i : ℕ) (s : JJSub), locate jj q x = some (b, i) ∧ jj[b]? = some s ∧ s.qn = q ∧ s.states[i]? = some (jjOf x.1 x.2) := by
  obtain ⟨a, c⟩ := x
  obtain ⟨s, hs, he⟩ := List.mem_map.mp (hjj.complete q a c hx)
  simp only [Prod.mk.injEq] at he
  obtain ⟨b, hb⟩ := List.mem_iff_getElem?.mp hs
  have hmem : jjOf a c ∈ s.states := (hjj.states s hs _).mpr ⟨a, c, rfl, he.1 ▸ hx, he.2⟩
  obtain ⟨i, hi⟩ := List.mem_iff_getElem?.mp hmem
  refine ⟨b, i, s, ?_, hb, he.1, hi⟩
  have h1 : jj.findIdx? (fun s => decide (s.qn = q ∧ s.N = a.1 + c.1)) = some b := by
    refine findIdx?_at hb (decide_eq_true he) ?_
    intro j u hj hu
    have hu := of_decide_eq_true hu
    exact nodup_place hjj.labels (a := (q, a.1 + c.1)) (by simp [hj, hu]) (by simp [hb, he])
  have h2 : s.states.findIdx? (fun t => decide (((t.N1, t.tj1), (t.N2, t.tj2)) = (a, c))) = some i := by
    refine findIdx?_at hi (by simp [jjOf]) ?_
    intro j u hj hu
    have hu := of_decide_eq_true hu
    obtain ⟨a', c', rfl, _, _⟩ := (hjj.states s hs _).mp (List.mem_of_getElem? hj)
    simp only [jjOf, Prod.mk.injEq] at hu
    obtain ⟨rfl, rfl⟩ := hu
    exact nodup_place (hjj.nodup s hs) hj hi
  simp only [locate, h1, hb, h2, Option.map_some]

/-- The gathered operator has the elements of the operator by number of quanta. -/
theorem jt_stage {env : ChainEnv} {o : OpLabels} {T0 : ℕ} {A : RCOp}
    (hA : RCSym env.swap T0 A) {t : Trunc} {jj : List JJSub} (hjj : JJSpace t jj) {jt : List JTSub} (hjt : JTSpace t jt) {m : Blocks}
    (hm : Holds o T0 jj JJSub.qn JJSub.states m fun b x k y => jjSpec env A b.qn x k.qn y) :
    ∃ m', jtBlocks env o jj m jt T0 = .ok m' ∧ Holds o T0 jt JTSub.qn JTSub.states m' fun b x k y =>
      jjSpec env A b.qn (jjOf x.1 x.2) k.qn (jjOf y.1 y.2) := by
  refine stage_ok o T0 jt JTSub.qn JTSub.states _ _ ?_
  intro b k u v hu hv hle hall
  have mu := List.mem_of_getElem? hu
  have mv := List.mem_of_getElem? hv
  simp only [getSub_ok hu, getSub_ok hv, Except.ok_bind']
  refine mapM_mapM_ok fun x hx y hy => ?_
  obtain ⟨bi, i, s, l1, l2, l3, l4⟩ := locate_ok hjj ((hjt.states u mu x).mp hx)
  obtain ⟨ki, j, w, r1, r2, r3, r4⟩ := locate_ok hjj ((hjt.states v mv y).mp hy)
  simp only [gatherElement, l1, r1]
  rw [← l3, ← r3] at hall
  by_cases h : bi ≤ ki
  · rw [if_pos h]
    obtain ⟨n, h1, h2⟩ := lookSector_some (o := o) (T0 := T0) (qs := jj.map JJSub.qn) h (x := s.qn) (y := w.qn)
      (by simp [l2]) (by simp [r2]) hall
    simp only [h1, found, Except.ok_bind', Except.pure_ok]
    rw [hm n bi ki s w h2 l2 r2 i j _ _ l4 r4]
    simp only [l3, r3]
  · rw [if_neg h]
    obtain ⟨n, h1, h2⟩ := lookSector_some (o := o) (T0 := T0) (qs := jj.map JJSub.qn) (b := ki) (k := bi) (by omega) (x := w.qn)
      (y := s.qn) (by simp [r2]) (by simp [l2]) (allowedQ_swap hall)
    simp only [h1, found, Except.ok_bind', Except.pure_ok]
    rw [hm n ki bi w s h2 r2 l2 j i _ _ r4 l4]
    simp only [l3, r3]
    congr 1
    exact (jjSpec_swap hA u.qn v.qn _ _).symm

end Verif.Moshinsky
