import Verif.Moshinsky.ChainRel

/-!
# From relative-cm to LS states, and exchange of bra and ket
-/

namespace Verif.Moshinsky
open Verif
open Verif.H2 hiding Mat
open Verif.Relative (OpLabels RelFile RelSub relSpace subIndex secIndex mapM_ok)

/-! ## Sums -/

/-- A sum over places in a list as a sum over its members. -/
theorem sum_places {α : Type} [DecidableEq α] {l : List α} (hn : l.Nodup) (F : ℕ → ℝ) (G : α → ℝ)
    (h : ∀ r p, l[r]? = some p → F r = G p) : ∑ r ∈ Finset.range l.length, F r = ∑ p ∈ l.toFinset, G p := by
  rw [List.sum_toFinset _ hn, Finset.sum_range, ← List.sum_ofFn]
  congr 1
  refine List.ext_getElem (by simp) ?_
  intro n h1 h2
  simp only [List.getElem_ofFn, List.getElem_map]
  exact h _ _ (List.getElem?_eq_getElem _)

theorem mem_rcStates {N L S T : ℕ} {p : LSPair} : p ∈ rcStates N L S T ↔ IsRC N L S T p := by
  simp only [rcStates, Finset.mem_filter, Finset.mem_product, Finset.mem_range, and_iff_right_iff_imp]
  unfold IsRC Osc
  omega

theorem rc_toFinset {Nmax : ℕ} {rc : List LSSub} (hrc : RCSpace Nmax rc) {s : LSSub} (hs : s ∈ rc) :
    s.states.toFinset = rcStates s.N s.L s.S s.T := by
  ext p
  rw [List.mem_toFinset, mem_rcStates, hrc.states s hs]

/-- Places in a list of which a list is part. -/
theorem sublist_places {α : Type} {l₁ l₂ : List α} (h : l₁.Sublist l₂) {i j : ℕ} {a b : α} (hij : i ≤ j) (hi : l₁[i]? = some a)
    (hj : l₁[j]? = some b) : ∃ i' j' : ℕ, i' ≤ j' ∧ l₂[i']? = some a ∧ l₂[j']? = some b := by
  obtain ⟨f, hf⟩ := List.sublist_iff_exists_orderEmbedding_getElem?_eq.mp h
  exact ⟨f i, f j, f.monotone hij, by rw [← hf, hi], by rw [← hf, hj]⟩

/-! ## Brackets -/

/-- The quantum numbers of an LS subspace. -/
def LSSub.lsjt (s : LSSub) : LSJT := ⟨s.L, s.S, s.J, s.T⟩

theorem tdiv_half {a b : ℕ} (h : b ≤ a) : ((a : Int) - b).tdiv 2 = ((a - b) / 2 : ℕ) := by
  rw [Int.tdiv_eq_ediv_of_nonneg (by omega)]
  omega

theorem bracketKey_eq (s : LSSub) {r p : LSPair} (h1 : r.2.1 ≤ r.1) (h2 : r.2.2.2 ≤ r.2.2.1) (h3 : p.2.1 ≤ p.1)
    (h4 : p.2.2.2 ≤ p.2.2.1) : bracketKey (rcState s r) (tbState p) = brArgs r p s.L := by
  simp only [bracketKey, rcState, tbState, brArgs, tdiv_half h1, tdiv_half h2, tdiv_half h3, tdiv_half h4]

/-- Admissible LS pairs as pairs of oscillator orbitals. -/
theorem admissible_osc {s : LSSub} {p : LSPair} (h : Admissible s p) : Osc p.1 p.2.1 ∧ Osc p.2.2.1 p.2.2.2 ∧
    p.1 + p.2.2.1 = s.N ∧ Tri p.2.1 p.2.2.2 s.L := by
  unfold Admissible at h
  unfold Osc Tri
  omega

/-- A bracket requested by the transformation is found. -/
theorem bracketValue_ok (env : Env) {s : LSSub} {r p : LSPair} (hr : IsRC s.N s.L s.S s.T r) (hp : Admissible s p)
    (hN : s.N ≤ 84) : bracketValue env (bracketKey (rcState s r) (tbState p)) = .ok (bracket env (brArgs r p s.L)) := by
  obtain ⟨r1, r2, r3, r4, r5⟩ := hr
  obtain ⟨p1, p2, p3, p4⟩ := admissible_osc hp
  have hkey := bracketKey_eq s r1.1 r2.1 p1.1 p2.1
  have hall := transformation_requests_allowed (rc := rcState s r) (tb := tbState p) (N := s.N)
    (by unfold oscOrbital rcState; unfold Osc at r1; simp only []; omega)
    (by unfold oscOrbital rcState; unfold Osc at r2; simp only []; omega)
    (by unfold oscOrbital tbState; unfold Osc at p1; simp only []; omega)
    (by unfold oscOrbital tbState; unfold Osc at p2; simp only []; omega)
    (by simp only [rcState]; omega) (by simp only [tbState]; omega)
    (by simp only [rcState]; exact mtri_iff.mpr r4) (by simp only [rcState, tbState]; exact mtri_iff.mpr p4)
  obtain ⟨m, hm, _⟩ := run_ok env id (fun l => List.Perm.refl l) ((bracketKey (rcState s r) (tbState p)).height + 1)
    (bracketKey (rcState s r) (tbState p)) (by omega) (fun _ => by rw [hall.2.1]; omega) (fun _ => none) (by intro k v h; simp at h)
  unfold bracketValue
  rw [hm, hkey]

/-- The matrix of brackets between subspaces of equal labels. -/
theorem bracketMatrix_ok (env : Env) {s u : LSSub} (hl : s.labels = u.labels) (hs : ∀ r ∈ s.states, IsRC s.N s.L s.S s.T r)
    (hu : ∀ p ∈ u.states, Admissible u p) (hN : s.N ≤ 84) : bracketMatrix env s u = .ok
      (s.states.map fun r => u.states.map fun p => Real.sqrt 2 * bracket env (brArgs r p u.L)) := by
  unfold bracketMatrix
  rw [(assertE_ok (u := ())).mpr (decide_eq_true hl)]
  simp only [Except.ok_bind']
  have hl' : s.L = u.L ∧ s.S = u.S ∧ s.T = u.T ∧ s.N = u.N := by
    simp only [LSSub.labels, Prod.mk.injEq] at hl
    tauto
  refine mapM_mapM_ok fun r hr p hp => ?_
  have hp' : Admissible s p := by
    have := hu p hp
    unfold Admissible at this ⊢
    rw [hl'.1, hl'.2.1, hl'.2.2.1, hl'.2.2.2]
    exact this
  rw [bracketValue_ok env (hs r hr) hp' hN, hl'.1]
  rfl

/-! ## Relative-cm to LS -/

theorem sandwich_eq (nb nk : ℕ) (U : List (List ℝ)) (M : ℕ → ℕ → ℝ) (V : List (List ℝ)) (xs ys : List LSPair)
    (hb : nb = xs.length) (hk : nk = ys.length) (g : LSPair → LSPair → ℝ)
    (h : ∀ i j x y, xs[i]? = some x → ys[j]? = some y →
      ∑ r ∈ Finset.range U.length, ∑ s ∈ Finset.range V.length, at2 U r i * M r s * at2 V s j = g x y) :
    sandwich nb nk U M V = xs.map fun x => ys.map fun y => g x y := by
  subst hb hk
  unfold sandwich
  refine List.ext_getElem (by simp) ?_
  intro i h1 h2
  simp only [List.getElem_map, List.getElem_range]
  refine List.ext_getElem (by simp) ?_
  intro j h3 h4
  simp only [List.getElem_map, List.getElem_range]
  exact h i j _ _ (List.getElem?_eq_getElem _) (List.getElem?_eq_getElem _)

/-- The LS stage: the elements are sums over relative and centre-of-mass motion. -/
theorem ls_stage {env : ChainEnv} {o : OpLabels} {T0 : ℕ} {A : RCOp} {t : Trunc} {rc ls : List LSSub} {Nmax : ℕ}
    (hrc : RCSpace Nmax rc) (hls : LSSpace t ls) (hsub : (ls.map LSSub.labels).Sublist (rc.map LSSub.labels))
    (hN : t.N2max ≤ 84) {m : Blocks}
    (hm : Holds o T0 rc LSSub.qn LSSub.states m fun b x k y => A (rcState b x) (rcState k y)) :
    ∃ m', lsBlocks env o rc m ls T0 = .ok m' ∧ Holds o T0 ls LSSub.qn LSSub.states m' fun b x k y =>
      lsSpec env A b.lsjt x k.lsjt y := by
  refine stage_ok o T0 ls LSSub.qn LSSub.states _ _ ?_
  intro b k x y hx hy hle hall
  have mx := List.mem_of_getElem? hx
  have my := List.mem_of_getElem? hy
  obtain ⟨bi, ki, hbk, hbi, hki⟩ := sublist_places hsub hle (a := x.labels) (b := y.labels) (by simp [hx]) (by simp [hy])
  have e1 : lookLS rc x.labels = some bi := (idxOf?_getElem? hrc.labels).mpr hbi
  have e2 : lookLS rc y.labels = some ki := (idxOf?_getElem? hrc.labels).mpr hki
  simp only [List.getElem?_map, Option.map_eq_some_iff] at hbi hki
  obtain ⟨u, hu, hux⟩ := hbi
  obtain ⟨v, hv, hvy⟩ := hki
  have mu := List.mem_of_getElem? hu
  have mv := List.mem_of_getElem? hv
  have lu : u.L = x.L ∧ u.S = x.S ∧ u.J = x.J ∧ u.T = x.T ∧ u.g = x.g ∧ u.N = x.N := by
    simpa only [LSSub.labels, Prod.mk.injEq] using hux
  have lv : v.L = y.L ∧ v.S = y.S ∧ v.J = y.J ∧ v.T = y.T ∧ v.g = y.g ∧ v.N = y.N := by
    simpa only [LSSub.labels, Prod.mk.injEq] using hvy
  have qu : u.qn = x.qn := by simp [LSSub.qn, lu]
  have qv : v.qn = y.qn := by simp [LSSub.qn, lv]
  obtain ⟨n, hn1, hn2⟩ := lookSector_some (o := o) (T0 := T0) (qs := rc.map LSSub.qn) hbk (x := u.qn) (y := v.qn)
    (by simp [hu]) (by simp [hv]) (by rw [qu, qv]; exact hall)
  have hxN := (hls.valid x mx).N
  have hyN := (hls.valid y my).N
  have hU := bracketMatrix_ok env.mosh hux (fun r hr => (hrc.states u mu r).mp hr) (fun p hp => ((hls.states x mx p).mp hp).1)
    (by omega)
  have hV := bracketMatrix_ok env.mosh hvy (fun r hr => (hrc.states v mv r).mp hr) (fun p hp => ((hls.states y my p).mp hp).1)
    (by omega)
  simp only [getSub_ok hx, getSub_ok hy, getSub_ok hu, getSub_ok hv, e1, e2, found, hn1, hU, hV, Except.ok_bind', Except.pure_ok]
  congr 1
  refine sandwich_eq _ _ _ _ _ x.states y.states rfl rfl (fun p p' => lsSpec env A x.lsjt p y.lsjt p') ?_
  intro i j p p' hp hp'
  have np := (admissible_osc ((hls.states x mx p).mp (List.mem_of_getElem? hp)).1).2.2.1
  have np' := (admissible_osc ((hls.states y my p').mp (List.mem_of_getElem? hp')).1).2.2.1
  simp only [List.length_map]
  unfold lsSpec
  rw [sum_places (hrc.nodup u mu) _ (fun r => ∑ s ∈ rcStates (p'.1 + p'.2.2.1) y.lsjt.L y.lsjt.S y.lsjt.T,
    2 * bracket env.mosh (brArgs r p x.lsjt.L) * A (motion x.lsjt r) (motion y.lsjt s)
      * bracket env.mosh (brArgs s p' y.lsjt.L))]
  · rw [rc_toFinset hrc mu, np, lu.1, lu.2.1, lu.2.2.2.1, lu.2.2.2.2.2]
    rfl
  · intro r pr hr
    rw [sum_places (hrc.nodup v mv) _ (fun s => 2 * bracket env.mosh (brArgs pr p x.lsjt.L)
      * A (motion x.lsjt pr) (motion y.lsjt s) * bracket env.mosh (brArgs s p' y.lsjt.L))]
    · rw [rc_toFinset hrc mv, np', lv.1, lv.2.1, lv.2.2.2.1, lv.2.2.2.2.2]
      rfl
    · intro s ps hs
      rw [at2_map _ _ _ hr hp, at2_map _ _ _ hs hp', hm n bi ki u v hn2 hu hv r s pr ps hr hs]
      have e3 : rcState u pr = motion x.lsjt pr := by simp [rcState, motion, LSSub.lsjt, lu]
      have e4 : rcState v ps = motion y.lsjt ps := by simp [rcState, motion, LSSub.lsjt, lv]
      simp only [e3, e4]
      have h2 : Real.sqrt 2 * Real.sqrt 2 = 2 := Real.mul_self_sqrt (by norm_num)
      simp only [LSSub.lsjt]
      linear_combination (bracket env.mosh (brArgs pr p x.L) * A (motion ⟨x.L, x.S, x.J, x.T⟩ pr)
        (motion ⟨y.L, y.S, y.J, y.T⟩ ps) * bracket env.mosh (brArgs ps p' y.L)) * h2

/-! ## Exchange of bra and ket -/

/-- The relative elements follow by exchange of bra and ket. -/
def RelSym (swap : ℕ → ℕ × ℕ → ℕ × ℕ → ℝ) (T0 : ℕ) (R : RelRME) : Prop :=
  ∀ l S J T N l' S' J' T' N' : ℕ, R (l, S, J, T) N (l', S', J', T') N'
    = swap T0 (J, T) (J', T') * R (l', S', J', T') N' (l, S, J, T) N

theorem relCMSpec_swap {env : ChainEnv} {J0 T0 : ℕ} (hlaw : SwapLaw env J0 T0) {R : RelRME} (hR : RelSym env.swap T0 R) (Jmax : Int)
    (q q' : LSJT) (r s : LSPair) : relCMSpec env.am Jmax J0 R (motion q r) (motion q' s)
      = env.swap T0 (q.J, q.T) (q'.J, q'.T) * relCMSpec env.am Jmax J0 R (motion q' s) (motion q r) := by
  obtain ⟨Nr, lr, Nc, lc⟩ := r
  obtain ⟨Ns, ls, Nd, ld⟩ := s
  obtain ⟨L, S, J, T⟩ := q
  obtain ⟨L', S', J', T'⟩ := q'
  generalize hb : motion ⟨L, S, J, T⟩ (Nr, lr, Nc, lc) = b
  generalize hk : motion ⟨L', S', J', T'⟩ (Ns, ls, Nd, ld) = k
  by_cases h : (b.Nc, b.lc) = (k.Nc, k.lc)
  swap
  · rw [relCMSpec, relCMSpec, if_neg h, if_neg (fun hc => h hc.symm), mul_zero]
  rw [relCMSpec, relCMSpec, if_pos h, if_pos h.symm]
  rw [Finset.mul_sum]
  simp only [Finset.mul_sum]
  rw [Finset.sum_comm' (t' := (Finset.Icc 0 Jmax).filter (fun x => tri k.lr k.S x ∧ tri k.lc k.J x))
    (s' := fun Jk => (Finset.Icc 0 Jmax).filter (fun x => tri b.lr b.S x ∧ tri b.lc b.J x ∧ tri Jk J0 x))]
  · refine Finset.sum_congr rfl fun Jk hjk => Finset.sum_congr rfl fun Jb hjb => ?_
    simp only [Finset.mem_filter, Finset.mem_Icc] at hjk hjb
    obtain ⟨Jk, rfl⟩ : ∃ n : ℕ, Jk = n := ⟨Jk.toNat, by omega⟩
    obtain ⟨Jb, rfl⟩ : ∃ n : ℕ, Jb = n := ⟨Jb.toNat, by omega⟩
    subst hb hk
    simp only [motion, Prod.mk.injEq, Nat.cast_inj] at h ⊢
    obtain ⟨rfl, rfl⟩ := h
    rw [hR lr S Jb T Nr ls S' Jk T' Ns]
    have := hlaw Jb Jk lc J J' T T'
    linear_combination (env.am.z lr lc L J S Jb * env.am.z ls lc L' J' S' Jk
      * R (ls, S', Jk, T') Ns (lr, S, Jb, T) Nr) * this
  · intro x y
    simp only [Finset.mem_filter]
    rw [tri_swap (a := y) (c := x)]
    tauto

/-- The relative-cm elements follow by exchange of bra and ket. -/
def RCSym (swap : ℕ → ℕ × ℕ → ℕ × ℕ → ℝ) (T0 : ℕ) (A : RCOp) : Prop :=
  ∀ (q q' : LSJT) (r s : LSPair), A (motion q r) (motion q' s) = swap T0 (q.J, q.T) (q'.J, q'.T) * A (motion q' s) (motion q r)

theorem lsSpec_swap {env : ChainEnv} {T0 : ℕ} {A : RCOp} (hA : RCSym env.swap T0 A)
    (q q' : LSJT) (p p' : LSPair) : lsSpec env A q p q' p'
      = env.swap T0 (q.J, q.T) (q'.J, q'.T) * lsSpec env A q' p' q p := by
  unfold lsSpec
  rw [Finset.sum_comm, Finset.mul_sum]
  refine Finset.sum_congr rfl fun s _ => ?_
  rw [Finset.mul_sum]
  refine Finset.sum_congr rfl fun r _ => ?_
  rw [hA]
  ring

theorem jjSpec_swap {env : ChainEnv} {T0 : ℕ} {A : RCOp} (hA : RCSym env.swap T0 A)
    (q q' : QN) (x y : JJState) : jjSpec env A q x q' y
      = env.swap T0 (q.J, q.T) (q'.J, q'.T) * jjSpec env A q' y q x := by
  unfold jjSpec
  rw [Finset.sum_comm, Finset.mul_sum]
  refine Finset.sum_congr rfl fun d _ => ?_
  rw [Finset.mul_sum]
  refine Finset.sum_congr rfl fun c _ => ?_
  rw [lsSpec_swap hA]
  ring

end Verif.Moshinsky
