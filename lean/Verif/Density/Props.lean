import Verif.Density.Spec

/-!
# Properties of the density storage
-/

namespace Verif.Density
open Verif Verif.Mapping Verif.Obme
open Verif.H2 (Except.ok_bind' Except.error_bind' Except.pure_ok Except.bind_eq_ok assertE_ok)

/-! ## Looking up states -/

theorem HasState.dim_lt {space : Space} {i a : ℕ} {x : Full} (h : HasState space i a x) : a < dim space i := by
  obtain ⟨b, hb, _, ha⟩ := h
  rw [dim_some hb]
  exact (List.getElem?_eq_some_iff.mp ha).1

theorem idxOf?_of_getElem? {l : List ℕ} (hn : l.Nodup) {a n : ℕ} (h : l[a]? = some n) : l.idxOf? n = some a := by
  obtain ⟨x, hx⟩ := idxOf?_mem (List.mem_of_getElem? h)
  have h2 := idxOf?_getElem? hx
  obtain ⟨ha, _⟩ := List.getElem?_eq_some_iff.mp h
  rw [hx, (List.getElem?_inj ha hn).mp (h.trans h2.symm)]

theorem lookUpState_iff {space : Space} (hg : GoodSpace space) {x : Full} {i a : ℕ} :
    lookUpState space x = some (i, a) ↔ HasState space i a x := by
  unfold lookUpState
  constructor
  · intro h
    simp only [Option.bind_eq_some_iff, Option.map_eq_some_iff, Prod.mk.injEq] at h
    obtain ⟨i', h1, b, h2, a', h3, rfl, rfl⟩ := h
    obtain ⟨b', hb', hl⟩ := lookUpSub_eq_some h1
    rw [h2] at hb'
    simp only [Option.some.injEq] at hb'
    subst hb'
    exact ⟨b, h2, hl, idxOf?_getElem? h3⟩
  · rintro ⟨b, hb, hl, ha⟩
    have h1 := lookUpSub_some hg hb
    rw [hl] at h1
    have h3 := idxOf?_of_getElem? (hg.ns b (List.mem_of_getElem? hb)) ha
    simp [h1, hb, h3]

theorem HasState.unique {space : Space} (hg : GoodSpace space) {x : Full} {i a i' a' : ℕ}
    (h : HasState space i a x) (h' : HasState space i' a' x) : i = i' ∧ a = a' := by
  have h1 := (lookUpState_iff hg).mpr h
  rw [(lookUpState_iff hg).mpr h'] at h1
  simpa [eq_comm] using h1

theorem HasState.same {space : Space} {x y : Full} {i a : ℕ} (h : HasState space i a x) (h' : HasState space i a y) :
    x = y := by
  obtain ⟨b, hb, hl, hn⟩ := h
  obtain ⟨b', hb', hl', hn'⟩ := h'
  rw [hb] at hb'
  simp only [Option.some.injEq] at hb'
  subst hb'
  rw [hl] at hl'
  rw [hn] at hn'
  obtain ⟨sp, n, l, tj⟩ := x
  obtain ⟨sp', n', l', tj'⟩ := y
  simp only [Full.labels, Obme.Labels.mk.injEq, Option.some.injEq, Full.mk.injEq] at hl' hn' ⊢
  tauto

theorem allowed_of_state {space : Space} {q : QN} {i a k c : ℕ} {x y : Full} (hx : HasState space i a x)
    (hy : HasState space k c y) :
    (i, k) ∈ (allSectors q space space).pairs ↔ Allowed q x.labels y.labels := by
  obtain ⟨b, hb, hl, _⟩ := hx
  obtain ⟨b', hb', hl', _⟩ := hy
  rw [(allSectors_spec q space space).mem]
  constructor
  · rintro ⟨c, c', h1, h2, h⟩
    rw [hb] at h1
    rw [hb'] at h2
    cases h1
    cases h2
    rwa [hl, hl'] at h
  · intro h
    exact ⟨b, b', hb, hb', by rwa [hl, hl']⟩

/-! ## Initialisation -/

theorem zeroSet_ok (space : Space) (q : QN) : ∃ mats, zeroSet space q = .ok (allSectors q space space, mats) ∧
    Fits (allSectors q space space) mats space space ∧
    ∀ i a k c, elem (allSectors q space space) mats i a k c = 0 := by
  obtain ⟨mats, hm, hf, hv⟩ := assemble (s := allSectors q space space) (bra := space) (ket := space)
    (zeroBlock space space) (fun _ _ _ _ => 0) (by
      intro p hp
      obtain ⟨b, k, hb, hk, _⟩ := sectors_some (allSectors_spec q space space) hp
      refine ⟨⟨b.ns.length, k.ns.length, fun _ _ => 0⟩, ?_, (dim_some hb).symm, (dim_some hk).symm, ?_⟩
      · simp [zeroBlock, getE_ok hb, getE_ok hk]
      · intros; rfl)
  refine ⟨mats, by simp [zeroSet, hm], hf, ?_⟩
  intro i a k c
  by_cases h : (i, k) ∈ (allSectors q space space).pairs
  · by_cases h2 : a < dim space i ∧ c < dim space k
    · exact hv i k h a c h2.1 h2.2
    · exact elem_outside hf h2
  · exact elem_absent h a c

theorem at_inside {s : Storage} {J0 : Int} (h : s.J0min ≤ J0 ∧ J0 ≤ s.J0max) :
    s.at J0 = getE s.sets (J0 - s.J0min).toNat := by
  simp [Storage.at, assertE, h]

theorem at_outside {s : Storage} {J0 : Int} (h : ¬ (s.J0min ≤ J0 ∧ J0 ≤ s.J0max)) :
    s.at J0 = .error .assertFail := by
  simp [Storage.at, assertE, h]

/-- Storage is zero-initialised for exactly the multipoles of the range. -/
theorem initStorage_zero (space : Space) (g0 Tz0 : Int) {lo hi : Int} (h : lo ≤ hi + 1) :
    ∃ s, initStorage space g0 Tz0 lo hi = .ok s ∧ s.J0min = lo ∧ s.J0max = hi ∧
      Holds space g0 Tz0 lo hi s fun _ _ _ => 0 := by
  obtain ⟨sets, hs, h2⟩ := mapM_forall₂ (l := List.range (hi - lo + 1).toNat)
    (f := fun i : ℕ => zeroSet space ⟨lo + i, g0, Tz0⟩)
    (P := fun i e => ∃ mats, e = (allSectors ⟨lo + i, g0, Tz0⟩ space space, mats) ∧
      Fits (allSectors ⟨lo + i, g0, Tz0⟩ space space) mats space space ∧
      ∀ a b k c, elem (allSectors ⟨lo + i, g0, Tz0⟩ space space) mats a b k c = 0) (by
      intro i _
      obtain ⟨mats, hm, hf, hv⟩ := zeroSet_ok space ⟨lo + i, g0, Tz0⟩
      exact ⟨_, hm, mats, rfl, hf, hv⟩)
  refine ⟨⟨lo, hi, sets⟩, ?_, rfl, rfl, ?_, ?_⟩
  · simp only [initStorage]
    rw [if_neg (by omega), hs]
    rfl
  · intro J0 h1 h2'
    have hx : (List.range (hi - lo + 1).toNat)[(J0 - lo).toNat]? = some (J0 - lo).toNat := by
      rw [List.getElem?_range]; omega
    obtain ⟨e, he, mats, rfl, hf, hv⟩ := forall₂_getElem? h2 hx
    have hJ : lo + ((J0 - lo).toNat : Int) = J0 := by omega
    rw [hJ] at he hf hv
    refine ⟨mats, ?_, hf, fun i a x k c y _ _ => hv i a k c⟩
    rw [Storage.getMultipole, at_inside ⟨h1, h2'⟩]
    exact getE_ok he
  · intro J0 hn
    exact at_outside hn

/-! ## Storing -/

theorem elem_set {q : QN} {space : Space} {mats : List Mat}
    (hf : Fits (allSectors q space space) mats space space) {x a c i k : ℕ} {m : Mat} {v : ℝ}
    (hx : (allSectors q space space).pairs.idxOf? (i, k) = some x) (hm : mats[x]? = some m)
    (ha : a < m.rows) (hc : c < m.cols) :
    Fits (allSectors q space space) (mats.set x (setElem m a c v)) space space ∧
    ∀ i' a' k' c', elem (allSectors q space space) (mats.set x (setElem m a c v)) i' a' k' c' =
      if i' = i ∧ a' = a ∧ k' = k ∧ c' = c then v else elem (allSectors q space space) mats i' a' k' c' := by
  have hxl : x < mats.length := (List.getElem?_eq_some_iff.mp hm).1
  constructor
  · constructor
    · rw [List.length_set, hf.length]
    · intro y i' k' m' hy hm'
      by_cases hxy : x = y
      · subst hxy
        rw [List.getElem?_set_self hxl] at hm'
        cases hm'
        exact hf.size x i' k' m hy hm
      · rw [List.getElem?_set_ne hxy] at hm'
        exact hf.size y i' k' m' hy hm'
  · intro i' a' k' c'
    unfold elem
    rcases hy : (allSectors q space space).pairs.idxOf? (i', k') with _ | y
    · rw [if_neg]
      rintro ⟨rfl, _, rfl, _⟩
      rw [hx] at hy
      simp at hy
    · simp only
      by_cases hxy : x = y
      · subst hxy
        have hp := idxOf?_getElem? hx
        rw [idxOf?_getElem? hy] at hp
        simp only [Option.some.injEq, Prod.mk.injEq] at hp
        obtain ⟨rfl, rfl⟩ := hp
        rw [List.getElem?_set_self hxl, hm]
        simp only [setElem, true_and]
        by_cases h : a' = a ∧ c' = c
        · obtain ⟨rfl, rfl⟩ := h
          simp [ha, hc]
        · simp [h]
      · rw [List.getElem?_set_ne hxy, if_neg]
        rintro ⟨rfl, _, rfl, _⟩
        rw [hx] at hy
        simp only [Option.some.injEq] at hy
        exact hxy hy

/-- Storing a valid element changes that element and nothing else. -/
theorem store_valid {space : Space} (hg : GoodSpace space) {g0 Tz0 lo hi : Int} {s : Storage}
    {v : Int → Full → Full → ℝ} (hlo : s.J0min = lo) (hhi : s.J0max = hi) (hs : Holds space g0 Tz0 lo hi s v)
    {e : Entry} (he : Valid space g0 Tz0 lo hi e) :
    ∃ s', store space s e.J0 e.bra e.ket e.value = .ok s' ∧ s'.J0min = lo ∧ s'.J0max = hi ∧
      Holds space g0 Tz0 lo hi s' fun J0 x y =>
        if e.J0 = J0 ∧ e.bra = x ∧ e.ket = y then e.value else v J0 x y := by
  obtain ⟨J0, bra, ket, w⟩ := e
  obtain ⟨⟨h1, h2⟩, ⟨i, a, hb⟩, ⟨k, c, hk⟩, hal⟩ := he
  simp only at h1 h2 hb hk hal ⊢
  subst hlo hhi
  obtain ⟨mats, hget, hf, hv⟩ := hs.inside J0 h1 h2
  rw [Storage.getMultipole] at hget
  have hset : s.sets[(J0 - s.J0min).toNat]? = some (allSectors ⟨J0, g0, Tz0⟩ space space, mats) := by
    rw [at_inside ⟨h1, h2⟩] at hget
    exact getE_eq_ok.mp hget
  obtain ⟨x, hx⟩ := idxOf?_mem ((allowed_of_state hb hk).mpr hal)
  obtain ⟨m, hm, hr, hc, _⟩ := fits_block hf hx
  have ha : a < m.rows := hr ▸ hb.dim_lt
  have hc' : c < m.cols := hc ▸ hk.dim_lt
  obtain ⟨hf', hv'⟩ := elem_set (v := w) hf hx hm ha hc'
  refine ⟨⟨s.J0min, s.J0max, s.sets.set (J0 - s.J0min).toNat (allSectors ⟨J0, g0, Tz0⟩ space space,
    mats.set x (setElem m a c w))⟩, ?_, rfl, rfl, ?_, ?_⟩
  · simp only [store, hget, indices, (lookUpState_iff hg).mpr hb, (lookUpState_iff hg).mpr hk, hx, assertFound,
      Except.ok_bind', Except.pure_ok, getE_ok hm, assertE, ha, hc', and_self, decide_true, if_true]
  · intro J0' h1' h2'
    by_cases hJ : J0 = J0'
    · subst hJ
      refine ⟨mats.set x (setElem m a c w), ?_, hf', ?_⟩
      · rw [Storage.getMultipole, at_inside (by exact ⟨h1, h2⟩)]
        apply getE_ok
        exact List.getElem?_set_self (List.getElem?_eq_some_iff.mp hset).1
      · intro i' a' x' k' c' y' hx' hy'
        rw [hv' i' a' k' c', hv i' a' x' k' c' y' hx' hy']
        by_cases hh : bra = x' ∧ ket = y'
        · obtain ⟨rfl, rfl⟩ := hh
          obtain ⟨e1, e2⟩ := hb.unique hg hx'
          obtain ⟨e3, e4⟩ := hk.unique hg hy'
          rw [if_pos ⟨e1.symm, e2.symm, e3.symm, e4.symm⟩, if_pos ⟨rfl, rfl, rfl⟩]
        · rw [if_neg, if_neg (by tauto)]
          rintro ⟨rfl, rfl, rfl, rfl⟩
          exact hh ⟨hb.same hx', hk.same hy'⟩
    · obtain ⟨mats', hget', hf2, hv2⟩ := hs.inside J0' h1' h2'
      refine ⟨mats', ?_, hf2, ?_⟩
      · rw [Storage.getMultipole, at_inside (by exact ⟨h1', h2'⟩)] at hget' ⊢
        rw [getE_eq_ok] at hget' ⊢
        simp only
        rw [List.getElem?_set_ne (by omega)]
        exact hget'
      · intro i' a' x' k' c' y' hx' hy'
        rw [hv2 i' a' x' k' c' y' hx' hy', if_neg (by tauto)]
  · intro J0' hn
    exact at_outside hn

/-- An element that is not valid is rejected. -/
theorem store_invalid {space : Space} (hg : GoodSpace space) {g0 Tz0 lo hi : Int} {s : Storage}
    {v : Int → Full → Full → ℝ} (hs : Holds space g0 Tz0 lo hi s v) {e : Entry}
    (he : ¬ Valid space g0 Tz0 lo hi e) : store space s e.J0 e.bra e.ket e.value = .error .assertFail := by
  obtain ⟨J0, bra, ket, w⟩ := e
  simp only [Valid] at he
  simp only [store]
  by_cases hJ : lo ≤ J0 ∧ J0 ≤ hi
  · obtain ⟨mats, hget, _, _⟩ := hs.inside J0 hJ.1 hJ.2
    rw [Storage.getMultipole] at hget
    rw [hget]
    simp only [Except.ok_bind', indices]
    rcases hb : lookUpState space bra with _ | ⟨i, a⟩
    · rfl
    rcases hk : lookUpState space ket with _ | ⟨k, c⟩
    · rfl
    have hb' := (lookUpState_iff hg).mp hb
    have hk' := (lookUpState_iff hg).mp hk
    have hn : (allSectors ⟨J0, g0, Tz0⟩ space space).pairs.idxOf? (i, k) = none := by
      rw [idxOf?_none, allowed_of_state hb' hk']
      intro hal
      exact he ⟨hJ, ⟨i, a, hb'⟩, ⟨k, c, hk'⟩, hal⟩
    simp [hn, assertFound]
  · have := hs.outside J0 hJ
    rw [Storage.getMultipole] at this
    rw [this]
    rfl

theorem finalValue_append (es : List Entry) (e : Entry) (J0 : Int) (x y : Full) :
    finalValue (es ++ [e]) J0 x y = if e.J0 = J0 ∧ e.bra = x ∧ e.ket = y then e.value else finalValue es J0 x y := by
  unfold finalValue
  rw [List.filter_append]
  by_cases h : e.J0 = J0 ∧ e.bra = x ∧ e.ket = y
  · rw [List.filter_cons_of_pos (by simpa using h)]
    simp [h]
  · rw [List.filter_cons_of_neg (by simpa using h)]
    simp [h]

/-- Store the elements of a list one after the other. -/
noncomputable def storeAll (space : Space) (s : Storage) (es : List Entry) : Except Err Storage :=
  es.foldlM (fun s e => store space s e.J0 e.bra e.ket e.value) s

theorem storeAll_valid {space : Space} (hg : GoodSpace space) {g0 Tz0 lo hi : Int} (es : List Entry) :
    ∀ (done : List Entry) (s : Storage), s.J0min = lo → s.J0max = hi →
      Holds space g0 Tz0 lo hi s (finalValue done) → (∀ e ∈ es, Valid space g0 Tz0 lo hi e) →
      ∃ s', storeAll space s es = .ok s' ∧ s'.J0min = lo ∧ s'.J0max = hi ∧
        Holds space g0 Tz0 lo hi s' (finalValue (done ++ es)) := by
  induction es with
  | nil => intro done s h1 h2 h3 _; exact ⟨s, rfl, h1, h2, by simpa using h3⟩
  | cons e es ih =>
    intro done s h1 h2 h3 h4
    obtain ⟨s1, e1, e2, e3, e4⟩ := store_valid hg h1 h2 h3 (h4 e (by simp))
    have e5 : Holds space g0 Tz0 lo hi s1 (finalValue (done ++ [e])) := by
      have : finalValue (done ++ [e]) = fun J0 x y =>
          if e.J0 = J0 ∧ e.bra = x ∧ e.ket = y then e.value else finalValue done J0 x y := by
        funext J0 x y
        exact finalValue_append done e J0 x y
      rw [this]; exact e4
    obtain ⟨s', f1, f2, f3, f4⟩ := ih (done ++ [e]) s1 e2 e3 e5 fun e' he' => h4 e' (by simp [he'])
    refine ⟨s', ?_, f2, f3, by simpa using f4⟩
    simp only [storeAll, List.foldlM_cons, e1, Except.ok_bind']
    exact f1

theorem storeAll_invalid {space : Space} (hg : GoodSpace space) {g0 Tz0 lo hi : Int} (es : List Entry) :
    ∀ (done : List Entry) (s : Storage), s.J0min = lo → s.J0max = hi →
      Holds space g0 Tz0 lo hi s (finalValue done) → (¬ ∀ e ∈ es, Valid space g0 Tz0 lo hi e) →
      storeAll space s es = .error .assertFail := by
  induction es with
  | nil => intro done s _ _ _ h; simp at h
  | cons e es ih =>
    intro done s h1 h2 h3 h4
    by_cases he : Valid space g0 Tz0 lo hi e
    · obtain ⟨s1, e1, e2, e3, e4⟩ := store_valid hg h1 h2 h3 he
      have e5 : Holds space g0 Tz0 lo hi s1 (finalValue (done ++ [e])) := by
        have : finalValue (done ++ [e]) = fun J0 x y =>
            if e.J0 = J0 ∧ e.bra = x ∧ e.ket = y then e.value else finalValue done J0 x y := by
          funext J0 x y
          exact finalValue_append done e J0 x y
        rw [this]; exact e4
      have := ih (done ++ [e]) s1 e2 e3 e5 (by simpa [he] using h4)
      simp only [storeAll, List.foldlM_cons, e1, Except.ok_bind']
      exact this
    · simp only [storeAll, List.foldlM_cons, store_invalid hg h3 he]
      rfl

/-- C61: after storing elements in an initialised storage, `GetMultipole` delivers exactly the multipoles of the
range, each with the elements of the list, later ones replacing earlier ones, and zero elsewhere; the storing fails
exactly when an element is not of the range, the orbitals and the selection rules. -/
theorem multipole_storage {space : Space} (hg : GoodSpace space) (g0 Tz0 : Int) {lo hi : Int} (h : lo ≤ hi + 1)
    (es : List Entry) : ∃ s, initStorage space g0 Tz0 lo hi = .ok s ∧
      ((∀ e ∈ es, Valid space g0 Tz0 lo hi e) →
        ∃ s', storeAll space s es = .ok s' ∧ Holds space g0 Tz0 lo hi s' (finalValue es)) ∧
      ((¬ ∀ e ∈ es, Valid space g0 Tz0 lo hi e) → storeAll space s es = .error .assertFail) := by
  obtain ⟨s, hs, h1, h2, h3⟩ := initStorage_zero space g0 Tz0 h
  have h0 : finalValue [] = fun _ _ _ => 0 := by funext; simp [finalValue]
  rw [← h0] at h3
  refine ⟨s, hs, ?_, ?_⟩
  · intro hv
    obtain ⟨s'', e1, _, _, e4⟩ := storeAll_valid hg es [] s h1 h2 h3 hv
    exact ⟨s'', e1, by simpa using e4⟩
  · intro hv
    exact storeAll_invalid hg es [] s h1 h2 h3 hv

end Verif.Density
