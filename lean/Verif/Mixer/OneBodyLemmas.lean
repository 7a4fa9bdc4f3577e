import Verif.Mixer.OneBodySpec
import Verif.Mixer.Lemmas
import Verif.Obme.SimilarityProps

/-!
# Helper lemmas for the named one-body operators
-/

namespace Verif.Mixer
open Verif Verif.Mapping Verif.Xform Verif.Obme
open Verif.H2 hiding Mat Subspace

theorem emplace_ok {m m' : ObMap} {id : String} : emplace m id = .ok m' ↔
    m id = none ∧ m' = fun x => if x = id then some none else m x := by
  unfold emplace
  cases h : m id <;> simp [eq_comm]

theorem setOb_emplace {m m' : ObMap} {id : String} (h : emplace m id = .ok m') (d : Option ObData) :
    setOb m' id d = setOb m id d := by
  obtain ⟨_, rfl⟩ := emplace_ok.mp h
  funext x
  simp only [setOb]
  split <;> simp_all

theorem setOb_same (m : ObMap) (id : String) (d : Option ObData) : setOb m id d id = some d := by simp [setOb]

theorem setOb_other {m : ObMap} {id x : String} (d : Option ObData) (h : x ≠ id) : setOb m id d x = m x := by
  simp [setOb, h]

theorem look_ok {m : ObMap} {id : String} {d : ObData} : look m id = .ok d ↔ m id = some (some d) := by
  unfold look
  rcases m id with _ | _ | x <;> simp

theorem lookXf_ok {xf : String → Option XfData} {id : String} {x : XfData} :
    lookXf xf id = .ok x ↔ xf id = some x := by
  unfold lookXf
  rcases xf id with _ | x <;> simp

/-- What a channel computes from the other entries. -/
noncomputable def valueOf (env : ObEnv) (m : ObMap) (ch : ObChannel) : Except Err (Option ObData) :=
  match ch.kind with
  | .input file qn => do
    let d ← readOb env.prog file qn
    pure (some d)
  | .builtin space => do
    let d ← builtinOb env ch.id space
    pure (some d)
  | .generated gen qn space => do
    let d ← generatedOb env ch.id gen qn space
    pure (some d)
  | .linear terms => terms.foldlM (linearStep env.prog m ch.id) none
  | .product a b J0 factor => do
    let da ← look (setOb m ch.id none) a
    let db ← look (setOb m ch.id none) b
    let d ← productOb env da db J0 factor
    pure (some d)
  | .xform src xf => do
    let ds ← look m src
    let dx ← lookXf env.xf xf
    let d ← xformOb ds dx
    pure (some d)

theorem linearStep_congr {prog : Prog} {m m' : ObMap} {id : String} (h : ∀ x, x ≠ id → m x = m' x) :
    linearStep prog m id = linearStep prog m' id := by
  funext acc t
  unfold linearStep
  have : setOb m id acc = setOb m' id acc := by
    funext x
    by_cases hx : x = id
    · simp [setOb, hx]
    · simp [setOb, hx, h x hx]
  rw [this]

/-- One channel: a new name gets its value, nothing else changes. -/
theorem construct_ok {env : ObEnv} {m m' : ObMap} {ch : ObChannel} :
    construct env m ch = .ok m' ↔ m ch.id = none ∧ ∃ d, valueOf env m ch = .ok d ∧ m' = setOb m ch.id d := by
  have hset : ∀ {m1 : ObMap}, emplace m ch.id = .ok m1 → m1 = setOb m ch.id none := by
    intro m1 h
    exact (emplace_ok.mp h).2
  unfold construct valueOf
  rcases ch with ⟨id, kind⟩
  cases kind with
  | input file qn =>
    simp only [Except.bind_eq_ok]
    constructor
    · rintro ⟨m1, h1, d, h2, h3⟩
      cases h3
      exact ⟨(emplace_ok.mp h1).1, _, ⟨d, h2, rfl⟩, setOb_emplace h1 _⟩
    · rintro ⟨h1, d', ⟨d, h2, h3⟩, rfl⟩
      cases h3
      have he := emplace_ok.mpr ⟨h1, rfl⟩
      exact ⟨_, he, d, h2, by rw [setOb_emplace he]; rfl⟩
  | builtin space =>
    simp only [Except.bind_eq_ok]
    constructor
    · rintro ⟨m1, h1, d, h2, h3⟩
      cases h3
      exact ⟨(emplace_ok.mp h1).1, _, ⟨d, h2, rfl⟩, setOb_emplace h1 _⟩
    · rintro ⟨h1, d', ⟨d, h2, h3⟩, rfl⟩
      cases h3
      have he := emplace_ok.mpr ⟨h1, rfl⟩
      exact ⟨_, he, d, h2, by rw [setOb_emplace he]; rfl⟩
  | generated gen qn space =>
    simp only [Except.bind_eq_ok]
    constructor
    · rintro ⟨m1, h1, d, h2, h3⟩
      cases h3
      exact ⟨(emplace_ok.mp h1).1, _, ⟨d, h2, rfl⟩, setOb_emplace h1 _⟩
    · rintro ⟨h1, d', ⟨d, h2, h3⟩, rfl⟩
      cases h3
      have he := emplace_ok.mpr ⟨h1, rfl⟩
      exact ⟨_, he, d, h2, by rw [setOb_emplace he]; rfl⟩
  | linear terms =>
    simp only [Except.bind_eq_ok]
    have hc : ∀ {m1 : ObMap}, emplace m id = .ok m1 → linearStep env.prog m1 id = linearStep env.prog m id := by
      intro m1 h1
      apply linearStep_congr
      intro x hx
      rw [(emplace_ok.mp h1).2]
      simp [hx]
    constructor
    · rintro ⟨m1, h1, d, h2, h3⟩
      cases h3
      rw [hc h1] at h2
      exact ⟨(emplace_ok.mp h1).1, d, h2, setOb_emplace h1 _⟩
    · rintro ⟨h1, d, h2, rfl⟩
      have he := emplace_ok.mpr ⟨h1, rfl⟩
      exact ⟨_, he, d, by rw [hc he]; exact h2, by rw [setOb_emplace he]; rfl⟩
  | product a b J0 factor =>
    simp only [Except.bind_eq_ok]
    constructor
    · rintro ⟨m1, h1, da, ha, db, hb, d, h2, h3⟩
      cases h3
      rw [hset h1] at ha hb
      exact ⟨(emplace_ok.mp h1).1, _, ⟨da, ha, db, hb, d, h2, rfl⟩, setOb_emplace h1 _⟩
    · rintro ⟨h1, d', ⟨da, ha, db, hb, d, h2, h3⟩, rfl⟩
      cases h3
      have he := emplace_ok.mpr ⟨h1, rfl⟩
      exact ⟨_, he, da, ha, db, hb, d, h2, by rw [setOb_emplace he]; rfl⟩
  | xform src xf =>
    simp only [Except.bind_eq_ok]
    constructor
    · rintro ⟨ds, hs, dx, hx, m1, h1, d, h2, h3⟩
      cases h3
      exact ⟨(emplace_ok.mp h1).1, _, ⟨ds, hs, dx, hx, d, h2, rfl⟩, setOb_emplace h1 _⟩
    · rintro ⟨h1, d', ⟨ds, hs, dx, hx, d, h2, h3⟩, rfl⟩
      cases h3
      have he := emplace_ok.mpr ⟨h1, rfl⟩
      exact ⟨ds, hs, dx, hx, _, he, d, h2, by rw [setOb_emplace he]; rfl⟩

/-! ## The whole list -/

theorem foldlM_append_ok {α β : Type} {f : β → α → Except Err β} {l l' : List α} {b r : β} :
    (l ++ l').foldlM f b = .ok r ↔ ∃ c, l.foldlM f b = .ok c ∧ l'.foldlM f c = .ok r := by
  rw [List.foldlM_append]
  simp only [Except.bind_eq_ok]

theorem build_frame {env : ObEnv} : ∀ {chans : List ObChannel} {m m' : ObMap},
    chans.foldlM (construct env) m = .ok m' → ∀ x, m x ≠ none → m' x = m x
  | [], m, m', h, x, _ => by cases h; rfl
  | ch :: chans, m, m', h, x, hx => by
    rw [List.foldlM_cons] at h
    simp only [Except.bind_eq_ok] at h
    obtain ⟨m1, h1, h2⟩ := h
    obtain ⟨hn, d, _, rfl⟩ := construct_ok.mp h1
    have hne : x ≠ ch.id := by rintro rfl; exact hx hn
    rw [build_frame h2 x (by rwa [setOb_other _ hne]), setOb_other _ hne]

theorem build_domain {env : ObEnv} : ∀ {chans : List ObChannel} {m m' : ObMap},
    chans.foldlM (construct env) m = .ok m' → ∀ x, m' x ≠ none ↔ m x ≠ none ∨ x ∈ chans.map (·.id)
  | [], m, m', h, x => by cases h; simp
  | ch :: chans, m, m', h, x => by
    rw [List.foldlM_cons] at h
    simp only [Except.bind_eq_ok] at h
    obtain ⟨m1, h1, h2⟩ := h
    obtain ⟨hn, d, _, rfl⟩ := construct_ok.mp h1
    rw [build_domain h2 x]
    by_cases hx : x = ch.id
    · simp [hx, setOb]
    · rw [setOb_other _ hx]
      simp [hx]

/-- A channel in a successful run. -/
theorem build_split {env : ObEnv} {pre post : List ObChannel} {ch : ObChannel} {m : ObMap}
    (h : buildOb env (pre ++ ch :: post) = .ok m) : ∃ m0 d, buildOb env pre = .ok m0 ∧ m0 ch.id = none ∧
      valueOf env m0 ch = .ok d ∧ m ch.id = some d ∧ ∀ x, m0 x ≠ none → m x = m0 x := by
  unfold buildOb at h ⊢
  obtain ⟨m0, h0, h1⟩ := foldlM_append_ok.mp h
  rw [List.foldlM_cons] at h1
  simp only [Except.bind_eq_ok] at h1
  obtain ⟨m1, h1, h2⟩ := h1
  obtain ⟨hn, d, hd, rfl⟩ := construct_ok.mp h1
  refine ⟨m0, d, h0, hn, hd, ?_, ?_⟩
  · rw [build_frame h2 ch.id (by simp [setOb]), setOb_same]
  · intro x hx
    have hne : x ≠ ch.id := by rintro rfl; exact hx hn
    rw [build_frame h2 x (by rwa [setOb_other _ hne]), setOb_other _ hne]

/-! ## Blocks -/

/-- Blocks combined one by one. -/
theorem combine_ok {secs : Sectors} {sp : Space} {a b : List Mat} {c : ℝ} (ha : Fits secs a sp sp)
    (hb : Fits secs b sp sp) : ∃ mats, combineBlocks secs a c b = .ok mats ∧ Fits secs mats sp sp ∧
      ∀ i x k y, elem secs mats i x k y = elem secs a i x k y + c * elem secs b i x k y := by
  have step : ∀ n ∈ List.range secs.pairs.length, ∃ r, (do
      let x ← getE a n
      let y ← getE b n
      addE (scale 1 x) (scale c y)) = Except.ok r ∧ ∃ x y : Mat, a[n]? = some x ∧ b[n]? = some y ∧
        x.rows = y.rows ∧ x.cols = y.cols ∧ r.rows = x.rows ∧ r.cols = x.cols ∧
        ∀ i j, r.val i j = x.val i j + c * y.val i j := by
    intro n hn
    rw [List.mem_range] at hn
    have hx : a[n]? = some (a[n]'(by rw [ha.length]; exact hn)) := List.getElem?_eq_getElem _
    have hy : b[n]? = some (b[n]'(by rw [hb.length]; exact hn)) := List.getElem?_eq_getElem _
    have hp : secs.pairs[n]? = some secs.pairs[n] := List.getElem?_eq_getElem hn
    obtain ⟨h1, h2⟩ := ha.size n _ _ _ hp hx
    obtain ⟨h3, h4⟩ := hb.size n _ _ _ hp hy
    rw [getE_ok hx, getE_ok hy]
    have hadd : addE (scale 1 (a[n]'(by rw [ha.length]; exact hn)))
        (scale c (b[n]'(by rw [hb.length]; exact hn))) = .ok ⟨_, _, _⟩ :=
      if_pos ⟨by simp only [scale]; rw [h1, h3], by simp only [scale]; rw [h2, h4]⟩
    simp only [Except.ok_bind']
    exact ⟨_, hadd, _, _, hx, hy, by rw [h1, h3], by rw [h2, h4], rfl, rfl, by intro i j; simp [scale]⟩
  obtain ⟨mats, hm, h2⟩ := mapM_forall₂ step
  have hlen : mats.length = secs.pairs.length := by simpa using h2.length_eq.symm
  have hat : ∀ {n : ℕ} {r : Mat}, mats[n]? = some r → ∃ x y : Mat, a[n]? = some x ∧ b[n]? = some y ∧
        x.rows = y.rows ∧ x.cols = y.cols ∧ r.rows = x.rows ∧ r.cols = x.cols ∧
        ∀ i j, r.val i j = x.val i j + c * y.val i j := by
    intro n r hr
    obtain ⟨n', hn', hP⟩ := forall₂_getElem?' h2 hr
    obtain ⟨hlt, hn''⟩ := List.getElem?_eq_some_iff.mp hn'
    simp only [List.getElem_range] at hn''
    subst hn''
    exact hP
  refine ⟨mats, hm, ⟨hlen, ?_⟩, ?_⟩
  · intro n i k r hp hr
    obtain ⟨x, y, hx, hy, _, _, h3, h4, _⟩ := hat hr
    rw [h3, h4]
    exact ha.size n i k x hp hx
  · intro i u k v
    rcases hx : secs.pairs.idxOf? (i, k) with _ | n
    · simp [elem, hx]
    have hp := idxOf?_getElem? hx
    have hn : n < mats.length := by
      rw [hlen]; exact (List.getElem?_eq_some_iff.mp hp).1
    obtain ⟨x, y, hxa, hyb, e1, e2, e3, e4, e5⟩ := hat (List.getElem?_eq_getElem hn)
    simp only [elem, hx, List.getElem?_eq_getElem hn, hxa, hyb, e3, e4, e1, e2, e5]
    split <;> simp

theorem zero_ok (q : QN) (sp : Space) : ∃ mats, (allSectors q sp sp).pairs.mapM (zeroBlock sp sp) = .ok mats ∧
    Fits (allSectors q sp sp) mats sp sp ∧ ∀ i x k y, elem (allSectors q sp sp) mats i x k y = 0 := by
  obtain ⟨mats, h1, h2, h3⟩ := assemble (s := allSectors q sp sp) (bra := sp) (ket := sp) (zeroBlock sp sp)
    (fun _ _ _ _ => 0) (by
      intro p hp
      obtain ⟨b, k, hb, hk, _⟩ := sectors_some (allSectors_spec q sp sp) hp
      exact ⟨⟨b.ns.length, k.ns.length, fun _ _ => 0⟩, by simp [zeroBlock, getE_ok hb, getE_ok hk],
        (dim_some hb).symm, (dim_some hk).symm, by intros; rfl⟩)
  refine ⟨mats, h1, h2, ?_⟩
  intro i x k y
  by_cases hp : (i, k) ∈ (allSectors q sp sp).pairs
  · by_cases hd : x < dim sp i ∧ y < dim sp k
    · exact h3 i k hp x y hd.1 hd.2
    · exact elem_outside h2 hd
  · exact elem_absent hp _ _

theorem scale_fits {secs : Sectors} {sp : Space} {mats : List Mat} (c : ℝ) (h : Fits secs mats sp sp) :
    Fits secs (mats.map (scale c)) sp sp ∧
      ∀ i x k y, elem secs (mats.map (scale c)) i x k y = c * elem secs mats i x k y := by
  constructor
  · refine ⟨by simp [h.length], ?_⟩
    intro n i k m hp hm
    rw [List.getElem?_map, Option.map_eq_some_iff] at hm
    obtain ⟨m', hm', rfl⟩ := hm
    exact h.size n i k m' hp hm'
  · intro i x k y
    simp only [elem]
    cases secs.pairs.idxOf? (i, k) with
    | none => simp
    | some n =>
      simp only [List.getElem?_map]
      cases mats[n]? with
      | none => simp
      | some m =>
        simp only [Option.map_some, scale]
        split <;> simp

theorem scaleOb_fits {secs : Sectors} {sp : Space} {mats : List Mat} (c : ℝ) (h : Fits secs mats sp sp) :
    Fits secs (scaleOb c mats) sp sp ∧
      ∀ i x k y, elem secs (scaleOb c mats) i x k y = c * elem secs mats i x k y := by
  unfold scaleOb
  split
  · exact scale_fits c h
  · rename_i hc
    have : c = 1 := by simpa using hc
    subst this
    exact ⟨h, by simp⟩

/-! ## Linear combinations -/

theorem qn_ext {a b : QN} (h1 : a.J0 = b.J0) (h2 : a.g0 = b.g0) (h3 : a.Tz0 = b.Tz0) : a = b := by
  cases a; cases b; simp_all

/-- The loop after the first term. -/
theorem linear_loop {prog : Prog} {m : ObMap} {id : String} : ∀ {terms : List (String × ℝ)} {cur : ObData},
    GoodOb cur → (∀ t ∈ terms, t.1 ≠ id ∧ ∃ s, m t.1 = some (some s) ∧ GoodOb s ∧ s.space = cur.space ∧
      s.secs.qn = cur.secs.qn) →
    ∃ d, terms.foldlM (linearStep prog m id) (some cur) = .ok (some d) ∧ GoodOb d ∧ d.space = cur.space ∧
      d.secs = cur.secs ∧ ∀ (v : String → ObData), (∀ t ∈ terms, m t.1 = some (some (v t.1))) →
        ∀ i a k c, d.el i a k c = cur.el i a k c + (terms.map fun t => t.2 * (v t.1).el i a k c).sum
  | [], cur, hg, _ => ⟨cur, rfl, hg, rfl, rfl, by intros; simp⟩
  | t :: terms, cur, hg, h => by
    obtain ⟨hne, s, hs, gs, hsp, hqn⟩ := h t (by simp)
    have hsecs : s.secs = cur.secs := by rw [gs.secs, hg.secs, hsp, hqn]
    obtain ⟨mats, h1, h2, h3⟩ := combine_ok (c := t.2) hg.fits (b := s.mats)
      (by rw [← hsecs, ← hsp]; exact gs.fits)
    have hstep : linearStep prog m id (some cur) t = .ok (some ⟨cur.space, cur.secs, mats⟩) := by
      unfold linearStep
      rw [look_ok.mpr (by rw [setOb_other _ hne]; exact hs)]
      simp only [Except.ok_bind', nextOb, laterOb, hsp, hqn]
      simp [assertE, h1]
    obtain ⟨d, hd, gd, e1, e2, e3⟩ := linear_loop (prog := prog) (m := m) (id := id) (terms := terms)
      (cur := ⟨cur.space, cur.secs, mats⟩) ⟨hg.space, hg.secs, h2⟩ fun t' ht' => h t' (by simp [ht'])
    refine ⟨d, ?_, gd, e1, e2, ?_⟩
    · rw [List.foldlM_cons, hstep]
      exact hd
    · intro v hv i a k c
      rw [e3 v (fun t' ht' => hv t' (by simp [ht'])) i a k c]
      have : v t.1 = s := by
        have := hv t (by simp)
        rw [hs] at this
        simp only [Option.some.injEq] at this
        exact this.symm
      simp only [List.map_cons, List.sum_cons, this]
      simp only [ObData.el, h3, hsecs]
      ring

/-- A linear combination of compatible operators. -/
theorem linear_ok {prog : Prog} {m : ObMap} {id : String} {terms : List (String × ℝ)} {sp : Space} {q : QN}
    (hne : terms ≠ []) (h : ∀ t ∈ terms, t.1 ≠ id ∧ ∃ s, m t.1 = some (some s) ∧ GoodOb s ∧ s.space = sp ∧
      s.secs.qn = q) :
    ∃ d, terms.foldlM (linearStep prog m id) none = .ok (some d) ∧ GoodOb d ∧ d.space = sp ∧
      d.secs.qn = q ∧ ∀ (v : String → ObData), (∀ t ∈ terms, m t.1 = some (some (v t.1))) →
        ∀ i a k c, d.el i a k c = (terms.map fun t => t.2 * (v t.1).el i a k c).sum := by
  cases terms with
  | nil => exact absurd rfl hne
  | cons t terms =>
    obtain ⟨hn, s, hs, gs, hsp, hqn⟩ := h t (by simp)
    obtain ⟨z, hz1, hz2, hz3⟩ := zero_ok s.secs.qn s.space
    have hss := gs.secs
    obtain ⟨mats, h1, h2, h3⟩ := combine_ok (c := t.2) hz2 (b := s.mats) (by rw [← hss]; exact gs.fits)
    have hstep : linearStep prog m id none t =
        .ok (some ⟨s.space, allSectors s.secs.qn s.space s.space, mats⟩) := by
      unfold linearStep
      rw [look_ok.mpr (by rw [setOb_other _ hn]; exact hs)]
      simp only [Except.ok_bind', nextOb, startOb, hz1, Except.pure_ok, h1]
    obtain ⟨d, hd, gd, e1, e2, e3⟩ := linear_loop (prog := prog) (m := m) (id := id) (terms := terms)
      (cur := ⟨s.space, allSectors s.secs.qn s.space s.space, mats⟩) ⟨gs.space, rfl, h2⟩ (by
        intro t' ht'
        obtain ⟨a1, s', a2, a3, a4, a5⟩ := h t' (by simp [ht'])
        exact ⟨a1, s', a2, a3, a4.trans hsp.symm, a5.trans hqn.symm⟩)
    refine ⟨d, ?_, gd, e1.trans hsp, by rw [e2]; exact hqn, ?_⟩
    · rw [List.foldlM_cons, hstep]
      exact hd
    · intro v hv i a k c
      rw [e3 v (fun t' ht' => hv t' (by simp [ht'])) i a k c]
      have : v t.1 = s := by
        have := hv t (by simp)
        rw [hs] at this
        simp only [Option.some.injEq] at this
        exact this.symm
      simp only [List.map_cons, List.sum_cons, this]
      simp only [ObData.el, h3, hz3, zero_add]
      rw [← hss]

end Verif.Mixer
