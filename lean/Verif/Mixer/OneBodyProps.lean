import Verif.Mixer.OneBodyLemmas

/-!
# Properties of the named one-body operators
-/

namespace Verif.Mixer
open Verif Verif.Mapping Verif.Xform Verif.Obme
open Verif.H2 hiding Mat Subspace

/-! ## Sizes -/

theorem mapM_fits {secs : Sectors} {sp : Space} {f : ℕ × ℕ → Except Err Mat} {mats : List Mat}
    (h : secs.pairs.mapM f = .ok mats)
    (hf : ∀ p ∈ secs.pairs, ∀ m, f p = .ok m → m.rows = dim sp p.1 ∧ m.cols = dim sp p.2) :
    Fits secs mats sp sp := by
  rw [mapM_ok_iff] at h
  refine ⟨h.length_eq.symm, ?_⟩
  intro x i k m hp hm
  obtain ⟨m', hm', he⟩ := forall₂_getElem? h hp
  rw [hm] at hm'
  cases hm'
  exact hf _ (mem_of_getElem? hp) m he

theorem identityBlocks_fits {sp : Space} {secs : Sectors} {mats : List Mat}
    (h : identityBlocks sp secs = .ok mats) : Fits secs mats sp sp := by
  apply mapM_fits h
  intro p _ m hm
  simp only [Except.bind_eq_ok, getE_eq_ok] at hm
  obtain ⟨b, hb, k, hk, hm⟩ := hm
  cases hm
  split <;> simp [eye, dim_some hb, dim_some hk]

theorem generateE_fits {sp : Space} {secs : Sectors} {f : Obme.Labels → ℕ → Obme.Labels → ℕ → Except Err ℝ}
    {mats : List Mat} (h : generateE sp sp secs f = .ok mats) : Fits secs mats sp sp := by
  apply mapM_fits h
  intro p _ m hm
  simp only [Except.bind_eq_ok, getE_eq_ok] at hm
  obtain ⟨b, hb, k, hk, rows, _, hm⟩ := hm
  cases hm
  simp [dim_some hb, dim_some hk]

theorem solidHarmonic_fits {spl : Spline} {crme : Obme.Labels → Obme.Labels → Int → ℝ} {bt : BasisType}
    {ot : RadType} {order : Int} {sp : Space} {secs : Sectors} {mats : List Mat}
    (h : solidHarmonic spl crme bt ot order sp secs = .ok mats) : Fits secs mats sp sp := by
  unfold solidHarmonic at h
  simp only [Except.bind_eq_ok] at h
  obtain ⟨ms, h1, h2⟩ := h
  have hf := generateE_fits h1
  rw [mapM_ok_iff] at h2
  refine ⟨by rw [← h2.length_eq, List.length_zip, hf.length]; simp, ?_⟩
  intro x i k m hp hm
  obtain ⟨⟨p, m'⟩, hz, he⟩ := forall₂_getElem?' h2 hm
  rw [List.getElem?_zip_eq_some] at hz
  obtain ⟨hz1, hz2⟩ := hz
  rw [hp] at hz1
  cases hz1
  simp only [Except.bind_eq_ok, getE_eq_ok] at he
  obtain ⟨b, _, k', _, he⟩ := he
  cases he
  exact hf.size x i k m' hp hz2

theorem generateOb_fits {env : ObEnv} {bt : BasisType} {id : String} {gen : Gen} {sp : Space} {secs : Sectors}
    {mats : List Mat} (hg : GenOK gen) (h : generateOb env bt id gen sp secs = .ok mats) : Fits secs mats sp sp := by
  cases gen with
  | radial ot order =>
    simp only [generateOb, solidHarmonicSource, Except.bind_eq_ok] at h
    obtain ⟨ms, h1, h2⟩ := h
    cases h2
    exact (scale_fits _ (solidHarmonic_fits h1)).1
  | am type order =>
    simp only [generateOb] at h
    split at h
    · simp only [angularMomentum, Except.bind_eq_ok] at h
      obtain ⟨_, _, _, _, _, _, h⟩ := h
      apply mapM_fits h
      intro p _ m hm
      simp only [Except.bind_eq_ok, getE_eq_ok] at hm
      obtain ⟨b, hb, k, hk, hm⟩ := hm
      cases hm
      simp [scale, eye, dim_some hb, dim_some hk]
    · split at h
      · simp only [angularMomentumSquared, Except.bind_eq_ok] at h
        obtain ⟨_, _, _, _, _, _, h⟩ := h
        apply mapM_fits h
        intro p _ m hm
        simp only [Except.bind_eq_ok, getE_eq_ok] at hm
        obtain ⟨b, hb, k, hk, _, _, hm⟩ := hm
        cases hm
        simp [scale, eye, dim_some hb, dim_some hk]
      · rcases hg with rfl | rfl <;> simp_all
  | isospin =>
    simp only [generateOb, Obme.isospin, Except.bind_eq_ok] at h
    obtain ⟨_, _, _, _, h⟩ := h
    apply mapM_fits h
    intro p _ m hm
    simp only [Except.bind_eq_ok, getE_eq_ok] at hm
    obtain ⟨b, hb, k, hk, hm⟩ := hm
    cases hm
    simp [scale, eye, dim_some hb, dim_some hk]
  | ladder raising =>
    simp only [generateOb, Obme.ladder, Except.bind_eq_ok] at h
    obtain ⟨_, _, h⟩ := h
    exact generateE_fits h

theorem builtinTable_ok : ∀ x ∈ builtinTable, GenOK x.2.1 := by
  intro x hx
  simp only [builtinTable, List.mem_cons, List.not_mem_nil, or_false] at hx
  rcases hx with rfl | rfl | rfl | rfl | rfl | rfl | rfl | rfl | rfl | rfl | rfl <;> simp [GenOK]

theorem lookup_mem {α β : Type} [BEq α] [LawfulBEq α] {a : α} {b : β} : ∀ {l : List (α × β)},
    l.lookup a = some b → (a, b) ∈ l
  | [], h => by simp at h
  | (x, y) :: l, h => by
    rw [List.lookup_cons] at h
    split at h
    · rename_i hx
      simp only [Option.some.injEq] at h
      subst h
      have := eq_of_beq hx
      subst this
      simp
    · exact List.mem_cons_of_mem _ (lookup_mem h)

/-! ## Every operator of a run is complete -/

theorem readOb_good {prog : Prog} {file : Header × List Mat} {qn : QN} {d : ObData}
    (hg : GoodOb ⟨file.1.ket, file.1.secs, file.2⟩) (h : readOb prog file qn = .ok d) : GoodOb d := by
  unfold readOb at h
  simp only [Except.bind_eq_ok] at h
  obtain ⟨_, _, _, _, _, _, _, _, h⟩ := h
  cases h
  exact hg

theorem builtinOb_good {env : ObEnv} {id : String} {space : Option Space} {d : ObData}
    (he : GoodSpace env.space) (hs : ∀ s, space = some s → GoodSpace s)
    (h : builtinOb env id space = .ok d) : GoodOb d := by
  have hsp : GoodSpace (space.getD env.space) := by
    cases space with
    | none => exact he
    | some s => exact hs s rfl
  unfold builtinOb at h
  dsimp only at h
  split at h
  · simp only [Except.bind_eq_ok] at h
    obtain ⟨mats, h1, h2⟩ := h
    cases h2
    exact ⟨hsp, rfl, identityBlocks_fits h1⟩
  · split at h
    · rename_i gen qn hl
      simp only [Except.bind_eq_ok] at h
      obtain ⟨mats, h1, h2⟩ := h
      cases h2
      exact ⟨hsp, rfl, generateOb_fits (builtinTable_ok _ (lookup_mem hl)) h1⟩
    · cases h

theorem generatedOb_good {env : ObEnv} {id : String} {gen : Gen} {qn : QN} {space : Option Space} {d : ObData}
    (he : GoodSpace env.space) (hg : GenOK gen) (hs : ∀ s, space = some s → GoodSpace s)
    (h : generatedOb env id gen qn space = .ok d) : GoodOb d := by
  have hsp : GoodSpace (space.getD env.space) := by
    cases space with
    | none => exact he
    | some s => exact hs s rfl
  unfold generatedOb at h
  split at h
  · simp only [Except.bind_eq_ok] at h
    obtain ⟨mats, h1, h2⟩ := h
    cases h2
    exact ⟨hsp, rfl, identityBlocks_fits h1⟩
  · simp only [Except.bind_eq_ok] at h
    obtain ⟨mats, h1, h2⟩ := h
    cases h2
    exact ⟨hsp, rfl, generateOb_fits hg h1⟩

theorem combine_fits {secs : Sectors} {sp : Space} {a b mats : List Mat} {c : ℝ} (ha : Fits secs a sp sp)
    (h : combineBlocks secs a c b = .ok mats) : Fits secs mats sp sp := by
  unfold combineBlocks at h
  rw [mapM_ok_iff] at h
  have hl := h.length_eq
  rw [List.length_range] at hl
  refine ⟨hl.symm, ?_⟩
  intro n i k m hp hm
  obtain ⟨n', hn', he⟩ := forall₂_getElem?' h hm
  obtain ⟨_, hn''⟩ := List.getElem?_eq_some_iff.mp hn'
  simp only [List.getElem_range] at hn''
  subst hn''
  simp only [Except.bind_eq_ok, getE_eq_ok] at he
  obtain ⟨x, hx, y, _, he⟩ := he
  unfold addE at he
  split at he
  · cases he
    exact ha.size n i k x hp hx
  · cases he

theorem linear_good {prog : Prog} {m : ObMap} {id : String} (hm : ∀ x d, m x = some (some d) → GoodOb d) :
    ∀ {terms : List (String × ℝ)} {acc r : Option ObData}, (∀ d, acc = some d → GoodOb d) →
      terms.foldlM (linearStep prog m id) acc = .ok r → ∀ d, r = some d → GoodOb d
  | [], acc, r, ha, h => by cases h; exact ha
  | t :: terms, acc, r, ha, h => by
    rw [List.foldlM_cons] at h
    simp only [Except.bind_eq_ok] at h
    obtain ⟨acc', h1, h2⟩ := h
    refine linear_good hm ?_ h2
    unfold linearStep at h1
    simp only [Except.bind_eq_ok] at h1
    obtain ⟨src, hs, cur, hc, mats, hmats, h1⟩ := h1
    cases h1
    rintro d hd
    cases hd
    have gs : GoodOb src := by
      rw [look_ok] at hs
      by_cases hx : t.1 = id
      · rw [hx, setOb_same] at hs
        exact ha src (by simpa using hs)
      · rw [setOb_other _ hx] at hs
        exact hm _ _ hs
    have gc : GoodOb cur := by
      cases acc with
      | none =>
        simp only [nextOb, startOb, Except.bind_eq_ok] at hc
        obtain ⟨z, hz, hc⟩ := hc
        cases hc
        obtain ⟨z', hz', hf, _⟩ := zero_ok src.secs.qn src.space
        rw [hz] at hz'
        cases hz'
        exact ⟨gs.space, rfl, hf⟩
      | some c0 =>
        simp only [nextOb, laterOb, Except.bind_eq_ok] at hc
        obtain ⟨_, _, _, _, _, _, _, _, hc⟩ := hc
        cases hc
        exact ha _ rfl
    exact ⟨gc.space, gc.secs, combine_fits gc.fits hmats⟩

theorem tmod_parity (x : Int) : (2 : Int) ∣ x + x.tmod 2 := by
  rw [Int.tmod_def]
  exact ⟨x - x.tdiv 2, by ring⟩

theorem product_value {env : ObEnv} {a b d : ObData} {J0 : Int} {factor : ℝ} (ga : GoodOb a) (gb : GoodOb b)
    (h : productOb env a b J0 factor = .ok d) : GoodOb d ∧ b.space = a.space ∧ d.space = a.space ∧
      d.secs.qn.J0 = J0 ∧ (|a.secs.qn.J0 - b.secs.qn.J0| ≤ J0 ∧ J0 ≤ a.secs.qn.J0 + b.secs.qn.J0) ∧
      d.secs.qn.Tz0 = a.secs.qn.Tz0 + b.secs.qn.Tz0 ∧ (2 : Int) ∣ a.secs.qn.g0 + b.secs.qn.g0 + d.secs.qn.g0 ∧
      ∀ i k s t x y, (i, k) ∈ d.secs.pairs → a.space[i]? = some s → a.space[k]? = some t → x < s.ns.length →
        y < t.ns.length → d.el i x k y = factor * ∑ u ∈ states a.space,
          env.w a.secs.qn b.secs.qn d.secs.qn s.labels.tj t.labels.tj
            ((a.space[u.1]?.map fun s => s.labels.tj).getD 0) * (a.el i x u.1 u.2 * b.el u.1 u.2 k y) := by
  unfold productOb at h
  simp only [Except.bind_eq_ok, assertE_ok, decide_eq_true_eq, tri] at h
  obtain ⟨_, hsp, _, htri, mats, hm, h⟩ := h
  cases h
  obtain ⟨mats', h1, h2, h3⟩ := tensorProduct_element (w := env.w) (sp := a.space) (secsA := a.secs)
    (secsB := b.secs) ga.fits (by rw [hsp]; exact gb.fits)
    (by rw [ga.secs]; exact allSectors_spec _ _ _)
    (allSectors_spec ⟨J0, (a.secs.qn.g0 + b.secs.qn.g0).tmod 2, a.secs.qn.Tz0 + b.secs.qn.Tz0⟩ a.space a.space)
    htri (tmod_parity _) rfl
  rw [hm] at h1
  cases h1
  obtain ⟨f1, f2⟩ := scaleOb_fits factor h2
  refine ⟨⟨ga.space, rfl, f1⟩, hsp.symm, rfl, rfl, htri, rfl, tmod_parity _, ?_⟩
  intro i k s t x y hp hs ht hx hy
  simp only [ObData.el]
  rw [f2, h3 i k s t x y hp hs ht hx hy]

theorem xform_value {src d : ObData} {x : XfData} (gs : GoodOb src) (gx : GoodXf x)
    (h : xformOb src x = .ok d) : GoodOb d ∧ src.space = x.bra ∧ d.space = x.ket ∧ d.secs.qn = src.secs.qn ∧
      ∀ i a k c, d.el i a k c = ∑ s ∈ states x.bra, ∑ t ∈ states x.bra,
        elem x.secs x.mats s.1 s.2 i a * src.el s.1 s.2 t.1 t.2 * elem x.secs x.mats t.1 t.2 k c := by
  unfold xformOb at h
  simp only [Except.bind_eq_ok, assertE_ok, decide_eq_true_eq] at h
  obtain ⟨_, hsp, mats, hm, h⟩ := h
  cases h
  obtain ⟨mats', h1, h2, h3⟩ := similarity_element (osecs := src.secs) (omats := src.mats) gx.bra gx.ket gx.overlap
    (by rw [gs.secs, hsp]; exact allSectors_spec _ _ _) (by rw [← hsp]; exact gs.fits)
    (allSectors_spec src.secs.qn x.ket x.ket) rfl
  rw [hm] at h1
  cases h1
  exact ⟨⟨gx.ket, rfl, h2⟩, hsp, rfl, rfl, h3⟩

theorem value_good {env : ObEnv} {m : ObMap} {ch : ObChannel} {r : Option ObData} (he : GoodSpace env.space)
    (hx : ∀ id x, env.xf id = some x → GoodXf x) (hc : InputOK ch) (hm : ∀ x d, m x = some (some d) → GoodOb d)
    (h : valueOf env m ch = .ok r) : ∀ d, r = some d → GoodOb d := by
  unfold valueOf at h
  unfold InputOK at hc
  rcases ch with ⟨id, kind⟩
  cases kind with
  | input file qn =>
    simp only [Except.bind_eq_ok] at h
    obtain ⟨d, h1, h⟩ := h
    cases h
    rintro _ ⟨⟩
    exact readOb_good hc.2 h1
  | builtin space =>
    simp only [Except.bind_eq_ok] at h
    obtain ⟨d, h1, h⟩ := h
    cases h
    rintro _ ⟨⟩
    exact builtinOb_good he hc h1
  | generated gen qn space =>
    simp only [Except.bind_eq_ok] at h
    obtain ⟨d, h1, h⟩ := h
    cases h
    rintro _ ⟨⟩
    exact generatedOb_good he hc.1 hc.2 h1
  | linear terms => exact linear_good hm (by simp) h
  | product a b J0 factor =>
    simp only [Except.bind_eq_ok, look_ok] at h
    obtain ⟨da, ha, db, hb, d, h1, h⟩ := h
    cases h
    rintro _ ⟨⟩
    have other : ∀ {y : String} {e : ObData}, setOb m id none y = some (some e) → m y = some (some e) := by
      intro y e hy
      by_cases hyi : y = id
      · rw [hyi, setOb_same] at hy; simp at hy
      · rwa [setOb_other _ hyi] at hy
    exact (product_value (hm _ _ (other ha)) (hm _ _ (other hb)) h1).1
  | xform src xf =>
    simp only [Except.bind_eq_ok, look_ok, lookXf_ok] at h
    obtain ⟨ds, hs, dx, hdx, d, h1, h⟩ := h
    cases h
    rintro _ ⟨⟩
    exact (xform_value (hm _ _ hs) (hx _ _ hdx) h1).1

theorem build_good_from {env : ObEnv} : ∀ {chans : List ObChannel} {m m' : ObMap}, RunOK env chans →
    (∀ x d, m x = some (some d) → GoodOb d) → chans.foldlM (construct env) m = .ok m' →
    ∀ x d, m' x = some (some d) → GoodOb d
  | [], m, m', _, hm, h => by cases h; exact hm
  | ch :: chans, m, m', hr, hm, h => by
    rw [List.foldlM_cons] at h
    simp only [Except.bind_eq_ok] at h
    obtain ⟨m1, h1, h2⟩ := h
    obtain ⟨_, r, hv, rfl⟩ := construct_ok.mp h1
    refine build_good_from ⟨hr.space, hr.xf, fun c hc => hr.chans c (by simp [hc])⟩ ?_ h2
    intro x d hx
    by_cases hxi : x = ch.id
    · subst hxi
      rw [setOb_same] at hx
      simp only [Option.some.injEq] at hx
      exact value_good hr.space hr.xf (hr.chans ch (by simp)) hm hv d hx
    · rw [setOb_other _ hxi] at hx
      exact hm x d hx

/-- **C57.** Every named one-body operator of a run with good inputs has exactly the sectors its tensor
character allows on its orbitals, each with a block of the right size. -/
theorem build_good {env : ObEnv} {chans : List ObChannel} {m : ObMap} (hr : RunOK env chans)
    (h : buildOb env chans = .ok m) : ∀ x d, m x = some (some d) → GoodOb d :=
  build_good_from hr (by simp) h

/-! ## Names -/

theorem build_nodup_from {env : ObEnv} : ∀ {chans : List ObChannel} {m m' : ObMap},
    chans.foldlM (construct env) m = .ok m' →
    (chans.map (·.id)).Nodup ∧ ∀ ch ∈ chans, m ch.id = none
  | [], m, m', _ => by simp
  | ch :: chans, m, m', h => by
    rw [List.foldlM_cons] at h
    simp only [Except.bind_eq_ok] at h
    obtain ⟨m1, h1, h2⟩ := h
    obtain ⟨hn, r, hv, rfl⟩ := construct_ok.mp h1
    obtain ⟨i1, i2⟩ := build_nodup_from h2
    have hne : ∀ c ∈ chans, c.id ≠ ch.id := by
      intro c hc he
      have := i2 c hc
      rw [he, setOb_same] at this
      simp at this
    refine ⟨?_, ?_⟩
    · rw [List.map_cons, List.nodup_cons]
      refine ⟨?_, i1⟩
      rw [List.mem_map]
      rintro ⟨c, hc, he⟩
      exact hne c hc he
    · intro c hc
      rcases List.mem_cons.mp hc with rfl | hc
      · exact hn
      · have := i2 c hc
        rwa [setOb_other _ (hne c hc)] at this

/-- **C57.** Names of one-body operators are given once: a run that defines a name twice is refused. -/
theorem names_once {env : ObEnv} {chans : List ObChannel} {m : ObMap} (h : buildOb env chans = .ok m) :
    (chans.map (·.id)).Nodup := (build_nodup_from h).1

theorem linear_refs {prog : Prog} {m : ObMap} {id : String} : ∀ {terms : List (String × ℝ)}
    {acc r : Option ObData}, terms.foldlM (linearStep prog m id) acc = .ok r →
    ∀ t ∈ terms, t.1 = id ∨ ∃ d, m t.1 = some (some d)
  | [], _, _, _ => by simp
  | t :: terms, acc, r, h => by
    rw [List.foldlM_cons] at h
    simp only [Except.bind_eq_ok] at h
    obtain ⟨acc', h1, h2⟩ := h
    intro t' ht'
    rcases List.mem_cons.mp ht' with rfl | ht'
    · unfold linearStep at h1
      simp only [Except.bind_eq_ok, look_ok] at h1
      obtain ⟨src, hs, _⟩ := h1
      by_cases hx : t'.1 = id
      · exact .inl hx
      · rw [setOb_other _ hx] at hs
        exact .inr ⟨_, hs⟩
    · exact linear_refs h2 t' ht'

theorem value_refs {env : ObEnv} {m : ObMap} {ch : ObChannel} {r : Option ObData} (h : valueOf env m ch = .ok r) :
    ∀ y ∈ ch.refs, (y = ch.id ∧ ∃ terms, ch.kind = .linear terms ∧ ∀ t ∈ terms.head?, t.1 ≠ ch.id) ∨
      ∃ d, m y = some (some d) := by
  unfold valueOf at h
  rcases ch with ⟨id, kind⟩
  cases kind with
  | input file qn => simp [ObChannel.refs]
  | builtin space => simp [ObChannel.refs]
  | generated gen qn space => simp [ObChannel.refs]
  | linear terms =>
    intro y hy
    simp only [ObChannel.refs, List.mem_map] at hy
    obtain ⟨t, ht, rfl⟩ := hy
    rcases linear_refs h t ht with h1 | h1
    · refine .inl ⟨h1, terms, rfl, ?_⟩
      intro t0 ht0 he
      cases terms with
      | nil => simp at ht0
      | cons u terms =>
        simp only [List.head?_cons, Option.mem_def, Option.some.injEq] at ht0
        subst ht0
        dsimp only at h
        rw [List.foldlM_cons] at h
        simp only [Except.bind_eq_ok] at h
        obtain ⟨acc', h2, _⟩ := h
        unfold linearStep at h2
        simp only [Except.bind_eq_ok, look_ok] at h2
        obtain ⟨src, hs, _⟩ := h2
        simp only at he
        rw [he, setOb_same] at hs
        simp at hs
    · exact .inr h1
  | product a b J0 factor =>
    simp only [Except.bind_eq_ok, look_ok] at h
    obtain ⟨da, ha, db, hb, _⟩ := h
    have other : ∀ {y : String} {e : ObData}, setOb m id none y = some (some e) → m y = some (some e) := by
      intro y e hy
      by_cases hyi : y = id
      · rw [hyi, setOb_same] at hy; simp at hy
      · rwa [setOb_other _ hyi] at hy
    intro y hy
    simp only [ObChannel.refs, List.mem_cons, List.not_mem_nil, or_false] at hy
    rcases hy with rfl | rfl
    · exact .inr ⟨_, other ha⟩
    · exact .inr ⟨_, other hb⟩
  | xform src xf =>
    simp only [Except.bind_eq_ok, look_ok] at h
    obtain ⟨ds, hs, _⟩ := h
    intro y hy
    simp only [ObChannel.refs, List.mem_cons, List.not_mem_nil, or_false] at hy
    subst hy
    exact .inr ⟨_, hs⟩

/-- **C57, partial.** A name is used only after its definition: in a run that is not refused every name a
channel refers to belongs to an earlier channel, with one exception, a linear combination that names itself
after its first term.  The exception is real: `self_reference_accepted`. -/
theorem used_after_definition_partial {env : ObEnv} {pre post : List ObChannel} {ch : ObChannel} {m : ObMap}
    (h : buildOb env (pre ++ ch :: post) = .ok m) : ∀ y ∈ ch.refs, y ∈ pre.map (·.id) ∨
      (y = ch.id ∧ ∃ terms, ch.kind = .linear terms ∧ ∀ t ∈ terms.head?, t.1 ≠ ch.id) := by
  obtain ⟨m0, d, h0, _, hv, _⟩ := build_split h
  intro y hy
  rcases value_refs hv y hy with h1 | ⟨e, h1⟩
  · exact .inr h1
  · left
    have := (build_domain h0 y).mp (by rw [h1]; simp)
    simpa using this

/-- **C57.** Later definitions do not change an operator: in the final map a name has the value it had when its
channel was processed. -/
theorem definitions_stay {env : ObEnv} {pre post : List ObChannel} {m0 m : ObMap}
    (h0 : buildOb env pre = .ok m0) (h : buildOb env (pre ++ post) = .ok m) :
    ∀ y ∈ pre.map (·.id), m y = m0 y := by
  intro y hy
  unfold buildOb at h h0
  obtain ⟨m1, h1, h2⟩ := foldlM_append_ok.mp h
  rw [h0] at h1
  cases h1
  exact build_frame h2 y ((build_domain h0 y).mpr (.inr hy))

/-! ## What the operators are -/

/-- Entries of the final map the channel refers to are those it saw. -/
theorem seen {m0 m : ObMap} (hm : ∀ x, m0 x ≠ none → m x = m0 x) {y : String} {d : ObData}
    (h : m0 y = some (some d)) : m y = some (some d) := by
  rw [hm y (by rw [h]; simp), h]

theorem laterOb_ok {prog : Prog} {cur src d : ObData} : laterOb prog cur src = .ok d ↔
    (prog = .h2mixer → src.space = cur.space) ∧ cur.secs.qn = src.secs.qn ∧ d = cur := by
  unfold laterOb
  simp only [Except.bind_eq_ok, assertE_ok, decide_eq_true_eq, Except.pure_ok, Except.ok.injEq]
  constructor
  · rintro ⟨_, h1, _, h2, _, h3, _, h4, rfl⟩
    exact ⟨h1, qn_ext h2 h3 h4, rfl⟩
  · rintro ⟨h1, h2, rfl⟩
    exact ⟨(), h1, (), by rw [h2], (), by rw [h2], (), by rw [h2], rfl⟩

theorem linear_compatible {m : ObMap} {id : String} : ∀ {terms : List (String × ℝ)}
    {acc : Option ObData} {r : Option ObData}, (∀ t ∈ terms, t.1 ≠ id) →
    terms.foldlM (linearStep .h2mixer m id) acc = .ok r →
    ∃ (sp : Space) (q : QN), (∀ c, acc = some c → c.space = sp ∧ c.secs.qn = q) ∧
      ∀ t ∈ terms, ∃ s, m t.1 = some (some s) ∧ s.space = sp ∧ s.secs.qn = q
  | [], acc, r, _, h => by
    cases acc with
    | none => exact ⟨[], ⟨0, 0, 0⟩, by simp, by simp⟩
    | some c => exact ⟨c.space, c.secs.qn, by simp, by simp⟩
  | t :: terms, acc, r, hn, h => by
    rw [List.foldlM_cons] at h
    simp only [Except.bind_eq_ok] at h
    obtain ⟨acc', h1, h2⟩ := h
    obtain ⟨sp, q, i1, i2⟩ := linear_compatible (fun t ht => hn t (by simp [ht])) h2
    unfold linearStep at h1
    simp only [Except.bind_eq_ok, look_ok] at h1
    obtain ⟨src, hs, cur, hc, mats, hmats, h1⟩ := h1
    cases h1
    rw [setOb_other _ (hn t (by simp))] at hs
    obtain ⟨j1, j2⟩ := i1 _ rfl
    simp only at j1 j2
    cases acc with
    | none =>
      simp only [nextOb, startOb, Except.bind_eq_ok] at hc
      obtain ⟨z, hz, hc⟩ := hc
      cases hc
      refine ⟨sp, q, by simp, ?_⟩
      intro t' ht'
      rcases List.mem_cons.mp ht' with rfl | ht'
      · exact ⟨src, hs, j1, j2⟩
      · exact i2 t' ht'
    | some c =>
      simp only [nextOb] at hc
      obtain ⟨k1, k2, rfl⟩ := laterOb_ok.mp hc
      refine ⟨sp, q, by rintro _ ⟨⟩; exact ⟨j1, j2⟩, ?_⟩
      intro t' ht'
      rcases List.mem_cons.mp ht' with rfl | ht'
      · exact ⟨src, hs, (k1 rfl).trans j1, k2.symm.trans j2⟩
      · exact i2 t' ht'

/-- **C80.** In `h2mixer` a one-body linear combination is what it says: if the run is not refused and the
combination does not name itself, all its sources have the same orbitals and tensor character, and each element is the
sum of the coefficients times the elements of the sources. -/
theorem linear_operator {env : ObEnv} {chans : List ObChannel} {m : ObMap} (hp : env.prog = .h2mixer)
    (hr : RunOK env chans) (h : buildOb env chans = .ok m) {id : String} {terms : List (String × ℝ)}
    (hch : ⟨id, .linear terms⟩ ∈ chans) (hne : terms ≠ []) (hself : ∀ t ∈ terms, t.1 ≠ id) :
    ∃ (d : ObData) (v : String → ObData), m id = some (some d) ∧ GoodOb d ∧
      (∀ t ∈ terms, m t.1 = some (some (v t.1)) ∧ (v t.1).space = d.space ∧ (v t.1).secs.qn = d.secs.qn) ∧
      ∀ i a k c, d.el i a k c = (terms.map fun t => t.2 * (v t.1).el i a k c).sum := by
  obtain ⟨pre, post, rfl⟩ := List.append_of_mem hch
  obtain ⟨m0, r, h0, _, hv, hmr, hm⟩ := build_split h
  have hv' : terms.foldlM (linearStep env.prog m0 id) none = .ok r := hv
  have g0 := build_good (m := m0) ⟨hr.space, hr.xf, fun c hc => hr.chans c (by simp [hc])⟩ h0
  rw [hp] at hv'
  obtain ⟨sp, q, _, hall⟩ := linear_compatible hself hv'
  obtain ⟨d, hd, gd, e1, e2, e3⟩ := linear_ok (prog := .h2mixer) (m := m0) (id := id) hne (sp := sp) (q := q) (by
    intro t ht
    obtain ⟨s, hs, hsp, hq⟩ := hall t ht
    exact ⟨hself t ht, s, hs, g0 _ _ hs, hsp, hq⟩)
  rw [hv'] at hd
  cases hd
  have hex : ∀ y : String, ∃ s : ObData, ∀ t ∈ terms, t.1 = y → m0 y = some (some s) := by
    intro y
    by_cases hy : ∃ t ∈ terms, t.1 = y
    · obtain ⟨t, ht, rfl⟩ := hy
      obtain ⟨s, hs, _⟩ := hall t ht
      exact ⟨s, fun _ _ _ => hs⟩
    · exact ⟨d, fun t ht hty => absurd ⟨t, ht, hty⟩ hy⟩
  choose v hvv using hex
  refine ⟨d, v, hmr, gd, ?_, e3 v fun t ht => hvv t.1 t ht rfl⟩
  intro t ht
  obtain ⟨s, hs, hsp, hq⟩ := hall t ht
  have hvs := hvv t.1 t ht rfl
  rw [hs] at hvs
  simp only [Option.some.injEq] at hvs
  rw [← hvs]
  exact ⟨seen hm hs, hsp.trans e1.symm, hq.trans e2.symm⟩

/-- **C80, partial.** In `obmixer` the same holds if the sources are on the same orbitals.  This the program does
not check: `obmixer_adds_unlike_orbitals`. -/
theorem linear_operator_obmixer_partial {env : ObEnv} {chans : List ObChannel} {m : ObMap}
    (hr : RunOK env chans) (h : buildOb env chans = .ok m) {id : String} {terms : List (String × ℝ)}
    (hch : ⟨id, .linear terms⟩ ∈ chans) (hne : terms ≠ []) (hself : ∀ t ∈ terms, t.1 ≠ id)
    {v : String → ObData} {sp : Space} {q : QN}
    (hs : ∀ t ∈ terms, m t.1 = some (some (v t.1)) ∧ (v t.1).space = sp ∧ (v t.1).secs.qn = q) :
    ∃ d : ObData, m id = some (some d) ∧ GoodOb d ∧ d.space = sp ∧ d.secs.qn = q ∧
      ∀ i a k c, d.el i a k c = (terms.map fun t => t.2 * (v t.1).el i a k c).sum := by
  obtain ⟨pre, post, rfl⟩ := List.append_of_mem hch
  obtain ⟨m0, r, h0, _, hv, hmr, hm⟩ := build_split h
  have hv' : terms.foldlM (linearStep env.prog m0 id) none = .ok r := hv
  have g0 := build_good (m := m0) ⟨hr.space, hr.xf, fun c hc => hr.chans c (by simp [hc])⟩ h0
  have h0s : ∀ t ∈ terms, m0 t.1 = some (some (v t.1)) := by
    intro t ht
    rcases linear_refs hv' t ht with h1 | ⟨e, h1⟩
    · exact absurd h1 (hself t ht)
    · have := seen hm h1
      rw [(hs t ht).1] at this
      rw [h1, this]
  obtain ⟨d, hd, gd, e1, e2, e3⟩ := linear_ok (prog := env.prog) (m := m0) (id := id) hne (sp := sp) (q := q) (by
    intro t ht
    exact ⟨hself t ht, v t.1, h0s t ht, g0 _ _ (h0s t ht), (hs t ht).2⟩)
  rw [hv'] at hd
  cases hd
  exact ⟨d, hmr, gd, e1, e2, e3 v h0s⟩

/-- **C80.** A tensor product of named operators: the factors have the same orbitals, the ranks satisfy the
triangle rule, parities and charges add, and each element is the factor times the recoupled product over the
intermediate states. -/
theorem product_operator {env : ObEnv} {chans : List ObChannel} {m : ObMap}
    (hr : RunOK env chans) (h : buildOb env chans = .ok m) {id a b : String} {J0 : Int} {factor : ℝ}
    (hch : ⟨id, .product a b J0 factor⟩ ∈ chans) :
    ∃ d da db : ObData, m id = some (some d) ∧ m a = some (some da) ∧ m b = some (some db) ∧ GoodOb d ∧
      db.space = da.space ∧ d.space = da.space ∧ d.secs.qn.J0 = J0 ∧
      (|da.secs.qn.J0 - db.secs.qn.J0| ≤ J0 ∧ J0 ≤ da.secs.qn.J0 + db.secs.qn.J0) ∧
      d.secs.qn.Tz0 = da.secs.qn.Tz0 + db.secs.qn.Tz0 ∧
      (2 : Int) ∣ da.secs.qn.g0 + db.secs.qn.g0 + d.secs.qn.g0 ∧
      ∀ i k s t x y, (i, k) ∈ d.secs.pairs → da.space[i]? = some s → da.space[k]? = some t → x < s.ns.length →
        y < t.ns.length → d.el i x k y = factor * ∑ u ∈ states da.space,
          env.w da.secs.qn db.secs.qn d.secs.qn s.labels.tj t.labels.tj
            ((da.space[u.1]?.map fun s => s.labels.tj).getD 0) * (da.el i x u.1 u.2 * db.el u.1 u.2 k y) := by
  obtain ⟨pre, post, rfl⟩ := List.append_of_mem hch
  obtain ⟨m0, r, h0, _, hv, hmr, hm⟩ := build_split h
  have g0 := build_good (m := m0) ⟨hr.space, hr.xf, fun c hc => hr.chans c (by simp [hc])⟩ h0
  simp only [valueOf, Except.bind_eq_ok, look_ok] at hv
  obtain ⟨da, ha, db, hb, d, h1, hv⟩ := hv
  cases hv
  have other : ∀ {y : String} {e : ObData}, setOb m0 id none y = some (some e) → m0 y = some (some e) := by
    intro y e hy
    by_cases hyi : y = id
    · rw [hyi, setOb_same] at hy; simp at hy
    · rwa [setOb_other _ hyi] at hy
  obtain ⟨g, e⟩ := product_value (g0 _ _ (other ha)) (g0 _ _ (other hb)) h1
  exact ⟨d, da, db, hmr, seen hm (other ha), seen hm (other hb), g, e⟩

/-- **C80.** A transformed operator: its source is on the orbitals the transformation starts from, it keeps the
tensor character, and its elements are `Uᵀ O U`. -/
theorem xform_operator {env : ObEnv} {chans : List ObChannel} {m : ObMap}
    (hr : RunOK env chans) (h : buildOb env chans = .ok m) {id src xf : String}
    (hch : ⟨id, .xform src xf⟩ ∈ chans) :
    ∃ (d ds : ObData) (x : XfData), m id = some (some d) ∧ m src = some (some ds) ∧ env.xf xf = some x ∧ GoodOb d ∧
      ds.space = x.bra ∧ d.space = x.ket ∧ d.secs.qn = ds.secs.qn ∧
      ∀ i a k c, d.el i a k c = ∑ s ∈ states x.bra, ∑ t ∈ states x.bra,
        elem x.secs x.mats s.1 s.2 i a * ds.el s.1 s.2 t.1 t.2 * elem x.secs x.mats t.1 t.2 k c := by
  obtain ⟨pre, post, rfl⟩ := List.append_of_mem hch
  obtain ⟨m0, r, h0, _, hv, hmr, hm⟩ := build_split h
  have g0 := build_good (m := m0) ⟨hr.space, hr.xf, fun c hc => hr.chans c (by simp [hc])⟩ h0
  simp only [valueOf, Except.bind_eq_ok, look_ok, lookXf_ok] at hv
  obtain ⟨ds, hs, x, hx, d, h1, hv⟩ := hv
  cases hv
  obtain ⟨g, e⟩ := xform_value (g0 _ _ hs) (hr.xf _ _ hx) h1
  exact ⟨d, ds, x, hmr, seen hm hs, hx, g, e⟩

/-- **C80.** An operator read from a file is the one in the file, and has the declared tensor character. -/
theorem input_operator {env : ObEnv} {chans : List ObChannel} {m : ObMap}
    (h : buildOb env chans = .ok m) {id : String} {file : Header × List Mat} {qn : QN}
    (hch : ⟨id, .input file qn⟩ ∈ chans) :
    m id = some (some ⟨file.1.ket, file.1.secs, file.2⟩) ∧ file.1.secs.qn = qn ∧
      (env.prog = .obmixer → file.1.bra = file.1.ket) := by
  obtain ⟨pre, post, rfl⟩ := List.append_of_mem hch
  obtain ⟨m0, r, h0, _, hv, hmr, hm⟩ := build_split h
  simp only [valueOf, readOb, Except.bind_eq_ok, assertE_ok, decide_eq_true_eq] at hv
  obtain ⟨d, ⟨_, h1, _, h2, _, h3, _, h4, hd⟩, hv⟩ := hv
  cases hd
  cases hv
  exact ⟨hmr, (qn_ext h2 h3 h4).symm, h1⟩

/-- **C80.** A transformation is read from a scalar operator only. -/
theorem initXform_scalar {file : Header × List Mat} {x : XfData} (h : initXform file = .ok x) :
    file.1.secs.qn = scalarQN ∧ x = ⟨file.1.bra, file.1.ket, file.1.secs, file.2⟩ := by
  simp only [initXform, Except.bind_eq_ok, assertE_ok, decide_eq_true_eq] at h
  obtain ⟨_, h1, _, h2, _, h3, hd⟩ := h
  cases hd
  exact ⟨qn_ext h1 h2 h3, rfl⟩

end Verif.Mixer
