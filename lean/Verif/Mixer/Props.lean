import Verif.Mixer.Lemmas
import Mathlib.Algebra.BigOperators.Ring.Finset
import Mathlib.Algebra.BigOperators.Group.Finset.Basic

/-!
# Properties C55, C56: what `h2mixer` writes to its targets
-/

namespace Verif.Mixer
open Verif Verif.Mapping Verif.Xform Verif.Obme Verif.Separable
open Verif.H2 hiding Mat Subspace

/-! ### What a name stands for -/

/-- A name stands for at most one matrix. -/
theorem provides_unique {env : Env} {chans : List Channel} {p : ℕ × ℕ} {id : String} {r r' : Option Mat}
    (h : Provides env chans p id r) (h' : Provides env chans p id r') : r = r' := by
  have mixed : ∀ {m : Mat}, Provides env chans p id (some m) → Provides env chans p id none → False := by
    rintro m ⟨pre, ch, post, e, hid, hs, -⟩ hn
    have := hn ch (by rw [e]; simp) hid
    rw [hs] at this
    cases this
  have order : ∀ {pre post pre' post' : List Channel} {ch ch' : Channel} {m m' : Mat} {as : List Channel},
      pre' = pre ++ as → ch :: post = as ++ ch' :: post' → ch'.id = id → source env ch p = .ok (some m) →
      source env ch' p = .ok (some m') → (∀ c ∈ post, c.id = id → source env c p = .ok none) → m = m' := by
    intro pre post pre' post' ch ch' m m' as _ e hid hs hs' hpost
    cases as with
    | nil =>
      simp only [List.nil_append, List.cons.injEq] at e
      rw [e.1, hs'] at hs
      cases hs
      rfl
    | cons x xs =>
      simp only [List.cons_append, List.cons.injEq] at e
      have := hpost ch' (by rw [e.2]; simp) hid
      rw [hs'] at this
      cases this
  cases r with
  | none =>
    cases r' with
    | none => rfl
    | some m => exact (mixed h' h).elim
  | some m =>
    cases r' with
    | none => exact (mixed h h').elim
    | some m' =>
      obtain ⟨pre, ch, post, e, hid, hs, hp⟩ := h
      obtain ⟨pre', ch', post', e', hid', hs', hp'⟩ := h'
      rw [e] at e'
      rcases List.append_eq_append_iff.mp e' with ⟨as, h1, h2⟩ | ⟨as, h1, h2⟩
      · rw [order h1 h2 hid' hs hs' hp]
      · rw [order h1 h2 hid hs' hs hp']

/-- Only the channels of this name matter. -/
theorem provides_filter {env : Env} {chans : List Channel} {p : ℕ × ℕ} {id : String} {r : Option Mat}
    (h : Provides env chans p id r) : Provides env (chans.filter fun c => c.id = id) p id r := by
  cases r with
  | none => exact fun c hc => h c (List.mem_of_mem_filter hc)
  | some m =>
    obtain ⟨pre, ch, post, e, hid, hs, hp⟩ := h
    refine ⟨pre.filter fun c => c.id = id, ch, post.filter fun c => c.id = id, ?_, hid, hs,
      fun c hc => hp c (List.mem_of_mem_filter hc)⟩
    rw [e, List.filter_append, List.filter_cons_of_pos (by simpa using hid)]

/-! ### The target matrices -/

/-- The element `x` is `y` with small values removed. -/
def ChopOf (tol y x : ℝ) : Prop := (|y| < tol → x = 0) ∧ (tol ≤ |y| → x = y)

theorem chopTo_spec (tol y : ℝ) : ChopOf tol y (chopTo tol y) := by
  unfold chopTo
  constructor
  · intro h
    rw [if_pos h]
  · intro h
    rw [if_neg (not_lt.mpr h)]

theorem ChopOf.unique {tol y x x' : ℝ} (h : ChopOf tol y x) (h' : ChopOf tol y x') : x = x' := by
  by_cases hc : |y| < tol
  · rw [h.1 hc, h'.1 hc]
  · rw [h.2 (not_lt.mp hc), h'.2 (not_lt.mp hc)]

/-- **C55.** When the run ends well there is one matrix for each sector and target; it has the size of the
sector, and each of its elements is the sum, over the lines of the target, of the coefficient times the element
of the named source, small values being set to zero. -/
theorem mix_element {env : Env} {chans : List Channel} {targets : List (List (String × ℝ))} {out : List (List Mat)}
    (h : mix env chans targets = .ok out) :
    out.length = env.target.sectors.length ∧
    ∀ (s : ℕ) (p : ℕ × ℕ), env.target.sectors[s]? = some p →
      ∃ ms, out[s]? = some ms ∧ ms.length = targets.length ∧
      ∃ src : String → Option Mat, (∀ id, Provides env chans p id (src id)) ∧
      ∀ (t : ℕ) (cs : List (String × ℝ)), targets[t]? = some cs →
        ∃ M, ms[t]? = some M ∧ SectorSize env p M ∧ ∀ i j, ChopOf env.tol (combination src cs i j) (M.val i j) := by
  unfold mix at h
  rw [Except.bind_eq_ok] at h
  obtain ⟨o, ho, h⟩ := h
  rw [opened_iff] at ho
  rw [mapM_ok_iff] at h
  refine ⟨h.length_eq.symm, ?_⟩
  intro s p hp
  obtain ⟨ms, hms, hm⟩ := forall₂_getElem? h hp
  unfold mixSector at hm
  rw [Except.bind_eq_ok] at hm
  obtain ⟨b, hb, hm⟩ := hm
  rw [mapM_ok_iff] at hm
  refine ⟨ms, hms, hm.length_eq.symm, b, ?_, ?_⟩
  · intro id
    obtain ⟨r, hr, e⟩ := save_loop ho hb id
    have : b id = r := by rw [e]; cases r <;> rfl
    rw [this]
    exact hr
  · intro t cs ht
    obtain ⟨M, hM, hv⟩ := forall₂_getElem? hm ht
    unfold targetMatrix at hv
    simp only [Except.bind_eq_ok] at hv
    obtain ⟨si, hsi, m, hl, hv⟩ := hv
    cases hv
    obtain ⟨sb, sk, h1, h2, h3, -, -⟩ := sectorInfo_ok hsi
    obtain ⟨e1, e2, e3⟩ := target_loop hl
    refine ⟨_, hM, ⟨sb, sk, h1, h2, ?_, ?_⟩, ?_⟩
    · simp only
      rw [e1, h3.braSize]
    · simp only
      rw [e2, h3.ketSize]
    · intro i j
      have : combination b cs i j = m.val i j := by rw [e3]; simp
      rw [this]
      exact chopTo_spec _ _

/-- **C55**, the run ends well: when every channel can be opened and read, the matrices read have the size of
the sector, and the sectors are of existing subspaces. -/
theorem mix_total {env : Env} {chans : List Channel} {targets : List (List (String × ℝ))}
    (hi : ∀ c ∈ chans, ∃ m, initChannel env c = .ok m)
    (hs : ∀ p ∈ env.target.sectors, ∀ c ∈ chans, ∃ r, source env c p = .ok r ∧ ∀ m, r = some m → SectorSize env p m)
    (hp : ∀ p ∈ env.target.sectors, p.1 < env.target.space.length ∧ p.2 < env.target.space.length) :
    ∃ out, mix env chans targets = .ok out := by
  unfold mix
  obtain ⟨o, ho⟩ : ∃ o, Opened env chans o := by
    clear hs hp
    induction chans with
    | nil => exact ⟨[], .nil⟩
    | cons c chans ih =>
      obtain ⟨m, hm⟩ := hi c (by simp)
      obtain ⟨o, ho⟩ := ih fun c hc => hi c (by simp [hc])
      exact ⟨(c, m) :: o, .cons ⟨rfl, hm⟩ ho⟩
  rw [opened_iff.mpr ho, Except.ok_bind']
  suffices hall : ∀ p ∈ env.target.sectors, ∃ ms, mixSector env o targets p = .ok ms ∧ True by
    obtain ⟨out, hout, -⟩ := mapM_forall₂ (P := fun _ _ => True) hall
    exact ⟨out, hout⟩
  · intro p hpm
    obtain ⟨b, hb⟩ := save_loop_ok (b := fun _ => none) ho fun c hc => (hs p hpm c hc).imp fun _ h => h.1
    unfold mixSector
    rw [hb, Except.ok_bind']
    suffices hall : ∀ cs ∈ targets, ∃ M, targetMatrix env b p cs = .ok M ∧ True by
      obtain ⟨out, hout, -⟩ := mapM_forall₂ (P := fun _ _ => True) hall
      exact ⟨out, hout, trivial⟩
    · intro cs _
      have g1 := List.getElem?_eq_getElem (hp p hpm).1
      have g2 := List.getElem?_eq_getElem (hp p hpm).2
      unfold targetMatrix
      rw [sectorInfo_eq g1 g2, Except.ok_bind']
      obtain ⟨r, hr⟩ := target_loop_ok (b := b) (cs := cs) (acc := ⟨_, _, fun _ _ => 0⟩) (by
        intro t _ m hm
        obtain ⟨r, hr, e⟩ := save_loop ho hb t.1
        have e' : r = some m := by rw [← hm, e]; cases r <;> rfl
        rw [e'] at hr
        obtain ⟨pre, ch, post, ec, -, hsrc, -⟩ := hr
        obtain ⟨r', h1, h2⟩ := hs p hpm ch (by rw [ec]; simp)
        rw [hsrc] at h1
        cases h1
        obtain ⟨b', k', q1, q2, q3, q4⟩ := h2 m rfl
        rw [g1] at q1
        rw [g2] at q2
        cases q1
        cases q2
        exact ⟨q3, q4⟩)
      rw [hr]
      exact ⟨_, rfl, trivial⟩

/-! ### What the result depends on -/

/-- Total coefficient of a name in a target. -/
noncomputable def total (cs : List (String × ℝ)) (id : String) : ℝ :=
  ((cs.filter fun t => t.1 = id).map (·.2)).sum

/-- The sum by lines is the sum by names. -/
theorem combination_total (src : String → Option Mat) (i j : ℕ) : ∀ (cs : List (String × ℝ)) (S : Finset String),
    (∀ t ∈ cs, t.1 ∈ S) → combination src cs i j = ∑ id ∈ S, total cs id * elemOf (src id) i j
  | [], S, _ => by simp [combination, total]
  | t :: cs, S, h => by
    have ih := combination_total src i j cs S fun t ht => h t (by simp [ht])
    have e : ∀ id, total (t :: cs) id = (if id = t.1 then t.2 else 0) + total cs id := by
      intro id
      unfold total
      by_cases hid : t.1 = id
      · rw [List.filter_cons_of_pos (by simpa using hid), if_pos hid.symm]
        simp
      · rw [List.filter_cons_of_neg (by simpa using hid), if_neg (Ne.symm hid)]
        simp
    have : combination src (t :: cs) i j = t.2 * elemOf (src t.1) i j + combination src cs i j := by
      simp [combination]
    rw [this, ih]
    simp only [e, add_mul, Finset.sum_add_distrib, ite_mul, zero_mul]
    rw [Finset.sum_ite_eq' S t.1, if_pos (h t (by simp))]

/-- **C55.** The matrix written depends only on the total coefficient of each name and on the channels of the
names with non-zero total: not on the order of the lines, on whether a coefficient is given at once or in parts,
on the other targets or on other sources. -/
theorem mix_depends_only {env : Env} {chans chans' : List Channel} {targets targets' : List (List (String × ℝ))}
    {out out' : List (List Mat)} (h : mix env chans targets = .ok out) (h' : mix env chans' targets' = .ok out')
    {t t' : ℕ} {cs cs' : List (String × ℝ)} (ht : targets[t]? = some cs) (ht' : targets'[t']? = some cs')
    (hc : ∀ id, total cs id = total cs' id)
    (hs : ∀ id, total cs id ≠ 0 → (chans.filter fun c => c.id = id) = chans'.filter fun c => c.id = id)
    {s : ℕ} (hlt : s < env.target.sectors.length) :
    ∃ ms ms' M M', out[s]? = some ms ∧ ms[t]? = some M ∧ out'[s]? = some ms' ∧ ms'[t']? = some M' ∧
      M.rows = M'.rows ∧ M.cols = M'.cols ∧ ∀ i j, M.val i j = M'.val i j := by
  have hp := List.getElem?_eq_getElem hlt
  obtain ⟨ms, h1, -, src, h2, h3⟩ := (mix_element h).2 s _ hp
  obtain ⟨ms', h1', -, src', h2', h3'⟩ := (mix_element h').2 s _ hp
  obtain ⟨M, h4, ⟨b, k, q1, q2, q3, q4⟩, h5⟩ := h3 t cs ht
  obtain ⟨M', h4', ⟨b', k', q1', q2', q3', q4'⟩, h5'⟩ := h3' t' cs' ht'
  rw [q1] at q1'
  rw [q2] at q2'
  cases q1'
  cases q2'
  refine ⟨ms, ms', M, M', h1, h4, h1', h4', q3.trans q3'.symm, q4.trans q4'.symm, ?_⟩
  intro i j
  have e : combination src cs i j = combination src' cs' i j := by
    classical
    rw [combination_total src i j cs ((cs.map (·.1)).toFinset ∪ (cs'.map (·.1)).toFinset) (by
        intro t ht; simp only [Finset.mem_union, List.mem_toFinset, List.mem_map]; exact .inl ⟨t, ht, rfl⟩),
      combination_total src' i j cs' ((cs.map (·.1)).toFinset ∪ (cs'.map (·.1)).toFinset) (by
        intro t ht; simp only [Finset.mem_union, List.mem_toFinset, List.mem_map]; exact .inr ⟨t, ht, rfl⟩)]
    refine Finset.sum_congr rfl fun id _ => ?_
    rw [← hc id]
    by_cases hz : total cs id = 0
    · rw [hz, zero_mul, zero_mul]
    · have a1 := provides_filter (h2 id)
      have a2 := provides_filter (h2' id)
      rw [← hs id hz] at a2
      rw [provides_unique a1 a2]
  have := h5 i j
  rw [e] at this
  exact this.unique (h5' i j)

/-- **C56**, what happens instead: lines naming an id for which no two-body source was defined are passed over,
whatever their coefficient.  The whole run, including its failures, is the same without them. -/
theorem undefined_ignored (env : Env) (chans : List Channel) (targets : List (List (String × ℝ))) :
    mix env chans targets =
      mix env chans (targets.map fun cs => cs.filter fun t => decide (t.1 ∈ chans.map (·.id))) := by
  unfold mix
  rcases ho : (chans.mapM fun ch => do
      let m ← initChannel env ch
      pure (ch, m) : Except Err (List (Channel × Option TwoBodyMapping))) with e | o
  · rfl
  · rw [Except.ok_bind', Except.ok_bind']
    rw [opened_iff] at ho
    congr 1
    funext p
    unfold mixSector
    rcases hb : o.foldlM (saveStep env p) (fun _ => none) with e | b
    · rfl
    · rw [Except.ok_bind', Except.ok_bind', List.mapM_map]
      congr 1
      funext cs
      have hnone : ∀ id, id ∉ chans.map (·.id) → b id = none := by
        intro id hid
        obtain ⟨r, hr, e⟩ := save_loop ho hb id
        cases r with
        | none => exact e
        | some m =>
          obtain ⟨pre, ch, post, ec, hi, -⟩ := hr
          exact absurd (List.mem_map.mpr ⟨ch, by rw [ec]; simp, hi⟩) hid
      have hfold : ∀ (cs : List (String × ℝ)) (acc : Mat), cs.foldlM (targetStep b) acc =
          (cs.filter fun t => decide (t.1 ∈ chans.map (·.id))).foldlM (targetStep b) acc := by
        intro cs
        induction cs with
        | nil => intro acc; rfl
        | cons t cs ih =>
          intro acc
          by_cases hm : t.1 ∈ chans.map (·.id)
          · rw [List.filter_cons_of_pos (by simpa using hm), List.foldlM_cons, List.foldlM_cons]
            congr 1
            funext a
            exact ih a
          · rw [List.filter_cons_of_neg (by simpa using hm), List.foldlM_cons,
              show targetStep b acc t = .ok acc by simp [targetStep, hnone _ hm], Except.ok_bind', ih]
      simp only [targetMatrix, Function.comp_apply, hfold cs]

end Verif.Mixer
