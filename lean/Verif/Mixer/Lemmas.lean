import Verif.Mixer.Spec
import Verif.Obme.Lemmas
import Verif.Mapping.MatProps
import Mathlib.Tactic.Ring

/-!
# Helper lemmas for the mixer
-/

namespace Verif.Mixer
open Verif Verif.Mapping Verif.Xform Verif.Obme Verif.Separable
open Verif.H2 hiding Mat Subspace

theorem mapM_ok_iff {α β : Type} {f : α → Except Err β} : ∀ {l : List α} {r : List β},
    l.mapM f = .ok r ↔ List.Forall₂ (fun a b => f a = .ok b) l r
  | [], r => by
    constructor
    · intro h
      cases h
      exact .nil
    · intro h
      cases h
      rfl
  | a :: l, r => by
    rw [List.mapM_cons]
    constructor
    · intro h
      rw [Except.bind_eq_ok] at h
      obtain ⟨b, hb, h⟩ := h
      rw [Except.bind_eq_ok] at h
      obtain ⟨bs, hbs, h⟩ := h
      cases h
      exact .cons hb (mapM_ok_iff.mp hbs)
    · intro h
      cases h with
      | cons hb hbs => rw [hb, Except.ok_bind', mapM_ok_iff.mpr hbs]; rfl

theorem forall₂_getElem?' {α β : Type} {P : α → β → Prop} {l : List α} {bs : List β}
    (h : List.Forall₂ P l bs) : ∀ {x : ℕ} {b : β}, bs[x]? = some b → ∃ a, l[x]? = some a ∧ P a b :=
  fun hb => forall₂_getElem? (P := fun b a => P a b) h.flip hb

/-- The channels after initialisation. -/
def Opened (env : Env) (chans : List Channel) (o : List (Channel × Option TwoBodyMapping)) : Prop :=
  List.Forall₂ (fun ch x => x.1 = ch ∧ initChannel env ch = .ok x.2) chans o

theorem opened_iff {env : Env} {chans : List Channel} {o : List (Channel × Option TwoBodyMapping)} :
    (chans.mapM fun ch => do
      let m ← initChannel env ch
      pure (ch, m)) = .ok o ↔ Opened env chans o := by
  rw [mapM_ok_iff, Opened]
  constructor
  · intro h
    refine h.imp ?_
    intro a b hab
    rw [Except.bind_eq_ok] at hab
    obtain ⟨m, hm, h⟩ := hab
    cases h
    exact ⟨rfl, hm⟩
  · intro h
    refine h.imp ?_
    rintro a ⟨b, m⟩ ⟨h1, h2⟩
    simp only at h1 h2
    subst h1
    rw [h2]
    rfl

/-- Loop over the channels: the map afterwards holds, for each name, what the list provides, over what was
there before. -/
theorem save_loop {env : Env} {p : ℕ × ℕ} : ∀ {chans : List Channel} {o : List (Channel × Option TwoBodyMapping)}
    {b b' : Blocks}, Opened env chans o → o.foldlM (saveStep env p) b = .ok b' →
    ∀ id, ∃ r, Provides env chans p id r ∧ b' id = (r <|> b id)
  | [], o, b, b', ho, h, id => by
    cases ho
    cases h
    exact ⟨none, by intro c hc; simp at hc, rfl⟩
  | ch :: chans, o, b, b', ho, h, id => by
    rcases ho with _ | ⟨⟨h1, h2⟩, ho⟩
    rename_i x o
    rw [List.foldlM_cons, Except.bind_eq_ok] at h
    obtain ⟨b1, hb1, h⟩ := h
    unfold saveStep at hb1
    rw [Except.bind_eq_ok] at hb1
    obtain ⟨s, hs, hb1⟩ := hb1
    cases hb1
    rw [h1] at hs h
    have hsrc : source env ch p = .ok s := by
      unfold source
      rw [h2]
      exact hs
    obtain ⟨r, hr, hb⟩ := save_loop ho h id
    cases r with
    | some m =>
      obtain ⟨pre, c, post, e, hc⟩ := hr
      exact ⟨some m, ⟨ch :: pre, c, post, by rw [e]; rfl, hc⟩, hb⟩
    | none =>
      by_cases hid : ch.id = id
      · cases s with
        | none =>
          refine ⟨none, ?_, hb⟩
          intro c hc hi
          rcases List.mem_cons.mp hc with rfl | hc
          · exact hsrc
          · exact hr c hc hi
        | some m =>
          refine ⟨some m, ⟨[], ch, chans, rfl, hid, hsrc, fun c hc hi => hr c hc hi⟩, ?_⟩
          rw [hb]
          simp [save, hid]
      · refine ⟨none, ?_, ?_⟩
        · intro c hc hi
          rcases List.mem_cons.mp hc with rfl | hc
          · exact absurd hi hid
          · exact hr c hc hi
        · rw [hb]
          cases s with
          | none => rfl
          | some m => simp [save, Ne.symm hid]

/-- The loop over the channels ends well when each of them does. -/
theorem save_loop_ok {env : Env} {p : ℕ × ℕ} : ∀ {chans : List Channel}
    {o : List (Channel × Option TwoBodyMapping)} {b : Blocks}, Opened env chans o →
    (∀ c ∈ chans, ∃ r, source env c p = .ok r) → ∃ b', o.foldlM (saveStep env p) b = .ok b'
  | [], o, b, ho, _ => by
    cases ho
    exact ⟨b, rfl⟩
  | ch :: chans, o, b, ho, h => by
    rcases ho with _ | ⟨⟨h1, h2⟩, ho⟩
    rename_i x o
    obtain ⟨r, hr⟩ := h ch (by simp)
    unfold source at hr
    rw [h2, Except.ok_bind'] at hr
    rw [← h1] at hr
    rw [List.foldlM_cons, saveStep, hr, Except.ok_bind', Except.pure_ok, Except.ok_bind']
    exact save_loop_ok ho fun c hc => h c (by simp [hc])

/-- Loop over the terms of a target. -/
theorem target_loop {b : Blocks} : ∀ {cs : List (String × ℝ)} {acc r : Mat},
    cs.foldlM (targetStep b) acc = .ok r →
    r.rows = acc.rows ∧ r.cols = acc.cols ∧ ∀ i j, r.val i j = acc.val i j + combination b cs i j
  | [], acc, r, h => by
    cases h
    simp [combination]
  | t :: cs, acc, r, h => by
    rw [List.foldlM_cons, Except.bind_eq_ok] at h
    obtain ⟨a, ha, h⟩ := h
    obtain ⟨h1, h2, h3⟩ := target_loop h
    unfold targetStep at ha
    rcases hb : b t.1 with _ | m
    · rw [hb] at ha
      cases ha
      refine ⟨h1, h2, ?_⟩
      intro i j
      rw [h3]
      simp [combination, elemOf, hb]
    · rw [hb] at ha
      simp only [addE] at ha
      split at ha
      · cases ha
        refine ⟨h1, h2, ?_⟩
        intro i j
        rw [h3]
        simp only [combination, elemOf, hb, List.map_cons, List.sum_cons, scale]
        ring
      · cases ha

/-- The loop over the terms ends well when the matrices have the right sizes. -/
theorem target_loop_ok {b : Blocks} : ∀ {cs : List (String × ℝ)} {acc : Mat},
    (∀ t ∈ cs, ∀ m, b t.1 = some m → m.rows = acc.rows ∧ m.cols = acc.cols) →
    ∃ r, cs.foldlM (targetStep b) acc = .ok r
  | [], acc, _ => ⟨acc, rfl⟩
  | t :: cs, acc, h => by
    rw [List.foldlM_cons]
    rcases hb : b t.1 with _ | m
    · rw [show targetStep b acc t = .ok acc by simp [targetStep, hb], Except.ok_bind']
      exact target_loop_ok fun t' ht => h t' (by simp [ht])
    · have := h t (by simp) m hb
      rw [show targetStep b acc t = .ok ⟨acc.rows, acc.cols, fun i j => acc.val i j + (scale t.2 m).val i j⟩ by
        simp only [targetStep, hb, addE]; exact if_pos ⟨this.1.symm, this.2.symm⟩, Except.ok_bind']
      exact target_loop_ok (acc := ⟨acc.rows, acc.cols, _⟩) fun t' ht => h t' (by simp [ht])

theorem sectorInfo_ok {ix : TBIndexing} {p : ℕ × ℕ} {s : SectorInfo} (h : sectorInfo ix p = .ok s) :
    ∃ b k, ix.space[p.1]? = some b ∧ ix.space[p.2]? = some k ∧ SectorOf ix.space s b k ∧ s.braIndex = p.1 ∧
      s.ketIndex = p.2 := by
  unfold sectorInfo at h
  simp only [Except.bind_eq_ok, getE_eq_ok] at h
  obtain ⟨b, hb, k, hk, h⟩ := h
  cases h
  exact ⟨b, k, hb, hk, ⟨hb, hk, rfl, rfl⟩, rfl, rfl⟩

theorem sectorInfo_eq {ix : TBIndexing} {p : ℕ × ℕ} {b k : Subspace} (hb : ix.space[p.1]? = some b)
    (hk : ix.space[p.2]? = some k) :
    sectorInfo ix p = .ok ⟨p.1, p.2, b.states.length, k.states.length⟩ := by
  simp only [sectorInfo, getE_ok hb, getE_ok hk, Except.ok_bind', Except.pure_ok]

end Verif.Mixer
