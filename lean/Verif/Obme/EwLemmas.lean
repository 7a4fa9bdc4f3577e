import Verif.Obme.EwSpec
import Verif.Mixer.Lemmas

/-!
# Lemmas on `ew-gen`
-/

namespace Verif.Obme.EwGen
open Verif Verif.Mapping Verif.Xform Verif.Obme
open Verif.H2 hiding Mat
open Verif.Mixer.Control (Coord Numbers word int num coordOf)

/-! ## Control file -/

theorem coordOf_iff {s : String} {c : Coord} : coordOf s = .ok c ↔ NamesCoord s c := by
  constructor
  · intro h
    unfold coordOf at h
    split_ifs at h with h1 h2 h3 h4 h5 <;> simp only [Except.ok.injEq, reduceCtorEq] at h <;> subst h <;> subst_vars <;> constructor
  · rintro ⟨⟩ <;> rfl

theorem amOf_iff {s : String} {c : AMType} : amOf s = .ok c ↔ NamesAM s c := by
  constructor
  · intro h
    unfold amOf at h
    split_ifs at h with h1 h2 <;> simp only [Except.ok.injEq, reduceCtorEq] at h <;> subst h <;> subst_vars <;> constructor
  · rintro ⟨⟩ <;> rfl

theorem isospinOf_iff {s : String} {c : Int} : isospinOf s = .ok c ↔ NamesIsospin s c := by
  constructor
  · intro h
    unfold isospinOf at h
    split_ifs at h with h1 h2 h3 <;> simp only [Except.ok.injEq, reduceCtorEq] at h <;> subst h <;> subst_vars <;> constructor
  · rintro ⟨⟩ <;> rfl

theorem emOf_iff {s : String} {c : Kind} : emOf s = .ok c ↔ NamesEM s c := by
  constructor
  · intro h
    unfold emOf at h
    split_ifs at h with h1 h2 h3 <;> simp only [Except.ok.injEq, reduceCtorEq] at h <;> subst h <;> subst_vars <;> constructor
  · rintro ⟨⟩ <;> rfl

theorem whoOf_iff {s : String} {c : Who} : whoOf s = .ok c ↔ NamesWho s c := by
  constructor
  · intro h
    unfold whoOf at h
    split_ifs at h with h1 h2 h3 <;> simp only [Except.ok.injEq, reduceCtorEq] at h <;> subst h <;> subst_vars <;> constructor
  · rintro ⟨⟩ <;> rfl

theorem word_ok {ws : List String} {r : String × List String} : word ws = .ok r ↔ ws = r.1 :: r.2 := by
  cases ws with
  | nil => simp [word]
  | cons w ws =>
    obtain ⟨a, b⟩ := r
    simp [word, Prod.ext_iff]

theorem int_ok {nm : Numbers} {ws : List String} {r : Int × List String} :
    int nm ws = .ok r ↔ ∃ w, ws = w :: r.2 ∧ nm.int? w = some r.1 := by
  cases ws with
  | nil => simp [int]
  | cons w ws =>
    obtain ⟨a, b⟩ := r
    simp only [int]
    cases h : nm.int? w with
    | none => simp only [reduceCtorEq, false_iff]; rintro ⟨w', e, h'⟩; simp_all
    | some i =>
      simp only [Except.ok.injEq, Prod.mk.injEq, List.cons.injEq]
      constructor
      · rintro ⟨rfl, rfl⟩; exact ⟨w, ⟨rfl, rfl⟩, h⟩
      · rintro ⟨w', ⟨rfl, rfl⟩, h'⟩; simp_all

theorem num_ok {nm : Numbers} {ws : List String} {r : ℝ × List String} :
    num nm ws = .ok r ↔ ∃ w, ws = w :: r.2 ∧ nm.num? w = some r.1 := by
  cases ws with
  | nil => simp [num]
  | cons w ws =>
    obtain ⟨a, b⟩ := r
    simp only [num]
    cases h : nm.num? w with
    | none => simp only [reduceCtorEq, false_iff]; rintro ⟨w', e, h'⟩; simp_all
    | some i =>
      simp only [Except.ok.injEq, Prod.mk.injEq, List.cons.injEq]
      constructor
      · rintro ⟨rfl, rfl⟩; exact ⟨w, ⟨rfl, rfl⟩, h⟩
      · rintro ⟨w', ⟨rfl, rfl⟩, h'⟩; simp_all

theorem parse_some {nm : Numbers} {ws : List String} {c : Cmd} : parse nm ws = .ok (some c) ↔ Says nm ws c := by
  constructor
  · intro h
    cases ws with
    | nil => simp [parse] at h
    | cons k ws =>
      unfold parse at h
      simp only [] at h
      split_ifs at h with h0 h1 h2 h3 h4 h5 h6 h7
      · simp at h
      · simp only [Except.bind_eq_ok, Except.pure_ok, Except.ok.injEq, Option.some.injEq, word_ok] at h
        obtain ⟨⟨f, r⟩, rfl, rfl⟩ := h
        subst h1
        exact .indexing _ _
      · simp only [Except.bind_eq_ok, Except.pure_ok, Except.ok.injEq, Option.some.injEq, num_ok] at h
        obtain ⟨⟨f, r⟩, ⟨w, rfl, hw⟩, rfl⟩ := h
        subst h2
        exact .scale _ hw
      · simp only [Except.bind_eq_ok, Except.pure_ok, Except.ok.injEq, Option.some.injEq, int_ok, word_ok, coordOf_iff] at h
        obtain ⟨⟨t, r⟩, rfl, ⟨p, r'⟩, ⟨w, rfl, hw⟩, ⟨f, r''⟩, rfl, c', hc, rfl⟩ := h
        subst h3
        exact .radial _ _ hc hw
      · simp only [Except.bind_eq_ok, Except.pure_ok, Except.ok.injEq, Option.some.injEq, word_ok, amOf_iff] at h
        obtain ⟨⟨t, r⟩, rfl, ⟨f, r''⟩, rfl, c', hc, rfl⟩ := h
        subst h4
        exact .am _ _ hc
      · simp only [Except.bind_eq_ok, Except.pure_ok, Except.ok.injEq, Option.some.injEq, word_ok, isospinOf_iff] at h
        obtain ⟨⟨t, r⟩, rfl, ⟨f, r''⟩, rfl, c', hc, rfl⟩ := h
        subst h5
        exact .isospin _ _ hc
      · simp only [Except.bind_eq_ok, Except.pure_ok, Except.ok.injEq, Option.some.injEq, int_ok, word_ok, emOf_iff, whoOf_iff] at h
        obtain ⟨⟨o, r⟩, rfl, ⟨l, r1⟩, ⟨w, rfl, hw⟩, ⟨s, r2⟩, rfl, ⟨f, r3⟩, rfl, t, ht, who, hwho, rfl⟩ := h
        subst h6
        exact .em _ _ ht hw hwho
      · simp only [Except.bind_eq_ok, Except.pure_ok, Except.ok.injEq, Option.some.injEq, word_ok] at h
        obtain ⟨⟨t, r⟩, rfl, ⟨f, r''⟩, rfl, c', hc, rfl⟩ := h
        subst h7
        unfold weakOf at hc
        split_ifs at hc with e1 e2 <;> simp only [Except.ok.injEq, reduceCtorEq] at hc <;> subst hc <;> simp only at e1
        · subst e1; exact .fermi _ _
        · simp only at e2; subst e2; exact .gt _ _
  · intro h
    cases h with
    | indexing f r => rfl
    | scale r h => simp [parse, num, h]
    | radial f r hc h => simp [parse, int, h, word, coordOf_iff.mpr hc]
    | am f r h => simp [parse, word, amOf_iff.mpr h]
    | isospin f r h => simp [parse, word, isospinOf_iff.mpr h]
    | em f r ht h hw => simp [parse, int, h, word, emOf_iff.mpr ht, whoOf_iff.mpr hw]
    | fermi f r => rfl
    | gt f r => rfl

theorem parse_none {nm : Numbers} {ws : List String} : parse nm ws = .ok none ↔ counts ws = false := by
  cases ws with
  | nil => simp [parse, counts]
  | cons k ws =>
    simp only [counts, ne_eq, decide_not, Bool.not_eq_false', decide_eq_true_eq]
    constructor
    · intro h
      by_contra hk
      unfold parse at h
      simp only [] at h
      rw [if_neg hk] at h
      split_ifs at h <;> simp only [Except.bind_eq_ok, Except.pure_ok, Except.ok.injEq, reduceCtorEq, and_false, exists_false] at h
    · rintro rfl; rfl

theorem fold_script {Orb : Type} [DecidableEq Orb] (W : World Orb) : ∀ {lines : List (List String)} {cmds : List Cmd} (cfg : Config),
    Script W.nm lines cmds → lines.foldlM (step W) cfg = cmds.foldlM (apply W) cfg
  | [], cmds, cfg, h => by cases h; rfl
  | ws :: lines, cmds, cfg, h => by
    rw [List.foldlM_cons]
    unfold Script at h
    cases hc : counts ws with
    | false =>
      rw [List.filter_cons_of_neg (by simp [hc])] at h
      rw [show step W cfg ws = .ok cfg by simp [step, parse_none.mpr hc]]
      exact fold_script W cfg h
    | true =>
      rw [List.filter_cons_of_pos hc] at h
      cases h with
      | cons h1 h2 =>
        rename_i c cs
        rw [List.foldlM_cons, show step W cfg ws = apply W cfg c by simp [step, parse_some.mpr h1]]
        cases apply W cfg c with
        | error e => rfl
        | ok cfg' => exact fold_script W cfg' h2

theorem script_of_fold {Orb : Type} [DecidableEq Orb] (W : World Orb) : ∀ {lines : List (List String)} {cfg cfg' : Config},
    lines.foldlM (step W) cfg = .ok cfg' → ∃ cmds, Script W.nm lines cmds
  | [], cfg, cfg', _ => ⟨[], .nil⟩
  | ws :: lines, cfg, cfg', h => by
    rw [List.foldlM_cons, Except.bind_eq_ok] at h
    obtain ⟨c1, h1, h2⟩ := h
    obtain ⟨cmds, hs⟩ := script_of_fold W h2
    unfold step at h1
    rw [Except.bind_eq_ok] at h1
    obtain ⟨o, h3, h4⟩ := h1
    unfold Script at hs ⊢
    cases o with
    | none => exact ⟨cmds, by rwa [List.filter_cons_of_neg (by simp [parse_none.mp h3])]⟩
    | some c =>
      refine ⟨c :: cmds, ?_⟩
      rw [List.filter_cons_of_pos]
      · exact .cons (parse_some.mp h3) hs
      · cases hc : counts ws with
        | false => rw [parse_none.mpr hc] at h3; simp at h3
        | true => rfl

/-! ## Configuration -/

/-- An entry of a table of sources comes from the file given. -/
def From {Orb : Type} [DecidableEq Orb] (W : World Orb) (f : Option String) (d : Option Data) : Prop :=
  match f with
  | none => d = none
  | some f => ∃ x, d = some x ∧ openData W f = .ok x

/-- The configuration is the one the commands describe. -/
structure Describes {Orb : Type} [DecidableEq Orb] (W : World Orb) (cmds : List Cmd) (cfg : Config) : Prop where
  space : match indexingOf cmds with
    | none => cfg.space = []
    | some f => ∃ os, W.orbitals f = .ok os ∧ cfg.space = W.lib.mkSpace os
  scale : cfg.scale = scaleOf cmds
  radial : ∀ c p, From W (radialOf cmds c p) (cfg.radial (c, p))
  am : ∀ t, From W (amOfCmds cmds t) (cfg.am t)
  isospin : ∀ z, From W (isospinOfCmds cmds z) (cfg.isospin z)
  targets : cfg.targets = targetsOf cmds

theorem from_insert {Orb : Type} [DecidableEq Orb] {W : World Orb} {α : Type} [DecidableEq α] {m : α → Option Data} {key : α → Option String}
    {k : α} {f : String} {d : Data} (h : ∀ x, From W (key x) (m x)) (hd : openData W f = .ok d) (x : α) :
    From W ((key x).or (if k = x then some f else none)) (insert m k d x) := by
  have := h x
  unfold insert
  cases hk : key x with
  | none =>
    rw [hk] at this
    simp only [From] at this
    rw [this]
    by_cases e : k = x
    · subst e; simp only [if_pos, Option.none_or]; exact ⟨d, rfl, hd⟩
    · simp only [if_neg e, if_neg (Ne.symm e), Option.none_or]; rfl
  | some g =>
    rw [hk] at this
    obtain ⟨y, hy, ho⟩ := this
    rw [hy]
    exact ⟨y, rfl, ho⟩

theorem describes {Orb : Type} [DecidableEq Orb] (W : World Orb) (cmds : List Cmd) : ∀ {cfg : Config},
    cmds.foldlM (apply W) {} = .ok cfg → Describes W cmds cfg := by
  induction cmds using List.reverseRecOn with
  | nil =>
    intro cfg h
    cases h
    exact ⟨rfl, rfl, fun _ _ => rfl, fun _ => rfl, fun _ => rfl, rfl⟩
  | append_singleton cmds c ih =>
    intro cfg h
    rw [List.foldlM_append, Except.bind_eq_ok] at h
    obtain ⟨c0, h0, h1⟩ := h
    obtain ⟨i1, i2, i3, i4, i5, i6⟩ := ih h0
    have h1' : apply W c0 c = .ok cfg := by
      rw [List.foldlM_cons, Except.bind_eq_ok] at h1
      obtain ⟨c1, h2, h3⟩ := h1
      cases h3
      exact h2
    clear h1 h0 ih
    have or_none : ∀ x : Option String, x.or none = x := fun x => by cases x <;> rfl
    cases c with
    | indexing f =>
      simp only [apply, Except.bind_eq_ok, Except.pure_ok, Except.ok.injEq] at h1'
      obtain ⟨os, ho, rfl⟩ := h1'
      refine ⟨?_, ?_, ?_, ?_, ?_, ?_⟩
      · simp only [indexingOf, List.filterMap_append, List.filterMap_cons, List.filterMap_nil, List.getLast?_append, List.getLast?_singleton, Option.some_or]
        exact ⟨os, ho, rfl⟩
      · simpa [scaleOf] using i2
      · intro c p; simpa [radialOf, List.findSome?_append, or_none] using i3 c p
      · intro t; simpa [amOfCmds, List.findSome?_append, or_none] using i4 t
      · intro t; simpa [isospinOfCmds, List.findSome?_append, or_none] using i5 t
      · simpa [targetsOf] using i6
    | scale x =>
      simp only [apply, Except.ok.injEq] at h1'
      subst h1'
      refine ⟨?_, ?_, ?_, ?_, ?_, ?_⟩
      · simpa [indexingOf] using i1
      · simp [scaleOf]
      · intro c p; simpa [radialOf, List.findSome?_append, or_none] using i3 c p
      · intro t; simpa [amOfCmds, List.findSome?_append, or_none] using i4 t
      · intro t; simpa [isospinOfCmds, List.findSome?_append, or_none] using i5 t
      · simpa [targetsOf] using i6
    | radial c p f =>
      simp only [apply, Except.bind_eq_ok, Except.pure_ok, Except.ok.injEq] at h1'
      obtain ⟨d, ho, rfl⟩ := h1'
      refine ⟨?_, ?_, ?_, ?_, ?_, ?_⟩
      · simpa [indexingOf] using i1
      · simpa [scaleOf] using i2
      · intro c' p'
        have := from_insert (key := fun x : Coord × Int => radialOf cmds x.1 x.2) (m := c0.radial) (k := (c, p)) (fun x => i3 x.1 x.2) ho (c', p')
        simpa [radialOf, List.findSome?_append] using this
      · intro t; simpa [amOfCmds, List.findSome?_append, or_none] using i4 t
      · intro t; simpa [isospinOfCmds, List.findSome?_append, or_none] using i5 t
      · simpa [targetsOf] using i6
    | am t f =>
      simp only [apply, Except.bind_eq_ok, Except.pure_ok, Except.ok.injEq] at h1'
      obtain ⟨d, ho, rfl⟩ := h1'
      refine ⟨?_, ?_, ?_, ?_, ?_, ?_⟩
      · simpa [indexingOf] using i1
      · simpa [scaleOf] using i2
      · intro c p; simpa [radialOf, List.findSome?_append, or_none] using i3 c p
      · intro t'
        have := from_insert (key := amOfCmds cmds) (m := c0.am) (k := t) i4 ho t'
        simpa [amOfCmds, List.findSome?_append] using this
      · intro t; simpa [isospinOfCmds, List.findSome?_append, or_none] using i5 t
      · simpa [targetsOf] using i6
    | isospin t f =>
      simp only [apply, Except.bind_eq_ok, Except.pure_ok, Except.ok.injEq] at h1'
      obtain ⟨d, ho, rfl⟩ := h1'
      refine ⟨?_, ?_, ?_, ?_, ?_, ?_⟩
      · simpa [indexingOf] using i1
      · simpa [scaleOf] using i2
      · intro c p; simpa [radialOf, List.findSome?_append, or_none] using i3 c p
      · intro t; simpa [amOfCmds, List.findSome?_append, or_none] using i4 t
      · intro t'
        have := from_insert (key := isospinOfCmds cmds) (m := c0.isospin) (k := t) i5 ho t'
        simpa [isospinOfCmds, List.findSome?_append] using this
      · simpa [targetsOf] using i6
    | target t =>
      simp only [apply, Except.ok.injEq] at h1'
      subst h1'
      refine ⟨?_, ?_, ?_, ?_, ?_, ?_⟩
      · simpa [indexingOf] using i1
      · simpa [scaleOf] using i2
      · intro c p; simpa [radialOf, List.findSome?_append, or_none] using i3 c p
      · intro t; simpa [amOfCmds, List.findSome?_append, or_none] using i4 t
      · intro t; simpa [isospinOfCmds, List.findSome?_append, or_none] using i5 t
      · simp [targetsOf, i6]

/-! ## Sources and targets -/

theorem openData_holds {Orb : Type} [DecidableEq Orb] {W : World Orb} {f : String} {sp : Space} {q : QN} {O : Op} (h : Holds W f sp q O) :
    ∃ mats, openData W f = .ok ⟨sp, allSectors q sp sp, mats⟩ ∧ Fits (allSectors q sp sp) mats sp sp ∧
      ∀ i a k c, elem (allSectors q sp sp) mats i a k c = O i a k c := by
  obtain ⟨ls, hls, mats, hr, hf, he⟩ := h
  refine ⟨mats, ?_, hf, he⟩
  obtain ⟨rest, r1, r2⟩ := readFile_eq hr
  simp [openData, hls, r1, r2]

theorem scaleAll_ok {f : ℕ × ℕ → Except Err ℝ} {g : ℕ × ℕ → ℝ} : ∀ {ps : List (ℕ × ℕ)} {ms : List Mat}, ps.length = ms.length →
    (∀ p ∈ ps, f p = .ok (g p)) → scaleAll f ps ms = .ok ((ps.zip ms).map fun x => scale (g x.1) x.2)
  | [], [], _, _ => rfl
  | p :: ps, m :: ms, h, hf => by
    rw [scaleAll, hf p (by simp), scaleAll_ok (by simpa using h) fun p' hp => hf p' (by simp [hp])]
    rfl
  | [], _ :: _, h, _ => by simp at h
  | _ :: _, [], h, _ => by simp at h

theorem scaled_elem {s : Sectors} {mats : List Mat} {sp : Space} (hf : Fits s mats sp sp) (g : ℕ × ℕ → ℝ) :
    Fits s ((s.pairs.zip mats).map fun x => scale (g x.1) x.2) sp sp ∧
    ∀ i a k c, elem s ((s.pairs.zip mats).map fun x => scale (g x.1) x.2) i a k c = g (i, k) * elem s mats i a k c := by
  constructor
  · refine ⟨by simp [hf.length], ?_⟩
    intro x i k m hx hm
    rw [List.getElem?_map, Option.map_eq_some_iff] at hm
    obtain ⟨⟨p, m'⟩, hp, rfl⟩ := hm
    rw [List.getElem?_zip_eq_some] at hp
    exact hf.size x i k m' hx hp.2
  · intro i a k c
    unfold elem
    cases hx : s.pairs.idxOf? (i, k) with
    | none => simp
    | some x =>
      have hp := idxOf?_getElem? hx
      obtain ⟨m, hm, _⟩ := fits_block hf hx
      have hz : (s.pairs.zip mats)[x]? = some ((i, k), m) := List.getElem?_zip_eq_some.mpr ⟨hp, hm⟩
      simp only [List.getElem?_map, hz, hm, Option.map_some, scale]
      split <;> simp

theorem write_stores {Orb : Type} {W : World Orb} (laws : LibLaws W.lib) (h0 : W.rnd 0 = 0) {sp : Space} (hb : Built W.lib sp) {q : QN}
    {mats : List Mat} (hf : Fits (allSectors q sp sp) mats sp sp) {O : Op} (he : ∀ i a k c, elem (allSectors q sp sp) mats i a k c = O i a k c) :
    ∃ ls, writeFile W.lib W.rnd true 'S' sp sp (allSectors q sp sp) mats = .ok ls ∧ Stores W ls sp q O := by
  obtain ⟨ls, mats', h1, h2, h3, h4⟩ := file_round_trip laws h0 true 'S' q hb hb hf []
  rw [List.append_nil] at h2
  exact ⟨ls, h1, mats', h2, h3, fun i a k c => by rw [h4, he]⟩

theorem allowed_species {q : QN} (hq : q.Tz0 = 0) {a b : Labels} (h : Allowed q a b) : a.sp = b.sp := by
  have := h.2.2
  rw [hq] at this
  obtain ⟨l, j, s⟩ := a
  obtain ⟨l', j', s'⟩ := b
  cases s <;> cases s' <;> simp_all [Labels.tz]

theorem applies_iff {who : Who} {sp : Space} {i : ℕ} {b : Sub} (h : sp[i]? = some b) :
    applies who b.labels.sp = true ↔ Carries who sp i := by
  unfold applies Carries
  cases who <;> simp [h]

theorem mem_pairs {q : QN} {sp : Space} {p : ℕ × ℕ} (hp : p ∈ (allSectors q sp sp).pairs) :
    ∃ b k, sp[p.1]? = some b ∧ sp[p.2]? = some k ∧ Allowed q b.labels k.labels :=
  sectors_some (allSectors_spec q sp sp) hp

open Classical in
/-- Scaling by a constant on the nucleons asked for. -/
theorem part_ok {q : QN} (hq : q.Tz0 = 0) {sp : Space} {who : Who} {f : Labels → Labels → Except Err ℝ} {x : ℝ}
    (hf : ∀ a b, a.sp = b.sp → f a b = if applies who a.sp then .ok x else .ok 0) {mats : List Mat}
    (hm : Fits (allSectors q sp sp) mats sp sp) {O : Op} (he : ∀ i a k c, elem (allSectors q sp sp) mats i a k c = O i a k c) :
    ∃ mats', scaleAll (sectorFactor sp f) (allSectors q sp sp).pairs mats = .ok mats' ∧ Fits (allSectors q sp sp) mats' sp sp ∧
      ∀ i a k c, elem (allSectors q sp sp) mats' i a k c = part who sp x O i a k c := by
  obtain ⟨h1, h2⟩ := scaled_elem hm fun p => if Carries who sp p.1 then x else 0
  refine ⟨_, scaleAll_ok (g := fun p => if Carries who sp p.1 then x else 0) hm.length.symm ?_, h1, ?_⟩
  · intro p hp
    obtain ⟨b, k, hb, hk, ha⟩ := mem_pairs hp
    simp only [sectorFactor, getE_ok hb, getE_ok hk, Except.ok_bind', hf _ _ (allowed_species hq ha)]
    simp only [applies_iff hb]
    split <;> rfl
  · intro i a k c
    rw [h2, he, part]
    simp only
    split <;> simp

theorem outside {q : QN} {sp : Space} {mats : List Mat} (hm : Fits (allSectors q sp sp) mats sp sp) {i a k c : ℕ}
    (h : ¬ Within q sp i a k c) : elem (allSectors q sp sp) mats i a k c = 0 := by
  by_cases hp : (i, k) ∈ (allSectors q sp sp).pairs
  · obtain ⟨b, k', hb, hk, ha⟩ := mem_pairs hp
    refine elem_outside hm fun hd => h ⟨b, k', hb, hk, ?_, ?_, ha⟩
    · simpa [dim_some hb] using hd.1
    · simpa [dim_some hk] using hd.2
  · exact elem_absent hp _ _

theorem times_ok {w : QN → QN → QN → ℕ → ℕ → ℕ → ℝ} {sp : Space} {qA qB q : QN} {A B : Op} {mA mB : List Mat}
    (hA : Fits (allSectors qA sp sp) mA sp sp) (eA : ∀ i a k c, elem (allSectors qA sp sp) mA i a k c = A i a k c)
    (hB : Fits (allSectors qB sp sp) mB sp sp) (eB : ∀ i a k c, elem (allSectors qB sp sp) mB i a k c = B i a k c)
    (h1 : |qA.J0 - qB.J0| ≤ q.J0 ∧ q.J0 ≤ qA.J0 + qB.J0) (h2 : (2 : Int) ∣ qA.g0 + qB.g0 + q.g0) (h3 : qA.Tz0 + qB.Tz0 = q.Tz0) :
    ∃ mats, tensorProduct w sp (allSectors qA sp sp) mA (allSectors qB sp sp) mB (allSectors q sp sp) = .ok mats ∧
      Fits (allSectors q sp sp) mats sp sp ∧ ∀ i a k c, elem (allSectors q sp sp) mats i a k c = times w sp qA A qB B q i a k c := by
  obtain ⟨mats, e1, e2, e3⟩ := tensorProduct_element (w := w) hA hB (allSectors_spec _ _ _) (allSectors_spec q sp sp) h1 h2 h3
  refine ⟨mats, e1, e2, ?_⟩
  intro i a k c
  unfold times
  split
  · rename_i h
    obtain ⟨b, k', hb, hk, ha, hc, hal⟩ := h
    rw [e3 i k b k' a c (((allSectors_spec q sp sp).mem _ _).mpr ⟨b, k', hb, hk, hal⟩) hb hk ha hc]
    refine Finset.sum_congr rfl fun t _ => ?_
    rw [eA, eB]
    simp [tjOf, hb, hk, allSectors]
  · rename_i h
    exact outside e2 h

end Verif.Obme.EwGen
