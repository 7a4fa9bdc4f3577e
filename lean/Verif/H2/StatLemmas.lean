import Verif.H2.Stat
import Verif.H2.HeaderProps

/-!
# Readers look at no more than they consume (helpers for `StatProps.lean`)
-/

namespace Verif.H2
open Verif

/-- A successful read stays inside the data, and does not depend on what follows the part it consumed. -/
def Local {τ α : Type} (p : P τ α) : Prop :=
  ∀ ts pos a pos', p ts pos = .ok (a, pos') → pos ≤ ts.length →
    pos ≤ pos' ∧ pos' ≤ ts.length ∧ ∀ ext, p (ts ++ ext) pos = .ok (a, pos')

theorem Local.pure {τ α : Type} (a : α) : Local (pure a : P τ α) := by
  intro ts pos b pos' h hp
  have h' : (Except.ok (a, pos) : Except Err (α × Nat)) = .ok (b, pos') := h
  simp only [Except.ok.injEq, Prod.mk.injEq] at h'
  obtain ⟨rfl, rfl⟩ := h'
  exact ⟨le_rfl, hp, fun _ => rfl⟩

theorem Local.fail {τ α : Type} (e : Err) : Local (P.fail e : P τ α) := by
  intro ts pos b pos' h
  simp [P.fail] at h

theorem Local.bind {τ α β : Type} {p : P τ α} {q : α → P τ β} (hp : Local p) (hq : ∀ a, Local (q a)) :
    Local (p >>= q) := by
  intro ts pos b pos' h hpos
  have h' : (match p ts pos with
    | .error e => Except.error e
    | .ok (a, pos') => q a ts pos') = Except.ok (b, pos') := h
  cases hx : p ts pos with
  | error e => simp [hx] at h'
  | ok x =>
    obtain ⟨a, p1⟩ := x
    simp only [hx] at h'
    obtain ⟨h1, h2, h3⟩ := hp ts pos a p1 hx hpos
    obtain ⟨h4, h5, h6⟩ := hq a ts p1 b pos' h' h2
    refine ⟨by omega, h5, fun ext => ?_⟩
    show (match p (ts ++ ext) pos with
      | .error e => Except.error e
      | .ok (a, pos') => q a (ts ++ ext) pos') = Except.ok (b, pos')
    rw [h3 ext]
    exact h6 ext

theorem Local.ite {τ α : Type} {c : Prop} [Decidable c] {p q : P τ α} (hp : Local p) (hq : Local q) :
    Local (if c then p else q) := by split <;> assumption

theorem Local.many {τ α : Type} {p : P τ α} (hp : Local p) : ∀ n, Local (pMany p n)
  | 0 => .pure _
  | n + 1 => hp.bind fun _ => (Local.many hp n).bind fun _ => .pure _

theorem Local.lift {τ α : Type} (x : Except Err α) : Local (pLift x : P τ α) := by
  cases x with
  | ok a => exact .pure a
  | error e => exact .fail e

/-- `readRaw` as a reader. -/
theorem local_readRaw (n : Nat) : Local (fun bs pos => readRaw bs pos n) := by
  intro ts pos a pos' h hp
  simp only [readRaw] at h ⊢
  split_ifs at h with h0 h1
  · simp only [Except.ok.injEq, Prod.mk.injEq] at h
    obtain ⟨rfl, rfl⟩ := h
    exact ⟨le_rfl, hp, fun _ => by rw [if_pos h0]⟩
  · simp only [Except.ok.injEq, Prod.mk.injEq] at h
    obtain ⟨rfl, rfl⟩ := h
    refine ⟨by omega, h1, fun ext => ?_⟩
    rw [if_neg h0, if_pos (by rw [List.length_append]; omega), List.drop_append_of_le_length hp,
      List.take_append_of_le_length (by rw [List.length_drop]; omega)]

theorem local_word32 : Local pWord32 := by
  have h := (local_readRaw 4).bind (q := fun raw => pure (word32 raw)) fun _ => .pure _
  have e : pWord32 = ((fun bs pos => readRaw bs pos 4 : P Byte (List Byte)) >>= fun raw => pure (word32 raw)) := by
    funext bs pos
    unfold pWord32
    simp only [Bind.bind]
    cases readRaw bs pos 4 <;> rfl
  rw [e]
  exact h
theorem local_word64 : Local pWord64 := by
  have h := (local_readRaw 8).bind (q := fun raw => pure (word64 raw)) fun _ => .pure _
  have e : pWord64 = ((fun bs pos => readRaw bs pos 8 : P Byte (List Byte)) >>= fun raw => pure (word64 raw)) := by
    funext bs pos
    unfold pWord64
    simp only [Bind.bind]
    cases readRaw bs pos 8 <;> rfl
  rw [e]
  exact h
theorem local_int : Local pInt := local_word32.bind fun _ => .pure _
theorem local_int64 : Local pInt64 := local_word64.bind fun _ => .pure _
theorem local_float (fm : FloatModel) : Local (pFloat fm) := local_word32.bind fun _ => .pure _
theorem local_verify (v : Int) : Local (pVerify v) := local_word32.bind fun _ => .ite (.pure _) (.fail _)

theorem local_line : Local tLine := by
  intro ts pos a pos' h hp
  simp only [tLine] at h ⊢
  cases hl : ts[pos]? with
  | none => simp [hl] at h
  | some l =>
    simp only [hl, Except.ok.injEq, Prod.mk.injEq] at h
    obtain ⟨rfl, rfl⟩ := h
    have hlt : pos < ts.length := by
      by_contra hh; rw [List.getElem?_eq_none (by omega)] at hl; simp at hl
    refine ⟨by omega, hlt, fun ext => ?_⟩
    rw [List.getElem?_append_left hlt, hl]

theorem local_ints (fits : Int → Bool) (n : Nat) : Local (tInts fits n) :=
  local_line.bind fun _ => .ite (.pure _) (.fail _)

theorem local_floats (fm : FloatModel) (n : Nat) : Local (tFloats fm n) :=
  local_line.bind fun l => by
    cases (l.decs.take n).mapM fm.scan with
    | none => exact .fail _
    | some ws => exact .ite (.pure _) (.fail _)

theorem forall₂_at {α β : Type} {R : α → β → Prop} {l : List α} {bs : List β}
    (h : List.Forall₂ R l bs) : ∀ {x : ℕ} {a : α}, l[x]? = some a → ∃ b, bs[x]? = some b ∧ R a b := by
  induction h with
  | nil => intro x a h; simp at h
  | cons h1 _ ih =>
    intro x a h
    cases x with
    | zero =>
      simp only [List.getElem?_cons_zero, Option.some.injEq] at h
      subst h
      exact ⟨_, rfl, h1⟩
    | succ x => simpa using ih (by simpa using h)

/-- Peel the readers off a `do` block. -/
macro "local_tac" : tactic => `(tactic| repeat first
  | exact Local.pure _
  | exact Local.fail _
  | refine Local.bind (local_verify _) fun _ => ?_
  | refine Local.bind local_int fun _ => ?_
  | refine Local.bind local_int64 fun _ => ?_
  | refine Local.bind (local_float _) fun _ => ?_
  | refine Local.bind (Local.many local_int _) fun _ => ?_
  | refine Local.bind (Local.many (local_float _) _) fun _ => ?_
  | refine Local.bind (Local.many local_line _) fun _ => ?_
  | refine Local.bind (Local.lift _) fun _ => ?_
  | refine Local.bind (local_ints _ _) fun _ => ?_
  | refine Local.bind (local_floats _ _) fun _ => ?_
  | refine Local.ite ?_ ?_)

theorem local_versionB : Local readVersionB := by unfold readVersionB; local_tac
theorem local_versionT : Local readVersionT := by unfold readVersionT; local_tac
theorem local_v0B : Local readRawV0B := by unfold readRawV0B; local_tac
theorem local_v0T : Local readRawV0T := by unfold readRawV0T; local_tac
theorem local_orbs (fm : FloatModel) (n : Int) : Local (readOrbsV15099 fm n) := by
  unfold readOrbsV15099; local_tac
theorem local_v15099B (fm : FloatModel) : Local (readRawV15099B fm) := by
  unfold readRawV15099B
  refine Local.bind (local_verify _) fun _ => ?_
  refine Local.bind local_int fun _ => ?_
  refine Local.bind local_int fun _ => ?_
  refine Local.bind (local_verify _) fun _ => ?_
  refine Local.bind (local_orbs _ _) fun _ => ?_
  refine Local.bind (local_orbs _ _) fun _ => ?_
  local_tac
theorem local_v15099T (lib : BasisLib) (fm : FloatModel) : Local (readRawV15099T lib fm) := by
  unfold readRawV15099T; local_tac
theorem local_v15200B (fm : FloatModel) : Local (readRawV15200B fm) := by unfold readRawV15200B; local_tac
theorem local_v15200T (lib : BasisLib) (fm : FloatModel) : Local (readRawV15200T lib fm) := by
  unfold readRawV15200T; local_tac

/-- `f` with more data at its end. -/
theorem File.length_append (mode : Mode) (f g : File) :
    (f.append g).length mode = f.length mode + g.length mode := by
  cases mode <;> simp [File.append, File.length]

/-- Opening a file looks only at the header. -/
theorem openIn_local {lib : BasisLib} {hf : HeaderFloat} {mode : Mode} {f : File} {x : Format × Desc × Nat}
    (h : openIn lib hf mode f = .ok x) :
    x.2.2 ≤ f.length mode ∧ ∀ g, openIn lib hf mode (f.append g) = .ok x := by
  cases mode with
  | matrix => simp [openIn] at h
  | binary =>
    unfold openIn at h ⊢
    simp only [Except.bind_eq_ok] at h
    obtain ⟨⟨v, p⟩, h1, fmt, h2, h3⟩ := h
    obtain ⟨-, b1, e1⟩ := local_versionB _ _ _ _ h1 (Nat.zero_le _)
    cases fmt with
    | v0 =>
      simp only [Except.bind_eq_ok, Except.pure_ok, Except.ok.injEq] at h3
      obtain ⟨⟨r, p'⟩, h4, d, h5, rfl⟩ := h3
      obtain ⟨-, b2, e2⟩ := local_v0B _ _ _ _ h4 b1
      exact ⟨b2, fun g => by simp [File.append, e1, h2, e2, h5]⟩
    | v15099 =>
      simp only [Except.bind_eq_ok, Except.pure_ok, Except.ok.injEq] at h3
      obtain ⟨⟨r, p'⟩, h4, d, h5, rfl⟩ := h3
      obtain ⟨-, b2, e2⟩ := local_v15099B _ _ _ _ _ h4 b1
      exact ⟨b2, fun g => by simp [File.append, e1, h2, e2, h5]⟩
    | v15200 =>
      simp only [Except.bind_eq_ok, Except.pure_ok, Except.ok.injEq] at h3
      obtain ⟨⟨r, p'⟩, h4, d, h5, rfl⟩ := h3
      obtain ⟨-, b2, e2⟩ := local_v15200B _ _ _ _ _ h4 b1
      exact ⟨b2, fun g => by simp [File.append, e1, h2, e2, h5]⟩
  | text =>
    unfold openIn at h ⊢
    simp only [Except.bind_eq_ok] at h
    obtain ⟨⟨v, p⟩, h1, fmt, h2, h3⟩ := h
    obtain ⟨-, b1, e1⟩ := local_versionT _ _ _ _ h1 (Nat.zero_le _)
    cases fmt with
    | v0 =>
      simp only [Except.bind_eq_ok, Except.pure_ok, Except.ok.injEq] at h3
      obtain ⟨⟨r, p'⟩, h4, d, h5, rfl⟩ := h3
      obtain ⟨-, b2, e2⟩ := local_v0T _ _ _ _ h4 b1
      exact ⟨b2, fun g => by simp [File.append, e1, h2, e2, h5]⟩
    | v15099 =>
      simp only [Except.bind_eq_ok, Except.pure_ok, Except.ok.injEq] at h3
      obtain ⟨⟨r, p'⟩, h4, d, h5, rfl⟩ := h3
      obtain ⟨-, b2, e2⟩ := local_v15099T _ _ _ _ _ _ h4 b1
      exact ⟨b2, fun g => by simp [File.append, e1, h2, e2, h5]⟩
    | v15200 =>
      simp only [Except.bind_eq_ok, Except.pure_ok, Except.ok.injEq] at h3
      obtain ⟨⟨r, p'⟩, h4, d, h5, rfl⟩ := h3
      obtain ⟨-, b2, e2⟩ := local_v15200T _ _ _ _ _ _ h4 b1
      exact ⟨b2, fun g => by simp [File.append, e1, h2, e2, h5]⟩

theorem local_optVerify {b : Bool} {bs : List Byte} {pos : Nat} {d : BitVec 32} {p : Nat}
    (h : optVerify b bs pos d = .ok p) (hp : pos ≤ bs.length) :
    p ≤ bs.length ∧ ∀ ext, optVerify b (bs ++ ext) pos d = .ok p := by
  cases b with
  | false =>
    simp only [optVerify, Bool.false_eq_true, if_false, Except.ok.injEq] at h
    subst h
    exact ⟨hp, fun _ => rfl⟩
  | true =>
    simp only [optVerify, if_true] at h ⊢
    unfold verifyInt readInt at h ⊢
    simp only [Except.bind_eq_ok] at h
    obtain ⟨⟨w, p1⟩, ⟨⟨raw, p2⟩, h1, h2⟩, h3⟩ := h
    simp only [Except.pure_ok, Except.ok.injEq, Prod.mk.injEq] at h2
    obtain ⟨rfl, rfl⟩ := h2
    obtain ⟨-, b1, e1⟩ := local_readRaw 4 _ _ _ _ h1 hp
    simp only [Except.pure_ok] at h3
    split_ifs at h3 with hw
    simp only [Except.ok.injEq] at h3
    subst h3
    exact ⟨b1, fun ext => by simp only [e1 ext, Except.ok_bind', Except.pure_ok, if_pos hw]⟩

theorem local_readFloats {bs : List Byte} {pos n : Nat} {x : List (BitVec 32) × Nat}
    (h : readFloats bs pos n = .ok x) (hp : pos ≤ bs.length) :
    x.2 ≤ bs.length ∧ ∀ ext, readFloats (bs ++ ext) pos n = .ok x := by
  unfold readFloats at h ⊢
  simp only [Except.bind_eq_ok] at h
  obtain ⟨⟨raw, p2⟩, h1, h2⟩ := h
  simp only [Except.pure_ok, Except.ok.injEq] at h2
  subst h2
  obtain ⟨-, b1, e1⟩ := local_readRaw _ _ _ _ _ h1 hp
  exact ⟨b1, fun ext => by simp only [e1 ext, Except.ok_bind', Except.pure_ok]⟩

theorem local_loadText {fm labels ps} {ls : List Line} {pos : Nat} {m : Mat} {x : Mat × Nat}
    (h : loadText fm labels ps ls pos m = .ok x) (hp : pos ≤ ls.length) :
    x.2 ≤ ls.length ∧ ∀ ext, loadText fm labels ps (ls ++ ext) pos m = .ok x := by
  induction ps generalizing pos m with
  | nil =>
    simp only [loadText, Except.ok.injEq] at h
    subst h
    exact ⟨hp, fun _ => rfl⟩
  | cons q ps ih =>
    simp only [loadText] at h ⊢
    cases hl : ls[pos]? with
    | none => simp [hl] at h
    | some line =>
      have hlt : pos < ls.length := by
        by_contra hh; rw [List.getElem?_eq_none (by omega)] at hl; simp at hl
      simp only [hl] at h
      cases hs : line.decs.head?.bind fm.scan with
      | none => simp [hs] at h
      | some v =>
        simp only [hs] at h
        split_ifs at h with h1 h2
        obtain ⟨b, e⟩ := ih h hlt
        refine ⟨b, fun ext => ?_⟩
        rw [List.getElem?_append_left hlt, hl]
        simp only [hs, if_pos h1, if_pos h2, e ext]

/-- Reading a sector looks only at that sector. -/
theorem readRaw_local {c : Cfg} {f : File} {k pos : Nat} {x : Mat × Nat}
    (h : readSectorRaw c f k pos = .ok x) (hp : pos ≤ f.length c.mode) :
    x.2 ≤ f.length c.mode ∧ ∀ g, readSectorRaw c (f.append g) k pos = .ok x := by
  cases hs : c.ix.sectors[k]? with
  | none => rw [readRaw_none hs] at h; simp at h
  | some s =>
    cases ha : accepts c s with
    | false => rw [readRaw_reject hs ha] at h; simp at h
    | true =>
      cases hm : c.mode with
      | matrix =>
        rw [readRaw_matrix hm hs ha] at h
        simp only [readRaw_matrix hm hs ha]
        refine ⟨?_, fun _ => h⟩
        split_ifs at h
        simp only [Except.ok.injEq] at h
        subst h
        rw [hm] at hp
        exact hp
      | binary =>
        rw [hm] at hp
        rw [readRaw_binary hm hs ha] at h
        simp only [Except.bind_eq_ok] at h
        obtain ⟨p1, h1, ⟨buf, p2⟩, h2, m', h3, p3, h4, h5⟩ := h
        simp only at h3 h4 h5
        simp only [Except.pure_ok, Except.ok.injEq] at h5
        subst h5
        obtain ⟨b1, e1⟩ := local_optVerify h1 hp
        obtain ⟨b2, e2⟩ := local_readFloats h2 b1
        obtain ⟨b3, e3⟩ := local_optVerify h4 b2
        refine ⟨b3, fun g => ?_⟩
        rw [readRaw_binary hm hs ha]
        simp only [File.append, e1, e2, h3, e3, Except.ok_bind', Except.pure_ok]
      | text =>
        rw [hm] at hp
        rw [readRaw_text hm hs ha] at h
        obtain ⟨b, e⟩ := local_loadText h hp
        refine ⟨b, fun g => ?_⟩
        rw [readRaw_text hm hs ha]
        exact e _

/-- If the first `n` sectors can be read the file is long enough for them. -/
theorem layout_fits {c : Cfg} {f : File} {start : Nat} (hwf : ∀ s ∈ c.ix.sectors, s.WF) (h0 : start ≤ f.length c.mode)
    (n : Nat) (h : ∀ k < n, ∃ x, readAt c f start k = .ok x) : layoutPos c start n ≤ f.length c.mode := by
  induction n with
  | zero => exact h0
  | succ n ih =>
    obtain ⟨⟨m, p⟩, hx⟩ := h n (by omega)
    have hb := (readRaw_local hx (ih fun k hk => h k (by omega))).1
    have hp := (readRaw_ok hwf hx).1
    simp only at hb
    rw [hp] at hb
    exact hb

/-- Reading all sectors does not depend on data after the last one. -/
theorem readAt_append {c : Cfg} {f g : File} {start : Nat} (hwf : ∀ s ∈ c.ix.sectors, s.WF) (h0 : start ≤ f.length c.mode)
    (n : Nat) (h : ∀ k < n, ∃ x, readAt c f start k = .ok x) (k : Nat) (hk : k < n) :
    readAt c (f.append g) start k = readAt c f start k := by
  obtain ⟨x, hx⟩ := h k hk
  rw [hx]
  exact (readRaw_local hx (layout_fits hwf h0 k fun i hi => h i (by omega))).2 g

/-- The length of a completely written file. -/
theorem written_length {c : Cfg} (hm : c.mode ≠ .matrix) (hwf : ∀ s ∈ c.ix.sectors, s.WF) {hdr : File}
    {calls : List WriteCall} {st : OutState} (hwrite : writeHistory c calls ⟨0, hdr⟩ = .ok st) :
    st.out.length c.mode = layoutPos c (hdr.length c.mode) calls.length := by
  obtain ⟨_, chunks, hlen, hb, hl, hcall⟩ := writeHistory_ok hwrite
  simp only [Nat.zero_add] at hcall
  have hi' : ∀ i ch, chunks[i]? = some ch → i < calls.length := by
    intro i ch hi
    by_contra hh
    rw [List.getElem?_eq_none (by omega)] at hi; simp at hi
  cases hmode : c.mode with
  | matrix => exact absurd hmode hm
  | binary =>
    have hpl := chunks_prefix_length (c := c) hdr.bytes.length File.bytes chunks (by
      intro i ch hi
      exact writeRaw_bytes_length hmode hwf (hcall i _ _ (List.getElem?_eq_getElem (hi' i ch hi)) hi).2.2.2)
      calls.length (by omega)
    rw [List.take_of_length_le (by omega)] at hpl
    simp only [File.length, hb, List.length_append]
    exact hpl
  | text =>
    have hpl := chunks_prefix_length (c := c) hdr.lines.length File.lines chunks (by
      intro i ch hi
      exact writeRaw_lines_length hmode hwf (hcall i _ _ (List.getElem?_eq_getElem (hi' i ch hi)) hi).2.2.2)
      calls.length (by omega)
    rw [List.take_of_length_le (by omega)] at hpl
    simp only [File.length, hl, List.length_append]
    exact hpl

/-! ### The two loops are reads of the sectors in order -/

namespace Stat

theorem doVerify_eq (c : Cfg) (f : File) (ks : List Nat) (st : InState) :
    doVerify c f ks st = (do
      let (ms, _) ← readHistory c f ks st
      return ms.length) := by
  induction ks generalizing st with
  | nil => rfl
  | cons k ks ih =>
    simp only [doVerify, readHistory]
    cases h1 : readSector c f k st with
    | error e => rfl
    | ok x =>
      simp only [Except.ok_bind', ih]
      cases h2 : readHistory c f ks x.2 with
      | error e => rfl
      | ok y => simp

theorem doMatrices_ok {c : Cfg} {f : File} {ks : List Nat} {st st' : InState} {ms : List Mat}
    (hks : ∀ k ∈ ks, k < c.ix.sectors.length) (h : readHistory c f ks st = .ok (ms, st')) :
    ∃ xs, doMatrices c f ks st = .ok xs ∧
      List.Forall₂ (fun (p : Nat × Mat) (x : SectorShown) => ∃ s, c.ix.sectors[p.1]? = some s ∧
        x = ⟨p.1, s.bra.labels, s.ket.labels, s.isDiagonal, if s.isDiagonal then completeLower p.2 else p.2⟩)
        (ks.zip ms) xs := by
  induction ks generalizing st ms with
  | nil => exact ⟨[], rfl, by simp⟩
  | cons k ks ih =>
    simp only [readHistory, Except.bind_eq_ok, Except.pure_ok, Except.ok.injEq, Prod.mk.injEq] at h
    obtain ⟨⟨m, st1⟩, h1, ⟨ms', st2⟩, h2, rfl, rfl⟩ := h
    obtain ⟨xs, hx, hF⟩ := ih (fun k hk => hks k (by simp [hk])) h2
    obtain ⟨s, hs⟩ : ∃ s, c.ix.sectors[k]? = some s := ⟨_, List.getElem?_eq_getElem (hks k (by simp))⟩
    refine ⟨⟨k, s.bra.labels, s.ket.labels, s.isDiagonal, if s.isDiagonal then completeLower m else m⟩ :: xs, ?_, ?_⟩
    · simp only [doMatrices, h1, Except.ok_bind', getSector, hs, hx, Except.pure_ok]
    · exact .cons ⟨s, hs, rfl⟩ hF

theorem doMatrices_error {c : Cfg} {f : File} {ks : List Nat} {st : InState} {e : Err}
    (hks : ∀ k ∈ ks, k < c.ix.sectors.length) (h : readHistory c f ks st = .error e) :
    doMatrices c f ks st = .error e := by
  induction ks generalizing st with
  | nil => simp [readHistory] at h
  | cons k ks ih =>
    simp only [doMatrices, readHistory] at h ⊢
    cases h1 : readSector c f k st with
    | error e' => rw [h1] at h; simpa using h
    | ok x =>
      simp only [h1, Except.ok_bind'] at h ⊢
      obtain ⟨s, hs⟩ : ∃ s, c.ix.sectors[k]? = some s := ⟨_, List.getElem?_eq_getElem (hks k (by simp))⟩
      simp only [getSector, hs, Except.ok_bind']
      cases h2 : readHistory c f ks x.2 with
      | error e' =>
        rw [h2] at h
        simp only [Except.error_bind', Except.error.injEq] at h
        subst h
        rw [ih (fun k hk => hks k (by simp [hk])) h2]
        rfl
      | ok y => rw [h2] at h; simp at h

end Stat

end Verif.H2
