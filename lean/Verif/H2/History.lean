import Verif.H2.Lemmas

/-! # File layout and call histories (helpers for `Props.lean`) -/

namespace Verif.H2
open Verif

/-- Cells (bytes or lines) occupied by sector `k`. -/
def cells (c : Cfg) (k : Nat) (s : Sector) : Nat :=
  match c.mode with
  | .binary => (if hasPre c k then 4 else 0) + inlineSectorEntries s * 4 + (if hasPost c k then 4 else 0)
  | .text => inlineSectorEntries s
  | .matrix => 0

def sizeAt (c : Cfg) (k : Nat) : Nat :=
  match c.ix.sectors[k]? with
  | some s => cells c k s
  | none => 0

def layoutPos (c : Cfg) (start : Nat) : Nat → Nat
  | 0 => start
  | k + 1 => layoutPos c start k + sizeAt c k

theorem optVerify_pos {b bs pos d p} (h : optVerify b bs pos d = .ok p) :
    p = pos + (if b then 4 else 0) := by
  unfold optVerify at h
  cases b
  · simpa using h.symm
  · simpa using verifyInt_pos h

theorem loadText_pos {fm labels ps ls pos m m' p}
    (h : loadText fm labels ps ls pos m = .ok (m', p)) :
    p = pos + ps.length ∧ (ps ≠ [] → pos + ps.length ≤ ls.length) ∧
      m'.rows = m.rows ∧ m'.cols = m.cols ∧ ∀ a b, (a, b) ∉ ps → m'.val a b = m.val a b := by
  induction ps generalizing pos m with
  | nil => simp [loadText] at h; obtain ⟨rfl, rfl⟩ := h; simp
  | cons q ps ih =>
    simp only [loadText] at h
    cases hl : ls[pos]? with
    | none => simp [hl] at h
    | some line =>
      have hpos : pos < ls.length := by
        by_contra hh; rw [List.getElem?_eq_none (by omega)] at hl; simp at hl
      simp only [hl] at h
      cases hs : line.decs.head?.bind fm.scan with
      | none => simp [hs] at h
      | some v =>
        simp only [hs] at h
        split_ifs at h with h1 h2
        obtain ⟨rfl, h3, h4, h5, h6⟩ := ih h
        refine ⟨by simp; omega, ?_, h4, h5, ?_⟩
        · intro _
          by_cases hp : ps = []
          · subst hp; simp; omega
          · have := h3 hp; simp; omega
        · intro a b hab
          simp only [List.mem_cons, not_or] at hab
          rw [h6 a b hab.2]
          have : ¬ (a = q.1 ∧ b = q.2) := by rintro ⟨rfl, rfl⟩; exact hab.1 rfl
          simp [Mat.set, this]

theorem readRaw_matrix {c : Cfg} {f : File} {k pos : Nat} {s : Sector}
    (hm : c.mode = .matrix) (h : c.ix.sectors[k]? = some s) (ha : accepts c s = true) :
    readSectorRaw c f k pos =
      if (loopPairs s.isDiagonal s.bra.size s.ket.size).isEmpty then
        .ok (Mat.zero s.bra.size s.ket.size, pos) else .error .undefinedBehaviour := by
  unfold readSectorRaw
  unfold accepts at ha
  cases hc : c.format <;> simp only [hc, Bool.and_eq_true, and_true] at ha
  · simp [readSectorV0, getSector, h, hm, ha.1, ha.2]
  · simp [readSectorV15099, getSector, h, hm, ha]
  · simp [readSectorV15200, getSector, h, hm, ha]

theorem skipRaw_matrix {c : Cfg} {f : File} {k pos : Nat} {s : Sector}
    (hm : c.mode = .matrix) (h : c.ix.sectors[k]? = some s) (ha : accepts c s = true) :
    skipSectorRaw c f k pos = .ok pos := by
  unfold skipSectorRaw
  unfold accepts at ha
  cases hc : c.format <;> simp only [hc, Bool.and_eq_true, and_true] at ha
  · simp [skipSectorV0, getSector, h, hm, ha.1, ha.2]
  · simp [skipSectorV15099, getSector, h, hm, ha]
  · simp [skipSectorV15200, getSector, h, hm, ha]

theorem writeRaw_matrix {c : Cfg} {k : Nat} {s : Sector} {m conv}
    (hm : c.mode = .matrix) (h : c.ix.sectors[k]? = some s) (ha : accepts c s = true) :
    writeSectorRaw c k m conv = .ok .empty := by
  unfold writeSectorRaw
  unfold accepts at ha
  cases hc : c.format <;> simp only [hc, Bool.and_eq_true, and_true] at ha
  · simp [writeSectorV0, getSector, h, hm, ha.1, ha.2]
  · simp [writeSectorV15099, getSector, h, hm, ha]
  · simp [writeSectorV15200, getSector, h, hm, ha]

theorem skipRaw_none {c : Cfg} {f k pos} (h : c.ix.sectors[k]? = none) :
    skipSectorRaw c f k pos = .error .undefinedBehaviour := by
  unfold skipSectorRaw
  cases c.format <;> simp [skipSectorV0, skipSectorV15099, skipSectorV15200, getSector, h]

/-- A successful read fixes the next position, leaves unstored entries zero, and a skip
from the same place succeeds and ends at the same position. -/
theorem readRaw_ok {c : Cfg} {f : File} {k pos : Nat} {m : Mat} {p : Nat}
    (hwf : ∀ s ∈ c.ix.sectors, s.WF) (h : readSectorRaw c f k pos = .ok (m, p)) :
    p = pos + sizeAt c k ∧ skipSectorRaw c f k pos = .ok p ∧
    ∃ s, c.ix.sectors[k]? = some s ∧ accepts c s = true ∧
      m.rows = s.bra.size ∧ m.cols = s.ket.size ∧
      ∀ a b, (a, b) ∉ loopPairs s.isDiagonal s.bra.size s.ket.size → m.val a b = 0 := by
  cases hs : c.ix.sectors[k]? with
  | none => rw [readRaw_none hs] at h; simp at h
  | some s =>
    have hw : s.WF := hwf s (List.mem_of_getElem? hs)
    cases ha : accepts c s with
    | false => rw [readRaw_reject hs ha] at h; simp at h
    | true =>
      cases hm : c.mode with
      | binary =>
        rw [readRaw_binary hm hs ha] at h
        rw [skipRaw_binary hm hs ha]
        simp only [Except.bind_eq_ok] at h
        obtain ⟨p1, h1, ⟨buf, p2⟩, h2, m', h3, p3, h4, h5⟩ := h
        simp only at h3 h4 h5
        simp only [Except.pure_ok, Except.ok.injEq, Prod.mk.injEq] at h5
        obtain ⟨rfl, rfl⟩ := h5
        have e1 := optVerify_pos h1
        obtain ⟨e2, e2'⟩ := readFloats_pos h2
        have e3 := optVerify_pos h4
        subst e2
        refine ⟨?_, by simp [h1, h4], s, rfl, ha, ?_⟩
        · simp only [sizeAt, hs, cells, hm]; omega
        · obtain ⟨m'', g1, g2, g3, g4⟩ := loadAll_ok c.fm
            (loopPairs s.isDiagonal s.bra.size s.ket.size) 0 buf (Mat.zero s.bra.size s.ket.size)
            (by rw [length_loopPairs hw]; omega)
          rw [h3] at g1
          cases g1
          exact ⟨g2, g3, g4⟩
      | text =>
        rw [readRaw_text hm hs ha] at h
        rw [skipRaw_text hm hs ha]
        obtain ⟨rfl, h2, h3, h4, h5⟩ := loadText_pos h
        rw [length_loopPairs hw] at h2 ⊢
        refine ⟨?_, ?_, s, rfl, ha, h3, h4, h5⟩
        · simp [sizeAt, hs, cells, hm]
        · unfold skipLines
          by_cases h0 : inlineSectorEntries s = 0
          · simp [h0]
          · rw [if_neg h0, if_pos]
            apply h2
            intro hh
            rw [← length_loopPairs hw, hh] at h0
            simp at h0
      | matrix =>
        rw [readRaw_matrix hm hs ha] at h
        rw [skipRaw_matrix hm hs ha]
        split_ifs at h
        simp only [Except.ok.injEq, Prod.mk.injEq] at h
        obtain ⟨rfl, rfl⟩ := h
        exact ⟨by simp [sizeAt, hs, cells, hm], rfl, s, rfl, ha, rfl, rfl, fun _ _ _ => rfl⟩

theorem skipRaw_pos {c : Cfg} {f : File} {k pos : Nat} {p : Nat}
    (h : skipSectorRaw c f k pos = .ok p) : p = pos + sizeAt c k := by
  cases hs : c.ix.sectors[k]? with
  | none => rw [skipRaw_none hs] at h; simp at h
  | some s =>
    cases ha : accepts c s with
    | false => rw [skipRaw_reject hs ha] at h; simp at h
    | true =>
      simp only [sizeAt, hs, cells]
      cases hm : c.mode with
      | binary =>
        rw [skipRaw_binary hm hs ha] at h
        simp only [Except.bind_eq_ok] at h
        obtain ⟨p1, h1, h2⟩ := h
        have e1 := optVerify_pos h1
        have e2 := optVerify_pos h2
        simp only; omega
      | text =>
        rw [skipRaw_text hm hs ha] at h
        simpa using skipLines_pos h
      | matrix =>
        rw [skipRaw_matrix hm hs ha] at h
        simpa using h.symm

/-! ### reading histories -/

/-- Invariant of an input stream: positions are those of the layout. -/
structure Inv (c : Cfg) (start : Nat) (st : InState) : Prop where
  pos : st.pos = layoutPos c start st.sectorIndex
  lt : st.sectorIndex < st.positions.length
  table : ∀ i p, st.positions[i]? = some p → p = layoutPos c start i

theorem inv_init (c : Cfg) (start : Nat) : Inv c start (InState.init start) := by
  refine ⟨rfl, by simp [InState.init], ?_⟩
  intro i p h
  cases i with
  | zero => simp [InState.init] at h; simp [layoutPos, h]
  | succ i => simp [InState.init] at h

theorem inv_advance {c : Cfg} {start : Nat} {st : InState} (h : Inv c start st) :
    Inv c start (advance st (st.pos + sizeAt c st.sectorIndex)) := by
  obtain ⟨h1, h2, h3⟩ := h
  refine ⟨?_, ?_, ?_⟩
  · simp [advance, layoutPos, h1]
  · simp only [advance]
    split_ifs
    · simp; omega
    · omega
  · intro i p
    simp only [advance]
    split_ifs with hh
    · intro hi
      by_cases hi' : i < st.positions.length
      · rw [List.getElem?_append_left hi'] at hi
        exact h3 i p hi
      · rw [List.getElem?_append_right (by omega)] at hi
        by_cases hz : i - st.positions.length = 0
        · simp only [hz, List.getElem?_cons_zero, Option.some.injEq] at hi
          have : i = st.sectorIndex + 1 := by omega
          rw [this, ← hi, layoutPos, h1]
        · rw [List.getElem?_eq_none (by simp; omega)] at hi; simp at hi
    · exact h3 i p

theorem inv_skipMany {c : Cfg} {f : File} {start : Nat} {n : Nat} {st st' : InState}
    (h : Inv c start st) (hs : skipMany c f n st = .ok st') :
    Inv c start st' ∧ st'.sectorIndex = st.sectorIndex + n := by
  induction n generalizing st with
  | zero => simp [skipMany] at hs; subst hs; exact ⟨h, rfl⟩
  | succ n ih =>
    simp only [skipMany, Except.bind_eq_ok] at hs
    obtain ⟨st1, h1, h2⟩ := hs
    simp only [skipSector, Except.bind_eq_ok, Except.pure_ok, Except.ok.injEq] at h1
    obtain ⟨p, h3, h4⟩ := h1
    have := skipRaw_pos h3
    subst this
    subst h4
    obtain ⟨g1, g2⟩ := ih (inv_advance h) h2
    refine ⟨g1, ?_⟩
    rw [g2]; simp [advance]; omega

theorem inv_seek {c : Cfg} {f : File} {start seek : Nat} {st st' : InState}
    (h : Inv c start st) (hs : seekToSector c f seek st = .ok st') :
    Inv c start st' ∧ st'.sectorIndex = seek := by
  simp only [seekToSector, Except.bind_eq_ok] at hs
  obtain ⟨_, _, hs⟩ := hs
  split_ifs at hs with h1
  · cases hp : st.positions[seek]? with
    | none => simp [hp] at hs
    | some p =>
      simp only [hp, Except.pure_ok, Except.ok.injEq] at hs
      subst hs
      exact ⟨⟨h.table seek p hp, by have := h.lt; simp only; omega, h.table⟩, rfl⟩
  · obtain ⟨g1, g2⟩ := inv_skipMany h hs
    refine ⟨g1, ?_⟩
    have := h.lt
    omega

/-- Result of reading sector `k` at its place in the file. -/
noncomputable def readAt (c : Cfg) (f : File) (start k : Nat) : Except Err (Mat × Nat) :=
  readSectorRaw c f k (layoutPos c start k)

theorem readSector_sound {c : Cfg} {f : File} {start k : Nat} {st st' : InState} {m : Mat}
    (hwf : ∀ s ∈ c.ix.sectors, s.WF) (h : Inv c start st)
    (hr : readSector c f k st = .ok (m, st')) :
    Inv c start st' ∧ ∃ p, readAt c f start k = .ok (m, p) := by
  simp only [readSector, Except.bind_eq_ok, Except.pure_ok, Except.ok.injEq, Prod.mk.injEq] at hr
  obtain ⟨st1, h1, ⟨m', p⟩, h2, rfl, h3⟩ := hr
  obtain ⟨g1, g2⟩ := inv_seek h h1
  simp only at h2 h3
  have := (readRaw_ok hwf h2).1
  subst this
  subst h3
  refine ⟨inv_advance g1, st1.pos + sizeAt c st1.sectorIndex, ?_⟩
  unfold readAt
  rw [← g2, ← g1.pos]
  exact h2

theorem readHistory_sound {c : Cfg} {f : File} {start : Nat} {ks : List Nat} {st st' : InState}
    {ms : List Mat} (hwf : ∀ s ∈ c.ix.sectors, s.WF) (h : Inv c start st)
    (hr : readHistory c f ks st = .ok (ms, st')) :
    Inv c start st' ∧ List.Forall₂ (fun k m => ∃ p, readAt c f start k = .ok (m, p)) ks ms := by
  induction ks generalizing st ms with
  | nil =>
    simp only [readHistory, Except.ok.injEq, Prod.mk.injEq] at hr
    obtain ⟨rfl, rfl⟩ := hr
    exact ⟨h, .nil⟩
  | cons k ks ih =>
    simp only [readHistory, Except.bind_eq_ok, Except.pure_ok, Except.ok.injEq, Prod.mk.injEq] at hr
    obtain ⟨⟨m, st1⟩, h1, ⟨ms', st2⟩, h2, rfl, rfl⟩ := hr
    obtain ⟨g1, g2⟩ := readSector_sound hwf h h1
    obtain ⟨g3, g4⟩ := ih g1 h2
    exact ⟨g3, .cons g2 g4⟩

theorem skipMany_complete {c : Cfg} {f : File} {start n : Nat} {st : InState}
    (h : Inv c start st)
    (hall : ∀ i, i < st.sectorIndex + n → ∃ p, skipSectorRaw c f i (layoutPos c start i) = .ok p) :
    ∃ st', skipMany c f n st = .ok st' := by
  induction n generalizing st with
  | zero => exact ⟨st, rfl⟩
  | succ n ih =>
    obtain ⟨p, hp⟩ := hall st.sectorIndex (by omega)
    have hp' := skipRaw_pos hp
    rw [← h.pos] at hp hp'
    subst hp'
    obtain ⟨st', h'⟩ := ih (inv_advance h) (by
      intro i hi; apply hall; simp [advance] at hi; omega)
    exact ⟨st', by simp [skipMany, skipSector, hp, h']⟩

theorem readSector_complete {c : Cfg} {f : File} {start k : Nat} {st : InState}
    (hwf : ∀ s ∈ c.ix.sectors, s.WF) (h : Inv c start st) (hk : k < c.ix.sectors.length)
    (hall : ∀ i, i < c.ix.sectors.length → ∃ m p, readAt c f start i = .ok (m, p)) :
    ∃ m st', readSector c f k st = .ok (m, st') := by
  have hseek : ∃ st1, seekToSector c f k st = .ok st1 := by
    unfold seekToSector
    simp only [hk, decide_true, assertE_true, Except.ok_bind']
    split_ifs with h1
    · have hlt := h.lt
      have : k < st.positions.length := by omega
      simp [this]
    · apply skipMany_complete h
      intro i hi
      have hlt := h.lt
      obtain ⟨m, p, hm⟩ := hall i (by omega)
      exact ⟨p, (readRaw_ok hwf hm).2.1⟩
  obtain ⟨st1, h1⟩ := hseek
  obtain ⟨g1, g2⟩ := inv_seek h h1
  obtain ⟨m, p, hm⟩ := hall k hk
  refine ⟨m, advance st1 p, ?_⟩
  unfold readAt at hm
  rw [← g2, ← g1.pos] at hm
  simp [readSector, h1, hm]

theorem readHistory_complete {c : Cfg} {f : File} {start : Nat} {ks : List Nat} {st : InState}
    (hwf : ∀ s ∈ c.ix.sectors, s.WF) (h : Inv c start st)
    (hks : ∀ k ∈ ks, k < c.ix.sectors.length)
    (hall : ∀ i, i < c.ix.sectors.length → ∃ m p, readAt c f start i = .ok (m, p)) :
    ∃ ms st', readHistory c f ks st = .ok (ms, st') := by
  induction ks generalizing st with
  | nil => exact ⟨[], st, rfl⟩
  | cons k ks ih =>
    obtain ⟨m, st1, h1⟩ := readSector_complete hwf h (hks k (by simp)) hall
    obtain ⟨ms, st2, h2⟩ := ih (readSector_sound hwf h h1).1 (fun k hk => hks k (by simp [hk]))
    exact ⟨m :: ms, st2, by simp [readHistory, h1, h2]⟩

/-! ### writing histories -/

/-- The file produced by a successful sequence of calls, chunk by chunk. -/
theorem writeHistory_ok {c : Cfg} {ws : List WriteCall} {st st' : OutState}
    (h : writeHistory c ws st = .ok st') :
    st'.sectorIndex = st.sectorIndex + ws.length ∧
    ∃ chunks : List File, chunks.length = ws.length ∧
      st'.out.bytes = st.out.bytes ++ (chunks.map File.bytes).flatten ∧
      st'.out.lines = st.out.lines ++ (chunks.map File.lines).flatten ∧
      ∀ i (w : WriteCall) (ch : File), ws[i]? = some w → chunks[i]? = some ch →
        w.index = st.sectorIndex + i ∧
        (∃ s, c.ix.sectors[st.sectorIndex + i]? = some s ∧ w.mat.rows = s.bra.size ∧
          w.mat.cols = s.ket.size) ∧ (w.conv = .none ∨ w.conv = .asToNAS) ∧
        writeSectorRaw c (st.sectorIndex + i) w.mat w.conv = .ok ch := by
  induction ws generalizing st with
  | nil =>
    simp only [writeHistory, Except.ok.injEq] at h
    subst h
    exact ⟨rfl, [], rfl, by simp, by simp, by simp⟩
  | cons w ws ih =>
    simp only [writeHistory, Except.bind_eq_ok] at h
    obtain ⟨st1, h1, h2⟩ := h
    simp only [writeSector, Except.bind_eq_ok, assertE_ok, decide_eq_true_eq, Except.pure_ok,
      Except.ok.injEq] at h1
    obtain ⟨s, hs, _, hidx, _, hdim, _, hconv, ch, hch, rfl⟩ := h1
    rw [getSector_ok] at hs
    obtain ⟨e1, chunks, e2, e3, e4, e5⟩ := ih h2
    refine ⟨by rw [e1]; simp; omega, ch :: chunks, by simp [e2], ?_, ?_, ?_⟩
    · rw [e3]; simp [File.append]
    · rw [e4]; simp [File.append]
    · intro i w' ch' hw hc
      cases i with
      | zero =>
        simp only [List.getElem?_cons_zero, Option.some.injEq] at hw hc
        subst hw; subst hc
        exact ⟨hidx, ⟨s, hs, hdim⟩, hconv, hch⟩
      | succ i =>
        simp only [List.getElem?_cons_succ] at hw hc
        have := e5 i w' ch' hw hc
        have e : st.sectorIndex + 1 + i = st.sectorIndex + (i + 1) := by omega
        simp only [e] at this
        exact this

theorem flatten_take_drop {α β : Type} (g : α → List β) (xs : List α) (k : Nat) (x : α)
    (h : xs[k]? = some x) :
    (xs.map g).flatten = ((xs.take k).map g).flatten ++ (g x ++ ((xs.drop (k + 1)).map g).flatten) := by
  induction xs generalizing k with
  | nil => simp at h
  | cons y ys ih =>
    cases k with
    | zero => simp at h; subst h; simp
    | succ k =>
      simp only [List.getElem?_cons_succ] at h
      simp [ih k h]

theorem writeRaw_bytes_length {c : Cfg} {k m conv ch} (hm : c.mode = .binary)
    (hwf : ∀ s ∈ c.ix.sectors, s.WF) (h : writeSectorRaw c k m conv = .ok ch) :
    ch.bytes.length = sizeAt c k := by
  cases hs : c.ix.sectors[k]? with
  | none =>
    exfalso
    unfold writeSectorRaw at h
    cases hc : c.format <;>
      simp [hc, writeSectorV0, writeSectorV15099, writeSectorV15200, getSector, hs] at h
  | some s =>
    have hw : s.WF := hwf s (List.mem_of_getElem? hs)
    cases ha : accepts c s with
    | false => rw [writeRaw_reject hs ha] at h; simp at h
    | true =>
      rw [writeRaw_binary hm hs ha hw] at h
      simp only [Except.bind_eq_ok, Except.pure_ok, Except.ok.injEq] at h
      obtain ⟨_, _, rfl⟩ := h
      simp only [sizeAt, hs, cells, hm, List.length_append, encodeWords_length, List.length_map,
        length_loopPairs hw]
      split_ifs <;> simp

theorem writeRaw_lines_length {c : Cfg} {k m conv ch} (hm : c.mode = .text)
    (hwf : ∀ s ∈ c.ix.sectors, s.WF) (h : writeSectorRaw c k m conv = .ok ch) :
    ch.lines.length = sizeAt c k := by
  cases hs : c.ix.sectors[k]? with
  | none =>
    exfalso
    unfold writeSectorRaw at h
    cases hc : c.format <;>
      simp [hc, writeSectorV0, writeSectorV15099, writeSectorV15200, getSector, hs] at h
  | some s =>
    have hw : s.WF := hwf s (List.mem_of_getElem? hs)
    cases ha : accepts c s with
    | false => rw [writeRaw_reject hs ha] at h; simp at h
    | true =>
      rw [writeRaw_text hm hs ha] at h
      simp only [Except.ok.injEq] at h
      subst h
      simp [sizeAt, hs, cells, hm, length_loopPairs hw]

/-- Length of the first `k` chunks. -/
theorem chunks_prefix_length {c : Cfg} {α : Type} (start : Nat) (g : File → List α)
    (chunks : List File)
    (hlen : ∀ i ch, chunks[i]? = some ch → (g ch).length = sizeAt c i) (k : Nat)
    (hk : k ≤ chunks.length) :
    start + (((chunks.take k).map g).flatten).length = layoutPos c start k := by
  induction k with
  | zero => simp [layoutPos]
  | succ k ih =>
    have hk' : k < chunks.length := by omega
    rw [List.take_add_one, List.map_append, List.flatten_append, List.length_append, ← Nat.add_assoc,
      ih (by omega), layoutPos]
    congr 1
    rw [List.getElem?_eq_getElem hk']
    simp [hlen k _ (List.getElem?_eq_getElem hk')]

end Verif.H2
