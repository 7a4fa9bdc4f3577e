import Verif.H2.More
import Verif.H2.Witness
import Mathlib.Tactic.Ring
import Mathlib.Tactic.Positivity
import Mathlib.Algebra.BigOperators.Group.List.Basic

/-! # Properties of the H2 sector streams (C01–C06, C09–C14) -/

namespace Verif.H2
open Verif

/-! ### Everything valid can be written (used below to show that hypotheses can be met) -/

/-- **C12 (every valid operator can be written).** If all sectors are acceptable to the format and
each record is short enough, writing all of them in order succeeds. -/
theorem valid_operator_can_be_written (c : Cfg) (hwf : ∀ s ∈ c.ix.sectors, s.WF)
    (hacc : ∀ s ∈ c.ix.sectors, s.braIndex ≤ s.ketIndex ∧ (c.format = .v0 → s.braIndex = s.ketIndex))
    (hfit : ∀ t, 4 * sizeByType c.ix.sectors t < 2 ^ 31 - 9)
    (calls : List WriteCall) (hdr : File)
    (hcalls : List.Forall₂ (fun w s => w.mat.rows = s.bra.size ∧ w.mat.cols = s.ket.size ∧
      (w.conv = .none ∨ w.conv = .asToNAS)) calls c.ix.sectors)
    (hidx : calls.map (·.index) = List.range calls.length) :
    ∃ st, writeHistory c calls ⟨0, hdr⟩ = .ok st := by
  apply writeHistory_complete
  intro i w hi
  have hl := hcalls.length_eq
  have h1 : i < calls.length := by
    by_contra hh; rw [List.getElem?_eq_none (by omega)] at hi; simp at hi
  have h2 : i < c.ix.sectors.length := by omega
  rw [List.getElem?_eq_getElem h1] at hi
  cases hi
  have hw := hcalls.get h1 h2
  simp only [List.get_eq_getElem] at hw
  have hix : calls[i].index = i := by
    have := congrArg (fun l => l[i]?) hidx
    simp only [List.getElem?_map, List.getElem?_eq_getElem h1, Option.map_some] at this
    rw [List.getElem?_eq_getElem (by simpa using h1)] at this
    simpa using this
  simp only [Nat.zero_add]
  have hs := List.getElem?_eq_getElem h2
  obtain ⟨ha1, ha2⟩ := hacc _ (List.getElem_mem h2)
  refine ⟨hix, ⟨_, hs, hw.1, hw.2.1⟩, hw.2.2, writeRaw_complete hs ?_ (hwf _ (List.getElem_mem h2)) ?_⟩
  · unfold accepts
    simp only [Sector.isUpperTriangle, ha1, decide_true, Bool.true_and]
    cases hf : c.format <;> simp [Sector.isDiagonal]
    exact ha2 hf
  · intro _
    unfold recordFits
    have := hfit c.ix.sectors[i].ket.species
    rw [Bool.or_eq_true]
    right
    rw [decide_eq_true_iff]
    unfold kMaxRecordLength
    omega

/-- The sample operator of `Witness.lean` can be written in every format and mode. -/
theorem Ex.written (f : Format) (m : Mode) (hdr : File) :
    ∃ st, writeHistory (Ex.cfg f m) (Ex.calls f) ⟨0, hdr⟩ = .ok st :=
  valid_operator_can_be_written _ (Ex.wf f m) (Ex.upper f m) (Ex.small f m) _ hdr
    (Ex.calls_fit f m) (Ex.calls_index f)

/-! ### C01 — binary round trip -/

/-- **C01.** Write all sectors of an operator to a binary file (formats 0, 15099, 15200; `hdr` is
whatever the header routines put before the body).  Then any history of reads, in any order,
succeeds, and each read returns the single-precision image of what was written. -/
theorem binary_round_trip (c : Cfg) (hm : c.mode = .binary) (hwf : ∀ s ∈ c.ix.sectors, s.WF)
    (hdr : File) (calls : List WriteCall) (st : OutState)
    (hwrite : writeHistory c calls ⟨0, hdr⟩ = .ok st)
    (hall : calls.length = c.ix.sectors.length)
    (ks : List Nat) (hks : ∀ k ∈ ks, k < c.ix.sectors.length) :
    ∃ ms st', readHistory c st.out ks (InState.init hdr.bytes.length) = .ok (ms, st') ∧
      List.Forall₂ (fun k m => ∃ s w, c.ix.sectors[k]? = some s ∧ calls[k]? = some w ∧
        IsImage c.fm id s w m) ks ms := by
  obtain ⟨_, chunks, hlen, hb, _, hcall⟩ := writeHistory_ok hwrite
  simp only [Nat.zero_add] at hcall
  have key : ∀ k, k < c.ix.sectors.length → ∃ m p s w, readAt c st.out hdr.bytes.length k = .ok (m, p) ∧
      c.ix.sectors[k]? = some s ∧ calls[k]? = some w ∧ IsImage c.fm id s w m := by
    intro k hk
    have hk1 : k < calls.length := by omega
    have hk2 : k < chunks.length := by omega
    obtain ⟨_, ⟨s, hs, _⟩, hconv, hch⟩ := hcall k _ _ (List.getElem?_eq_getElem hk1)
      (List.getElem?_eq_getElem hk2)
    have hsplit := flatten_take_drop File.bytes chunks k _ (List.getElem?_eq_getElem hk2)
    have hpl := chunks_prefix_length (c := c) hdr.bytes.length File.bytes chunks (by
      intro i ch hi
      have hi' : i < calls.length := by
        by_contra hh
        rw [List.getElem?_eq_none (by omega)] at hi; simp at hi
      exact writeRaw_bytes_length hm hwf (hcall i _ _ (List.getElem?_eq_getElem hi') hi).2.2.2)
      k (by omega)
    obtain ⟨m, p, h1, h2⟩ := readAt_written_binary (c := c) (start := hdr.bytes.length) (f := st.out)
      (pre := hdr.bytes ++ ((chunks.take k).map File.bytes).flatten)
      (post := ((chunks.drop (k + 1)).map File.bytes).flatten) hm hs
      (hwf s (List.mem_of_getElem? hs)) hconv hch
      (by rw [hb, hsplit]; simp) (by rw [List.length_append, hpl])
    exact ⟨m, p, s, _, h1, hs, List.getElem?_eq_getElem hk1, h2⟩
  obtain ⟨ms, st', hr⟩ := readHistory_complete hwf (inv_init c hdr.bytes.length) hks
    (fun i hi => by obtain ⟨m, p, _, _, h, _⟩ := key i hi; exact ⟨m, p, h⟩)
  refine ⟨ms, st', hr, ?_⟩
  have hsound := (readHistory_sound hwf (inv_init c hdr.bytes.length) hr).2
  clear hr
  induction hsound with
  | nil => exact .nil
  | @cons k0 m0 ks0 ms0 h1 h2 ih =>
    refine .cons ?_ (ih (fun k hk => hks k (by simp [hk])))
    obtain ⟨m, p, s, w, g1, g2, g3, g4⟩ := key k0 (hks k0 (by simp))
    obtain ⟨p', h1⟩ := h1
    rw [h1] at g1
    cases g1
    exact ⟨s, w, g2, g3, g4⟩

/-- Non-vacuity: out-of-order reading of the sample operator in a 15099 file. -/
example (hdr : File) : ∃ st ms st', writeHistory (Ex.cfg .v15099 .binary) (Ex.calls .v15099) ⟨0, hdr⟩ = .ok st ∧
    readHistory (Ex.cfg .v15099 .binary) st.out [3, 1, 1, 0] (InState.init hdr.bytes.length) = .ok (ms, st') := by
  obtain ⟨st, h⟩ := Ex.written .v15099 .binary hdr
  obtain ⟨ms, st', h', _⟩ := binary_round_trip _ rfl (Ex.wf _ _) hdr _ st h (Ex.calls_length _ _)
    [3, 1, 1, 0] (by simp [Ex.cfg, Ex.sectors])
  exact ⟨st, ms, st', h, h'⟩

/-! ### C09 — text round trip -/

/-- **C09 (round trip).** The same for text files, up to the rounding `r` of decimal output. -/
theorem text_round_trip (c : Cfg) (hm : c.mode = .text) (hwf : ∀ s ∈ c.ix.sectors, s.WF)
    (r : BitVec 32 → BitVec 32) (hr : ∀ x, c.fm.scan (c.fm.fmt x) = some (r x))
    (hdr : File) (calls : List WriteCall) (st : OutState)
    (hwrite : writeHistory c calls ⟨0, hdr⟩ = .ok st)
    (hall : calls.length = c.ix.sectors.length)
    (ks : List Nat) (hks : ∀ k ∈ ks, k < c.ix.sectors.length) :
    ∃ ms st', readHistory c st.out ks (InState.init hdr.lines.length) = .ok (ms, st') ∧
      List.Forall₂ (fun k m => ∃ s w, c.ix.sectors[k]? = some s ∧ calls[k]? = some w ∧
        IsImage c.fm r s w m) ks ms := by
  obtain ⟨_, chunks, hlen, _, hb, hcall⟩ := writeHistory_ok hwrite
  simp only [Nat.zero_add] at hcall
  have key : ∀ k, k < c.ix.sectors.length → ∃ m p s w, readAt c st.out hdr.lines.length k = .ok (m, p) ∧
      c.ix.sectors[k]? = some s ∧ calls[k]? = some w ∧ IsImage c.fm r s w m := by
    intro k hk
    have hk1 : k < calls.length := by omega
    have hk2 : k < chunks.length := by omega
    obtain ⟨_, ⟨s, hs, _⟩, hconv, hch⟩ := hcall k _ _ (List.getElem?_eq_getElem hk1)
      (List.getElem?_eq_getElem hk2)
    have hsplit := flatten_take_drop File.lines chunks k _ (List.getElem?_eq_getElem hk2)
    have hpl := chunks_prefix_length (c := c) hdr.lines.length File.lines chunks (by
      intro i ch hi
      have hi' : i < calls.length := by
        by_contra hh
        rw [List.getElem?_eq_none (by omega)] at hi; simp at hi
      exact writeRaw_lines_length hm hwf (hcall i _ _ (List.getElem?_eq_getElem hi') hi).2.2.2)
      k (by omega)
    obtain ⟨m, p, h1, h2⟩ := readAt_written_text (c := c) (start := hdr.lines.length) (f := st.out)
      (pre := hdr.lines ++ ((chunks.take k).map File.lines).flatten)
      (post := ((chunks.drop (k + 1)).map File.lines).flatten) hr hm hs hconv hch
      (by rw [hb, hsplit]; simp) (by rw [List.length_append, hpl])
    exact ⟨m, p, s, _, h1, hs, List.getElem?_eq_getElem hk1, h2⟩
  obtain ⟨ms, st', hr'⟩ := readHistory_complete hwf (inv_init c hdr.lines.length) hks
    (fun i hi => by obtain ⟨m, p, _, _, h, _⟩ := key i hi; exact ⟨m, p, h⟩)
  refine ⟨ms, st', hr', ?_⟩
  have hsound := (readHistory_sound hwf (inv_init c hdr.lines.length) hr').2
  clear hr'
  induction hsound with
  | nil => exact .nil
  | @cons k0 m0 ks0 ms0 h1 h2 ih =>
    refine .cons ?_ (ih (fun k hk => hks k (by simp [hk])))
    obtain ⟨m, p, s, w, g1, g2, g3, g4⟩ := key k0 (hks k0 (by simp))
    obtain ⟨p', h1⟩ := h1
    rw [h1] at g1
    cases g1
    exact ⟨s, w, g2, g3, g4⟩

example (hdr : File) : ∃ st ms st', writeHistory (Ex.cfg .v15200 .text) (Ex.calls .v15200) ⟨0, hdr⟩ = .ok st ∧
    readHistory (Ex.cfg .v15200 .text) st.out [2, 0] (InState.init hdr.lines.length) = .ok (ms, st') := by
  obtain ⟨st, h⟩ := Ex.written .v15200 .text hdr
  obtain ⟨ms, st', h', _⟩ := text_round_trip _ rfl (Ex.wf _ _) _ Ex.scan_fmt hdr _ st h
    (Ex.calls_length _ _) [2, 0] (by simp [Ex.cfg, Ex.sectors])
  exact ⟨st, ms, st', h, h'⟩

/-! ### C02 — random access -/

/-- **C02.** If reading the sectors one after the other succeeds, then any history of reads in any
order (repetitions, backward and forward jumps) succeeds too, and returns for each requested
sector the matrix that sequential reading returned. No assumption on the file content. -/
theorem random_access_eq_sequential (c : Cfg) (hwf : ∀ s ∈ c.ix.sectors, s.WF) (f : File)
    (start : Nat) (all : List Mat) (stAll : InState)
    (hseq : readHistory c f (List.range c.ix.sectors.length) (InState.init start) = .ok (all, stAll))
    (ks : List Nat) (hks : ∀ k ∈ ks, k < c.ix.sectors.length) :
    ∃ ms st', readHistory c f ks (InState.init start) = .ok (ms, st') ∧
      List.Forall₂ (fun k m => all[k]? = some m) ks ms := by
  have h1 := (readHistory_sound hwf (inv_init c start) hseq).2
  have hall : ∀ i, i < c.ix.sectors.length → ∃ m p, readAt c f start i = .ok (m, p) ∧
      all[i]? = some m := by
    intro i hi
    have hi' : i < all.length := by rw [← h1.length_eq]; simpa using hi
    have := h1.get (i := i) (by simpa using hi) hi'
    simp only [List.get_eq_getElem, List.getElem_range] at this
    obtain ⟨p, hp⟩ := this
    exact ⟨_, p, hp, List.getElem?_eq_getElem hi'⟩
  obtain ⟨ms, st', hr⟩ := readHistory_complete hwf (inv_init c start) hks
    (fun i hi => by obtain ⟨m, p, h, _⟩ := hall i hi; exact ⟨m, p, h⟩)
  refine ⟨ms, st', hr, ?_⟩
  have h2 := (readHistory_sound hwf (inv_init c start) hr).2
  clear hr
  induction h2 with
  | nil => exact .nil
  | @cons k0 m0 ks0 ms0 g1 g2 ih =>
    refine .cons ?_ (ih (fun k hk => hks k (by simp [hk])))
    obtain ⟨m, p, e1, e2⟩ := hall k0 (hks k0 (by simp))
    obtain ⟨p', g1⟩ := g1
    rw [e1] at g1
    cases g1
    exact e2

/-- Non-vacuity: the sequential reading of a written file succeeds. -/
example (hdr : File) : ∃ f all st, readHistory (Ex.cfg .v0 .binary) f
    (List.range (Ex.cfg .v0 .binary).ix.sectors.length) (InState.init hdr.bytes.length) = .ok (all, st) := by
  obtain ⟨st, h⟩ := Ex.written .v0 .binary hdr
  obtain ⟨ms, st', h', _⟩ := binary_round_trip _ rfl (Ex.wf _ _) hdr _ st h (Ex.calls_length _ _)
    (List.range (Ex.cfg .v0 .binary).ix.sectors.length) (by simp)
  exact ⟨_, ms, st', h'⟩

/-- **C02 (agreement).** Two successful histories on two streams of the same file agree wherever
they read the same sector, even when the file as a whole is damaged. -/
theorem reads_independent_of_history (c : Cfg) (hwf : ∀ s ∈ c.ix.sectors, s.WF) (f : File)
    (start : Nat) (ks ks' : List Nat) (ms ms' : List Mat) (st st' : InState)
    (h : readHistory c f ks (InState.init start) = .ok (ms, st))
    (h' : readHistory c f ks' (InState.init start) = .ok (ms', st'))
    (i j : Nat) (k : Nat) (hi : ks[i]? = some k) (hj : ks'[j]? = some k) :
    ∃ m, ms[i]? = some m ∧ ms'[j]? = some m := by
  have h1 := (readHistory_sound hwf (inv_init c start) h).2
  have h2 := (readHistory_sound hwf (inv_init c start) h').2
  have li : i < ks.length := by
    by_contra hh; rw [List.getElem?_eq_none (by omega)] at hi; simp at hi
  have lj : j < ks'.length := by
    by_contra hh; rw [List.getElem?_eq_none (by omega)] at hj; simp at hj
  have li' : i < ms.length := by rw [← h1.length_eq]; exact li
  have lj' : j < ms'.length := by rw [← h2.length_eq]; exact lj
  obtain ⟨p, hp⟩ := h1.get li li'
  obtain ⟨q, hq⟩ := h2.get lj lj'
  simp only [List.get_eq_getElem] at hp hq
  rw [List.getElem?_eq_getElem li] at hi
  rw [List.getElem?_eq_getElem lj] at hj
  cases hi
  have : ks'[j] = ks[i] := by simpa using hj
  rw [this, hp] at hq
  have hm : ms[i] = ms'[j] := by
    have := congrArg (fun x => x.toOption.map Prod.fst) hq
    simpa [Except.toOption] using this
  exact ⟨ms[i], List.getElem?_eq_getElem li', by rw [hm]; exact List.getElem?_eq_getElem lj'⟩

example (hdr : File) : ∃ f ms st ms' st', readHistory (Ex.cfg .v0 .binary) f [2, 0]
      (InState.init hdr.bytes.length) = .ok (ms, st) ∧
    readHistory (Ex.cfg .v0 .binary) f [1, 0, 2] (InState.init hdr.bytes.length) = .ok (ms', st') := by
  obtain ⟨st, h⟩ := Ex.written .v0 .binary hdr
  obtain ⟨ms, st1, h1, _⟩ := binary_round_trip _ rfl (Ex.wf _ _) hdr _ st h (Ex.calls_length _ _)
    [2, 0] (by simp [Ex.cfg, Ex.sectors])
  obtain ⟨ms', st2, h2, _⟩ := binary_round_trip _ rfl (Ex.wf _ _) hdr _ st h (Ex.calls_length _ _)
    [1, 0, 2] (by simp [Ex.cfg, Ex.sectors])
  exact ⟨_, ms, st1, ms', st2, h1, h2⟩

/-! ### C03 — skipping -/

/-- **C03.** In every state a history of reads can lead to, if reading the next sector succeeds
then skipping it succeeds as well and leaves the stream in the same state (sector counter, file
position and table of sector positions). -/
theorem skip_agrees_with_read (c : Cfg) (hwf : ∀ s ∈ c.ix.sectors, s.WF) (f : File)
    (start : Nat) (ks : List Nat) (ms : List Mat) (st st' : InState) (m : Mat)
    (hreach : readHistory c f ks (InState.init start) = .ok (ms, st))
    (hread : readSector c f st.sectorIndex st = .ok (m, st')) :
    skipSector c f st = .ok st' := by
  have hinv := (readHistory_sound hwf (inv_init c start) hreach).1
  have hseek : ∀ st2, seekToSector c f st.sectorIndex st = .ok st2 → st2 = st := by
    intro st2 h2
    unfold seekToSector at h2
    simp only [Except.bind_eq_ok] at h2
    obtain ⟨_, _, h2⟩ := h2
    rw [if_pos (by have := hinv.lt; omega)] at h2
    rw [List.getElem?_eq_getElem hinv.lt] at h2
    simp only [Except.pure_ok, Except.ok.injEq] at h2
    have := hinv.table _ _ (List.getElem?_eq_getElem hinv.lt)
    rw [← h2, this, ← hinv.pos]
  unfold readSector at hread
  simp only [Except.bind_eq_ok] at hread
  obtain ⟨st2, h2, ⟨m', p⟩, h3, h4⟩ := hread
  cases hseek _ h2
  simp only [Except.pure_ok, Except.ok.injEq, Prod.mk.injEq] at h4
  obtain ⟨rfl, rfl⟩ := h4
  unfold skipSector
  rw [(readRaw_ok hwf h3).2.1]
  rfl

/-- Non-vacuity: after reading sector 0 of the sample file, the next sector can be read. -/
example (hdr : File) : ∃ f ms st m st', readHistory (Ex.cfg .v15099 .binary) f [0]
      (InState.init hdr.bytes.length) = .ok (ms, st) ∧
    readSector (Ex.cfg .v15099 .binary) f st.sectorIndex st = .ok (m, st') := by
  obtain ⟨st, h⟩ := Ex.written .v15099 .binary hdr
  obtain ⟨ms, st', h', _⟩ := binary_round_trip _ rfl (Ex.wf _ _) hdr _ st h (Ex.calls_length _ _)
    [0, 1] (by simp [Ex.cfg, Ex.sectors])
  simp only [readHistory, Except.bind_eq_ok] at h'
  obtain ⟨⟨m0, s0⟩, e0, ⟨ms1, s1⟩, ⟨⟨m1, s2⟩, e1, _⟩, _⟩ := h'
  have hidx : s0.sectorIndex = 1 := by
    simp only [readSector, Except.bind_eq_ok, Except.pure_ok, Except.ok.injEq, Prod.mk.injEq] at e0
    obtain ⟨t, ht, ⟨m', p'⟩, _, _, rfl⟩ := e0
    have := (inv_seek (inv_init (Ex.cfg .v15099 .binary) hdr.bytes.length) ht).2
    simp [advance, this]
  exact ⟨st.out, [m0], s0, m1, s2, by simp [readHistory, e0], by rw [hidx]; exact e1⟩

/-- **C03 (converse).** For a binary file, if skipping succeeds and does not run past the end of
the file, reading succeeds and arrives at the same place. -/
theorem read_succeeds_where_skip_does (c : Cfg) (hm : c.mode = .binary)
    (hwf : ∀ s ∈ c.ix.sectors, s.WF) (f : File) (k pos p : Nat)
    (hskip : skipSectorRaw c f k pos = .ok p) (hend : p ≤ f.bytes.length) :
    ∃ m, readSectorRaw c f k pos = .ok (m, p) := by
  cases hs : c.ix.sectors[k]? with
  | none => rw [skipRaw_none hs] at hskip; simp at hskip
  | some s =>
    cases ha : accepts c s with
    | false => rw [skipRaw_reject hs ha] at hskip; simp at hskip
    | true =>
      rw [skipRaw_binary hm hs ha] at hskip
      simp only [Except.bind_eq_ok] at hskip
      obtain ⟨p1, h1, h2⟩ := hskip
      have hp := optVerify_pos h2
      rw [readRaw_binary hm hs ha, h1, Except.ok_bind']
      have hrf : ∃ vs, readFloats f.bytes p1 (inlineSectorEntries s)
          = .ok (vs, p1 + inlineSectorEntries s * 4) := by
        unfold readFloats readRaw
        by_cases h0 : inlineSectorEntries s * 4 = 0
        · exact ⟨decodeWords (inlineSectorEntries s) [], by simp [h0]⟩
        · refine ⟨decodeWords (inlineSectorEntries s)
            ((f.bytes.drop p1).take (inlineSectorEntries s * 4)), ?_⟩
          rw [if_neg h0, if_pos (by omega)]; rfl
      obtain ⟨vs, hvs⟩ := hrf
      have hl := (readFloats_pos hvs).2
      obtain ⟨m', hm', _⟩ := loadAll_ok c.fm (loopPairs s.isDiagonal s.bra.size s.ket.size) 0 vs
        (Mat.zero s.bra.size s.ket.size) (by
          rw [length_loopPairs (hwf s (List.mem_of_getElem? hs))]; omega)
      refine ⟨m', ?_⟩
      rw [hvs, Except.ok_bind']
      simp only
      rw [hm', Except.ok_bind', h2]
      rfl

/-- Non-vacuity: a 15200 file whose body is twelve bytes. -/
example : skipSectorRaw (Ex.cfg .v15200 .binary) ⟨List.replicate 12 0#8, []⟩ 0 0 = .ok 12 := by
  decide

/-! ### C04 — Fortran records -/

/-- Stored words of all sectors of one species type, in file order. -/
noncomputable def typePayload (c : Cfg) (calls : List WriteCall) (t : Species) : List Byte :=
  (((c.ix.sectors.zip calls).filter fun p => p.1.bra.species = t).map fun p =>
    encodeWords (sectorWords c.fm p.1 p.2)).flatten

/-- **C04.** For the formats with record structure (0 and 15099), when the sectors are grouped by
species type and conserve it, the body of the file is exactly one well-formed Fortran record per
species type that occurs (none for the others), whose two markers are equal to the payload length,
and whose length fits in a 32-bit integer. -/
theorem fortran_records (c : Cfg) (hm : c.mode = .binary) (hfmt : c.format ≠ .v15200)
    (hwf : ∀ s ∈ c.ix.sectors, s.WF)
    (hsort : c.ix.sectors.Pairwise fun a b => a.bra.species.idx ≤ b.bra.species.idx)
    (hsame : ∀ s ∈ c.ix.sectors, s.ket.species = s.bra.species)
    (hdr : File) (calls : List WriteCall) (st : OutState)
    (hwrite : writeHistory c calls ⟨0, hdr⟩ = .ok st)
    (hall : calls.length = c.ix.sectors.length) :
    st.out.bytes = hdr.bytes ++ ([Species.pp, .nn, .pn].map fun t =>
      if (∃ s ∈ c.ix.sectors, s.bra.species = t) then fortranRecord (typePayload c calls t)
      else []).flatten ∧
    (∀ t, (typePayload c calls t).length
      = 4 * ((c.ix.sectors.filter fun s => s.bra.species = t).map storedCount).sum) ∧
    (∀ t, (typePayload c calls t).length < 2 ^ 31 - 1) := by
  obtain ⟨_, chunks, hlen, hb, _, hcall⟩ := writeHistory_ok hwrite
  simp only [Nat.zero_add] at hcall
  have hud : useDelims c.format = true := by
    cases hf : c.format <;> simp_all [useDelims]
  -- facts per sector
  have hsec : ∀ k, (hk : k < c.ix.sectors.length) → ∃ w, calls[k]? = some w ∧ ∃ ch, chunks[k]? = some ch ∧
      accepts c c.ix.sectors[k] = true ∧ recordFits c k c.ix.sectors[k] = true ∧
      (w.conv = .none ∨ w.conv = .asToNAS) ∧
      ch.bytes = (if firstB c.ix.sectors k then bytes32 (delimOf c c.ix.sectors[k]) else [])
        ++ encodeWords (sectorWords c.fm c.ix.sectors[k] w)
        ++ (if lastB c.ix.sectors k then bytes32 (delimOf c c.ix.sectors[k]) else []) := by
    intro k hk
    have hk1 : k < calls.length := by omega
    have hk2 : k < chunks.length := by omega
    obtain ⟨_, _, hconv, hch⟩ := hcall k _ _ (List.getElem?_eq_getElem hk1)
      (List.getElem?_eq_getElem hk2)
    have hs := List.getElem?_eq_getElem hk
    have ha : accepts c c.ix.sectors[k] = true := by
      cases ha : accepts c c.ix.sectors[k] with
      | false => rw [writeRaw_reject hs ha] at hch; simp at hch
      | true => rfl
    rw [writeRaw_binary hm hs ha (hwf _ (List.getElem_mem hk)), sectorWords_eq _ _ _ hconv] at hch
    simp only [Except.bind_eq_ok, Except.pure_ok, Except.ok.injEq] at hch
    obtain ⟨_, hfit, hch⟩ := hch
    refine ⟨_, List.getElem?_eq_getElem hk1, _, List.getElem?_eq_getElem hk2, ha,
      assertE_ok.1 hfit, hconv, ?_⟩
    rw [← hch]
    simp [hasPre, hasPost, hud]
  have hupper : ∀ s ∈ c.ix.sectors, s.isUpperTriangle = true := by
    intro s hs
    obtain ⟨k, hk, rfl⟩ := List.getElem_of_mem hs
    obtain ⟨w, _, ch, _, ha, _⟩ := hsec k hk
    unfold accepts at ha
    exact (Bool.and_eq_true_iff.1 ha).1
  -- payload length
  have hwlen : ∀ p ∈ c.ix.sectors.zip calls,
      (encodeWords (sectorWords c.fm p.1 p.2)).length = 4 * getSectorCount p.1 := by
    intro p hp
    obtain ⟨k, hk, rfl⟩ := List.getElem_of_mem hp
    have hks : k < c.ix.sectors.length := by simp at hk; omega
    have hkc : k < calls.length := by omega
    obtain ⟨w, hw, ch, _, ha, _, hconv, _⟩ := hsec k hks
    rw [List.getElem?_eq_getElem hkc] at hw
    cases hw
    have hmem : c.ix.sectors[k] ∈ c.ix.sectors := List.getElem_mem hks
    rw [List.getElem_zip]
    simp only
    rw [← sectorWords_eq _ _ _ hconv, getSectorCount_eq (hupper _ hmem),
      ← length_loopPairs (hwf _ hmem)]
    simp; omega
  have hplen : ∀ t, (typePayload c calls t).length = 4 * sizeByType c.ix.sectors t := by
    intro t
    have hz : ∀ (ss : List Sector) (ws : List WriteCall), ws.length = ss.length →
        (∀ p ∈ ss.zip ws, (encodeWords (sectorWords c.fm p.1 p.2)).length = 4 * getSectorCount p.1) →
        ((((ss.zip ws).filter fun p => p.1.bra.species = t).map fun p =>
          encodeWords (sectorWords c.fm p.1 p.2)).flatten).length
          = 4 * ((ss.filter fun s => s.bra.species = t).map getSectorCount).sum := by
      intro ss
      induction ss with
      | nil => intro ws _ _; simp
      | cons s ss ih =>
        intro ws hl hw
        cases ws with
        | nil => simp at hl
        | cons w ws =>
          have hih := ih ws (by simpa using hl) (fun p hp => hw p (by simp [hp]))
          have h0 := hw (s, w) (by simp)
          by_cases ht : s.bra.species = t
          · simp only [List.zip_cons_cons, List.filter_cons, ht, decide_true, if_true,
              List.map_cons, List.flatten_cons, List.length_append, List.sum_cons] at hih ⊢
            rw [hih, h0]; ring
          · simp only [List.zip_cons_cons, List.filter_cons, ht, decide_false, Bool.false_eq_true,
              if_false] at hih ⊢
            exact hih
    rw [sizeByType_eq]
    exact hz _ _ hall hwlen
  refine ⟨?_, ?_, ?_⟩
  · rw [hb]
    simp only
    congr 1
    set pay := (c.ix.sectors.zip calls).map (fun p => encodeWords (sectorWords c.fm p.1 p.2)) with hpay
    have hpl : pay.length = c.ix.sectors.length := by simp [hpay, hall]
    rw [flatten_chunks_eq_emit (fun t => bytes32 (delimiter (sizeByType c.ix.sectors t)))
      c.ix.sectors pay (chunks.map File.bytes) hpl (by simp; omega)]
    · rw [emit_sorted]
      · congr 1
        apply List.map_congr_left
        intro t _
        simp only
        have hg : ((c.ix.sectors.map (·.bra.species)).zip pay).filter (fun x => x.1 = t)
            = ((c.ix.sectors.zip calls).filter fun p => p.1.bra.species = t).map
              (fun p => (p.1.bra.species, encodeWords (sectorWords c.fm p.1 p.2))) := by
          have : (c.ix.sectors.map (·.bra.species)).zip pay = (c.ix.sectors.zip calls).map
              (fun p => (p.1.bra.species, encodeWords (sectorWords c.fm p.1 p.2))) := by
            apply List.ext_getElem
            · simp [hpay]
            · intro i h1 h2
              simp [hpay]
          rw [this, List.filter_map]
          rfl
        rw [hg]
        by_cases hex : ∃ s ∈ c.ix.sectors, s.bra.species = t
        · rw [if_pos hex, if_neg]
          · unfold fortranRecord
            rw [hplen]
            simp only [typePayload, delimiter, Nat.mul_comm, List.map_map]
            rfl
          · obtain ⟨s, hs, ht⟩ := hex
            obtain ⟨k, hk, rfl⟩ := List.getElem_of_mem hs
            intro hnil
            rw [List.map_eq_nil_iff, List.filter_eq_nil_iff] at hnil
            have hkc : k < calls.length := by omega
            exact hnil (c.ix.sectors[k], calls[k]) (by
              rw [List.mem_iff_getElem]
              exact ⟨k, by simp; omega, by simp⟩) (by simp [ht])
        · rw [if_neg hex, if_pos]
          rw [List.map_eq_nil_iff, List.filter_eq_nil_iff]
          intro p hp hpt
          exact hex ⟨p.1, (List.of_mem_zip hp).1, by simpa using hpt⟩
      · have hz : ((c.ix.sectors.map (·.bra.species)).zip pay).map Prod.fst
            = c.ix.sectors.map (·.bra.species) := List.map_fst_zip (by simp; omega)
        have := hsort
        rw [← List.pairwise_map (f := fun s : Sector => s.bra.species)
          (R := fun a b : Species => a.idx ≤ b.idx), ← hz, List.pairwise_map] at this
        exact this
    · intro k s p ch h1 h2 h3
      have hks : k < c.ix.sectors.length := by
        by_contra hh; rw [List.getElem?_eq_none (by omega)] at h1; simp at h1
      have hkc : k < calls.length := by omega
      obtain ⟨w, hw, ch', hch', _, _, _, hbytes⟩ := hsec k hks
      rw [List.getElem?_eq_getElem hks] at h1; cases h1
      rw [List.getElem?_eq_getElem hkc] at hw; cases hw
      rw [List.getElem?_map, hch'] at h3
      simp only [Option.map_some, Option.some.injEq] at h3
      subst h3
      rw [hpay, List.getElem?_map, List.getElem?_eq_getElem (by simp; omega)] at h2
      simp only [List.getElem_zip, Option.map_some, Option.some.injEq] at h2
      subst h2
      rw [hbytes, delimOf, hsame _ (List.getElem_mem hks)]
  · intro t
    rw [hplen, sizeByType_eq]
    congr 2
    apply List.map_congr_left
    intro s hs
    have hs' := (List.mem_filter.1 hs).1
    rw [storedCount_eq (hwf _ hs'), getSectorCount_eq (hupper _ hs')]
  · intro t
    rw [hplen]
    by_cases hex : ∃ s ∈ c.ix.sectors, s.bra.species = t
    · -- the first sector of the type has the assertion on the record length
      have hfirst : ∃ k, ∃ hk : k < c.ix.sectors.length, c.ix.sectors[k].bra.species = t ∧
          firstB c.ix.sectors k = true := by
        obtain ⟨s, hs, ht⟩ := hex
        obtain ⟨k, hk, rfl⟩ := List.getElem_of_mem hs
        clear hs
        induction k with
        | zero => exact ⟨0, hk, ht, by simp [firstB]⟩
        | succ k ih =>
          by_cases hp : c.ix.sectors[k].bra.species = t
          · exact ih (by omega) hp
          · refine ⟨k + 1, hk, ht, ?_⟩
            have hk' : k < c.ix.sectors.length := by omega
            simp only [firstB, Nat.add_sub_cancel, List.getElem?_eq_getElem hk,
              List.getElem?_eq_getElem hk', Option.map_some]
            simp [ht, Ne.symm hp]
      obtain ⟨k, hk, ht, hfb⟩ := hfirst
      obtain ⟨w, _, ch, _, _, hfit, _⟩ := hsec k hk
      simp only [recordFits, hasPre, hud, hfb, Bool.and_self, Bool.not_true, Bool.false_or,
        decide_eq_true_eq, hsame _ (List.getElem_mem hk), ht, kMaxRecordLength] at hfit
      omega
    · have : sizeByType c.ix.sectors t = 0 := by
        rw [sizeByType_eq, List.filter_eq_nil_iff.2]
        · rfl
        · intro s hs hst
          exact hex ⟨s, hs, by simpa using hst⟩
      rw [this]; norm_num

example (hdr : File) : ∃ st, writeHistory (Ex.cfg .v15099 .binary) (Ex.calls .v15099) ⟨0, hdr⟩ = .ok st ∧
    st.out.bytes = hdr.bytes ++ (fortranRecord (typePayload (Ex.cfg .v15099 .binary) (Ex.calls .v15099) .pp)
      ++ fortranRecord (typePayload (Ex.cfg .v15099 .binary) (Ex.calls .v15099) .nn)
      ++ fortranRecord (typePayload (Ex.cfg .v15099 .binary) (Ex.calls .v15099) .pn)) := by
  obtain ⟨st, h⟩ := Ex.written .v15099 .binary hdr
  refine ⟨st, h, ?_⟩
  rw [(fortran_records _ rfl (by decide) (Ex.wf _ _) (Ex.sorted _ _) (Ex.same _ _) hdr _ st h
    (Ex.calls_length _ _)).1]
  simp [Ex.cfg, Ex.sectors, Ex.pp0, Ex.pn0, Ex.nn0]

/-! ### C05 — header counts -/

/-- **C05 (counting).** The sizes by type put into the header are the numbers of stored matrix
elements of the sectors of that type. -/
theorem size_by_type_counts_stored (ss : List Sector) (hwf : ∀ s ∈ ss, s.WF)
    (hup : ∀ s ∈ ss, s.braIndex ≤ s.ketIndex) (t : Species) :
    sizeByType ss t = ((ss.filter fun s => s.bra.species = t).map storedCount).sum ∧
    numSectorsByType ss t = (ss.filter fun s => s.bra.species = t).length := by
  constructor
  · rw [sizeByType_eq]
    congr 1
    apply List.map_congr_left
    intro s hs
    have hs' := (List.mem_filter.1 hs).1
    rw [storedCount_eq (hwf _ hs'), getSectorCount_eq]
    simpa [Sector.isUpperTriangle] using hup _ hs'
  · unfold numSectorsByType; rw [numSectorsByType_foldl]; simp

example : sizeByType (Ex.sectors .v15099) .pp = 5 ∧ storedCount ⟨0, 0, Ex.pp0, Ex.pp0⟩ = 3 ∧
    storedCount ⟨0, 1, Ex.pp0, Ex.pp1⟩ = 2 := by decide

/-- **C05 (text).** The number of matrix element lines written is the sum of the header sizes. -/
theorem header_sizes_eq_lines_written (c : Cfg) (hm : c.mode = .text)
    (hwf : ∀ s ∈ c.ix.sectors, s.WF) (hdr : File) (calls : List WriteCall) (st : OutState)
    (hwrite : writeHistory c calls ⟨0, hdr⟩ = .ok st)
    (hall : calls.length = c.ix.sectors.length) :
    st.out.lines.length = hdr.lines.length + (sizeByType c.ix.sectors .pp
      + sizeByType c.ix.sectors .nn + sizeByType c.ix.sectors .pn) := by
  obtain ⟨_, chunks, hlen, _, hl, hcall⟩ := writeHistory_ok hwrite
  simp only [Nat.zero_add] at hcall
  rw [hl, List.length_append]
  congr 1
  rw [sizeByType_eq, sizeByType_eq, sizeByType_eq, ← sum_by_species, List.length_flatten,
    List.map_map]
  congr 1
  apply List.ext_getElem (by simp; omega)
  intro k h1 h2
  simp only [List.length_map] at h1 h2
  have hk : k < calls.length := by omega
  obtain ⟨_, _, _, hch⟩ := hcall k _ _ (List.getElem?_eq_getElem hk) (List.getElem?_eq_getElem h1)
  simp only [List.getElem_map, Function.comp]
  rw [writeRaw_lines_length hm hwf hch, sizeAt, List.getElem?_eq_getElem h2]
  simp only [cells, hm]
  rw [getSectorCount_eq]
  have ha : accepts c c.ix.sectors[k] = true := by
    cases ha : accepts c c.ix.sectors[k] with
    | false => rw [writeRaw_reject (List.getElem?_eq_getElem h2) ha] at hch; simp at hch
    | true => rfl
  exact (Bool.and_eq_true_iff.1 ha).1

example (hdr : File) : ∃ st, writeHistory (Ex.cfg .v15099 .text) (Ex.calls .v15099) ⟨0, hdr⟩ = .ok st ∧
    st.out.lines.length = hdr.lines.length + 12 := by
  obtain ⟨st, h⟩ := Ex.written .v15099 .text hdr
  exact ⟨st, h, header_sizes_eq_lines_written _ rfl (Ex.wf _ _) hdr _ st h (Ex.calls_length _ _)⟩

/-- **C05 (15200 binary).** The body of a binary 15200 file is four bytes times the sum of the
header sizes. -/
theorem header_sizes_eq_bytes_written (c : Cfg) (hm : c.mode = .binary) (hf : c.format = .v15200)
    (hwf : ∀ s ∈ c.ix.sectors, s.WF) (hdr : File) (calls : List WriteCall) (st : OutState)
    (hwrite : writeHistory c calls ⟨0, hdr⟩ = .ok st)
    (hall : calls.length = c.ix.sectors.length) :
    st.out.bytes.length = hdr.bytes.length + 4 * (sizeByType c.ix.sectors .pp
      + sizeByType c.ix.sectors .nn + sizeByType c.ix.sectors .pn) := by
  obtain ⟨_, chunks, hlen, hl, _, hcall⟩ := writeHistory_ok hwrite
  simp only [Nat.zero_add] at hcall
  rw [hl, List.length_append]
  congr 1
  rw [sizeByType_eq, sizeByType_eq, sizeByType_eq, ← sum_by_species, List.length_flatten,
    List.map_map, ← List.sum_map_mul_left]
  congr 1
  apply List.ext_getElem (by simp; omega)
  intro k h1 h2
  simp only [List.length_map] at h1 h2
  have hk : k < calls.length := by omega
  obtain ⟨_, _, _, hch⟩ := hcall k _ _ (List.getElem?_eq_getElem hk) (List.getElem?_eq_getElem h1)
  simp only [List.getElem_map, Function.comp]
  rw [writeRaw_bytes_length hm hwf hch, sizeAt, List.getElem?_eq_getElem h2]
  simp only [cells, hm, hasPre, hasPost, hf, useDelims]
  rw [getSectorCount_eq]
  · simp; ring
  · have ha : accepts c c.ix.sectors[k] = true := by
      cases ha : accepts c c.ix.sectors[k] with
      | false => rw [writeRaw_reject (List.getElem?_eq_getElem h2) ha] at hch; simp at hch
      | true => rfl
    exact (Bool.and_eq_true_iff.1 ha).1

example (hdr : File) : ∃ st, writeHistory (Ex.cfg .v15200 .binary) (Ex.calls .v15200) ⟨0, hdr⟩ = .ok st ∧
    st.out.bytes.length = hdr.bytes.length + 48 := by
  obtain ⟨st, h⟩ := Ex.written .v15200 .binary hdr
  exact ⟨st, h, header_sizes_eq_bytes_written _ rfl rfl (Ex.wf _ _) hdr _ st h (Ex.calls_length _ _)⟩

/-! ### C06 — enumeration and buffers -/

/-- **C06 (writer).** The writer never stores outside its buffer, and (binary) puts each stored
element exactly once, row by row, between the delimiters. -/
theorem writer_emits_each_element_once (c : Cfg) (hm : c.mode = .binary) (k : Nat) (s : Sector)
    (hs : c.ix.sectors[k]? = some s) (hw : s.WF) (w : WriteCall)
    (hconv : w.conv = .none ∨ w.conv = .asToNAS) :
    writeSectorRaw c k w.mat w.conv ≠ .error .undefinedBehaviour ∧
    ∀ ch, writeSectorRaw c k w.mat w.conv = .ok ch → ∃ a z : List Byte,
      ch.bytes = a ++ encodeWords (sectorWords c.fm s w) ++ z ∧
      (a = [] ∨ a.length = 4) ∧ (z = [] ∨ z.length = 4) := by
  cases ha : accepts c s with
  | false => rw [writeRaw_reject hs ha]; simp
  | true =>
    rw [writeRaw_binary hm hs ha hw, sectorWords_eq _ _ _ hconv]
    cases hfit : recordFits c k s with
    | false => simp [assertE]
    | true =>
      refine ⟨by simp [assertE], ?_⟩
      intro ch hch
      simp only [assertE, if_true, Except.ok_bind', Except.pure_ok, Except.ok.injEq] at hch
      refine ⟨_, _, by rw [← hch], ?_, ?_⟩
      · cases hasPre c k <;> simp
      · cases hasPost c k <;> simp

example : (sectorWords Ex.fm ⟨0, 0, Ex.pp0, Ex.pp0⟩ (Ex.callFor ⟨0, 0, Ex.pp0, Ex.pp0⟩ 0)).length = 3 := by
  simp [sectorWords, Ex.pp0, Subspace.size, Stored, List.range_succ]

/-- **C06 (reader).** Whatever the file contains, reading a sector of a binary or text file never
leaves the bounds of the buffer (no undefined behaviour): it succeeds or reports an error. -/
theorem reader_never_out_of_bounds (c : Cfg) (hm : c.mode ≠ .matrix)
    (hwf : ∀ s ∈ c.ix.sectors, s.WF) (f : File) (k pos : Nat) (hk : k < c.ix.sectors.length) :
    readSectorRaw c f k pos ≠ .error .undefinedBehaviour := by
  have hs := List.getElem?_eq_getElem hk
  set s := c.ix.sectors[k]
  have hw : s.WF := hwf _ (List.getElem_mem hk)
  have hov : ∀ b bs p d, optVerify b bs p d ≠ .error .undefinedBehaviour := by
    intro b bs p d
    cases b with
    | false => simp [optVerify]
    | true =>
      simp only [optVerify, if_true, verifyInt, readInt, readRaw]
      split_ifs <;> simp
      all_goals (try split_ifs) <;> simp
  cases ha : accepts c s with
  | false => rw [readRaw_reject hs ha]; simp
  | true =>
    cases hmode : c.mode with
    | matrix => exact absurd hmode hm
    | text =>
      rw [readRaw_text hmode hs ha]
      have : ∀ ps p m, loadText c.fm (labelsOf c s) ps f.lines p m ≠ .error .undefinedBehaviour := by
        intro ps
        induction ps with
        | nil => intro p m; simp [loadText]
        | cons q ps ih =>
          intro p m
          simp only [loadText]
          split
          · simp
          · split_ifs
            · split
              · simp
              · exact ih _ _
            · split
              · simp
              · simp
            · simp
      exact this _ _ _
    | binary =>
      rw [readRaw_binary hmode hs ha]
      cases h1 : optVerify (hasPre c k) f.bytes pos (delimOf c s) with
      | error e =>
        rw [Except.error_bind']
        intro hh
        cases hh
        exact hov _ _ _ _ h1
      | ok p1 =>
        rw [Except.ok_bind']
        cases h2 : readFloats f.bytes p1 (inlineSectorEntries s) with
        | error e =>
          rw [Except.error_bind']
          intro hh
          cases hh
          unfold readFloats readRaw at h2
          split_ifs at h2 <;> simp at h2
        | ok q =>
          obtain ⟨vs, p2⟩ := q
          rw [Except.ok_bind']
          simp only
          have hl := (readFloats_pos h2).2
          obtain ⟨m', hm', _⟩ := loadAll_ok c.fm (loopPairs s.isDiagonal s.bra.size s.ket.size) 0 vs
            (Mat.zero s.bra.size s.ket.size) (by rw [length_loopPairs hw]; omega)
          rw [hm', Except.ok_bind']
          cases h3 : optVerify (hasPost c k) f.bytes p2 (delimOf c s) with
          | error e =>
            rw [Except.error_bind']
            intro hh; cases hh
            exact hov _ _ _ _ h3
          | ok p3 => simp

example : (Ex.cfg .v15099 .binary).mode ≠ .matrix ∧
    (∀ s ∈ (Ex.cfg .v15099 .binary).ix.sectors, s.WF) ∧ 3 < (Ex.cfg .v15099 .binary).ix.sectors.length :=
  ⟨by decide, Ex.wf _ _, by decide⟩

/-! ### C09 — labels in text files -/

/-- **C09 (label check).** A text sector is accepted only if each of its lines carries exactly the
labels that the writer puts on that line (whatever the matrix written). -/
theorem text_reader_checks_labels (c : Cfg) (hm : c.mode = .text) (f : File) (k pos : Nat)
    (m : Mat) (p : Nat) (hr : readSectorRaw c f k pos = .ok (m, p))
    (w : Mat) (conv : Conv) (ch : File) (hw : writeSectorRaw c k w conv = .ok ch) :
    ∀ i line, ch.lines[i]? = some line →
      ∃ line', f.lines[pos + i]? = some line' ∧ line'.ints = line.ints := by
  cases hs : c.ix.sectors[k]? with
  | none => rw [readRaw_none hs] at hr; simp at hr
  | some s =>
    cases ha : accepts c s with
    | false => rw [readRaw_reject hs ha] at hr; simp at hr
    | true =>
      rw [readRaw_text hm hs ha] at hr
      rw [writeRaw_text hm hs ha] at hw
      cases hw
      have key : ∀ ps pos m m' p, loadText c.fm (labelsOf c s) ps f.lines pos m = .ok (m', p) →
          ∀ i q, ps[i]? = some q → ∃ line', f.lines[pos + i]? = some line' ∧
            line'.ints = labelsOf c s q := by
        intro ps
        induction ps with
        | nil => intro _ _ _ _ _ i q hi; simp at hi
        | cons q0 ps ih =>
          intro pos m m' p h i q hi
          simp only [loadText] at h
          cases hl : f.lines[pos]? with
          | none => rw [hl] at h; simp at h
          | some line =>
            rw [hl] at h
            simp only at h
            split_ifs at h with h1 h2
            · cases hsc : line.decs.head?.bind c.fm.scan with
              | none => rw [hsc] at h; simp at h
              | some v =>
                rw [hsc] at h
                simp only at h
                cases i with
                | zero =>
                  simp only [List.getElem?_cons_zero, Option.some.injEq] at hi
                  subst hi
                  exact ⟨line, hl, h2⟩
                | succ i =>
                  obtain ⟨l', h3, h4⟩ := ih _ _ _ _ h i q (by simpa using hi)
                  exact ⟨l', by rw [← h3]; congr 1; omega, h4⟩
            · cases hsc : line.decs.head?.bind c.fm.scan <;> rw [hsc] at h <;> simp at h
      intro i line hi
      simp only [List.getElem?_map, Option.map_eq_some_iff] at hi
      obtain ⟨q, hq, rfl⟩ := hi
      exact key _ _ _ _ _ hr i q hq

example : ∃ f m p ch, readSectorRaw (Ex.cfg .v15099 .text) f 1 0 = .ok (m, p) ∧
    writeSectorRaw (Ex.cfg .v15099 .text) 1 (Mat.zero 2 1) .none = .ok ch ∧ ch.lines.length = 2 := by
  have hs : (Ex.cfg .v15099 .text).ix.sectors[1]? = some ⟨0, 1, Ex.pp0, Ex.pp1⟩ := rfl
  have ha : accepts (Ex.cfg .v15099 .text) ⟨0, 1, Ex.pp0, Ex.pp1⟩ = true := by decide
  have := loadText_map Ex.fm (labelsOf (Ex.cfg .v15099 .text) ⟨0, 1, Ex.pp0, Ex.pp1⟩) _ Ex.scan_fmt
    (loopPairs false 2 1) (outputElement Ex.fm .none ⟨0, 1, Ex.pp0, Ex.pp1⟩ (Mat.zero 2 1)) [] []
    (Mat.zero 2 1)
  exact ⟨⟨[], _⟩, _, _, _, (readRaw_text rfl hs ha).trans this, writeRaw_text rfl hs ha, by
    simp [Ex.pp0, Ex.pp1, Subspace.size, loopPairs, Sector.isDiagonal, List.range_succ]⟩

/-! ### C10 — orbital numbers -/

/-- Orbital number printed in a 15200 text file for an orbital (from `indexOffset`). -/
def printedNumber (np : Nat) (o : Orbital) : Int := o.index + indexOffset o.proton np

/-- **C10 (numbering).** With `np` proton and `nn` neutron orbitals, the printed numbers are a
bijection from the orbitals onto `1 … np+nn`. -/
theorem orbital_numbers_bijective (np nn : Nat) :
    (∀ o : Orbital, (o.proton = true → o.index < np) → (o.proton = false → o.index < nn) →
      1 ≤ printedNumber np o ∧ printedNumber np o ≤ np + nn) ∧
    (∀ o o' : Orbital, (o.proton = true → o.index < np) → (o'.proton = true → o'.index < np) →
      printedNumber np o = printedNumber np o' → o = o') ∧
    (∀ i : Int, 1 ≤ i → i ≤ np + nn → ∃ o : Orbital, (o.proton = true → o.index < np) ∧
      (o.proton = false → o.index < nn) ∧ printedNumber np o = i) := by
  refine ⟨?_, ?_, ?_⟩
  · rintro ⟨p, i⟩ h1 h2
    cases p <;> simp [printedNumber, indexOffset] at * <;> omega
  · rintro ⟨p, i⟩ ⟨p', i'⟩ h1 h2 h
    cases p <;> cases p' <;> simp [printedNumber, indexOffset] at * <;> omega
  · intro i h1 h2
    by_cases h : i ≤ np
    · refine ⟨⟨true, (i - 1).toNat⟩, ?_, ?_, ?_⟩ <;> simp [printedNumber, indexOffset] <;> omega
    · refine ⟨⟨false, (i - 1 - np).toNat⟩, ?_, ?_, ?_⟩ <;> simp [printedNumber, indexOffset] <;> omega

/-- The four orbitals of a matrix element. -/
def elementOrbitals (s : Sector) (p : Nat × Nat) : List Orbital :=
  [⟨s.bra.species.isP1, (s.bra.state p.1).index1⟩, ⟨s.bra.species.isP2, (s.bra.state p.1).index2⟩,
   ⟨s.ket.species.isP1, (s.ket.state p.2).index1⟩, ⟨s.ket.species.isP2, (s.ket.state p.2).index2⟩]

/-- **C10 (labels identify the element).** In 15200 text files, two lines of any sectors carry the
same labels only if they refer to the same four orbitals and the same two angular momenta. -/
theorem labels_identify_element (np : Nat) (s s' : Sector) (p p' : Nat × Nat)
    (h : ∀ o ∈ elementOrbitals s p, o.proton = true → o.index < np)
    (h' : ∀ o ∈ elementOrbitals s' p', o.proton = true → o.index < np)
    (heq : labelsV15200 np s p = labelsV15200 np s' p') :
    elementOrbitals s p = elementOrbitals s' p' ∧ s.bra.J = s'.bra.J ∧ s.ket.J = s'.ket.J := by
  have inj : ∀ (b : Bool) (i : Nat) (b' : Bool) (i' : Nat), (b = true → i < np) →
      (b' = true → i' < np) → (i : Int) + indexOffset b np = i' + indexOffset b' np →
      (⟨b, i⟩ : Orbital) = ⟨b', i'⟩ :=
    fun b i b' i' h1 h2 h3 => (orbital_numbers_bijective np 0).2.1 ⟨b, i⟩ ⟨b', i'⟩ h1 h2 h3
  simp only [labelsV15200, List.cons.injEq, and_true] at heq
  obtain ⟨e1, e2, e3, e4, e5, e6⟩ := heq
  simp only [elementOrbitals, List.mem_cons, List.not_mem_nil, or_false, forall_eq_or_imp,
    forall_eq] at h h'
  refine ⟨?_, by omega, by omega⟩
  unfold elementOrbitals
  exact congr (congrArg _ (inj _ _ _ _ h.1 h'.1 e1)) (congr (congrArg _ (inj _ _ _ _ h.2.1 h'.2.1 e2))
    (congr (congrArg _ (inj _ _ _ _ h.2.2.1 h'.2.2.1 e3))
      (congrArg (· :: []) (inj _ _ _ _ h.2.2.2 h'.2.2.2 e4))))

example : (∀ o ∈ elementOrbitals ⟨3, 3, Ex.pn0, Ex.pn0⟩ (1, 2), o.proton = true → o.index < 2) ∧
    labelsV15200 2 ⟨3, 3, Ex.pn0, Ex.pn0⟩ (1, 2) = [1, 4, 2, 4, 0, 0] := by decide

/-! ### C11 — lower triangle -/

/-- **C11 (output).** Entries below the diagonal of diagonal sectors have no influence on the file
(or on whether writing succeeds). -/
theorem lower_triangle_ignored_on_output (c : Cfg) (hwf : ∀ s ∈ c.ix.sectors, s.WF)
    (calls calls' : List WriteCall) (st : OutState)
    (h : List.Forall₂ (fun w w' => w.index = w'.index ∧ w.conv = w'.conv ∧
      ∀ s, c.ix.sectors[w.index]? = some s → AgreeOnStored s w.mat w'.mat) calls calls')
    (hrange : ∀ w ∈ calls, w.index < c.ix.sectors.length) :
    writeHistory c calls st = writeHistory c calls' st := by
  have hraw : ∀ k s m m' conv, c.ix.sectors[k]? = some s → AgreeOnStored s m m' →
      writeSectorRaw c k m conv = writeSectorRaw c k m' conv := by
    intro k s m m' conv hs hag
    cases ha : accepts c s with
    | false => rw [writeRaw_reject hs ha, writeRaw_reject hs ha]
    | true =>
      have hmap : ∀ p ∈ loopPairs s.isDiagonal s.bra.size s.ket.size,
          outputElement c.fm conv s m p = outputElement c.fm conv s m' p := by
        intro p hp
        unfold outputElement
        rw [hag.2.2 p.1 p.2 (mem_loopPairs_stored.1 hp)]
      cases hm : c.mode with
      | matrix => rw [writeRaw_matrix hm hs ha, writeRaw_matrix hm hs ha]
      | binary =>
        have hw := hwf s (List.mem_of_getElem? hs)
        rw [writeRaw_binary hm hs ha hw, writeRaw_binary hm hs ha hw, List.map_congr_left hmap]
      | text =>
        rw [writeRaw_text hm hs ha, writeRaw_text hm hs ha]
        congr 2
        apply List.map_congr_left
        intro p hp
        rw [hmap p hp]
  induction h generalizing st with
  | nil => rfl
  | @cons w w' ws ws' h1 h2 ih =>
    obtain ⟨e1, e2, e3⟩ := h1
    have hk := hrange w (by simp)
    have hag := e3 _ (List.getElem?_eq_getElem hk)
    have hstep : writeSector c w.index w.mat w.conv st = writeSector c w'.index w'.mat w'.conv st := by
      unfold writeSector
      rw [← e1, ← e2, ← hag.1, ← hag.2.1]
      by_cases hi : w.index = st.sectorIndex
      · rw [← hi, hraw _ _ _ _ _ (List.getElem?_eq_getElem hk) hag]
      · cases getSector c.ix.sectors st.sectorIndex with
        | error e => rfl
        | ok s => simp [assertE, hi]
    simp only [writeHistory, hstep]
    cases writeSector c w'.index w'.mat w'.conv st with
    | error e => rfl
    | ok st2 => exact ih st2 (fun w hw => hrange w (by simp [hw]))

/-- Non-vacuity: two matrices that differ below the diagonal only. -/
example : AgreeOnStored ⟨0, 0, Ex.pp0, Ex.pp0⟩ ⟨2, 2, fun a b => if b < a then 7 else 1⟩ ⟨2, 2, fun _ _ => 1⟩ := by
  refine ⟨rfl, rfl, ?_⟩
  intro b k h
  have : ¬ k < b := by have := h.2.2 rfl; omega
  simp [this]

/-- **C11 (input).** A successfully read matrix is zero outside the stored elements. -/
theorem unstored_zero_on_input (c : Cfg) (hwf : ∀ s ∈ c.ix.sectors, s.WF) (f : File)
    (start : Nat) (ks : List Nat) (ms : List Mat) (st : InState)
    (h : readHistory c f ks (InState.init start) = .ok (ms, st)) :
    List.Forall₂ (fun k m => ∃ s, c.ix.sectors[k]? = some s ∧
      ∀ a b, ¬ Stored s a b → m.val a b = 0) ks ms := by
  have h1 := (readHistory_sound hwf (inv_init c start) h).2
  clear h
  induction h1 with
  | nil => exact .nil
  | @cons k m ks ms g1 g2 ih =>
    refine .cons ?_ ih
    obtain ⟨p, g1⟩ := g1
    obtain ⟨_, _, s, hs, _, _, _, hz⟩ := readRaw_ok hwf g1
    exact ⟨s, hs, fun a b hab => hz a b (fun hh => hab (mem_loopPairs_stored.1 hh))⟩

example (hdr : File) : ∃ f ms st, readHistory (Ex.cfg .v0 .text) f [2, 0]
      (InState.init hdr.lines.length) = .ok (ms, st) := by
  obtain ⟨st, h⟩ := Ex.written .v0 .text hdr
  obtain ⟨ms, st1, h1, _⟩ := text_round_trip _ rfl (Ex.wf _ _) _ Ex.scan_fmt hdr _ st h
    (Ex.calls_length _ _) [2, 0] (by simp [Ex.cfg, Ex.sectors])
  exact ⟨_, ms, st1, h1⟩

/-! ### C12 — each sector once, in order -/

/-- **C12.** In any successful history of write calls on a fresh stream the requested sector
indices are `0,1,2,…` without gap, repetition or excess; the header is preserved as a prefix; and
what is appended is the concatenation, in that order, of what the individual sectors contribute. -/
theorem sectors_written_once_in_order (c : Cfg) (hdr : File) (calls : List WriteCall) (st : OutState)
    (hwrite : writeHistory c calls ⟨0, hdr⟩ = .ok st) :
    calls.map (·.index) = List.range calls.length ∧ calls.length ≤ c.ix.sectors.length ∧
    ∃ chunks : List File,
      List.Forall₂ (fun w ch => writeSectorRaw c w.index w.mat w.conv = .ok ch) calls chunks ∧
      st.out.bytes = hdr.bytes ++ (chunks.map File.bytes).flatten ∧
      st.out.lines = hdr.lines ++ (chunks.map File.lines).flatten := by
  obtain ⟨_, chunks, hlen, hb, hl, hcall⟩ := writeHistory_ok hwrite
  simp only [Nat.zero_add] at hcall
  have hc : ∀ i (h1 : i < calls.length) (h2 : i < chunks.length), calls[i].index = i ∧
      i < c.ix.sectors.length ∧ writeSectorRaw c i calls[i].mat calls[i].conv = .ok chunks[i] := by
    intro i h1 h2
    obtain ⟨g1, ⟨s, hs, _⟩, _, g4⟩ := hcall i _ _ (List.getElem?_eq_getElem h1)
      (List.getElem?_eq_getElem h2)
    refine ⟨g1, ?_, g4⟩
    by_contra hh; rw [List.getElem?_eq_none (by omega)] at hs; simp at hs
  refine ⟨?_, ?_, chunks, ?_, hb, hl⟩
  · apply List.ext_getElem (by simp)
    intro i h1 h2
    simp only [List.length_map] at h1
    simp [(hc i h1 (by omega)).1]
  · by_contra hh
    have := (hc c.ix.sectors.length (by omega) (by omega)).2.1
    omega
  · rw [List.forall₂_iff_get]
    refine ⟨hlen.symm, ?_⟩
    intro i h1 h2
    obtain ⟨g1, _, g3⟩ := hc i h1 h2
    simp only [List.get_eq_getElem]
    rw [g1]; exact g3

example (hdr : File) : ∃ st, writeHistory (Ex.cfg .v0 .text) (Ex.calls .v0) ⟨0, hdr⟩ = .ok st :=
  Ex.written .v0 .text hdr

/-- **C12 (rejection).** A call for a sector that is not the next one ends the program. -/
theorem out_of_order_write_rejected (c : Cfg) (st : OutState) (k : Nat) (m : Mat) (conv : Conv)
    (hlt : st.sectorIndex < c.ix.sectors.length) (h : k ≠ st.sectorIndex) :
    writeSector c k m conv st = .error .assertFail := by
  unfold writeSector
  simp [getSector, List.getElem?_eq_getElem hlt, assertE, h]

/-! ### C13 — normalisation -/

/-- **C13.** Writing with the AS→NAS conversion is writing, without conversion, the matrix whose
elements are multiplied by `1/√(1+δ_ab) · 1/√(1+δ_cd)` (for like-nucleon pairs). -/
theorem as_to_nas_factor (c : Cfg) (hwf : ∀ s ∈ c.ix.sectors, s.WF) (k : Nat) (s : Sector)
    (hs : c.ix.sectors[k]? = some s) (m : Mat) :
    writeSectorRaw c k m .asToNAS = writeSectorRaw c k
      ⟨m.rows, m.cols, fun a b => pairNorm s.bra.species (s.bra.state a)
        * pairNorm s.ket.species (s.ket.state b) * m.val a b⟩ .none := by
  have hel : ∀ p, outputElement c.fm .asToNAS s m p = outputElement c.fm .none s
      ⟨m.rows, m.cols, fun a b => pairNorm s.bra.species (s.bra.state a)
        * pairNorm s.ket.species (s.ket.state b) * m.val a b⟩ p := by
    intro p
    unfold outputElement
    rw [conversionFactor_eq .asToNAS s p.1 p.2 (by simp), conversionFactor_eq .none s p.1 p.2 (by simp)]
    simp [storedFactor]
  cases ha : accepts c s with
  | false => rw [writeRaw_reject hs ha, writeRaw_reject hs ha]
  | true =>
    cases hm : c.mode with
    | matrix => rw [writeRaw_matrix hm hs ha, writeRaw_matrix hm hs ha]
    | binary =>
      have hw := hwf s (List.mem_of_getElem? hs)
      rw [writeRaw_binary hm hs ha hw, writeRaw_binary hm hs ha hw,
        List.map_congr_left (fun p _ => hel p)]
    | text =>
      rw [writeRaw_text hm hs ha, writeRaw_text hm hs ha]
      congr 2
      apply List.map_congr_left
      intro p _
      rw [hel p]

example : pairNorm .pp ⟨1, 1⟩ = 1 / Real.sqrt 2 ∧ pairNorm .pp ⟨0, 1⟩ = 1 ∧ pairNorm .pn ⟨1, 1⟩ = 1 := by
  refine ⟨?_, ?_, ?_⟩ <;> simp [pairNorm] <;> norm_num

/-- **C13 (values).** `1/√(1+δ)` is `1/√2` exactly for a like pair in one orbital, `1` otherwise;
in particular it never changes a proton-neutron element and never vanishes. -/
theorem pairNorm_values (sp : Species) (st : State) :
    pairNorm sp st = (if sp ≠ .pn ∧ st.index1 = st.index2 then 1 / Real.sqrt 2 else 1) ∧
    0 < pairNorm sp st ∧ pairNorm .pn st = 1 := by
  have h : pairNorm sp st = (if sp ≠ .pn ∧ st.index1 = st.index2 then 1 / Real.sqrt 2 else 1) := by
    unfold pairNorm
    split_ifs <;> norm_num
  refine ⟨h, ?_, by simp [pairNorm]⟩
  rw [h]
  split_ifs
  · positivity
  · norm_num

/-! ### C14 — file mode -/

/-- **C14.** A file is text, binary or matrix according to whether its name ends in `.dat`, `.bin`
or `.mat`; for every other name (including short ones) the program stops. -/
theorem mode_from_extension (filename : String) :
    (deducedIOMode filename = .ok .text ↔ ∃ stem : List Char, filename.toList = stem ++ ".dat".toList) ∧
    (deducedIOMode filename = .ok .binary ↔ ∃ stem : List Char, filename.toList = stem ++ ".bin".toList) ∧
    (deducedIOMode filename = .ok .matrix ↔ ∃ stem : List Char, filename.toList = stem ++ ".mat".toList) ∧
    (deducedIOMode filename = .error .exitFailure ↔ ∀ stem : List Char,
      filename.toList ≠ stem ++ ".dat".toList ∧ filename.toList ≠ stem ++ ".bin".toList ∧
      filename.toList ≠ stem ++ ".mat".toList) := by
  have hsuf : ∀ e : List Char, e.length = 4 → ((∃ stem, filename.toList = stem ++ e) ↔
      4 ≤ filename.toList.length ∧ filename.toList.drop (filename.toList.length - 4) = e) := by
    intro e he
    constructor
    · rintro ⟨stem, h⟩
      rw [h]
      simp [he]
    · rintro ⟨h1, h2⟩
      exact ⟨filename.toList.take (filename.toList.length - 4), by
        rw [← h2, List.take_append_drop]⟩
  have hd : ".dat".toList = ['.', 'd', 'a', 't'] := rfl
  have hb : ".bin".toList = ['.', 'b', 'i', 'n'] := rfl
  have hm : ".mat".toList = ['.', 'm', 'a', 't'] := rfl
  have hforall : (∀ stem : List Char,
      filename.toList ≠ stem ++ ".dat".toList ∧ filename.toList ≠ stem ++ ".bin".toList ∧
      filename.toList ≠ stem ++ ".mat".toList) ↔
      ¬ (∃ stem, filename.toList = stem ++ ".dat".toList) ∧
      ¬ (∃ stem, filename.toList = stem ++ ".bin".toList) ∧
      ¬ (∃ stem, filename.toList = stem ++ ".mat".toList) := by
    constructor
    · intro h
      exact ⟨fun ⟨s, e⟩ => (h s).1 e, fun ⟨s, e⟩ => (h s).2.1 e, fun ⟨s, e⟩ => (h s).2.2 e⟩
    · rintro ⟨h1, h2, h3⟩ s
      exact ⟨fun e => h1 ⟨s, e⟩, fun e => h2 ⟨s, e⟩, fun e => h3 ⟨s, e⟩⟩
  rw [hforall, hsuf _ (by rw [hd]; rfl), hsuf _ (by rw [hb]; rfl), hsuf _ (by rw [hm]; rfl)]
  unfold deducedIOMode
  simp only
  generalize hcs : filename.toList.drop (filename.toList.length - 4) = ext
  by_cases hl : filename.toList.length < 4
  · rw [if_pos hl]
    refine ⟨?_, ?_, ?_, ?_⟩ <;> simp <;> omega
  · rw [if_neg hl]
    have hl' : 4 ≤ filename.toList.length := by omega
    simp only [hl', true_and]
    rw [hd, hb, hm]
    split_ifs with h1 h2 h3
    · subst h1; simp
    · subst h2; simp
    · subst h3; simp
    · simp [h1, h2, h3]

example : deducedIOMode "tbme-H.dat" = .ok .text ∧ deducedIOMode "a.bin" = .ok .binary ∧
    deducedIOMode "dat" = .error .exitFailure := by decide

end Verif.H2
