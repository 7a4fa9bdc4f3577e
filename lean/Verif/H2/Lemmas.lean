import Verif.H2.Model
import Mathlib.Data.List.Nodup
import Mathlib.Tactic.Ring
import Mathlib.Tactic.Linarith
import Mathlib.Tactic.SplitIfs

/-! # Lemmas on the H2 model (helpers; the property theorems are in `Props.lean`) -/

namespace Verif.H2
open Verif

@[simp] theorem assertE_true : assertE true = .ok () := rfl
@[simp] theorem assertE_false : assertE false = .error .assertFail := rfl
theorem assertE_ok {b : Bool} {u : Unit} : assertE b = .ok u ↔ b = true := by
  cases b <;> simp [assertE]

@[simp] theorem Except.ok_bind' {α β : Type} (a : α) (f : α → Except Err β) :
    ((Except.ok a : Except Err α) >>= f) = f a := rfl
@[simp] theorem Except.error_bind' {α β : Type} (e : Err) (f : α → Except Err β) :
    ((Except.error e : Except Err α) >>= f) = .error e := rfl
@[simp] theorem Except.pure_ok {α : Type} (a : α) : (pure a : Except Err α) = .ok a := rfl

theorem Except.bind_eq_ok {α β : Type} {x : Except Err α} {f : α → Except Err β} {b : β} :
    (x >>= f) = .ok b ↔ ∃ a, x = .ok a ∧ f a = .ok b := by
  cases x <;> simp

/-! ### enumeration -/

theorem mem_loopPairs {r : Bool} {nb nk : Nat} {p : Nat × Nat} :
    p ∈ loopPairs r nb nk ↔ p.1 < nb ∧ p.2 < nk ∧ (r = true → p.1 ≤ p.2) := by
  obtain ⟨b, k⟩ := p
  simp only [loopPairs, List.mem_flatMap, List.mem_range, List.mem_map, List.mem_filter]
  constructor
  · rintro ⟨b', hb, k', ⟨hk, h⟩, heq⟩
    cases heq
    refine ⟨hb, hk, ?_⟩
    intro hr; subst hr; simpa using h
  · rintro ⟨hb, hk, h⟩
    refine ⟨b, hb, k, ⟨hk, ?_⟩, rfl⟩
    cases r
    · simp
    · simpa using h

theorem nodup_loopPairs (r : Bool) (nb nk : Nat) : (loopPairs r nb nk).Nodup := by
  unfold loopPairs
  rw [List.nodup_flatMap]
  constructor
  · intro b _
    refine List.Nodup.map (fun x y h => (Prod.mk.inj h).2) (List.nodup_range.filter _)
  · refine List.nodup_range.imp ?_
    intro a b hab x hx hy
    simp only [List.mem_map] at hx hy
    obtain ⟨_, _, rfl⟩ := hx
    obtain ⟨_, _, h⟩ := hy
    exact hab (Prod.mk.inj h).1.symm

theorem length_filter_le_range (b n : Nat) :
    ((List.range n).filter fun k => decide (b ≤ k)).length = n - b := by
  induction n with
  | zero => simp
  | succ n ih =>
    rw [List.range_succ, List.filter_append, List.length_append, ih]
    by_cases h : b ≤ n <;> simp [h] <;> omega

theorem sum_sub_range (m n : Nat) (h : m ≤ n) :
    2 * ((List.range m).map fun b => n - b).sum = m * (2 * n + 1 - m) := by
  induction m with
  | zero => simp
  | succ m ih =>
    rw [List.range_succ, List.map_append, List.sum_append]
    have := ih (by omega)
    simp only [List.map_cons, List.map_nil, List.sum_cons, List.sum_nil]
    obtain ⟨d, rfl⟩ := Nat.exists_eq_add_of_le h
    have e2 : 2 * (m + 1 + d) + 1 - (m + 1) = m + 2 + 2 * d := by omega
    have e3 : 2 * (m + 1 + d) + 1 - m = m + 3 + 2 * d := by omega
    have e4 : m + 1 + d - m = d + 1 := by omega
    rw [e2]; rw [e3] at this; rw [e4]
    rw [Nat.mul_add, this]; ring

theorem length_loopPairs_false (nb nk : Nat) : (loopPairs false nb nk).length = nb * nk := by
  simp [loopPairs, List.length_flatMap]

theorem length_loopPairs_true (n : Nat) : (loopPairs true n n).length = n * (n + 1) / 2 := by
  have h : (loopPairs true n n).length = ((List.range n).map fun b => n - b).sum := by
    simp only [loopPairs, List.length_flatMap, List.length_map, Bool.true_and, Bool.not_not]
    congr 1
    apply List.map_congr_left
    intro b _
    exact length_filter_le_range b n
  have := sum_sub_range n n le_rfl
  have e : 2 * n + 1 - n = n + 1 := by omega
  rw [e] at this
  omega

theorem length_loopPairs {s : Sector} (h : s.WF) :
    (loopPairs s.isDiagonal s.bra.size s.ket.size).length = inlineSectorEntries s := by
  unfold inlineSectorEntries
  by_cases hd : s.isDiagonal = true
  · have : s.bra = s.ket := h (by simpa [Sector.isDiagonal] using hd)
    simp [hd, this, length_loopPairs_true]
  · simp only [Bool.not_eq_true] at hd
    simp [hd, length_loopPairs_false]

theorem getSectorCount_eq {s : Sector} (h : s.isUpperTriangle = true) :
    getSectorCount s = inlineSectorEntries s := by
  simp [getSectorCount, inlineSectorEntries, h]

/-! ### buffers -/

theorem storeAll_eq (vs : List (BitVec 32)) (done rest : List (BitVec 32))
    (h : vs.length = rest.length) :
    storeAll vs done.length (done ++ rest) = .ok (done ++ vs) := by
  induction vs generalizing done rest with
  | nil => cases rest <;> simp_all [storeAll]
  | cons v vs ih =>
    cases rest with
    | nil => simp at h
    | cons r rest =>
      simp only [List.length_cons, Nat.add_right_cancel_iff] at h
      simp only [storeAll, List.length_append, List.length_cons]
      rw [if_pos (by omega)]
      have : (done ++ r :: rest).set done.length v = (done ++ [v]) ++ rest := by
        simp
      rw [this]
      have := ih (done ++ [v]) rest h
      simpa using this

theorem storeAll_replicate (vs : List (BitVec 32)) (n : Nat) (h : vs.length = n) :
    storeAll vs 0 (List.replicate n 0#32) = .ok vs := by
  have := storeAll_eq vs [] (List.replicate n 0#32) (by simpa using h)
  simpa using this

@[simp] theorem Mat.set_rows (m : Mat) (b k x) : (m.set b k x).rows = m.rows := rfl
@[simp] theorem Mat.set_cols (m : Mat) (b k x) : (m.set b k x).cols = m.cols := rfl

/-- Successive writes of the values `g p` over a list of cells. -/
noncomputable def setAll (ps : List (Nat × Nat)) (g : Nat × Nat → ℝ) (m : Mat) : Mat :=
  ps.foldl (fun m p => m.set p.1 p.2 (g p)) m

theorem setAll_rows (ps g m) : (setAll ps g m).rows = m.rows := by
  induction ps generalizing m with
  | nil => rfl
  | cons p ps ih => exact ih _
theorem setAll_cols (ps g m) : (setAll ps g m).cols = m.cols := by
  induction ps generalizing m with
  | nil => rfl
  | cons p ps ih => exact ih _

theorem setAll_val (ps : List (Nat × Nat)) (g : Nat × Nat → ℝ) (m : Mat) (i j : Nat) :
    (setAll ps g m).val i j = if (i, j) ∈ ps then g (i, j) else m.val i j := by
  induction ps generalizing m with
  | nil => simp [setAll]
  | cons p ps ih =>
    have : setAll (p :: ps) g m = setAll ps g (m.set p.1 p.2 (g p)) := rfl
    rw [this, ih]
    by_cases h1 : (i, j) ∈ ps
    · simp [h1]
    · by_cases h2 : (i, j) = p
      · subst h2; simp [Mat.set]
      · have h3 : ¬ (i = p.1 ∧ j = p.2) := by
          rintro ⟨rfl, rfl⟩; exact h2 rfl
        simp [h1, h2, Mat.set, h3]

theorem loadAll_eq (fm : FloatModel) (ps : List (Nat × Nat)) (g : Nat × Nat → BitVec 32)
    (done : List (BitVec 32)) (m : Mat) :
    loadAll fm ps done.length (done ++ ps.map g) m = .ok (setAll ps (fun p => fm.ofF32 (g p)) m) := by
  induction ps generalizing done m with
  | nil => rfl
  | cons p ps ih =>
    have h : (done ++ (p :: ps).map g)[done.length]? = some (g p) := by simp
    simp only [loadAll, h]
    have := ih (done ++ [g p]) (m.set p.1 p.2 (fm.ofF32 (g p)))
    simpa [setAll] using this

/-- Reading a full buffer never goes wrong, whatever the values. -/
theorem loadAll_ok (fm : FloatModel) (ps : List (Nat × Nat)) (i : Nat) (buf : List (BitVec 32))
    (m : Mat) (h : i + ps.length ≤ buf.length) : ∃ m', loadAll fm ps i buf m = .ok m' ∧
      m'.rows = m.rows ∧ m'.cols = m.cols ∧
      ∀ a b, (a, b) ∉ ps → m'.val a b = m.val a b := by
  induction ps generalizing i m with
  | nil => exact ⟨m, rfl, rfl, rfl, fun _ _ _ => rfl⟩
  | cons p ps ih =>
    simp only [List.length_cons] at h
    have hi : i < buf.length := by omega
    obtain ⟨m', h1, h2, h3, h4⟩ := ih (i + 1) (m.set p.1 p.2 (fm.ofF32 buf[i])) (by omega)
    refine ⟨m', ?_, h2, h3, ?_⟩
    · simp [loadAll, hi, h1]
    · intro a b hab
      simp only [List.mem_cons, not_or] at hab
      rw [h4 a b hab.2]
      have : ¬ (a = p.1 ∧ b = p.2) := by rintro ⟨rfl, rfl⟩; exact hab.1 rfl
      simp [Mat.set, this]

/-! ### bytes -/

@[simp] theorem encodeWords_length (vs : List (BitVec 32)) :
    (encodeWords vs).length = vs.length * 4 := by
  simp [encodeWords, List.length_flatMap]

theorem encodeWords_cons (v : BitVec 32) (vs) : encodeWords (v :: vs) = bytes32 v ++ encodeWords vs := by
  simp [encodeWords]

theorem decodeWords_encodeWords (vs : List (BitVec 32)) :
    decodeWords vs.length (encodeWords vs) = vs := by
  induction vs with
  | nil => rfl
  | cons v vs ih =>
    rw [encodeWords_cons, List.length_cons, decodeWords]
    rw [List.take_left' (bytes32_length v), List.drop_left' (bytes32_length v), word32_bytes32, ih]

@[simp] theorem decodeWords_length (n : Nat) (bs) : (decodeWords n bs).length = n := by
  induction n generalizing bs with
  | zero => rfl
  | succ n ih => simp [decodeWords, ih]

theorem readRaw_append (pre mid post : List Byte) :
    readRaw (pre ++ (mid ++ post)) pre.length mid.length = .ok (mid, pre.length + mid.length) := by
  unfold readRaw
  by_cases h : mid.length = 0
  · have : mid = [] := List.length_eq_zero_iff.1 h
    subst this; simp
  · rw [if_neg h, if_pos (by simp)]
    simp

theorem readFloats_append (pre post : List Byte) (vs : List (BitVec 32)) :
    readFloats (pre ++ (encodeWords vs ++ post)) pre.length vs.length
      = .ok (vs, pre.length + vs.length * 4) := by
  have := readRaw_append pre (encodeWords vs) post
  rw [encodeWords_length] at this
  simp [readFloats, this, decodeWords_encodeWords]

theorem verifyInt_append (pre post : List Byte) (v : BitVec 32) :
    verifyInt (pre ++ (bytes32 v ++ post)) pre.length v = .ok (pre.length + 4) := by
  have := readRaw_append pre (bytes32 v) post
  rw [bytes32_length] at this
  simp [verifyInt, readInt, this]

theorem verifyInt_pos {bs pos v p} (h : verifyInt bs pos v = .ok p) : p = pos + 4 := by
  unfold verifyInt readInt readRaw at h
  by_cases h1 : pos + 4 ≤ bs.length
  · simp only [OfNat.ofNat_ne_zero, if_false, if_pos h1, Except.ok_bind', Except.pure_ok] at h
    split_ifs at h
    simpa using h.symm
  · simp [h1] at h

theorem readFloats_pos {bs pos n vs p} (h : readFloats bs pos n = .ok (vs, p)) :
    p = pos + n * 4 ∧ vs.length = n := by
  unfold readFloats readRaw at h
  by_cases h0 : n = 0
  · subst h0; simp [decodeWords] at h; obtain ⟨rfl, rfl⟩ := h; simp
  · by_cases h1 : pos + n * 4 ≤ bs.length
    · simp [h0, h1] at h
      obtain ⟨rfl, rfl⟩ := h; simp
    · simp [h0, h1] at h

theorem skipLines_pos {ls pos n p} (h : skipLines ls pos n = .ok p) : p = pos + n := by
  unfold skipLines at h
  split_ifs at h <;> simp_all

/-! ### record boundaries -/

theorem getSector_ok {ss : List Sector} {k s} : getSector ss k = .ok s ↔ ss[k]? = some s := by
  unfold getSector
  cases ss[k]? <;> simp

/-- Does a record start (end) at sector `k`. -/
def firstB (ss : List Sector) (k : Nat) : Bool :=
  k == 0 || decide ((ss[k]?.map (·.bra.species)) ≠ (ss[k-1]?.map (·.bra.species)))
def lastB (ss : List Sector) (k : Nat) : Bool :=
  k == ss.length - 1 || decide ((ss[k]?.map (·.bra.species)) ≠ (ss[k+1]?.map (·.bra.species)))

theorem sectorIsFirstOfType_eq {ss : List Sector} {k : Nat} (h : k < ss.length) :
    sectorIsFirstOfType ss k = .ok (firstB ss k) := by
  unfold sectorIsFirstOfType firstB getSector
  have h' : k - 1 < ss.length := by omega
  by_cases h0 : k = 0
  · subst h0; simp [h]
  · simp [h, h0, h']

theorem sectorIsLastOfType_eq {ss : List Sector} {k : Nat} (h : k < ss.length) :
    sectorIsLastOfType ss k = .ok (lastB ss k) := by
  unfold sectorIsLastOfType lastB getSector
  by_cases h0 : k = ss.length - 1
  · simp [h, ← h0]
  · have h' : k + 1 < ss.length := by omega
    simp [h, h0, h']

/-! ### one normal form for the three formats -/

def useDelims : Format → Bool
  | .v0 => true | .v15099 => true | .v15200 => false

/-- What the assertions of the sector routines demand. -/
def accepts (c : Cfg) (s : Sector) : Bool :=
  s.isUpperTriangle && (match c.format with | .v0 => s.isDiagonal | _ => true)

def labelsOf (c : Cfg) (s : Sector) : Nat × Nat → List Int :=
  match c.format with
  | .v0 => labelsV0 s
  | .v15099 => labelsV15099 s
  | .v15200 => labelsV15200 c.ix.numOrbitalsP s

def hasPre (c : Cfg) (k : Nat) : Bool := useDelims c.format && firstB c.ix.sectors k
def hasPost (c : Cfg) (k : Nat) : Bool := useDelims c.format && lastB c.ix.sectors k

def optVerify (b : Bool) (bs : List Byte) (pos : Nat) (d : BitVec 32) : Except Err Nat :=
  if b then verifyInt bs pos d else .ok pos

def delimOf (c : Cfg) (s : Sector) : BitVec 32 := delimiter (sizeByType c.ix.sectors s.ket.species)

theorem readRaw_none {c : Cfg} {f k pos} (h : c.ix.sectors[k]? = none) :
    readSectorRaw c f k pos = .error .undefinedBehaviour := by
  unfold readSectorRaw
  cases c.format <;> simp [readSectorV0, readSectorV15099, readSectorV15200, getSector, h]

theorem readRaw_reject {c : Cfg} {f k pos s} (h : c.ix.sectors[k]? = some s)
    (ha : accepts c s = false) : readSectorRaw c f k pos = .error .assertFail := by
  unfold readSectorRaw
  unfold accepts at ha
  cases hc : c.format <;> simp only [hc] at ha <;>
    simp only [readSectorV0, readSectorV15099, readSectorV15200, getSector, h, Except.ok_bind'] <;>
    cases h1 : s.isUpperTriangle <;> simp_all

theorem skipRaw_reject {c : Cfg} {f k pos s} (h : c.ix.sectors[k]? = some s)
    (ha : accepts c s = false) : skipSectorRaw c f k pos = .error .assertFail := by
  unfold skipSectorRaw
  unfold accepts at ha
  cases hc : c.format <;> simp only [hc] at ha <;>
    simp only [skipSectorV0, skipSectorV15099, skipSectorV15200, getSector, h, Except.ok_bind'] <;>
    cases h1 : s.isUpperTriangle <;> simp_all

theorem writeRaw_reject {c : Cfg} {k m conv s} (h : c.ix.sectors[k]? = some s)
    (ha : accepts c s = false) : writeSectorRaw c k m conv = .error .assertFail := by
  unfold writeSectorRaw
  unfold accepts at ha
  cases hc : c.format <;> simp only [hc] at ha <;>
    simp only [writeSectorV0, writeSectorV15099, writeSectorV15200, getSector, h, Except.ok_bind'] <;>
    cases h1 : s.isUpperTriangle <;> simp_all

theorem inline_diag {s : Sector} (h : s.isDiagonal = true) :
    inlineSectorEntries s = s.ket.size * (s.ket.size + 1) / 2 := by
  simp [inlineSectorEntries, h]

theorem readRaw_binary {c : Cfg} {f : File} {k pos : Nat} {s : Sector}
    (hm : c.mode = .binary) (h : c.ix.sectors[k]? = some s) (ha : accepts c s = true) :
    readSectorRaw c f k pos = (do
      let pos ← optVerify (hasPre c k) f.bytes pos (delimOf c s)
      let (buf, pos) ← readFloats f.bytes pos (inlineSectorEntries s)
      let m ← loadAll c.fm (loopPairs s.isDiagonal s.bra.size s.ket.size) 0 buf
        (Mat.zero s.bra.size s.ket.size)
      let pos ← optVerify (hasPost c k) f.bytes pos (delimOf c s)
      return (m, pos)) := by
  have hk : k < c.ix.sectors.length := by
    by_contra hk
    rw [List.getElem?_eq_none (by omega)] at h; simp at h
  have hF := sectorIsFirstOfType_eq hk
  have hL := sectorIsLastOfType_eq hk
  unfold readSectorRaw
  unfold accepts at ha
  cases hc : c.format <;> simp only [hc, Bool.and_eq_true, and_true] at ha
  · simp only [readSectorV0, getSector, h, hm, Except.ok_bind', ha.1, ha.2, assertE_true, hF, hL,
      hasPre, hasPost, hc, useDelims, Bool.true_and, optVerify, delimOf, inline_diag ha.2]
    cases firstB c.ix.sectors k <;> cases lastB c.ix.sectors k <;> rfl
  · simp only [readSectorV15099, getSector, h, hm, Except.ok_bind', ha, assertE_true, hF, hL,
      hasPre, hasPost, hc, useDelims, Bool.true_and, optVerify, delimOf]
    cases firstB c.ix.sectors k <;> cases lastB c.ix.sectors k <;> rfl
  · simp only [readSectorV15200, getSector, h, hm, Except.ok_bind', ha, assertE_true,
      hasPre, hasPost, hc, useDelims, Bool.false_and, optVerify, delimOf]
    rfl

theorem skipRaw_binary {c : Cfg} {f : File} {k pos : Nat} {s : Sector}
    (hm : c.mode = .binary) (h : c.ix.sectors[k]? = some s) (ha : accepts c s = true) :
    skipSectorRaw c f k pos = (do
      let pos ← optVerify (hasPre c k) f.bytes pos (delimOf c s)
      optVerify (hasPost c k) f.bytes (pos + inlineSectorEntries s * 4) (delimOf c s)) := by
  have hk : k < c.ix.sectors.length := by
    by_contra hk
    rw [List.getElem?_eq_none (by omega)] at h; simp at h
  have hF := sectorIsFirstOfType_eq hk
  have hL := sectorIsLastOfType_eq hk
  unfold skipSectorRaw
  unfold accepts at ha
  cases hc : c.format <;> simp only [hc, Bool.and_eq_true, and_true] at ha
  · simp only [skipSectorV0, getSector, h, hm, Except.ok_bind', ha.1, ha.2, assertE_true, hF, hL,
      hasPre, hasPost, hc, useDelims, Bool.true_and, optVerify, delimOf]
    cases firstB c.ix.sectors k <;> cases lastB c.ix.sectors k <;> rfl
  · simp only [skipSectorV15099, getSector, h, hm, Except.ok_bind', ha, assertE_true, hF, hL,
      hasPre, hasPost, hc, useDelims, Bool.true_and, optVerify, delimOf]
    cases firstB c.ix.sectors k <;> cases lastB c.ix.sectors k <;> rfl
  · simp [skipSectorV15200, getSector, h, hm, ha, 
      hasPre, hasPost, hc, useDelims, optVerify, getSectorCount_eq ha]

theorem readRaw_text {c : Cfg} {f : File} {k pos : Nat} {s : Sector}
    (hm : c.mode = .text) (h : c.ix.sectors[k]? = some s) (ha : accepts c s = true) :
    readSectorRaw c f k pos =
      loadText c.fm (labelsOf c s) (loopPairs s.isDiagonal s.bra.size s.ket.size) f.lines pos
        (Mat.zero s.bra.size s.ket.size) := by
  unfold readSectorRaw
  unfold accepts at ha
  cases hc : c.format <;> simp only [hc, Bool.and_eq_true, and_true] at ha
  · simp [readSectorV0, getSector, h, hm, ha.1, ha.2, labelsOf, hc]
  · simp [readSectorV15099, getSector, h, hm, ha, labelsOf, hc]
  · simp [readSectorV15200, getSector, h, hm, ha, labelsOf, hc]

theorem skipRaw_text {c : Cfg} {f : File} {k pos : Nat} {s : Sector}
    (hm : c.mode = .text) (h : c.ix.sectors[k]? = some s) (ha : accepts c s = true) :
    skipSectorRaw c f k pos = skipLines f.lines pos (inlineSectorEntries s) := by
  unfold skipSectorRaw
  unfold accepts at ha
  cases hc : c.format <;> simp only [hc, Bool.and_eq_true, and_true] at ha
  · simp [skipSectorV0, getSector, h, hm, ha.1, ha.2]
  · simp [skipSectorV15099, getSector, h, hm, ha]
  · simp [skipSectorV15200, getSector, h, hm, ha, getSectorCount_eq ha]

/-- The record-length assertion made when a record is opened. -/
def recordFits (c : Cfg) (k : Nat) (s : Sector) : Bool :=
  !(hasPre c k) || decide (sizeByType c.ix.sectors s.ket.species * 4 < kMaxRecordLength)

theorem writeRaw_binary {c : Cfg} {k : Nat} {s : Sector} {m : Mat} {conv : Conv}
    (hm : c.mode = .binary) (h : c.ix.sectors[k]? = some s) (ha : accepts c s = true)
    (hw : s.WF) :
    writeSectorRaw c k m conv = (do
      assertE (recordFits c k s)
      return ⟨(if hasPre c k then bytes32 (delimOf c s) else [])
        ++ encodeWords ((loopPairs s.isDiagonal s.bra.size s.ket.size).map (outputElement c.fm conv s m))
        ++ (if hasPost c k then bytes32 (delimOf c s) else []), []⟩) := by
  have hk : k < c.ix.sectors.length := by
    by_contra hk
    rw [List.getElem?_eq_none (by omega)] at h; simp at h
  have hF := sectorIsFirstOfType_eq hk
  have hL := sectorIsLastOfType_eq hk
  have hst := storeAll_replicate ((loopPairs s.isDiagonal s.bra.size s.ket.size).map
    (outputElement c.fm conv s m)) (inlineSectorEntries s) (by
      rw [List.length_map, length_loopPairs hw])
  unfold writeSectorRaw
  unfold accepts at ha
  cases hc : c.format <;> simp only [hc, Bool.and_eq_true, and_true] at ha
  · rw [ha.2] at hst
    rw [inline_diag ha.2] at hst
    simp only [writeSectorV0, getSector, h, hm, Except.ok_bind', ha.1, ha.2, assertE_true, hF, hL,
      hasPre, hasPost, hc, useDelims, Bool.true_and, delimOf, recordFits, Except.pure_ok, hst]
    cases firstB c.ix.sectors k <;> simp
  · simp only [writeSectorV15099, getSector, h, hm, Except.ok_bind', ha, assertE_true, hF, hL,
      hasPre, hasPost, hc, useDelims, Bool.true_and, delimOf, recordFits, Except.pure_ok, hst]
    cases firstB c.ix.sectors k <;> simp
  · simp [writeSectorV15200, getSector, h, hm, ha,
      hasPre, hasPost, hc, useDelims, hst, recordFits]

theorem writeRaw_text {c : Cfg} {k : Nat} {s : Sector} {m : Mat} {conv : Conv}
    (hm : c.mode = .text) (h : c.ix.sectors[k]? = some s) (ha : accepts c s = true) :
    writeSectorRaw c k m conv = .ok ⟨[], (loopPairs s.isDiagonal s.bra.size s.ket.size).map fun p =>
      ⟨labelsOf c s p, [c.fm.fmt (outputElement c.fm conv s m p)]⟩⟩ := by
  unfold writeSectorRaw
  unfold accepts at ha
  cases hc : c.format <;> simp only [hc, Bool.and_eq_true, and_true] at ha
  · simp [writeSectorV0, getSector, h, hm, ha.1, ha.2, labelsOf, hc]; exact fun _ _ _ => rfl
  · simp [writeSectorV15099, getSector, h, hm, ha, labelsOf, hc]; exact fun _ _ _ => rfl
  · simp [writeSectorV15200, getSector, h, hm, ha, labelsOf, hc]; exact fun _ _ _ => rfl

end Verif.H2
