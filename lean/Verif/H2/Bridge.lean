import Verif.H2.History
import Verif.H2.Spec
import Mathlib.Tactic.NormNum

/-! # Lemmas connecting the H2 model to the specification -/

namespace Verif.H2
open Verif

/-! ### bridging lemmas between model and specification -/

theorem mem_loopPairs_stored {s : Sector} {b k : Nat} :
    (b, k) ∈ loopPairs s.isDiagonal s.bra.size s.ket.size ↔ Stored s b k := by
  rw [mem_loopPairs]
  simp [Stored, Sector.isDiagonal]

theorem storedCount_eq {s : Sector} (h : s.WF) : storedCount s = inlineSectorEntries s := by
  rw [← length_loopPairs h, storedCount]
  rw [← List.toFinset_card_of_nodup (nodup_loopPairs _ _ _)]
  congr 1
  ext ⟨b, k⟩
  rw [List.mem_toFinset, mem_loopPairs_stored]
  simp [Stored, and_assoc]

theorem conversionFactor_eq (conv : Conv) (s : Sector) (b k : Nat)
    (h : conv = .none ∨ conv = .asToNAS) :
    conversionFactor conv s.bra.species (s.bra.state b) s.ket.species (s.ket.state k)
      = storedFactor conv s b k := by
  rcases h with rfl | rfl
  · simp [conversionFactor, storedFactor]
  · simp only [conversionFactor, storedFactor, pairNorm, if_true, one_mul]
    congr 1
    · by_cases h1 : s.bra.species = .pn <;> by_cases h2 : (s.bra.state b).index1 = (s.bra.state b).index2 <;>
        simp [h1, h2] <;> norm_num
    · by_cases h1 : s.ket.species = .pn <;> by_cases h2 : (s.ket.state k).index1 = (s.ket.state k).index2 <;>
        simp [h1, h2] <;> norm_num

theorem outputElement_eq (fm : FloatModel) (w : WriteCall) (s : Sector) (p : Nat × Nat)
    (h : w.conv = .none ∨ w.conv = .asToNAS) :
    outputElement fm w.conv s w.mat p
      = fm.toF32 (storedFactor w.conv s p.1 p.2 * w.mat.val p.1 p.2) := by
  unfold outputElement
  rw [conversionFactor_eq _ _ _ _ h]

theorem sectorWords_eq (fm : FloatModel) (w : WriteCall) (s : Sector)
    (h : w.conv = .none ∨ w.conv = .asToNAS) :
    (loopPairs s.isDiagonal s.bra.size s.ket.size).map (outputElement fm w.conv s w.mat)
      = sectorWords fm s w := by
  unfold loopPairs sectorWords
  rw [List.map_flatMap, List.flatMap_def]
  congr 1
  apply List.map_congr_left
  intro b hb
  rw [List.map_map]
  have hf : ((List.range s.ket.size).filter fun k => !(s.isDiagonal && !(decide (b ≤ k))))
      = (List.range s.ket.size).filter fun k => decide (Stored s b k) := by
    apply List.filter_congr
    intro k hk
    rw [List.mem_range] at hb hk
    have : Stored s b k ↔ (s.braIndex = s.ketIndex → b ≤ k) := by simp [Stored, hb, hk]
    rw [Bool.eq_iff_iff, decide_eq_true_iff, this]
    by_cases hd : s.braIndex = s.ketIndex <;> simp [Sector.isDiagonal, hd]
  rw [hf]
  apply List.map_congr_left
  intro k _
  exact outputElement_eq fm w s (b, k) h

/-- Reading back, at its place, a sector that was written in binary mode. -/
theorem readAt_written_binary {c : Cfg} {start : Nat} {f : File} {pre post : List Byte} {k : Nat}
    {s : Sector} {w : WriteCall} {ch : File} (hm : c.mode = .binary) (hs : c.ix.sectors[k]? = some s)
    (hw : s.WF) (hconv : w.conv = .none ∨ w.conv = .asToNAS)
    (hch : writeSectorRaw c k w.mat w.conv = .ok ch)
    (hf : f.bytes = pre ++ (ch.bytes ++ post)) (hpre : pre.length = layoutPos c start k) :
    ∃ m p, readAt c f start k = .ok (m, p) ∧ IsImage c.fm id s w m := by
  have ha : accepts c s = true := by
    cases ha : accepts c s with
    | false => rw [writeRaw_reject hs ha] at hch; simp at hch
    | true => rfl
  rw [writeRaw_binary hm hs ha hw] at hch
  simp only [Except.bind_eq_ok, Except.pure_ok, Except.ok.injEq] at hch
  obtain ⟨_, _, rfl⟩ := hch
  unfold readAt
  rw [readRaw_binary hm hs ha, ← hpre]
  simp only at hf
  set ps := loopPairs s.isDiagonal s.bra.size s.ket.size with hps
  set vs := ps.map (outputElement c.fm w.conv s w.mat) with hvs
  set a := (if hasPre c k then bytes32 (delimOf c s) else []) with ha'
  set z := (if hasPost c k then bytes32 (delimOf c s) else []) with hz'
  have hlen : vs.length = inlineSectorEntries s := by
    rw [hvs, List.length_map, hps, length_loopPairs hw]
  have s1 : optVerify (hasPre c k) f.bytes pre.length (delimOf c s) = .ok ((pre ++ a).length) := by
    rw [hf]
    unfold optVerify
    cases hb : hasPre c k with
    | false => simp [ha', hb]
    | true =>
      simp only [ha', hb, if_true, List.append_assoc]
      rw [verifyInt_append]
      simp
  have s2 : readFloats f.bytes (pre ++ a).length (inlineSectorEntries s)
      = .ok (vs, (pre ++ a ++ encodeWords vs).length) := by
    have := readFloats_append (pre ++ a) (z ++ post) vs
    rw [hlen] at this
    rw [hf]
    simp only [List.append_assoc] at this ⊢
    rw [this]
    simp [hlen]; omega
  have s3 : loadAll c.fm ps 0 vs (Mat.zero s.bra.size s.ket.size)
      = .ok (setAll ps (fun p => c.fm.ofF32 (outputElement c.fm w.conv s w.mat p))
          (Mat.zero s.bra.size s.ket.size)) := by
    have := loadAll_eq c.fm ps (outputElement c.fm w.conv s w.mat) []
      (Mat.zero s.bra.size s.ket.size)
    simpa using this
  have s4 : ∃ p, optVerify (hasPost c k) f.bytes (pre ++ a ++ encodeWords vs).length (delimOf c s)
      = .ok p := by
    unfold optVerify
    cases hb : hasPost c k with
    | false => exact ⟨_, rfl⟩
    | true =>
      have := verifyInt_append (pre ++ a ++ encodeWords vs) post (delimOf c s)
      rw [hf]
      simp only [hz', hb, if_true, List.append_assoc] at this ⊢
      exact ⟨_, this⟩
  obtain ⟨p, s4⟩ := s4
  refine ⟨setAll ps (fun p => c.fm.ofF32 (outputElement c.fm w.conv s w.mat p))
          (Mat.zero s.bra.size s.ket.size), p, ?_, ?_⟩
  · rw [s1, Except.ok_bind', s2, Except.ok_bind']
    simp only
    rw [s3, Except.ok_bind', s4, Except.ok_bind']
    rfl
  · refine ⟨by rw [setAll_rows]; rfl, by rw [setAll_cols]; rfl, ?_⟩
    intro b k'
    rw [setAll_val]
    simp only [hps, mem_loopPairs_stored]
    rw [outputElement_eq _ _ _ _ hconv]
    rfl

theorem loadText_map (fm : FloatModel) (labels : Nat × Nat → List Int) (r : BitVec 32 → BitVec 32)
    (hr : ∀ x, fm.scan (fm.fmt x) = some (r x))
    (ps : List (Nat × Nat)) (g : Nat × Nat → BitVec 32) (pre post : List Line) (m : Mat) :
    loadText fm labels ps (pre ++ (ps.map (fun p => (⟨labels p, [fm.fmt (g p)]⟩ : Line)) ++ post))
      pre.length m
      = .ok (setAll ps (fun p => fm.ofF32 (r (g p))) m, pre.length + ps.length) := by
  induction ps generalizing pre m with
  | nil => simp [loadText, setAll]
  | cons q ps ih =>
    have hl : (pre ++ ((q :: ps).map (fun p => (⟨labels p, [fm.fmt (g p)]⟩ : Line)) ++ post))[pre.length]?
        = some ⟨labels q, [fm.fmt (g q)]⟩ := by simp
    simp only [loadText, hl, if_true, List.head?_cons, Option.bind_some, hr]
    have := ih (pre ++ [⟨labels q, [fm.fmt (g q)]⟩]) (m.set q.1 q.2 (fm.ofF32 (r (g q))))
    simp only [List.length_append, List.length_cons, List.length_nil, List.append_assoc,
      List.cons_append, List.nil_append] at this
    simp only [List.map_cons, List.cons_append]
    rw [this]
    simp [setAll]; omega

theorem readAt_written_text {c : Cfg} {start : Nat} {f : File} {pre post : List Line} {k : Nat}
    {s : Sector} {w : WriteCall} {ch : File} {r : BitVec 32 → BitVec 32}
    (hr : ∀ x, c.fm.scan (c.fm.fmt x) = some (r x))
    (hm : c.mode = .text) (hs : c.ix.sectors[k]? = some s)
    (hconv : w.conv = .none ∨ w.conv = .asToNAS)
    (hch : writeSectorRaw c k w.mat w.conv = .ok ch)
    (hf : f.lines = pre ++ (ch.lines ++ post)) (hpre : pre.length = layoutPos c start k) :
    ∃ m p, readAt c f start k = .ok (m, p) ∧ IsImage c.fm r s w m := by
  have ha : accepts c s = true := by
    cases ha : accepts c s with
    | false => rw [writeRaw_reject hs ha] at hch; simp at hch
    | true => rfl
  rw [writeRaw_text hm hs ha] at hch
  simp only [Except.ok.injEq] at hch
  subst hch
  unfold readAt
  rw [readRaw_text hm hs ha, ← hpre, hf]
  rw [loadText_map c.fm (labelsOf c s) r hr]
  refine ⟨_, _, rfl, ?_⟩
  refine ⟨by rw [setAll_rows]; rfl, by rw [setAll_cols]; rfl, ?_⟩
  intro b k'
  rw [setAll_val]
  simp only [mem_loopPairs_stored]
  rw [outputElement_eq _ _ _ _ hconv]
  rfl

end Verif.H2
