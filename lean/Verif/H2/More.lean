import Verif.H2.Bridge

/-! # Further lemmas on the H2 streams: completeness of writing, Fortran records, counting -/

namespace Verif.H2
open Verif

theorem writeHistory_complete {c : Cfg} {ws : List WriteCall} {st : OutState}
    (h : ∀ i w, ws[i]? = some w → w.index = st.sectorIndex + i ∧
      (∃ s, c.ix.sectors[st.sectorIndex + i]? = some s ∧ w.mat.rows = s.bra.size ∧
          w.mat.cols = s.ket.size) ∧ (w.conv = .none ∨ w.conv = .asToNAS) ∧
      ∃ ch, writeSectorRaw c (st.sectorIndex + i) w.mat w.conv = .ok ch) :
    ∃ st', writeHistory c ws st = .ok st' := by
  induction ws generalizing st with
  | nil => exact ⟨st, rfl⟩
  | cons w ws ih =>
    obtain ⟨h1, ⟨s, hs, hr, hc⟩, hconv, ch, hch⟩ := h 0 w rfl
    simp only [Nat.add_zero] at h1 hs hch
    have hstep : writeSector c w.index w.mat w.conv st
        = .ok ⟨st.sectorIndex + 1, st.out.append ch⟩ := by
      unfold writeSector
      simp [getSector, hs, h1, hr, hc, hconv, hch, assertE]
    obtain ⟨st', hst'⟩ := ih (st := ⟨st.sectorIndex + 1, st.out.append ch⟩) (by
      intro i w' hi
      have := h (i + 1) w' (by simpa using hi)
      simp only
      rw [show st.sectorIndex + 1 + i = st.sectorIndex + (i + 1) by omega]
      exact this)
    exact ⟨st', by simp [writeHistory, hstep, hst']⟩

theorem writeRaw_complete {c : Cfg} {k : Nat} {s : Sector} {m : Mat} {conv : Conv}
    (hs : c.ix.sectors[k]? = some s) (ha : accepts c s = true) (hw : s.WF)
    (hfit : c.mode = .binary → recordFits c k s = true) :
    ∃ ch, writeSectorRaw c k m conv = .ok ch := by
  cases hm : c.mode with
  | text => exact ⟨_, writeRaw_text hm hs ha⟩
  | matrix => exact ⟨_, writeRaw_matrix hm hs ha⟩
  | binary =>
    rw [writeRaw_binary hm hs ha hw, hfit hm]
    exact ⟨_, rfl⟩

/-! ### counting -/

theorem sizeByType_foldl (ss : List Sector) (f : Species → Nat) (t : Species) :
    ss.foldl (fun size s t => if t = s.bra.species then size t + getSectorCount s else size t) f t
      = f t + ((ss.filter fun s => s.bra.species = t).map getSectorCount).sum := by
  induction ss generalizing f with
  | nil => simp
  | cons s ss ih =>
    rw [List.foldl_cons, ih]
    by_cases h : s.bra.species = t
    · simp [h, Nat.add_assoc]
    · have h' : ¬ t = s.bra.species := fun e => h e.symm
      simp [h, h']

theorem sizeByType_eq (ss : List Sector) (t : Species) :
    sizeByType ss t = ((ss.filter fun s => s.bra.species = t).map getSectorCount).sum := by
  unfold sizeByType; rw [sizeByType_foldl]; simp

theorem numSectorsByType_foldl (ss : List Sector) (f : Species → Nat) (t : Species) :
    ss.foldl (fun num s t => if t = s.bra.species then num t + 1 else num t) f t
      = f t + (ss.filter fun s => s.bra.species = t).length := by
  induction ss generalizing f with
  | nil => simp
  | cons s ss ih =>
    rw [List.foldl_cons, ih]
    by_cases h : s.bra.species = t
    · simp [h]; omega
    · have h' : ¬ t = s.bra.species := fun e => h e.symm
      simp [h, h']

theorem sum_by_species (ss : List Sector) (g : Sector → Nat) :
    (ss.map g).sum = ((ss.filter fun s => s.bra.species = .pp).map g).sum
      + ((ss.filter fun s => s.bra.species = .nn).map g).sum
      + ((ss.filter fun s => s.bra.species = .pn).map g).sum := by
  induction ss with
  | nil => rfl
  | cons s ss ih =>
    cases h : s.bra.species <;> simp [h, ih] <;> omega

/-! ### Fortran records -/

/-- What the writer emits for a list of (species, payload) given the species before it. -/
def emit (D : Species → List Byte) : Option Species → List (Species × List Byte) → List Byte
  | _, [] => []
  | prev, (t, p) :: rest =>
    (if prev ≠ some t then D t else []) ++ p ++
    (if rest.head?.map Prod.fst ≠ some t then D t else []) ++ emit D (some t) rest

theorem emit_group (D : Species → List Byte) (t : Species) (xs rest : List (Species × List Byte))
    (hx : ∀ x ∈ xs, x.1 = t) (hne : xs ≠ []) (hr : rest.head?.map Prod.fst ≠ some t)
    (prev : Option Species) :
    emit D prev (xs ++ rest) = (if prev ≠ some t then D t else []) ++ (xs.map Prod.snd).flatten
      ++ D t ++ emit D (some t) rest := by
  induction xs generalizing prev with
  | nil => exact absurd rfl hne
  | cons x xs ih =>
    obtain ⟨t', p⟩ := x
    have ht : t' = t := hx (t', p) (by simp)
    subst ht
    cases xs with
    | nil => simp [emit, hr]
    | cons y ys =>
      have hy : y.1 = t' := hx y (by simp)
      rw [List.cons_append, emit, ih (fun x hx' => hx x (by simp [hx'])) (by simp)]
      simp [hy]

/-- A group that may be empty. -/
theorem emit_group' (D : Species → List Byte) (t : Species) (xs rest : List (Species × List Byte))
    (hx : ∀ x ∈ xs, x.1 = t) (hr : rest.head?.map Prod.fst ≠ some t)
    (prev : Option Species) (hp : prev ≠ some t) :
    emit D prev (xs ++ rest) = (if xs = [] then [] else D t ++ (xs.map Prod.snd).flatten ++ D t)
      ++ emit D (if xs = [] then prev else some t) rest := by
  by_cases h : xs = []
  · simp [h]
  · rw [emit_group D t xs rest hx h hr]; simp [h, hp]

theorem filter_split (xs : List (Species × List Byte))
    (hs : xs.Pairwise fun x y => x.1.idx ≤ y.1.idx) :
    xs = xs.filter (fun x => x.1 = .pp) ++ (xs.filter (fun x => x.1 = .nn)
      ++ xs.filter (fun x => x.1 = .pn)) := by
  induction xs with
  | nil => rfl
  | cons x xs ih =>
    have ih := ih hs.of_cons
    have hle : ∀ y ∈ xs, x.1.idx ≤ y.1.idx := fun y hy => (List.pairwise_cons.1 hs).1 y hy
    obtain ⟨t, p⟩ := x
    cases t with
    | pp =>
      simp only [List.filter_cons, decide_true, if_true]
      simp only [reduceCtorEq, decide_false, Bool.false_eq_true, if_false, List.cons_append]
      rw [← ih]
    | nn =>
      have h1 : xs.filter (fun x => x.1 = .pp) = [] := by
        rw [List.filter_eq_nil_iff]; intro y hy
        have := hle y hy
        intro hh; rw [decide_eq_true_iff] at hh; rw [hh] at this; simp [Species.idx] at this
      rw [h1] at ih
      simp only [List.filter_cons, h1]
      simp only [reduceCtorEq, decide_false, decide_true, Bool.false_eq_true, if_false, if_true,
        List.nil_append, List.cons_append]
      rw [List.nil_append] at ih
      rw [← ih]
    | pn =>
      have h1 : xs.filter (fun x => x.1 = .pp) = [] := by
        rw [List.filter_eq_nil_iff]; intro y hy
        have := hle y hy
        intro hh; rw [decide_eq_true_iff] at hh; rw [hh] at this; simp [Species.idx] at this
      have h2 : xs.filter (fun x => x.1 = .nn) = [] := by
        rw [List.filter_eq_nil_iff]; intro y hy
        have := hle y hy
        intro hh; rw [decide_eq_true_iff] at hh; rw [hh] at this; simp [Species.idx] at this
      rw [h1, h2] at ih
      simp only [List.filter_cons, h1, h2]
      simp only [reduceCtorEq, decide_false, decide_true, Bool.false_eq_true, if_false, if_true,
        List.nil_append]
      simp only [List.nil_append] at ih
      rw [← ih]

theorem head_filter_ne {t u : Species} (xs : List (Species × List Byte)) (h : t ≠ u) :
    (xs.filter (fun x => x.1 = u)).head?.map Prod.fst ≠ some t := by
  intro hh
  rw [Option.map_eq_some_iff] at hh
  obtain ⟨x, hx, rfl⟩ := hh
  have := List.mem_of_mem_head? hx
  rw [List.mem_filter] at this
  exact h (by simpa using this.2)

/-- Emission of a species-sorted list is one delimited group per species present. -/
theorem emit_sorted (D : Species → List Byte) (xs : List (Species × List Byte))
    (hs : xs.Pairwise fun x y => x.1.idx ≤ y.1.idx) :
    emit D none xs = ([Species.pp, .nn, .pn].map fun t =>
      let g := xs.filter (fun x => x.1 = t)
      if g = [] then [] else D t ++ (g.map Prod.snd).flatten ++ D t).flatten := by
  have mem : ∀ t, ∀ x ∈ xs.filter (fun x => x.1 = t), x.1 = t := by
    intro t x hx; rw [List.mem_filter] at hx; simpa using hx.2
  conv => lhs; rw [filter_split xs hs]
  rw [emit_group' D .pp _ _ (mem _) _ _ (by simp)]
  · rw [emit_group' D .nn _ _ (mem _)]
    · have := emit_group' D .pn (xs.filter (fun x => x.1 = .pn)) [] (mem _) (by simp)
        (if xs.filter (fun x => x.1 = .nn) = [] then
          (if xs.filter (fun x => x.1 = .pp) = [] then none else some .pp) else some .nn)
        (by split_ifs <;> simp)
      rw [List.append_nil] at this
      rw [this]
      simp [emit]
    · exact head_filter_ne _ (by simp)
    · split_ifs <;> simp
  · rw [List.head?_append]
    cases h : (xs.filter (fun x => x.1 = .nn)).head? with
    | none => simpa using head_filter_ne xs (t := .pp) (u := .pn) (by simp)
    | some y =>
      have := head_filter_ne xs (t := .pp) (u := .nn) (by simp)
      rw [h] at this
      simpa using this

/-- Chunks with delimiters at species changes, concatenated, are `emit`. -/
theorem flatten_chunks_eq_emit (D : Species → List Byte) (ss : List Sector)
    (pay : List (List Byte)) (chunks : List (List Byte))
    (hp : pay.length = ss.length) (hc : chunks.length = ss.length)
    (h : ∀ k s p ch, ss[k]? = some s → pay[k]? = some p → chunks[k]? = some ch →
      ch = (if firstB ss k then D s.bra.species else []) ++ p ++
        (if lastB ss k then D s.bra.species else [])) :
    chunks.flatten = emit D none ((ss.map (·.bra.species)).zip pay) := by
  have key : ∀ n k, ss.length - k = n → k ≤ ss.length →
      (chunks.drop k).flatten = emit D (if k = 0 then none else (ss[k-1]?.map (·.bra.species)))
        (((ss.map (·.bra.species)).zip pay).drop k) := by
    intro n
    induction n with
    | zero =>
      intro k hk hle
      rw [List.drop_of_length_le (by omega), List.drop_of_length_le (by simp; omega)]
      rfl
    | succ n ih =>
      intro k hk hle
      have hks : k < ss.length := by omega
      have hkp : k < pay.length := by omega
      have hkc : k < chunks.length := by omega
      have hkz : k < ((ss.map (·.bra.species)).zip pay).length := by simp; omega
      rw [List.drop_eq_getElem_cons hkc, List.drop_eq_getElem_cons hkz, List.flatten_cons,
        ih (k + 1) (by omega) (by omega)]
      have hz : ((ss.map (·.bra.species)).zip pay)[k] = (ss[k].bra.species, pay[k]) := by simp
      rw [hz, emit]
      have hch := h k _ _ _ (List.getElem?_eq_getElem hks) (List.getElem?_eq_getElem hkp)
        (List.getElem?_eq_getElem hkc)
      rw [hch]
      have hhead : ((((ss.map (·.bra.species)).zip pay).drop (k + 1)).head?.map Prod.fst)
          = ss[k+1]?.map (·.bra.species) := by
        rw [List.head?_drop]
        by_cases hk1 : k + 1 < ss.length
        · have hkz1 : k + 1 < ((ss.map (·.bra.species)).zip pay).length := by simp; omega
          rw [List.getElem?_eq_getElem hkz1, List.getElem?_eq_getElem hk1]
          simp
        · rw [List.getElem?_eq_none (by simp; omega), List.getElem?_eq_none (by omega)]
          rfl
      rw [hhead]
      have hfirst : (if firstB ss k then D ss[k].bra.species else [])
          = (if (if k = 0 then none else (ss[k-1]?.map (·.bra.species))) ≠ some ss[k].bra.species
              then D ss[k].bra.species else []) := by
        unfold firstB
        by_cases h0 : k = 0
        · simp [h0]
        · have hb : (k == 0) = false := by simp [h0]
          rw [hb, Bool.false_or, List.getElem?_eq_getElem hks]
          simp only [if_neg h0, Option.map_some, decide_eq_true_eq]
          by_cases he : some ss[k].bra.species = (ss[k-1]?.map (·.bra.species))
          · simp [he]
          · rw [if_pos he, if_pos (fun e => he e.symm)]
      have hlast : (if lastB ss k then D ss[k].bra.species else [])
          = (if ss[k+1]?.map (·.bra.species) ≠ some ss[k].bra.species
              then D ss[k].bra.species else []) := by
        unfold lastB
        by_cases h0 : k = ss.length - 1
        · have : ss[k+1]? = none := List.getElem?_eq_none (by omega)
          simp [h0, this]
          rw [List.getElem?_eq_none (by omega)]; simp
        · have hb : (k == ss.length - 1) = false := by simp [h0]
          rw [hb, Bool.false_or, List.getElem?_eq_getElem hks]
          simp only [Option.map_some, decide_eq_true_eq]
          by_cases he : some ss[k].bra.species = (ss[k+1]?.map (·.bra.species))
          · simp [he]
          · rw [if_pos he, if_pos (fun e => he e.symm)]
      rw [hfirst, hlast]
      have : (if k + 1 = 0 then none else ss[k + 1 - 1]?.map (·.bra.species))
          = some ss[k].bra.species := by simp [hks]
      rw [this]
  have := key _ 0 rfl (Nat.zero_le _)
  simpa using this

end Verif.H2
