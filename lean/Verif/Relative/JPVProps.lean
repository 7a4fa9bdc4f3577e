import Verif.Relative.JPV
import Verif.H2.Lemmas

/-!
# JPV reader: triangle enumeration and off-diagonal blocks (C36, C37)
-/

namespace Verif.Relative
open Verif Verif.H2

/-! ## Specification -/

/-- Values readable from one line: tokens up to the first that is not a number. -/
noncomputable def lineValues : Line → List ℝ
  | [] => []
  | tok :: toks => match tok.toReal with
    | none => []
    | some v => v :: lineValues toks

/-- All values of a list of lines, in order. -/
noncomputable def allValues (ls : List Line) : List ℝ := (ls.map lineValues).flatten

/-- Number of upper-triangular positions in the columns before column `c`. -/
def triangular (c : ℕ) : ℕ := c * (c + 1) / 2

/-- Position of entry `(r,c)`, `r ≤ c`, in column order of the upper triangle. -/
def pos (r c : ℕ) : ℕ := triangular c + r

/-- Block filled from the first `triangular dim` values: entry `(r,c)` of the upper triangle of the file goes to
`(r,c)`, or to `(c,r)` when bra and ket were exchanged; entries outside the target are dropped. -/
noncomputable def filled (t : Target) (dim : ℕ) (blk0 : Block) (vals : List ℝ) : Block := fun i j =>
  let r := if t.flip then j else i
  let c := if t.flip then i else j
  if r ≤ c ∧ c < dim ∧ i < t.dimBra ∧ j < t.dimKet then vals.getD (pos r c) 0 else blk0 i j

/-! ## Lemmas -/

theorem tri_succ (c : ℕ) : triangular (c + 1) = triangular c + c + 1 := by
  unfold triangular
  have : (c + 1) * (c + 1 + 1) = c * (c + 1) + 2 * (c + 1) := by ring
  rw [this, Nat.add_mul_div_left _ _ (by norm_num)]
  ring

theorem tri_mono {c d : ℕ} (h : c ≤ d) : triangular c ≤ triangular d := by
  induction h with
  | refl => exact le_refl _
  | step _ ih => rw [tri_succ]; omega

theorem pos_lt_tri {r c d : ℕ} (h : r ≤ c) : pos r c < triangular d ↔ c < d := by
  constructor
  · intro hp
    by_contra hd
    have := tri_mono (show d ≤ c by omega)
    unfold pos at hp
    omega
  · intro hd
    have := tri_mono (show c + 1 ≤ d by omega)
    rw [tri_succ] at this
    unfold pos
    omega

theorem pos_inj {r c r' c' : ℕ} (h : r ≤ c) (h' : r' ≤ c') (e : pos r c = pos r' c') : r = r' ∧ c = c' := by
  rcases lt_trichotomy c c' with hc | hc | hc
  · have := (pos_lt_tri (d := c') h).mpr hc
    unfold pos at this e
    omega
  · subst hc
    unfold pos at e
    omega
  · have := (pos_lt_tri (d := c) h').mpr hc
    unfold pos at this e
    omega

/-- Invariant of the element loop after values `vs` have been placed. -/
structure Inv (t : Target) (blk0 : Block) (vs : List ℝ) (st : JState) : Prop where
  count : st.count = vs.length
  at_pos : pos st.row st.col = vs.length
  le : st.row ≤ st.col
  blk : ∀ i j, st.blk i j =
    let r := if t.flip then j else i
    let c := if t.flip then i else j
    if r ≤ c ∧ pos r c < vs.length ∧ i < t.dimBra ∧ j < t.dimKet then vs.getD (pos r c) 0 else blk0 i j

theorem place_inv {t : Target} {blk0 : Block} {vs : List ℝ} {st : JState} (h : Inv t blk0 vs st) (v : ℝ) :
    Inv t blk0 (vs ++ [v]) (place t st v) := by
  have hnext : ∀ b, (if st.row + 1 > st.col then (⟨0, st.col + 1, st.count + 1, b⟩ : JState)
      else ⟨st.row + 1, st.col, st.count + 1, b⟩).count = (vs ++ [v]).length := by
    intro b
    split <;> simp [h.count]
  have hpos : ∀ b, pos (if st.row + 1 > st.col then (⟨0, st.col + 1, st.count + 1, b⟩ : JState)
      else ⟨st.row + 1, st.col, st.count + 1, b⟩).row (if st.row + 1 > st.col then
        (⟨0, st.col + 1, st.count + 1, b⟩ : JState)
      else ⟨st.row + 1, st.col, st.count + 1, b⟩).col = (vs ++ [v]).length := by
    intro b
    have := h.at_pos
    have := h.le
    have := tri_succ st.col
    split <;> simp only [pos, List.length_append, List.length_singleton] at * <;> omega
  constructor
  · exact hnext _
  · exact hpos _
  · simp only [place]
    split <;> simp only <;> omega
  · intro i j
    have hb : ∀ b, (if st.row + 1 > st.col then (⟨0, st.col + 1, st.count + 1, b⟩ : JState)
      else ⟨st.row + 1, st.col, st.count + 1, b⟩).blk = b := by intro b; split <;> rfl
    simp only [place, hb]
    have h0 := h.blk i j
    simp only at h0
    -- where does the new value go
    set r := if t.flip then j else i with hr
    set c := if t.flip then i else j with hc
    have hlen := h.at_pos
    have hrc : (i = (if t.flip then st.col else st.row) ∧ j = (if t.flip then st.row else st.col))
        ↔ (r = st.row ∧ c = st.col) := by
      rw [hr, hc]; cases t.flip <;> simp [and_comm]
    by_cases hhit : r = st.row ∧ c = st.col
    · have hij := hrc.mpr hhit
      rw [← hij.1, ← hij.2]
      have hpr : pos r c = vs.length := by rw [hhit.1, hhit.2]; exact hlen
      have hle : r ≤ c := by rw [hhit.1, hhit.2]; exact h.le
      by_cases hin : i < t.dimBra ∧ j < t.dimKet
      · rw [if_pos hin, if_pos ⟨hle, by simp [hpr], hin.1, hin.2⟩]
        simp [setEntry, hpr]
      · rw [if_neg hin, h0, if_neg (fun hh => hin hh.2.2), if_neg (fun hh => hin hh.2.2)]
    · have hne : r ≤ c → pos r c ≠ vs.length := fun hle e =>
        hhit (pos_inj hle h.le (e.trans hlen.symm))
      have hold : ∀ np n, ¬ (i = np ∧ j = n) →
          (if np < t.dimBra ∧ n < t.dimKet then setEntry st.blk np n v else st.blk) i j = st.blk i j := by
        intro np n hh
        by_cases hb : np < t.dimBra ∧ n < t.dimKet
        · rw [if_pos hb]
          simp only [setEntry]
          rw [if_neg hh]
        · rw [if_neg hb]
      rw [hold _ _ (fun hh => hhit (hrc.mp hh)), h0]
      by_cases hcond : r ≤ c ∧ pos r c < vs.length ∧ i < t.dimBra ∧ j < t.dimKet
      · rw [if_pos hcond, if_pos ⟨hcond.1, by simp; omega, hcond.2.2⟩]
        simp only [List.getD_eq_getElem?_getD]
        rw [List.getElem?_append_left hcond.2.1]
      · rw [if_neg hcond, if_neg]
        rintro ⟨h1, h2, h3⟩
        have := hne h1
        simp only [List.length_append, List.length_singleton] at h2
        exact hcond ⟨h1, by omega, h3⟩

theorem foldl_place_inv {t : Target} {blk0 : Block} (ws : List ℝ) {vs : List ℝ} {st : JState}
    (h : Inv t blk0 vs st) : Inv t blk0 (vs ++ ws) (ws.foldl (place t) st) := by
  induction ws generalizing vs st with
  | nil => simpa using h
  | cons w ws ih =>
    have := ih (place_inv h w)
    simpa [List.append_assoc] using this

theorem place_count (t : Target) (st : JState) (v : ℝ) : (place t st v).count = st.count + 1 := by
  unfold place
  simp only
  split <;> rfl

theorem readLine_eq (t : Target) (st : JState) (l : Line) (hc : st.count ≤ t.expected) :
    readLine t st l = ((lineValues l).take (t.expected - st.count)).foldl (place t) st := by
  induction l generalizing st with
  | nil => simp [readLine, lineValues]
  | cons tok toks ih =>
    simp only [readLine, lineValues]
    by_cases hd : st.count = t.expected
    · simp [hd]
    · rw [if_neg hd]
      cases htok : tok.toReal with
      | none => simp
      | some v =>
        simp only
        rw [ih _ (by rw [place_count]; omega), place_count]
        obtain ⟨k, hk⟩ : ∃ k, t.expected - st.count = k + 1 := ⟨t.expected - st.count - 1, by omega⟩
        rw [hk, List.take_succ_cons, List.foldl_cons]
        congr 2
        omega

theorem foldl_place_count (t : Target) (ws : List ℝ) (st : JState) :
    (ws.foldl (place t) st).count = st.count + ws.length := by
  induction ws generalizing st with
  | nil => rfl
  | cons w ws ih => rw [List.foldl_cons, ih, place_count, List.length_cons]; omega

theorem readSector_spec (t : Target) (st : JState) (ls : List Line) (hc : st.count ≤ t.expected) :
    (st.count + (allValues ls).length < t.expected → readSector t st ls = .error .streamFail) ∧
    (t.expected ≤ st.count + (allValues ls).length → ∃ k ≤ ls.length,
      readSector t st ls = .ok (((allValues ls).take (t.expected - st.count)).foldl (place t) st, ls.drop k) ∧
      t.expected ≤ st.count + (allValues (ls.take k)).length ∧
      ∀ k' < k, st.count + (allValues (ls.take k')).length < t.expected) := by
  induction ls generalizing st with
  | nil =>
    simp only [allValues, List.map_nil, List.flatten_nil, List.length_nil, readSector, add_zero]
    constructor
    · intro h
      rw [if_neg (by omega)]
    · intro h
      have e : st.count = t.expected := by omega
      refine ⟨0, le_refl 0, ?_, by simpa using h, by omega⟩
      rw [if_pos e]
      simp
  | cons l ls ih =>
    simp only [readSector]
    have hall : allValues (l :: ls) = lineValues l ++ allValues ls := by simp [allValues]
    by_cases hd : st.count = t.expected
    · constructor
      · intro h; omega
      · intro _
        refine ⟨0, by omega, ?_, by rw [hd]; omega, by omega⟩
        rw [if_pos hd]
        simp [hd]
    · rw [if_neg hd]
      have e := readLine_eq t st l hc
      have hcount : (readLine t st l).count = st.count + min (t.expected - st.count) (lineValues l).length := by
        rw [e, foldl_place_count, List.length_take]
      have ih' := ih (readLine t st l) (by rw [hcount]; omega)
      rw [hall, List.length_append]
      constructor
      · intro h
        exact ih'.1 (by rw [hcount]; omega)
      · intro h
        obtain ⟨k, hk, h1, h2, h3⟩ := ih'.2 (by rw [hcount]; omega)
        refine ⟨k + 1, by simp; omega, ?_, ?_, ?_⟩
        · rw [h1, hcount, e, List.drop_succ_cons, ← List.foldl_append]
          have hm : t.expected - (st.count + min (t.expected - st.count) (lineValues l).length)
              = t.expected - st.count - (lineValues l).length := by clear ih ih' h1 h3; omega
          rw [hm, ← List.take_append]
        · rw [List.take_succ_cons, show allValues (l :: ls.take k) = lineValues l ++ allValues (ls.take k) by
            simp [allValues], List.length_append]
          rw [hcount] at h2
          omega
        · intro k' hk'
          rcases k' with _ | k'
          · simp [allValues]; omega
          · rw [List.take_succ_cons, show allValues (l :: ls.take k') = lineValues l ++ allValues (ls.take k') by
              simp [allValues], List.length_append]
            have := h3 k' (by omega)
            rw [hcount] at this
            omega

theorem start_inv (t : Target) (blk0 : Block) : Inv t blk0 [] ⟨0, 0, 0, blk0⟩ := by
  constructor
  · rfl
  · simp [pos, triangular]
  · exact le_refl 0
  · intro i j
    simp

/-! ## Property C36 -/

/-- **C36**: for every dimension and every layout of the values in lines, the reader takes exactly
`dim(dim+1)/2` values and stores the value at position `c(c+1)/2 + r` as entry `(r,c)` of the upper
triangle (or `(c,r)` for an exchanged sector), touching nothing else; it stops after the first line
by which enough values have been seen; with too few values it stops with an error. -/
theorem triangle_enumeration (t : Target) (dim : ℕ) (hd : t.expected = dim * (dim + 1) / 2) (blk0 : Block)
    (ls : List Line) :
    ((allValues ls).length < dim * (dim + 1) / 2 → readSector t ⟨0, 0, 0, blk0⟩ ls = .error .streamFail) ∧
    (dim * (dim + 1) / 2 ≤ (allValues ls).length → ∃ st k, readSector t ⟨0, 0, 0, blk0⟩ ls = .ok (st, ls.drop k) ∧
      st.blk = filled t dim blk0 (allValues ls) ∧
      dim * (dim + 1) / 2 ≤ (allValues (ls.take k)).length ∧
      ∀ k' < k, (allValues (ls.take k')).length < dim * (dim + 1) / 2) := by
  have h := readSector_spec t ⟨0, 0, 0, blk0⟩ ls (Nat.zero_le _)
  simp only [zero_add, Nat.sub_zero] at h
  rw [hd] at h
  refine ⟨h.1, fun hle => ?_⟩
  obtain ⟨k, _, h1, h2, h3⟩ := h.2 hle
  refine ⟨_, k, h1, ?_, h2, h3⟩
  have hinv := foldl_place_inv (t := t) (blk0 := blk0) ((allValues ls).take (dim * (dim + 1) / 2)) (start_inv t blk0)
  simp only [List.nil_append] at hinv
  have hlen : ((allValues ls).take (dim * (dim + 1) / 2)).length = triangular dim := by
    rw [List.length_take]; unfold triangular; omega
  funext i j
  rw [hinv.blk i j, hlen]
  simp only [filled]
  set r := if t.flip then j else i
  set c := if t.flip then i else j
  by_cases hrc : r ≤ c
  · simp only [pos_lt_tri hrc]
    by_cases hcd : r ≤ c ∧ c < dim ∧ i < t.dimBra ∧ j < t.dimKet
    · rw [if_pos hcd, if_pos hcd]
      simp only [List.getD_eq_getElem?_getD]
      rw [List.getElem?_take_of_lt (by have := (pos_lt_tri hrc).mpr hcd.2.1; unfold triangular at this; omega)]
    · rw [if_neg hcd, if_neg hcd]
  · rw [if_neg (fun h => hrc h.1), if_neg (fun h => hrc h.1)]

/-- **C36**: two files with the same values broken into lines differently give the same block. -/
theorem line_breaking_irrelevant (t : Target) (dim : ℕ) (hd : t.expected = dim * (dim + 1) / 2) (blk0 : Block)
    (ls ls' : List Line) (he : allValues ls = allValues ls')
    (hn : dim * (dim + 1) / 2 ≤ (allValues ls).length) :
    ∃ st st' rest rest', readSector t ⟨0, 0, 0, blk0⟩ ls = .ok (st, rest) ∧
      readSector t ⟨0, 0, 0, blk0⟩ ls' = .ok (st', rest') ∧ st.blk = st'.blk := by
  obtain ⟨st, k, h1, h2, _⟩ := (triangle_enumeration t dim hd blk0 ls).2 hn
  obtain ⟨st', k', h1', h2', _⟩ := (triangle_enumeration t dim hd blk0 ls').2 (he ▸ hn)
  exact ⟨st, st', _, _, h1, h1', by rw [h2, h2', he]⟩

/-! ## Property C37 -/

/-- The lines of one sector: enough values, and the last line is needed. -/
def SectorLines (n : ℕ) (ls : List Line) : Prop :=
  n ≤ (allValues ls).length ∧ ∀ k < ls.length, (allValues (ls.take k)).length < n

theorem allValues_append (a b : List Line) : allValues (a ++ b) = allValues a ++ allValues b := by
  simp [allValues]

/-- Reading a file one sector at a time. -/
theorem readJPV_sector (sp : JSpace) (op : ℕ → Block) (h : Line) (hd : JHeader) (t : Target)
    (hh : parseHeader h = .ok (some hd)) (hp : prepare sp hd = .ok t) (dim : ℕ)
    (he : t.expected = dim * (dim + 1) / 2) (ls rest : List Line) (hl : SectorLines (dim * (dim + 1) / 2) ls) :
    readJPV sp op (h :: (ls ++ rest)) =
      readJPV sp (Function.update op t.idx (filled t dim (op t.idx) (allValues ls))) rest := by
  rw [readJPV, hh]
  simp only
  rw [hp]
  simp only
  have hen : dim * (dim + 1) / 2 ≤ (allValues (ls ++ rest)).length := by
    rw [allValues_append, List.length_append]; have := hl.1; omega
  obtain ⟨st, k, h1, h2, h3, h4⟩ := (triangle_enumeration t dim he (op t.idx) (ls ++ rest)).2 hen
  have hk : k = ls.length := by
    rcases lt_trichotomy k ls.length with hlt | e | hgt
    · have := hl.2 k hlt
      rw [List.take_append_of_le_length hlt.le] at h3
      omega
    · exact e
    · have := h4 ls.length hgt
      rw [List.take_left] at this
      have := hl.1
      omega
  subst hk
  have hst : st.blk = filled t dim (op t.idx) (allValues ls) := by
    rw [h2, allValues_append]
    funext i j
    simp only [filled]
    set r := if t.flip then j else i
    set c := if t.flip then i else j
    split
    · rename_i hc
      simp only [List.getD_eq_getElem?_getD]
      rw [List.getElem?_append_left]
      have := (pos_lt_tri hc.1).mpr hc.2.1
      have := hl.1
      unfold triangular at *
      omega
    · rfl
  split
  · rename_i e heq; rw [h1] at heq; cases heq
  · rename_i r heq
    rw [h1] at heq
    cases heq
    rw [hst]
    simp

/-- The values of a triangle of `m`, in column order. -/
def Encodes (vals : List ℝ) (dim : ℕ) (m : ℕ → ℕ → ℝ) : Prop :=
  ∀ r c, r ≤ c → c < dim → vals.getD (pos r c) 0 = m r c

/-- **C37**: a coupled channel given by its two triangular sectors `(L',L)` and `(L,L')`, in either
order, is read back as the complete off-diagonal block, within the target dimensions; nothing else
changes. -/
theorem two_sectors_fill_block (sp : JSpace) (op : ℕ → Block) (h₁ h₂ fin : Line) (hd₁ hd₂ : JHeader)
    (t : Target) (f : Bool) (hp₁ : parseHeader h₁ = .ok (some hd₁)) (hp₂ : parseHeader h₂ = .ok (some hd₂))
    (ht₁ : prepare sp hd₁ = .ok { t with flip := f }) (ht₂ : prepare sp hd₂ = .ok { t with flip := !f })
    (hfin : parseHeader fin = .ok none) (dim : ℕ) (he : t.expected = dim * (dim + 1) / 2)
    (ls₁ ls₂ : List Line) (hl₁ : SectorLines (dim * (dim + 1) / 2) ls₁) (hl₂ : SectorLines (dim * (dim + 1) / 2) ls₂)
    (M : ℕ → ℕ → ℝ)
    (e₁ : Encodes (allValues ls₁) dim (fun r c => if f then M c r else M r c))
    (e₂ : Encodes (allValues ls₂) dim (fun r c => if f then M r c else M c r)) :
    ∃ op', readJPV sp op (h₁ :: (ls₁ ++ (h₂ :: (ls₂ ++ [fin])))) = .ok op' ∧
      (∀ i j, op' t.idx i j = if i < dim ∧ j < dim ∧ i < t.dimBra ∧ j < t.dimKet then M i j else op t.idx i j) ∧
      (∀ k, k ≠ t.idx → op' k = op k) := by
  rw [readJPV_sector sp op h₁ hd₁ _ hp₁ ht₁ dim he _ _ hl₁, readJPV_sector sp _ h₂ hd₂ _ hp₂ ht₂ dim he _ _ hl₂,
    readJPV, hfin]
  refine ⟨_, rfl, ?_, ?_⟩
  · intro i j
    simp only [Function.update_self, filled]
    cases f
    · simp only [Bool.not_false, if_true, Bool.false_eq_true, if_false] at *
      by_cases h2 : j ≤ i ∧ i < dim ∧ i < t.dimBra ∧ j < t.dimKet
      · rw [if_pos h2, if_pos ⟨h2.2.1, by omega, h2.2.2⟩]
        exact e₂ j i h2.1 h2.2.1
      · rw [if_neg h2]
        by_cases h1 : i ≤ j ∧ j < dim ∧ i < t.dimBra ∧ j < t.dimKet
        · rw [if_pos h1, if_pos ⟨by omega, h1.2.1, h1.2.2⟩]
          exact e₁ i j h1.1 h1.2.1
        · rw [if_neg h1, if_neg (by omega)]
    · simp only [Bool.not_true, if_true, Bool.false_eq_true, if_false] at *
      by_cases h2 : i ≤ j ∧ j < dim ∧ i < t.dimBra ∧ j < t.dimKet
      · rw [if_pos h2, if_pos ⟨by omega, h2.2.1, h2.2.2⟩]
        exact e₂ i j h2.1 h2.2.1
      · rw [if_neg h2]
        by_cases h1 : j ≤ i ∧ i < dim ∧ i < t.dimBra ∧ j < t.dimKet
        · rw [if_pos h1, if_pos ⟨h1.2.1, by omega, h1.2.2⟩]
          exact e₁ j i h1.1 h1.2.1
        · rw [if_neg h1, if_neg (by omega)]
  · intro k hk
    simp only [Function.update_of_ne hk]

/-- The two headers of a coupled channel lead to the same sector with opposite `flip`. -/
theorem coupled_headers (sp : JSpace) (J S L Lp dim : Int) (hlt : Lp < L) (t : Target)
    (h : prepare sp ⟨J, S, L, Lp, dim⟩ = .ok t) :
    t.flip = false ∧ prepare sp ⟨J, S, Lp, L, dim⟩ = .ok { t with flip := true } := by
  have n1 : ¬ Lp > L := by omega
  have n2 : L > Lp := by omega
  simp only [prepare, n1, n2, decide_false, decide_true, if_true, Bool.false_eq_true, if_false] at h ⊢
  rcases hA : assertE (decide (J ≤ sp.Jmax)) with e | u
  · rw [hA] at h; cases h
  · rw [hA] at h
    simp only [Except.ok_bind'] at h ⊢
    rcases hB : assertE (decide ((Lp + S + 1).tmod 2 = (L + S + 1).tmod 2)) with e | u
    · rw [hB] at h; cases h
    · rw [hB] at h
      simp only [Except.ok_bind'] at h ⊢
      cases hb : sp.sub Lp S J ((Lp + S + 1).tmod 2) (Lp.tmod 2) with
      | none => rw [hb] at h; cases h
      | some b =>
        cases hk : sp.sub L S J ((L + S + 1).tmod 2) (L.tmod 2) with
        | none => rw [hb, hk] at h; cases h
        | some k =>
          rw [hb, hk] at h
          simp only at h ⊢
          rcases hC : assertE (decide (b ≤ k)) with e | u
          · rw [hC] at h; cases h
          · rw [hC] at h
            simp only [Except.ok_bind'] at h ⊢
            cases hs : sp.sector b k with
            | none => rw [hs] at h; cases h
            | some idx =>
              rw [hs] at h
              cases h
              exact ⟨rfl, rfl⟩

/-! ## Examples -/

def exTarget : Target := ⟨0, false, 5, 2, 3⟩

/-- Three values over two lines, with junk after the first and a superfluous value at the end. -/
example : ∃ st k, readSector exTarget ⟨0, 0, 0, fun _ _ => 0⟩
    [[.dbl 1, .bad, .dbl 7], [.int 2, .int 3, .int 9], [.int 5]] = .ok (st, [[.int 5]].drop k) ∧ k = 0 ∧
    st.blk 0 0 = 1 ∧ st.blk 0 1 = 2 ∧ st.blk 1 1 = 3 ∧ st.blk 1 0 = 0 := by
  refine ⟨_, 0, rfl, rfl, ?_⟩
  simp [readLine, Tok.toReal, place, exTarget, setEntry]

def exJSpace : JSpace :=
  ⟨4, fun L S J T g => if L = 0 ∧ S = 1 ∧ J = 1 ∧ T = 0 ∧ g = 0 then some 0
    else if L = 2 ∧ S = 1 ∧ J = 1 ∧ T = 0 ∧ g = 0 then some 1 else none,
    fun k => if k = 0 then 3 else 2, fun b k => if b ≤ k then some (b + 2 * k) else none⟩

noncomputable def exHeader (L Lp : Int) : Line := [.int 1, .int 1, .int L, .int Lp, .int 10, .int 2, .dbl 938, .dbl 20, .int 7]

/-- The coupled channel `3S1-3D1` with blocks of dimension 2 meets the hypotheses. -/
example : ∃ op', readJPV exJSpace (fun _ _ _ => 0)
    (exHeader 2 0 :: ([[.int 11, .int 12], [.int 22]] ++ (exHeader 0 2 :: ([[.int 11, .int 21, .int 22]] ++ [[.int 99999]])))) = .ok op' ∧
    op' 2 0 1 = 12 ∧ op' 2 1 0 = 21 ∧ op' 2 2 0 = 0 := by
  have key := two_sectors_fill_block exJSpace (fun _ _ _ => 0) (exHeader 2 0) (exHeader 0 2) [.int 99999]
    ⟨1, 1, 2, 0, 2⟩ ⟨1, 1, 0, 2, 2⟩ ⟨2, false, 3, 2, 3⟩ false (by simp [parseHeader, exHeader, Tok.toReal])
    (by simp [parseHeader, exHeader, Tok.toReal]) (by rfl) (by rfl) (by simp [parseHeader]) 2 rfl
    [[.int 11, .int 12], [.int 22]] [[.int 11, .int 21, .int 22]]
    (by
      constructor
      · simp [allValues, lineValues, Tok.toReal]
      · intro k hk
        simp only [List.length_cons, List.length_nil] at hk
        have : k = 0 ∨ k = 1 := by omega
        rcases this with rfl | rfl <;> simp [allValues, lineValues, Tok.toReal])
    (by
      constructor
      · simp [allValues, lineValues, Tok.toReal]
      · intro k hk
        simp only [List.length_cons, List.length_nil] at hk
        have : k = 0 := by omega
        subst this
        simp [allValues])
    (fun i j => 11 + 10 * i + j)
    (by
      intro r c h1 h2
      have : (r = 0 ∧ c = 0) ∨ (r = 0 ∧ c = 1) ∨ (r = 1 ∧ c = 1) := by omega
      rcases this with ⟨rfl, rfl⟩ | ⟨rfl, rfl⟩ | ⟨rfl, rfl⟩ <;>
        norm_num [allValues, lineValues, Tok.toReal, pos, triangular])
    (by
      intro r c h1 h2
      have : (r = 0 ∧ c = 0) ∨ (r = 0 ∧ c = 1) ∨ (r = 1 ∧ c = 1) := by omega
      rcases this with ⟨rfl, rfl⟩ | ⟨rfl, rfl⟩ | ⟨rfl, rfl⟩ <;>
        norm_num [allValues, lineValues, Tok.toReal, pos, triangular])
  obtain ⟨op', h1, h2, _⟩ := key
  refine ⟨op', h1, ?_, ?_, ?_⟩
  · have := h2 0 1; norm_num at this; exact this
  · have := h2 1 0; norm_num at this; exact this
  · have := h2 2 0; norm_num at this; exact this

end Verif.Relative
