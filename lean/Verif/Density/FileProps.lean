import Verif.Density.Props
import Verif.Obme.FileProps
import Mathlib.Analysis.Real.Pi.Bounds

/-!
# Properties of the density files
-/

namespace Verif.Density
open Verif Verif.Mapping Verif.Obme
open Verif.H2 (Except.ok_bind' Except.error_bind' Except.pure_ok Except.bind_eq_ok assertE_ok)

/-! ## Lines -/

theorem nextLine_of_clean {ls : List Line} {l : Line} {cs : List Line} (h : clean ls = l :: cs) :
    ∃ rest, nextLine ls = (l, rest) ∧ clean rest = cs ∧ rest <:+ ls := by
  induction ls with
  | nil => simp [clean] at h
  | cons x xs ih =>
    by_cases hx : Line.content x = true
    · simp only [clean, List.filter_cons, hx, if_true, List.cons.injEq] at h
      exact ⟨xs, by rw [← h.1]; simp [nextLine, hx], h.2, List.suffix_cons x xs⟩
    · simp only [clean, List.filter_cons, hx] at h
      obtain ⟨rest, h1, h2, h3⟩ := ih (by simpa using h)
      exact ⟨rest, by simpa [nextLine, hx] using h1, h2, h3.trans (List.suffix_cons x xs)⟩

theorem orbitalLines_of_clean (os : List Line) : ∀ {ls cs : List Line} (i : ℕ), clean ls = os ++ cs →
    ∃ rest, orbitalLines false os.length i ls = (os, rest) ∧ clean rest = cs ∧ rest <:+ ls := by
  induction os with
  | nil => intro ls cs i h; exact ⟨ls, rfl, by simpa using h, List.suffix_rfl⟩
  | cons o os ih =>
    intro ls cs i h
    obtain ⟨r1, h1, h2, h3⟩ := nextLine_of_clean (l := o) (cs := os ++ cs) (by simpa using h)
    obtain ⟨rest, e1, e2, e3⟩ := ih (i + 1) h2
    exact ⟨rest, by simp [orbitalLines, h1, e1], e2, e3.trans h3⟩

theorem takeLines_of_clean {α : Type} {f : Line → Except Err α} {as : List α} {bs : List Line}
    (hf : List.Forall₂ (fun l a => f l = .ok a) bs as) : ∀ {ls cs : List Line}, clean ls = bs ++ cs →
    takeLines f bs.length ls = .ok as := by
  induction hf with
  | nil => intro ls cs _; rfl
  | @cons l a bs as h _ ih =>
    intro ls cs hc
    obtain ⟨r1, h1, h2, _⟩ := nextLine_of_clean (l := l) (cs := bs ++ cs) (by simpa using hc)
    simp [takeLines, h1, h, ih h2]

/-- Whether the last line of a list has content. -/
def lastContent (ls : List Line) : Bool := (ls.getLast?.map Line.content).getD false

theorem clean_dropLast (ls : List Line) :
    clean ls.dropLast = if lastContent ls then (clean ls).dropLast else clean ls := by
  rcases List.eq_nil_or_concat ls with rfl | ⟨xs, x, rfl⟩
  · rfl
  · simp only [List.concat_eq_append, List.dropLast_concat, lastContent, List.getLast?_concat, Option.map_some,
      Option.getD_some, clean, List.filter_append]
    by_cases hx : Line.content x = true
    · simp [hx]
    · simp [hx]

theorem lastContent_suffix {rest ls : List Line} (h : rest <:+ ls) (hr : rest ≠ []) :
    lastContent rest = lastContent ls := by
  obtain ⟨pre, rfl⟩ := h
  unfold lastContent
  rw [List.getLast?_append]
  rcases hx : rest.getLast? with _ | x
  · exact absurd (List.getLast?_eq_none_iff.mp hx) hr
  · simp

/-! ## The data of a single file -/

theorem readData_eq (os : List Full) (space : Space) (newline : Bool) (ls : List Line) : ∀ s : Storage,
    readData os space newline s ls =
      (clean (if newline then ls else ls.dropLast)).foldlM (dataStep os space) s := by
  induction ls with
  | nil => intro s; cases newline <;> rfl
  | cons l ls ih =>
    intro s
    unfold readData
    by_cases hl : Line.content l = true
    · rw [if_pos hl]
      by_cases hn : newline = true
      · subst hn
        simp only [Bool.not_true, Bool.and_false, if_true, clean, List.filter_cons, hl, List.foldlM_cons] at ih ⊢
        simp only [Bool.false_eq_true, if_false, ih]
      · simp only [Bool.not_eq_true] at hn
        subst hn
        cases ls with
        | nil => simp [clean]
        | cons l' ls =>
          simp only [List.isEmpty_cons, Bool.not_false, Bool.and_true, Bool.false_eq_true, if_false,
            List.dropLast_cons₂, clean, List.filter_cons, hl, if_true, List.foldlM_cons] at ih ⊢
          simp only [ih]
    · rw [if_neg hl, ih]
      cases newline with
      | true => simp [clean, List.filter_cons, hl]
      | false =>
        cases ls with
        | nil => simp [clean]
        | cons l' ls => simp [clean, List.filter_cons, hl]

/-- What a data line means: the orbitals are numbered from one in the order of the file, the value is divided by
`√(2j+1)` of the first orbital. -/
def LineEntry (os : List Full) (l : Line) (e : Entry) : Prop :=
  ∃ (ia ib : ℕ) (t : Tok) (rest : Line) (v : ℝ),
    l = .int (ia + 1 : ℕ) :: .int (ib + 1 : ℕ) :: .int e.J0 :: t :: rest ∧
    (t = .num v ∨ ∃ z : Int, t = .int z ∧ v = z) ∧ os[ia]? = some e.bra ∧ os[ib]? = some e.ket ∧
    e.value = v / Real.sqrt (e.bra.tj + 1)

theorem orbitalAt_iff {os : List Full} {i : Int} {x : Full} :
    orbitalAt os i = .ok x ↔ ∃ a : ℕ, i = (a + 1 : ℕ) ∧ os[a]? = some x := by
  unfold orbitalAt
  constructor
  · intro h
    split at h
    · rename_i hi
      split at h
      · rename_i o ho
        cases h
        exact ⟨(i - 1).toNat, by omega, ho⟩
      · cases h
    · cases h
  · rintro ⟨a, rfl, h⟩
    rw [if_pos (by omega)]
    have : ((a + 1 : ℕ) - 1 : Int).toNat = a := by omega
    rw [this, h]

theorem dataStep_ok {os : List Full} {space : Space} {l : Line} {e : Entry} (h : LineEntry os l e) (s : Storage) :
    dataStep os space s l = store space s e.J0 e.bra e.ket e.value := by
  obtain ⟨ia, ib, t, rest, v, rfl, ht, ha, hb, hv⟩ := h
  have hr : t.real? = some v := by
    rcases ht with rfl | ⟨z, rfl, rfl⟩ <;> rfl
  have h1 := orbitalAt_iff.mpr ⟨ia, rfl, ha⟩
  have h2 := orbitalAt_iff.mpr ⟨ib, rfl, hb⟩
  simp only [dataStep, dataLine, hr, h1, h2, Except.ok_bind', Except.pure_ok, hat, hv]

theorem dataStep_err {os : List Full} {space : Space} {l : Line} (h : ¬ ∃ e, LineEntry os l e) (s s' : Storage) :
    dataStep os space s l ≠ .ok s' := by
  intro hs
  simp only [dataStep, Except.bind_eq_ok] at hs
  obtain ⟨⟨J0, a, b, v⟩, h1, _⟩ := hs
  unfold dataLine at h1
  split at h1
  · rename_i ia ib J0' t rest
    split at h1
    · rename_i w hw
      simp only [Except.bind_eq_ok, Except.pure_ok, Except.ok.injEq, Prod.mk.injEq] at h1
      obtain ⟨a', ha, b', hb, rfl, rfl, rfl, rfl⟩ := h1
      obtain ⟨na, rfl, ha'⟩ := orbitalAt_iff.mp ha
      obtain ⟨nb, rfl, hb'⟩ := orbitalAt_iff.mp hb
      refine h ⟨⟨J0', a', b', w / Real.sqrt (a'.tj + 1)⟩, na, nb, t, rest, w, rfl, ?_, ha', hb', rfl⟩
      cases t with
      | int z => exact Or.inr ⟨z, rfl, by simpa [Tok.real?] using hw.symm⟩
      | num x => exact Or.inl (by simpa [Tok.real?] using hw)
      | chr c => simp [Tok.real?] at hw
      | hash => simp [Tok.real?] at hw
    · cases h1
  · cases h1

theorem data_entries {os : List Full} {space : Space} {ls : List Line} {es : List Entry}
    (h : List.Forall₂ (LineEntry os) ls es) : ∀ s, ls.foldlM (dataStep os space) s = storeAll space s es := by
  induction h with
  | nil => intro s; rfl
  | cons h _ ih =>
    intro s
    simp only [storeAll, List.foldlM_cons, dataStep_ok h]
    congr 1
    funext s'
    exact ih s'

theorem data_only {os : List Full} {space : Space} (ls : List Line) : ∀ {s s' : Storage},
    ls.foldlM (dataStep os space) s = .ok s' → ∃ es, List.Forall₂ (LineEntry os) ls es := by
  induction ls with
  | nil => intro s s' _; exact ⟨[], .nil⟩
  | cons l ls ih =>
    intro s s' h
    simp only [List.foldlM_cons, Except.bind_eq_ok] at h
    obtain ⟨s1, h1, h2⟩ := h
    by_cases hl : ∃ e, LineEntry os l e
    · obtain ⟨e, he⟩ := hl
      obtain ⟨es, hes⟩ := ih h2
      exact ⟨e :: es, .cons he hes⟩
    · exact absurd h1 (dataStep_err hl s s1)

/-! ## The header of a single file -/

/-- The line of a many-body state: particle numbers, sequence number, doubled `J` and `M`, parity, running number;
whatever follows is not used. -/
def stateLine (Z N seq tJ tM : Int) (odd : Bool) (n : Int) (rest : Line) : Line :=
  .int Z :: .int N :: .int seq :: .int tJ :: .int tM :: .int (if odd then -1 else 1) :: .int n :: rest

/-- The contents of a single-file density up to its data. -/
def headerLines {Orb : Type} (lib : Lib Orb) (b k : Line) (lo hi : Int) (np nn : ℕ) (counts : ℕ × ℕ)
    (os : List Orb) : List Line :=
  [[.int 1520], b, k, [.int lo], [.int hi], [.int np, .int nn], [.int counts.1, .int counts.2]] ++ lib.fmt os

/-- The orbitals of a species in the space. -/
def speciesCount {Orb : Type} (lib : Lib Orb) (os : List Orb) (sp : Species1) : ℕ :=
  os.countP fun o => (lib.full o).sp = sp

theorem header_read {Orb : Type} {lib : Lib Orb} (laws : LibLaws lib.toLib) {space : Space} {Zb Nb sb tJb tMb nb
    Zk Nk sk tJk tMk nk lo hi : Int} {ob okt : Bool} {rb rk : Line} {counts : ℕ × ℕ} {os : List Orb}
    {ls cs : List Line} {np nn : ℕ} (hp : speciesCount lib (lib.info space) .p = np)
    (hn : speciesCount lib (lib.info space) .n = nn) (ho : os.length = np + nn)
    (hT : ((Zb - Nb) - (Zk - Nk)) % 2 = 0)
    (h : clean ls = headerLines lib (stateLine Zb Nb sb tJb tMb ob nb rb) (stateLine Zk Nk sk tJk tMk okt nk rk)
      lo hi np nn counts os ++ cs) :
    ∃ rest, readHeader lib space ⟨tJb, if ob then 1 else 0, nb⟩ ⟨tJk, if okt then 1 else 0, nk⟩ ls =
      .ok (⟨⟨Zb, Nb, tJb, tMb, if ob then -1 else 1, nb⟩, ⟨Zk, Nk, tJk, tMk, if okt then -1 else 1, nk⟩, lo, hi,
        os.map lib.full⟩, rest) ∧ clean rest = cs ∧ rest <:+ ls := by
  simp only [headerLines, List.cons_append, List.nil_append] at h
  obtain ⟨r1, a1, b1, c1⟩ := nextLine_of_clean h
  obtain ⟨r2, a2, b2, c2⟩ := nextLine_of_clean b1
  obtain ⟨r3, a3, b3, c3⟩ := nextLine_of_clean b2
  obtain ⟨r4, a4, b4, c4⟩ := nextLine_of_clean b3
  obtain ⟨r5, a5, b5, c5⟩ := nextLine_of_clean b4
  obtain ⟨r6, a6, b6, c6⟩ := nextLine_of_clean b5
  obtain ⟨r7, a7, b7, c7⟩ := nextLine_of_clean b6
  obtain ⟨r8, a8, b8, c8⟩ := orbitalLines_of_clean (lib.fmt os) 0 b7
  rw [laws.fmt_length, ho] at a8
  have hs : ∀ sp, countSpecies lib space sp = speciesCount lib (lib.info space) sp := by
    intro sp
    simp [countSpecies, speciesCount, List.countP_eq_length_filter]
  refine ⟨r8, ?_, b8, c8.trans (c7.trans (c6.trans (c5.trans (c4.trans (c3.trans (c2.trans c1))))))⟩
  have hchk : ∀ (Z N tJ tM n : Int) (o : Bool), checkState ⟨Z, N, tJ, tM, if o then -1 else 1, n⟩
      ⟨tJ, if o then 1 else 0, n⟩ = .ok () := by
    intro Z N tJ tM n o
    cases o <;> simp [checkState, assertE]
  simp only [readHeader, a1, a2, a3, a4, a5, a6, a7, readVersion, stateLine, readState, Except.ok_bind', ne_eq,
    not_true, if_false, hchk, readCounts, Int.natCast_nonneg, and_self, if_true, Int.toNat_natCast, hs, hp, hn, assertE,
    hT, decide_true, a8, laws.parse_fmt, Except.pure_ok]

/-! ## Single files -/

/-- What a density file is for: the states and the elements. -/
structure Means (space : Space) (bra ket : State) (Zb Nb Zk Nk tMb tMk lo hi : Int) (d : Density)
    (es : List Entry) : Prop where
  states : d.bra = bra ∧ d.ket = ket
  particles : d.Zbra = Zb ∧ d.Nbra = Nb ∧ d.Zket = Zk ∧ d.Nket = Nk
  projections : d.tMbra = tMb ∧ d.tMket = tMk
  range : d.data.J0min = lo ∧ d.data.J0max = hi
  elements : Holds space (g0 bra ket) (tz0 Zb Nb Zk Nk) lo hi d.data (finalValue es)

/-- The data lines that are used: all of them, except that the last line of the file is not when no newline ends
it. -/
def usedData (f : File) (data : List Line) : List Line :=
  if f.newline || !lastContent f.lines then data else data.dropLast

/-- A single-file density, comment lines anywhere: the result holds the elements of the used data lines, or the
file is rejected because one of them is not valid. -/
theorem single_density {Orb : Type} {lib : Lib Orb} (laws : LibLaws lib.toLib) {space : Space}
    (hg : GoodSpace space) {Zb Nb sb tJb tMb nb Zk Nk sk tJk tMk nk lo hi : Int} {ob okt : Bool} {rb rk : Line}
    {counts : ℕ × ℕ} {os : List Orb} {f : File} {data : List Line} {np nn : ℕ}
    (hp : speciesCount lib (lib.info space) .p = np) (hn : speciesCount lib (lib.info space) .n = nn)
    (ho : os.length = np + nn) (hT : ((Zb - Nb) - (Zk - Nk)) % 2 = 0) (hJ : lo ≤ hi + 1)
    (h : clean f.lines = headerLines lib (stateLine Zb Nb sb tJb tMb ob nb rb)
      (stateLine Zk Nk sk tJk tMk okt nk rk) lo hi np nn counts os ++ data)
    {es : List Entry} (hes : List.Forall₂ (LineEntry (os.map lib.full)) (usedData f data) es)
    {bra ket : State} (hbra : bra = ⟨tJb, if ob then 1 else 0, nb⟩) (hket : ket = ⟨tJk, if okt then 1 else 0, nk⟩) :
    ((∀ e ∈ es, Valid space (g0 bra ket) (tz0 Zb Nb Zk Nk) lo hi e) → ∃ d, readSingle lib space bra ket f = .ok d ∧
      Means space bra ket Zb Nb Zk Nk tMb tMk lo hi d es) ∧
    ((¬ ∀ e ∈ es, Valid space (g0 bra ket) (tz0 Zb Nb Zk Nk) lo hi e) →
      readSingle lib space bra ket f = .error .assertFail) := by
  obtain ⟨rest, h1, h2, h3⟩ := header_read laws hp hn ho hT h
  rw [← hbra, ← hket] at h1
  have hu : clean (if f.newline then rest else rest.dropLast) = usedData f data := by
    unfold usedData
    cases hnl : f.newline with
    | true => simpa using h2
    | false =>
      simp only [Bool.false_eq_true, if_false, Bool.false_or, clean_dropLast, h2]
      by_cases hr : rest = []
      · subst hr
        have : data = [] := by rw [← h2]; rfl
        subst this
        cases lastContent f.lines <;> simp [lastContent]
      · rw [lastContent_suffix h3 hr]
        cases lastContent f.lines <;> simp
  obtain ⟨s, hs, i1, i2, i3⟩ := initStorage_zero space (g0 bra ket) (tz0 Zb Nb Zk Nk) hJ
  have h0 : finalValue [] = fun _ _ _ => 0 := by funext; simp [finalValue]
  rw [← h0] at i3
  have hrd : readSingle lib space bra ket f = (storeAll space s es).bind fun s' =>
      .ok ⟨bra, ket, Zb, Nb, Zk, Nk, tMb, tMk, s'⟩ := by
    simp only [readSingle, h1, Except.ok_bind', hs, readData_eq, hu, data_entries hes]
    rfl
  constructor
  · intro hv
    obtain ⟨s', e1, e2, e3, e4⟩ := storeAll_valid hg es [] s i1 i2 i3 hv
    refine ⟨⟨bra, ket, Zb, Nb, Zk, Nk, tMb, tMk, s'⟩, by rw [hrd, e1]; rfl, ?_⟩
    exact ⟨⟨rfl, rfl⟩, ⟨rfl, rfl, rfl, rfl⟩, ⟨rfl, rfl⟩, ⟨e2, e3⟩, by simpa using e4⟩
  · intro hv
    rw [hrd, storeAll_invalid hg es [] s i1 i2 i3 hv]
    rfl

/-- C62, the part that holds: when the file ends in a newline, or in a blank or comment line, every data line is
used.  Missing: files that end in a data line without newline. -/
theorem single_all_lines_partial {f : File} (h : f.newline = true ∨ lastContent f.lines = false)
    (data : List Line) : usedData f data = data := by
  unfold usedData
  rcases h with h | h <;> simp [h]

/-- C62 is false: the last data line of a file that does not end in a newline has no effect, whatever it is. -/
theorem single_last_line_lost {Orb : Type} {lib : Lib Orb} (laws : LibLaws lib.toLib) {space : Space}
    {Zb Nb sb tJb tMb nb Zk Nk sk tJk tMk nk lo hi : Int} {ob okt : Bool} {rb rk : Line}
    {counts : ℕ × ℕ} {os : List Orb} {ls data : List Line} {np nn : ℕ}
    (hp : speciesCount lib (lib.info space) .p = np) (hn : speciesCount lib (lib.info space) .n = nn)
    (ho : os.length = np + nn) (hT : ((Zb - Nb) - (Zk - Nk)) % 2 = 0)
    (h : clean ls = headerLines lib (stateLine Zb Nb sb tJb tMb ob nb rb)
      (stateLine Zk Nk sk tJk tMk okt nk rk) lo hi np nn counts os ++ data)
    {bra ket : State} (hbra : bra = ⟨tJb, if ob then 1 else 0, nb⟩) (hket : ket = ⟨tJk, if okt then 1 else 0, nk⟩)
    {l : Line} (hl : l.content = true) :
    readSingle lib space bra ket ⟨ls ++ [l], false⟩ = readSingle lib space bra ket ⟨ls, true⟩ := by
  obtain ⟨r1, h1, h2, h3⟩ := header_read laws hp hn ho hT h
  have h' : clean (ls ++ [l]) = headerLines lib (stateLine Zb Nb sb tJb tMb ob nb rb)
      (stateLine Zk Nk sk tJk tMk okt nk rk) lo hi np nn counts os ++ (data ++ [l]) := by
    rw [← List.append_assoc, ← h]
    simp [clean, List.filter_append, hl]
  obtain ⟨r2, k1, k2, k3⟩ := header_read laws hp hn ho hT h'
  rw [← hbra, ← hket] at h1 k1
  have hr : r2 ≠ [] := by
    rintro rfl
    simp [clean] at k2
  have hc : clean r2.dropLast = data := by
    rw [clean_dropLast, lastContent_suffix k3 hr, k2]
    simp [lastContent, hl]
  simp only [readSingle, h1, k1, Except.ok_bind', readData_eq, if_true, Bool.false_eq_true, if_false, hc, h2]

/-! ## Multi-file densities -/

/-- The elements of a multi-file density: each line of the info file with the number in the same place of the data
file, multiplied by the constant and divided by `√(2j+1)` of the first orbital. -/
noncomputable def multiEntries (is : List InfoLine) (xs : List ℝ) : List Entry :=
  List.zipWith (fun i x => ⟨i.J0, i.bra, i.ket, x * sqrt4pi / Real.sqrt (i.bra.tj + 1)⟩) is xs

/-- A token that is a number. -/
def NumTok (t : Tok) (x : ℝ) : Prop := t = .num x ∨ ∃ z : Int, t = .int z ∧ x = z

theorem NumTok.real {t : Tok} {x : ℝ} (h : NumTok t x) : t.real? = some x := by
  rcases h with rfl | ⟨z, rfl, rfl⟩ <;> rfl

theorem multiData_entries {space : Space} {is : List InfoLine} : ∀ {ts : List Tok} {xs : List ℝ} (rest : List Tok)
    (prev : ℝ) (s : Storage), List.Forall₂ NumTok ts xs → ts.length = is.length →
    multiData space is prev (ts ++ rest) s = storeAll space s (multiEntries is xs) := by
  induction is with
  | nil =>
    intro ts xs rest prev s h hl
    rfl
  | cons i is ih =>
    intro ts xs rest prev s h hl
    cases h with
    | nil => simp at hl
    | @cons t x ts xs h hs =>
      simp only [multiData, List.cons_append, extract, h.real, multiEntries, List.zipWith_cons_cons, storeAll,
        List.foldlM_cons, hat]
      congr 1
      funext s'
      exact ih rest _ s' hs (by simpa using hl)

/-- However many numbers the data file has, the reader only ever rejects the places of the elements. -/
theorem multiData_any {space : Space} (hg : GoodSpace space) {g0 Tz0 lo hi : Int} (is : List InfoLine) :
    ∀ (prev : ℝ) (ts : List Tok) (s : Storage) (v : Int → Full → Full → ℝ), s.J0min = lo → s.J0max = hi →
      Holds space g0 Tz0 lo hi s v →
      (∀ i ∈ is, Valid space g0 Tz0 lo hi ⟨i.J0, i.bra, i.ket, 0⟩) →
      ∃ s', multiData space is prev ts s = .ok s' := by
  induction is with
  | nil => intro prev ts s v _ _ _ _; exact ⟨s, rfl⟩
  | cons i is ih =>
    intro prev ts s v h1 h2 h3 h4
    obtain ⟨s1, e1, e2, e3, e4⟩ := store_valid hg h1 h2 h3
      (e := ⟨i.J0, i.bra, i.ket, (extract prev ts).1 * sqrt4pi / hat i.bra.tj⟩) (h4 i (by simp))
    obtain ⟨s', hs'⟩ := ih ((extract prev ts).1 * sqrt4pi / hat i.bra.tj) (extract prev ts).2 s1 _ e2 e3 e4
      fun j hj => h4 j (by simp [hj])
    refine ⟨s', ?_⟩
    simp only [multiData, e1, Except.ok_bind']
    exact hs'

/-- A line of an info file of version 1500. -/
def infoText (idx ia ib : Int) (i : InfoLine) (rest : Line) : Line :=
  .int idx :: .int ia :: .int i.bra.n :: .int i.bra.l :: .int i.bra.tj :: .int ib :: .int i.ket.n :: .int i.ket.l ::
    .int i.ket.tj :: .int i.J0 :: .int (match i.bra.sp with | .p => 1 | .n => 2) :: rest

/-- A line of an info file of version 1405, which has no species. -/
def infoText1405 (idx : Int) (i : InfoLine) (rest : Line) : Line :=
  .int idx :: .int i.bra.n :: .int i.bra.l :: .int i.bra.tj :: .int i.ket.n :: .int i.ket.l :: .int i.ket.tj ::
    .int i.J0 :: rest

theorem infoText_read {idx ia ib : Int} {i : InfoLine} {rest : Line} (h : i.ket.sp = i.bra.sp) :
    infoLine1500 (infoText idx ia ib i rest) = .ok i := by
  obtain ⟨⟨sp, n, l, tj⟩, ⟨sp', n', l', tj'⟩, J0⟩ := i
  simp only at h
  subst h
  cases sp' <;> simp [infoText, infoLine1500, speciesOf, fullOf]

theorem infoText1405_read {idx : Int} {i : InfoLine} {rest : Line} (h : i.bra.sp = .p) (h' : i.ket.sp = .p) :
    infoLine1405 (infoText1405 idx i rest) = .ok i := by
  obtain ⟨⟨sp, n, l, tj⟩, ⟨sp', n', l', tj'⟩, J0⟩ := i
  simp only at h h'
  subst h h'
  simp [infoText1405, infoLine1405, fullOf]

theorem countSpecies_eq {Orb : Type} {lib : Lib Orb} {space : Space} (sp : Species1) :
    countSpecies lib space sp = speciesCount lib (lib.info space) sp := by
  simp [countSpecies, speciesCount, List.countP_eq_length_filter]

/-- Header of a data file. -/
def dataHeaderLines (version Z N tMb tJb nb tTb tMk tJk nk tTk : Int) (counts : Line) : List Line :=
  [[.int version], [.int Z, .int N], [.int tMb, .int tJb, .int nb, .int tTb], [.int tMk, .int tJk, .int nk, .int tTk],
    counts]

theorem dataHeader_read {h : Info} {Z N tMb tJb nb tTb tMk tJk nk tTk g g' : Int} {counts : Line}
    (hc : dataCounts h counts = .ok ()) (hcc : counts.content = true) {ls : List Line} :
    dataHeader h ⟨tJb, g, nb⟩ ⟨tJk, g', nk⟩
      (dataHeaderLines h.version Z N tMb tJb nb tTb tMk tJk nk tTk counts ++ ls) = .ok ((Z, N), tMb, tMk, ls) := by
  simp only [dataHeader, dataHeaderLines, List.cons_append, List.nil_append, nextLine_content (l := [.int h.version]) rfl,
    nextLine_content (l := [.int Z, .int N]) rfl, nextLine_content (l := [.int tMb, .int tJb, .int nb, .int tTb]) rfl,
    nextLine_content (l := [.int tMk, .int tJk, .int nk, .int tTk]) rfl, nextLine_content hcc, readVersion, readPair,
    readDataState, Except.ok_bind', assertE, decide_true, if_true, hc, Except.pure_ok]

theorem dataCounts_1500 {hi : Int} {mp mn : ℕ} : dataCounts ⟨1500, hi, mp, mn⟩ [.int (mp + mn : ℕ)] = .ok () := by
  simp only [dataCounts]
  rw [if_neg (by decide)]
  simp only [readCount]
  rw [if_pos (Int.natCast_nonneg _)]
  rw [Int.toNat_natCast]
  simp [assertE]

theorem dataCounts_1405 {hi : Int} {m : ℕ} : dataCounts ⟨1405, hi, m, m⟩ [.int m, .int m] = .ok () := by
  simp only [dataCounts]
  rw [if_pos trivial]
  simp [readCounts, assertE]

/-- The same place, for neutrons. -/
def neutrons (i : InfoLine) : InfoLine :=
  ⟨⟨.n, i.bra.n, i.bra.l, i.bra.tj⟩, ⟨.n, i.ket.n, i.ket.l, i.ket.tj⟩, i.J0⟩

/-- A multi-file density of version 1500: the info file lists the places, the data file the numbers. -/
theorem multi_density_1500 {Orb : Type} {lib : Lib Orb} {space : Space} (hg : GoodSpace space)
    {Z N tMb tJb nb tTb tMk tJk nk tTk g g' hi : Int} {np nn mp mn : ℕ}
    (hp : speciesCount lib (lib.info space) .p = np) (hn : speciesCount lib (lib.info space) .n = nn)
    (hJ : 0 ≤ hi + 1) {c1 c2 : Line} {body : List Line} {is : List InfoLine} {more : List Line}
    (hbody : ∃ bs, clean body = bs ++ more ∧
      List.Forall₂ (fun l i => ∃ idx ia ib rest, l = infoText idx ia ib i rest ∧ i.ket.sp = i.bra.sp) bs is)
    (hlen : is.length = mp + mn) {ls : List Line} {ts rest : List Tok} {xs : List ℝ} (hls : ls.flatten = ts ++ rest)
    (hx : List.Forall₂ NumTok ts xs) (hxl : xs.length = is.length) {bra ket : State} (hbra : bra = ⟨tJb, g, nb⟩)
    (hket : ket = ⟨tJk, g', nk⟩) {info data : List Line}
    (hinfo : info = [.int 1500] :: [.int hi] :: [.int np, .int nn] :: [.int mp, .int mn] :: c1 :: c2 :: body)
    (hdata : data = dataHeaderLines 1500 Z N tMb tJb nb tTb tMk tJk nk tTk [.int (mp + mn : ℕ)] ++ ls) :
    ((∀ e ∈ multiEntries is xs, Valid space (g0 bra ket) 0 0 hi e) → ∃ d,
      readMulti lib space bra ket info data = .ok d ∧
      Means space bra ket Z N Z N tMb tMk 0 hi d (multiEntries is xs)) ∧
    ((¬ ∀ e ∈ multiEntries is xs, Valid space (g0 bra ket) 0 0 hi e) →
      readMulti lib space bra ket info data = .error .assertFail) := by
  obtain ⟨bs, hb1, hb2⟩ := hbody
  have hih : infoHeader lib space info = .ok (⟨1500, hi, mp, mn⟩, body) := by
    subst hinfo
    simp [infoHeader, infoHeader1500, nextLine_content (l := [.int 1500]) rfl, nextLine_content (l := [.int hi]) rfl,
      nextLine_content (l := [.int np, .int nn]) rfl, nextLine_content (l := [.int mp, .int mn]) rfl, readVersion,
      readCounts, countSpecies_eq, hp, hn, assertE]
  have hri : readInfo ⟨1500, hi, mp, mn⟩ body = .ok is := by
    have hbl : bs.length = mp + mn := by rw [hb2.length_eq, hlen]
    simp only [readInfo]
    rw [if_neg (by decide), ← hbl]
    refine takeLines_of_clean (hb2.imp ?_) hb1
    rintro l i ⟨idx, ia, ib, rest, rfl, hsp⟩
    exact infoText_read hsp
  have hdh : dataHeader ⟨1500, hi, mp, mn⟩ bra ket data = .ok ((Z, N), tMb, tMk, ls) := by
    rw [hbra, hket, hdata]
    exact dataHeader_read (h := ⟨1500, hi, mp, mn⟩) dataCounts_1500 rfl
  have htz : tz0 Z N Z N = 0 := by simp [tz0]
  obtain ⟨s, hs, i1, i2, i3⟩ := initStorage_zero space (g0 bra ket) 0 hJ
  have h0 : finalValue [] = fun _ _ _ => 0 := by funext; simp [finalValue]
  rw [← h0] at i3
  have hrd : readMulti lib space bra ket info data = (storeAll space s (multiEntries is xs)).bind fun s' =>
      .ok ⟨bra, ket, Z, N, Z, N, tMb, tMk, s'⟩ := by
    simp only [readMulti, hih, hri, hdh, htz, hs, hls, Except.ok_bind',
      multiData_entries rest 0 s hx (hx.length_eq.trans hxl)]
    rfl
  constructor
  · intro hv
    obtain ⟨s', e1, e2, e3, e4⟩ := storeAll_valid hg _ [] s i1 i2 i3 hv
    refine ⟨⟨bra, ket, Z, N, Z, N, tMb, tMk, s'⟩, by rw [hrd, e1]; rfl, ?_⟩
    exact ⟨⟨rfl, rfl⟩, ⟨rfl, rfl, rfl, rfl⟩, ⟨rfl, rfl⟩, ⟨e2, e3⟩, by simpa [htz] using e4⟩
  · intro hv
    rw [hrd, storeAll_invalid hg _ [] s i1 i2 i3 hv]
    rfl

/-- A multi-file density of version 1405: the info file lists the places once, the data file has the numbers of the
protons and then those of the neutrons. -/
theorem multi_density_1405 {Orb : Type} {lib : Lib Orb} {space : Space} (hg : GoodSpace space)
    {Z N tMb tJb nb tTb tMk tJk nk tTk g g' hi : Int} {np m : ℕ}
    (hp : speciesCount lib (lib.info space) .p = np) (hn : speciesCount lib (lib.info space) .n = np)
    (hJ : 0 ≤ hi + 1) {body : List Line} {is : List InfoLine} {more : List Line}
    (hbody : ∃ bs, clean body = bs ++ more ∧
      List.Forall₂ (fun l i => ∃ idx rest, l = infoText1405 idx i rest ∧ i.bra.sp = .p ∧ i.ket.sp = .p) bs is)
    (hlen : is.length = m) {ls : List Line} {ts rest : List Tok} {xs : List ℝ} (hls : ls.flatten = ts ++ rest)
    (hx : List.Forall₂ NumTok ts xs) (hxl : xs.length = 2 * is.length) {bra ket : State} (hbra : bra = ⟨tJb, g, nb⟩)
    (hket : ket = ⟨tJk, g', nk⟩) {info data : List Line}
    (hinfo : info = [.int 1405] :: [.int np] :: [.int hi] :: [.int m] :: body)
    (hdata : data = dataHeaderLines 1405 Z N tMb tJb nb tTb tMk tJk nk tTk [.int m, .int m] ++ ls) :
    ((∀ e ∈ multiEntries (is ++ is.map neutrons) xs, Valid space (g0 bra ket) 0 0 hi e) → ∃ d,
      readMulti lib space bra ket info data = .ok d ∧
      Means space bra ket Z N Z N tMb tMk 0 hi d (multiEntries (is ++ is.map neutrons) xs)) ∧
    ((¬ ∀ e ∈ multiEntries (is ++ is.map neutrons) xs, Valid space (g0 bra ket) 0 0 hi e) →
      readMulti lib space bra ket info data = .error .assertFail) := by
  obtain ⟨bs, hb1, hb2⟩ := hbody
  have hih : infoHeader lib space info = .ok (⟨1405, hi, m, m⟩, body) := by
    subst hinfo
    simp [infoHeader, infoHeader1405, nextLine_content (l := [.int 1405]) rfl, nextLine_content (l := [.int hi]) rfl,
      nextLine_content (l := [.int np]) rfl, nextLine_content (l := [.int m]) rfl, readVersion,
      readCount, countSpecies_eq, hp, hn, assertE]
  have hri : readInfo ⟨1405, hi, m, m⟩ body = .ok (is ++ is.map neutrons) := by
    have hbl : bs.length = m := by rw [hb2.length_eq, hlen]
    simp only [readInfo]
    rw [if_pos trivial, ← hbl]
    rw [takeLines_of_clean (hb2.imp ?_) hb1]
    · rfl
    rintro l i ⟨idx, rest, rfl, hsp, hsp'⟩
    exact infoText1405_read hsp hsp'
  have hdh : dataHeader ⟨1405, hi, m, m⟩ bra ket data = .ok ((Z, N), tMb, tMk, ls) := by
    rw [hbra, hket, hdata]
    exact dataHeader_read (h := ⟨1405, hi, m, m⟩) dataCounts_1405 rfl
  have htz : tz0 Z N Z N = 0 := by simp [tz0]
  obtain ⟨s, hs, i1, i2, i3⟩ := initStorage_zero space (g0 bra ket) 0 hJ
  have h0 : finalValue [] = fun _ _ _ => 0 := by funext; simp [finalValue]
  rw [← h0] at i3
  have hlt : ts.length = (is ++ is.map neutrons).length := by
    rw [hx.length_eq, hxl, List.length_append, List.length_map]
    omega
  have hrd : readMulti lib space bra ket info data = (storeAll space s (multiEntries (is ++ is.map neutrons) xs)).bind fun s' =>
      .ok ⟨bra, ket, Z, N, Z, N, tMb, tMk, s'⟩ := by
    simp only [readMulti, hih, hri, hdh, htz, hs, hls, Except.ok_bind',
      multiData_entries rest 0 s hx hlt]
    rfl
  constructor
  · intro hv
    obtain ⟨s', e1, e2, e3, e4⟩ := storeAll_valid hg _ [] s i1 i2 i3 hv
    refine ⟨⟨bra, ket, Z, N, Z, N, tMb, tMk, s'⟩, by rw [hrd, e1]; rfl, ?_⟩
    exact ⟨⟨rfl, rfl⟩, ⟨rfl, rfl, rfl, rfl⟩, ⟨rfl, rfl⟩, ⟨e2, e3⟩, by simpa [htz] using e4⟩
  · intro hv
    rw [hrd, storeAll_invalid hg _ [] s i1 i2 i3 hv]
    rfl

/-- A data file that has fewer numbers than the info file has lines (or anything at all after its header) is
accepted: only the places of the elements can be wrong. -/
theorem multi_truncated_accepted {Orb : Type} {lib : Lib Orb} {space : Space} (hg : GoodSpace space)
    {Z N tMb tJb nb tTb tMk tJk nk tTk g g' hi : Int} {np nn mp mn : ℕ}
    (hp : speciesCount lib (lib.info space) .p = np) (hn : speciesCount lib (lib.info space) .n = nn)
    (hJ : 0 ≤ hi + 1) {c1 c2 : Line} {body : List Line} {is : List InfoLine} {more : List Line}
    (hbody : ∃ bs, clean body = bs ++ more ∧
      List.Forall₂ (fun l i => ∃ idx ia ib rest, l = infoText idx ia ib i rest ∧ i.ket.sp = i.bra.sp) bs is)
    (hlen : is.length = mp + mn) {ls : List Line} {bra ket : State} (hbra : bra = ⟨tJb, g, nb⟩)
    (hket : ket = ⟨tJk, g', nk⟩) {info data : List Line}
    (hinfo : info = [.int 1500] :: [.int hi] :: [.int np, .int nn] :: [.int mp, .int mn] :: c1 :: c2 :: body)
    (hdata : data = dataHeaderLines 1500 Z N tMb tJb nb tTb tMk tJk nk tTk [.int (mp + mn : ℕ)] ++ ls) :
    (∀ i ∈ is, Valid space (g0 bra ket) 0 0 hi ⟨i.J0, i.bra, i.ket, 0⟩) →
      ∃ d, readMulti lib space bra ket info data = .ok d := by
  obtain ⟨bs, hb1, hb2⟩ := hbody
  have hih : infoHeader lib space info = .ok (⟨1500, hi, mp, mn⟩, body) := by
    subst hinfo
    simp [infoHeader, infoHeader1500, nextLine_content (l := [.int 1500]) rfl, nextLine_content (l := [.int hi]) rfl,
      nextLine_content (l := [.int np, .int nn]) rfl, nextLine_content (l := [.int mp, .int mn]) rfl, readVersion,
      readCounts, countSpecies_eq, hp, hn, assertE]
  have hri : readInfo ⟨1500, hi, mp, mn⟩ body = .ok is := by
    have hbl : bs.length = mp + mn := by rw [hb2.length_eq, hlen]
    simp only [readInfo]
    rw [if_neg (by decide), ← hbl]
    refine takeLines_of_clean (hb2.imp ?_) hb1
    rintro l i ⟨idx, ia, ib, rest, rfl, hsp⟩
    exact infoText_read hsp
  have hdh : dataHeader ⟨1500, hi, mp, mn⟩ bra ket data = .ok ((Z, N), tMb, tMk, ls) := by
    rw [hbra, hket, hdata]
    exact dataHeader_read (h := ⟨1500, hi, mp, mn⟩) dataCounts_1500 rfl
  have htz : tz0 Z N Z N = 0 := by simp [tz0]
  obtain ⟨s, hs, i1, i2, i3⟩ := initStorage_zero space (g0 bra ket) 0 hJ
  intro hv
  obtain ⟨s', hs'⟩ := multiData_any hg is 0 ls.flatten s _ i1 i2 i3 hv
  refine ⟨⟨bra, ket, Z, N, Z, N, tMb, tMk, s'⟩, ?_⟩
  simp only [readMulti, hih, hri, hdh, htz, hs, hs', Except.ok_bind']
  rfl

/-- What is stored when the second of two numbers is missing: the first one, scaled twice. -/
theorem multi_truncated_value {space : Space} (i j : InfoLine) (x prev : ℝ) (s : Storage) :
    multiData space [i, j] prev [.num x] s = storeAll space s
      [⟨i.J0, i.bra, i.ket, x * sqrt4pi / Real.sqrt (i.bra.tj + 1)⟩,
       ⟨j.J0, j.bra, j.ket, x * sqrt4pi / Real.sqrt (i.bra.tj + 1) * sqrt4pi / Real.sqrt (j.bra.tj + 1)⟩] := by
  simp only [multiData, extract, Tok.real?, storeAll, List.foldlM_cons, List.foldlM_nil, hat]
  rfl

/-- The constant of the code is `√(4π)` up to its number of digits. -/
theorem sqrt4pi_close : |sqrt4pi - Real.sqrt (4 * Real.pi)| < 1e-19 := by
  have h1 := Real.pi_gt_d20
  have h2 := Real.pi_lt_d20
  have h3 : (3.54490770181103205458 : ℝ) < Real.sqrt (4 * Real.pi) := by
    apply Real.lt_sqrt_of_sq_lt
    norm_num at h1 ⊢
    linarith
  have h4 : Real.sqrt (4 * Real.pi) < (3.54490770181103205462 : ℝ) := by
    rw [Real.sqrt_lt' (by norm_num)]
    norm_num at h2 ⊢
    linarith
  rw [abs_lt, sqrt4pi]
  norm_num at h3 h4 ⊢
  constructor <;> linarith

/-! ## Examples -/

namespace Ex

/-- A toy library: an orbital is its labels, one line per orbital. -/
def fmtOrb (x : Full) : Line :=
  [.int x.n, .int x.l, .int x.tj, .chr (match x.sp with | .p => 'p' | .n => 'n')]

def parseOrb : Line → Except Err Full
  | [.int n, .int l, .int tj, .chr c] => .ok ⟨if c = 'p' then .p else .n, n.toNat, l.toNat, tj.toNat⟩
  | _ => .error .parseError

def lib : Lib Full where
  info s := s.flatMap fun b => b.ns.map fun n => ⟨b.labels.sp, n, b.labels.l, b.labels.tj⟩
  mkSpace os := (os.map Full.labels).dedup.map fun x => ⟨x, (os.filter fun o => o.labels = x).map Full.n⟩
  fmt os := os.map fmtOrb
  parse _ ls := ls.mapM parseOrb
  full := id

theorem laws : LibLaws lib.toLib := by
  refine ⟨by simp [lib], ?_, ?_⟩
  · intro os l hl
    simp only [lib, List.mem_map] at hl
    obtain ⟨b, _, rfl⟩ := hl
    rfl
  · intro os
    have key : ∀ b : Full, parseOrb (fmtOrb b) = .ok b := by
      intro b
      obtain ⟨sp, n, l, tj⟩ := b
      cases sp <;> simp [fmtOrb, parseOrb]
    simp only [lib]
    induction os with
    | nil => rfl
    | cons b os ih => rw [List.map_cons, List.mapM_cons, key, ih]; rfl

/-- The first and second orbital of `sampleSpace`. -/
def s0 : Full := ⟨.p, 0, 0, 1⟩
def s1 : Full := ⟨.p, 1, 0, 1⟩
def p0 : Full := ⟨.p, 0, 1, 1⟩

def orbs : List Full := [s0, s1, p0]

/-- The state `J = 1/2`, positive parity, first. -/
def state : State := ⟨1, 0, 1⟩

def stLine : Line := stateLine 1 0 1 1 1 false 1 [.num 0.5, .num (-2)]

def header : List Line := [.hash] :: headerLines lib stLine stLine 0 1 3 0 (9, 0) orbs

/-- Two data lines: `(1,1)` of multipole zero and `(1,2)` of multipole one. -/
noncomputable def data : List Line := [[.int 1, .int 1, .int 0, .num 3], [.int 1, .int 2, .int 1, .num 5]]

noncomputable def entries : List Entry := [⟨0, s0, s0, 3 / Real.sqrt (1 + 1)⟩, ⟨1, s0, s1, 5 / Real.sqrt (1 + 1)⟩]

theorem header_clean (ds : List Line) (h : ∀ l ∈ ds, Line.content l = true) :
    clean (header ++ ds) = headerLines lib stLine stLine 0 1 3 0 (9, 0) orbs ++ ds := by
  simp only [clean, List.filter_append, List.filter_eq_self.mpr h]
  rfl

theorem data_meaning : List.Forall₂ (LineEntry (orbs.map lib.full)) data entries := by
  refine .cons ⟨0, 0, .num 3, [], 3, rfl, Or.inl rfl, rfl, rfl, by simp [s0]⟩ (.cons ⟨0, 1, .num 5, [], 5, rfl,
    Or.inl rfl, rfl, rfl, by simp [s0]⟩ .nil)

theorem in0 : InSpace sampleSpace s0 := ⟨0, 0, _, rfl, rfl, rfl⟩
theorem in1 : InSpace sampleSpace s1 := ⟨0, 1, _, rfl, rfl, rfl⟩

theorem entries_valid : ∀ e ∈ entries, Valid sampleSpace (g0 state state) (tz0 1 0 1 0) 0 1 e := by
  intro e he
  simp only [entries, List.mem_cons, List.not_mem_nil, or_false] at he
  rcases he with rfl | rfl
  · exact ⟨⟨by decide, by decide⟩, in0, in0, by decide⟩
  · exact ⟨⟨by decide, by decide⟩, in0, in1, by decide⟩

/-- The hypotheses of `multipole_storage`. -/
example : ∃ s s', initStorage sampleSpace 0 0 0 1 = .ok s ∧ storeAll sampleSpace s entries = .ok s' := by
  obtain ⟨s, h1, h2, _⟩ := multipole_storage sampleSpace_good 0 0 (lo := 0) (hi := 1) (by decide) entries
  obtain ⟨s', h3, _⟩ := h2 entries_valid
  exact ⟨s, s', h1, h3⟩

theorem full_file : ∃ d, readSingle lib sampleSpace state state ⟨header ++ data, true⟩ = .ok d ∧
    Means sampleSpace state state 1 0 1 0 1 1 0 1 d entries := by
  refine (single_density laws sampleSpace_good (np := 3) (nn := 0) (os := orbs) (data := data) (counts := (9, 0))
    (ob := false) (okt := false) (sb := 1) (sk := 1) (rb := [.num 0.5, .num (-2)]) (rk := [.num 0.5, .num (-2)]) rfl rfl
    rfl rfl (by decide) ?_ ?_ rfl rfl).1 entries_valid
  · exact header_clean data (by simp [data, Line.content])
  · rw [single_all_lines_partial (Or.inl rfl)]
    exact data_meaning

/-- C62 is false: the file with the same two data lines, without newline after the last one, is read without
complaint, and the element of the last line is zero. -/
theorem single_not_all_lines : ∃ d mats, readSingle lib sampleSpace state state ⟨header ++ data, false⟩ = .ok d ∧
    d.data.getMultipole 1 = .ok (allSectors ⟨1, 0, 0⟩ sampleSpace sampleSpace, mats) ∧
    elem (allSectors ⟨1, 0, 0⟩ sampleSpace sampleSpace) mats 0 0 0 1 = 0 ∧ finalValue entries 1 s0 s1 ≠ 0 := by
  have hused : usedData ⟨header ++ data, false⟩ data = data.dropLast := by
    simp [usedData, lastContent, data, Line.content]
  obtain ⟨d, h1, h2⟩ := (single_density (f := ⟨header ++ data, false⟩) (es := [⟨0, s0, s0, 3 / Real.sqrt (1 + 1)⟩])
    laws sampleSpace_good (np := 3) (nn := 0) (os := orbs) (data := data) (counts := (9, 0)) (lo := 0) (hi := 1)
    (ob := false) (okt := false) (sb := 1) (sk := 1) (rb := [.num 0.5, .num (-2)]) (rk := [.num 0.5, .num (-2)])
    (bra := state) (ket := state) (Zb := 1) (Nb := 0) (Zk := 1) (Nk := 0) (tJb := 1) (tMb := 1) (nb := 1) (tJk := 1)
    (tMk := 1) (nk := 1)
    rfl rfl rfl rfl (by decide) (header_clean data (by simp [data, Line.content])) (by
      rw [hused]
      exact .cons ⟨0, 0, .num 3, [], 3, rfl, Or.inl rfl, rfl, rfl, by simp [s0]⟩ .nil) rfl rfl).1 (by
      intro e he
      exact entries_valid e (by simp only [List.mem_singleton] at he; subst he; simp [entries]))
  obtain ⟨mats, h3, _, h4⟩ := h2.elements.inside 1 (by decide) (by decide)
  refine ⟨d, mats, h1, h3, ?_, ?_⟩
  · refine (h4 0 0 s0 0 1 s1 ⟨_, rfl, rfl, rfl⟩ ⟨_, rfl, rfl, rfl⟩).trans ?_
    simp [finalValue]
  · simp [finalValue, entries, s0, s1]

/-- A multi-file density with two places; the data file may have both numbers or only one. -/
def places : List InfoLine := [⟨s0, s0, 0⟩, ⟨s0, s1, 1⟩]

def infoFile : List Line := [.int 1500] :: [.int 1] :: [.int 3, .int 0] :: [.int 2, .int 0] :: [.hash] :: [.hash] ::
  [infoText 1 1 1 ⟨s0, s0, 0⟩ [], infoText 2 1 2 ⟨s0, s1, 1⟩ []]

noncomputable def dataFile (xs : List ℝ) : List Line :=
  dataHeaderLines 1500 1 0 1 1 1 1 1 1 1 1 [.int (2 + 0 : ℕ)] ++ [xs.map Tok.num]

theorem places_text : ∃ bs, clean [infoText 1 1 1 ⟨s0, s0, 0⟩ [], infoText 2 1 2 ⟨s0, s1, 1⟩ []] = bs ++ [] ∧
      List.Forall₂ (fun l (i : InfoLine) => ∃ idx ia ib rest, l = infoText idx ia ib i rest ∧ i.ket.sp = i.bra.sp) bs
        places :=
  ⟨_, (List.append_nil _).symm, .cons ⟨1, 1, 1, [], rfl, rfl⟩ (.cons ⟨2, 1, 2, [], rfl, rfl⟩ .nil)⟩

theorem places_valid (v w : ℝ) : Valid sampleSpace (g0 state state) 0 0 1 ⟨0, s0, s0, v⟩ ∧
    Valid sampleSpace (g0 state state) 0 0 1 ⟨1, s0, s1, w⟩ := by
  have h0 : Valid sampleSpace (g0 state state) 0 0 1 ⟨0, s0, s0, 0⟩ := ⟨⟨by decide, by decide⟩, in0, in0, by decide⟩
  have h1 : Valid sampleSpace (g0 state state) 0 0 1 ⟨1, s0, s1, 0⟩ := ⟨⟨by decide, by decide⟩, in0, in1, by decide⟩
  exact ⟨h0, h1⟩

example : ∃ d, readMulti lib sampleSpace state state infoFile (dataFile [3, 5]) = .ok d ∧
    Means sampleSpace state state 1 0 1 0 1 1 0 1 d (multiEntries places [3, 5]) := by
  refine (multi_density_1500 (lib := lib) sampleSpace_good (np := 3) (nn := 0) (mp := 2) (mn := 0) (tTb := 1) (tTk := 1)
    (nb := 1) (nk := 1) (g := 0) (g' := 0) (tJb := 1) (tJk := 1) (ts := [.num 3, .num 5]) (rest := [])
    rfl rfl (by decide) places_text rfl (ls := [[.num 3, .num 5]]) (by simp)
    (.cons (Or.inl rfl) (.cons (Or.inl rfl) .nil)) rfl rfl rfl rfl rfl).1 ?_
  intro e he
  simp only [multiEntries, places, List.zipWith_cons_cons, List.zipWith_nil_left, List.mem_cons, List.not_mem_nil,
    or_false] at he
  rcases he with rfl | rfl
  · exact (places_valid _ 0).1
  · exact (places_valid 0 _).2

/-- A data file with one number where two are announced is accepted. -/
theorem truncated : ∃ d, readMulti lib sampleSpace state state infoFile (dataFile [3]) = .ok d := by
  refine multi_truncated_accepted (lib := lib) sampleSpace_good (np := 3) (nn := 0) (mp := 2) (mn := 0) (tTb := 1)
    (tTk := 1) (nb := 1) (nk := 1) (g := 0) (g' := 0) (tJb := 1) (tJk := 1) (Z := 1) (N := 0) (tMb := 1) (tMk := 1)
    (hi := 1) (c1 := [.hash]) (c2 := [.hash])
    rfl rfl (by decide) places_text rfl (ls := [[.num 3]]) rfl rfl rfl (by simp [dataFile]) ?_
  intro i hi
  simp only [places, List.mem_cons, List.not_mem_nil, or_false] at hi
  rcases hi with rfl | rfl
  · exact (places_valid _ 0).1
  · exact (places_valid 0 _).2

/-- The file of `full_file` without its last newline is the file without its last line. -/
example : readSingle lib sampleSpace state state ⟨header ++ data.dropLast ++ [[.int 1, .int 2, .int 1, .num 5]], false⟩ =
    readSingle lib sampleSpace state state ⟨header ++ data.dropLast, true⟩ :=
  single_last_line_lost laws (np := 3) (nn := 0) (os := orbs) (data := data.dropLast) (counts := (9, 0)) (lo := 0)
    (hi := 1) (ob := false) (okt := false) (sb := 1) (sk := 1) (rb := [.num 0.5, .num (-2)])
    (rk := [.num 0.5, .num (-2)]) (Zb := 1) (Nb := 0) (Zk := 1) (Nk := 0) (tJb := 1) (tMb := 1) (nb := 1) (tJk := 1)
    (tMk := 1) (nk := 1) rfl rfl rfl rfl (header_clean _ (by simp [data, Line.content])) rfl rfl rfl

/-- A space with protons and neutrons for version 1405. -/
def pn : Space := [⟨⟨0, 1, .p⟩, [0, 1]⟩, ⟨⟨0, 1, .n⟩, [0, 1]⟩]

theorem pn_good : GoodSpace pn := ⟨by decide, by decide, by decide⟩

example : ∃ d, readMulti lib pn state state
      ([.int 1405] :: [.int 2] :: [.int 1] :: [.int 2] ::
        [infoText1405 1 ⟨s0, s0, 0⟩ [], infoText1405 2 ⟨s0, s1, 1⟩ []])
      (dataHeaderLines 1405 1 1 1 1 1 1 1 1 1 1 [.int 2, .int 2] ++ [[.num 3, .num 5], [.num 7, .num 11]]) = .ok d ∧
    Means pn state state 1 1 1 1 1 1 0 1 d (multiEntries (places ++ places.map neutrons) [3, 5, 7, 11]) := by
  refine (multi_density_1405 (lib := lib) pn_good (np := 2) (m := 2) (tTb := 1) (tTk := 1) (nb := 1) (nk := 1) (g := 0)
    (g' := 0) (tJb := 1) (tJk := 1) (ts := [.num 3, .num 5, .num 7, .num 11]) (rest := []) rfl rfl (by decide)
    ⟨_, (List.append_nil _).symm, .cons ⟨1, [], rfl, rfl, rfl⟩ (.cons ⟨2, [], rfl, rfl, rfl⟩ .nil)⟩ rfl
    (ls := [[.num 3, .num 5], [.num 7, .num 11]]) (by simp)
    (.cons (Or.inl rfl) (.cons (Or.inl rfl) (.cons (Or.inl rfl) (.cons (Or.inl rfl) .nil)))) rfl rfl rfl rfl rfl).1 ?_
  intro e he
  have hp0 : InSpace pn s0 := ⟨0, 0, _, rfl, rfl, rfl⟩
  have hp1 : InSpace pn s1 := ⟨0, 1, _, rfl, rfl, rfl⟩
  have hn0 : InSpace pn ⟨.n, 0, 0, 1⟩ := ⟨1, 0, _, rfl, rfl, rfl⟩
  have hn1 : InSpace pn ⟨.n, 1, 0, 1⟩ := ⟨1, 1, _, rfl, rfl, rfl⟩
  have a1 : Valid pn (g0 state state) 0 0 1 ⟨0, s0, s0, 0⟩ := ⟨⟨by decide, by decide⟩, hp0, hp0, by decide⟩
  have a2 : Valid pn (g0 state state) 0 0 1 ⟨1, s0, s1, 0⟩ := ⟨⟨by decide, by decide⟩, hp0, hp1, by decide⟩
  have a3 : Valid pn (g0 state state) 0 0 1 ⟨0, ⟨.n, 0, 0, 1⟩, ⟨.n, 0, 0, 1⟩, 0⟩ :=
    ⟨⟨by decide, by decide⟩, hn0, hn0, by decide⟩
  have a4 : Valid pn (g0 state state) 0 0 1 ⟨1, ⟨.n, 0, 0, 1⟩, ⟨.n, 1, 0, 1⟩, 0⟩ :=
    ⟨⟨by decide, by decide⟩, hn0, hn1, by decide⟩
  simp only [multiEntries, places, neutrons, List.map_cons, List.map_nil, List.cons_append, List.nil_append,
    List.zipWith_cons_cons, List.zipWith_nil_left, List.mem_cons, List.not_mem_nil, or_false] at he
  rcases he with rfl | rfl | rfl | rfl
  · exact a1
  · exact a2
  · exact a3
  · exact a4

end Ex

end Verif.Density
