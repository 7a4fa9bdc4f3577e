import Verif.Obme.File
import Verif.Obme.SimilarityProps
import Verif.Relative.IsospinProps

/-!
# Properties of one-body operator files and of the programs built on them
-/

namespace Verif.Obme
open Verif Verif.Mapping Verif.Xform
open Verif.H2 hiding Mat

/-- What is assumed of the orbital lists of the `basis` library: one line with content per orbital, and a
printed list parses back. -/
structure LibLaws {Orb : Type} (lib : Lib Orb) : Prop where
  fmt_length : ∀ os, (lib.fmt os).length = os.length
  fmt_content : ∀ os, ∀ l ∈ lib.fmt os, Line.content l = true
  parse_fmt : ∀ os, lib.parse false (lib.fmt os) = .ok os

/-- A space made from a list of orbitals: rebuilding it from its orbitals gives it back, no subspace is
empty. -/
structure Built {Orb : Type} (lib : Lib Orb) (s : Space) : Prop where
  rebuild : lib.mkSpace (lib.info s) = s
  nonempty : ∀ b ∈ s, b.ns ≠ []

/-! ## Comments and blank lines -/

abbrev clean (ls : List Line) : List Line := ls.filter Line.content

theorem nextLine_clean (ls : List Line) : nextLine (clean ls) = ((nextLine ls).1, clean (nextLine ls).2) := by
  induction ls with
  | nil => rfl
  | cons l ls ih =>
    by_cases h : Line.content l = true
    · simp [clean, nextLine, h, List.filter_cons]
    · simp only [clean, List.filter_cons, h, nextLine] at ih ⊢
      simpa using ih

theorem nextLine_content {l : Line} (h : Line.content l = true) (ls : List Line) :
    nextLine (l :: ls) = (l, ls) := by simp [nextLine, h]

theorem orbitalLines_clean (old : Bool) (n : ℕ) : ∀ (i : ℕ) (ls : List Line), orbitalLines old n i (clean ls) =
    ((orbitalLines old n i ls).1, clean (orbitalLines old n i ls).2) := by
  induction n with
  | zero => intro i ls; rfl
  | succ n ih =>
    intro i ls
    simp only [orbitalLines, nextLine_clean, ih]

theorem readInfo_clean (v : Int) (ls : List Line) : readInfo v (clean ls) =
    (readInfo v ls).map fun r => (r.1, r.2.1, r.2.2.1, r.2.2.2.1, clean r.2.2.2.2) := by
  unfold readInfo
  split
  · simp only [nextLine_clean]
    split
    · simp only [Except.map, bind, Except.bind]
      rename_i rest _
      cases readCounts rest with
      | error e => rfl
      | ok n =>
        simp only
        split <;> rfl
    · rfl
  split
  · simp only [nextLine_clean]
    split
    · split
      · simp only [bind]
        rename_i mode rest _
        generalize (if mode = 'R' then _ else _ : Except Err QN) = q
        cases q with
        | error e => rfl
        | ok q =>
          simp only [Except.bind]
          generalize readCounts _ = n
          cases n <;> rfl
      · rfl
    · rfl
  split
  · simp only [nextLine_clean]
    split
    · simp only [bind, Except.bind]
      generalize readCounts _ = n
      cases n <;> rfl
    · rfl
  · rfl

theorem readHeader_clean {Orb : Type} (lib : Lib Orb) (ls : List Line) : readHeader lib (clean ls) =
    (readHeader lib ls).map fun r => (r.1, clean r.2) := by
  unfold readHeader
  simp only [nextLine_clean, readInfo_clean]
  generalize readVersion (nextLine ls).1 = v
  cases v with
  | error e => rfl
  | ok v =>
    simp only [Except.ok_bind']
    generalize readInfo v (nextLine ls).2 = r
    cases r with
    | error e => rfl
    | ok r =>
      simp only [Except.map, Except.ok_bind', orbitalLines_clean]
      generalize lib.parse _ _ = b
      cases b with
      | error e => rfl
      | ok b =>
        simp only [Except.ok_bind']
        generalize lib.parse _ _ = k
        cases k <;> rfl

theorem readRows_clean (cols : ℕ) (n : ℕ) : ∀ ls : List Line, readRows cols n (clean ls) =
    (readRows cols n ls).map fun r => (r.1, clean r.2) := by
  induction n with
  | zero => intro ls; rfl
  | succ n ih =>
    intro ls
    simp only [readRows, nextLine_clean, ih]
    generalize readRow cols _ = r
    cases r with
    | error e => rfl
    | ok r =>
      simp only [Except.ok_bind']
      generalize readRows cols n _ = q
      cases q <;> rfl

theorem readSector_clean (bra ket : Space) (p : ℕ × ℕ) (ls : List Line) : readSector bra ket p (clean ls) =
    (readSector bra ket p ls).map fun r => (r.1, clean r.2) := by
  unfold readSector
  cases getE bra p.1 with
  | error e => rfl
  | ok b =>
    simp only [Except.ok_bind']
    cases getE ket p.2 with
    | error e => rfl
    | ok k =>
      simp only [Except.ok_bind', readRows_clean]
      generalize readRows _ _ ls = q
      cases q <;> rfl

theorem readSectors_clean (bra ket : Space) (ps : List (ℕ × ℕ)) : ∀ ls : List Line,
    readSectors bra ket ps (clean ls) = readSectors bra ket ps ls := by
  induction ps with
  | nil => intro ls; rfl
  | cons p ps ih =>
    intro ls
    simp only [readSectors, readSector_clean]
    generalize readSector bra ket p ls = q
    cases q with
    | error e => rfl
    | ok q => simp only [Except.map, Except.ok_bind', ih]

/-- **C53.** Comment lines and blank lines, wherever they stand, do not change what is read from a
one-body operator file. -/
theorem readFile_comments {Orb : Type} (lib : Lib Orb) {ls ls' : List Line}
    (h : ls.filter Line.content = ls'.filter Line.content) : readFile lib ls = readFile lib ls' := by
  have key : ∀ ls, readFile lib ls = readFile lib (clean ls) := by
    intro ls
    unfold readFile
    rw [readHeader_clean]
    generalize readHeader lib ls = q
    cases q with
    | error e => rfl
    | ok q => simp only [Except.map, Except.ok_bind', readSectors_clean]
  rw [key ls, key ls', clean, clean, h]

/-! ## Round trip -/

theorem orbitalLines_append (n : ℕ) : ∀ (i : ℕ) (a b : List Line), a.length = n →
    (∀ l ∈ a, Line.content l = true) → orbitalLines false n i (a ++ b) = (a, b) := by
  induction n with
  | zero =>
    intro i a b h _
    obtain rfl := List.length_eq_zero_iff.mp h
    rfl
  | succ n ih =>
    intro i a b h hc
    obtain ⟨x, a, rfl⟩ := List.exists_cons_of_length_eq_add_one h
    simp only [List.cons_append, orbitalLines, nextLine_content (hc x (by simp))]
    rw [ih _ a b (by simpa using h) fun l hl => hc l (by simp [hl])]
    simp

/-- The printed rows of a matrix. -/
noncomputable def rowLines (rnd : ℝ → ℝ) (m : Mat) : List Line :=
  (List.range m.rows).map fun i => (List.range m.cols).map fun j => Tok.num (rnd (chop (m.val i j)))

theorem rowLines_content {rnd : ℝ → ℝ} {m : Mat} (h : 0 < m.cols) : ∀ l ∈ rowLines rnd m, Line.content l = true := by
  intro l hl
  simp only [rowLines, List.mem_map, List.mem_range] at hl
  obtain ⟨i, _, rfl⟩ := hl
  obtain ⟨n, hn⟩ : ∃ n, m.cols = n + 1 := ⟨m.cols - 1, by omega⟩
  rw [hn, List.range_succ_eq_map]
  rfl

theorem readRow_ok (n : ℕ) (f : ℕ → ℝ) :
    readRow n ((List.range n).map fun j => Tok.num (f j)) = .ok ((List.range n).map f) := by
  unfold readRow
  apply Verif.Relative.mapM_ok
  intro j hj
  rw [List.mem_range] at hj
  simp [hj, Tok.real?]

theorem readRows_ok (cols : ℕ) (hc : 0 < cols) (n : ℕ) : ∀ (f : ℕ → ℕ → ℝ) (rest : List Line),
    readRows cols n (((List.range n).map fun i => (List.range cols).map fun j => Tok.num (f i j)) ++ rest) =
      .ok ((List.range n).map fun i => (List.range cols).map (f i), rest) := by
  induction n with
  | zero => intro f rest; rfl
  | succ n ih =>
    intro f rest
    rw [List.range_succ_eq_map, List.map_cons, List.map_cons, List.map_map, List.map_map, List.cons_append,
      readRows, nextLine_content]
    · simp only [readRow_ok, Except.ok_bind']
      have := ih (fun i => f (i + 1)) rest
      simp only [Function.comp_def, Nat.succ_eq_add_one]
      rw [this]
      rfl
    · obtain ⟨k, rfl⟩ : ∃ k, cols = k + 1 := ⟨cols - 1, by omega⟩
      rw [List.range_succ_eq_map]
      rfl

/-- A matrix as read back. -/
noncomputable def readBack (rnd : ℝ → ℝ) (m : Mat) : Mat :=
  ⟨m.rows, m.cols, fun i j => (((List.range m.rows).map fun i => (List.range m.cols).map fun j =>
    rnd (chop (m.val i j))).getD i []).getD j 0⟩

theorem readBack_val {rnd : ℝ → ℝ} {m : Mat} {i j : ℕ} (hi : i < m.rows) (hj : j < m.cols) :
    (readBack rnd m).val i j = rnd (chop (m.val i j)) := by
  simp [readBack, List.getD_eq_getElem?_getD, hi, hj]

theorem readSectors_ok {bra ket : Space} (rnd : ℝ → ℝ) : ∀ (ps : List (ℕ × ℕ)) (ms : List Mat) (rest : List Line),
    List.Forall₂ (fun p m => ∃ b k, bra[p.1]? = some b ∧ ket[p.2]? = some k ∧ k.ns ≠ [] ∧
      m.rows = b.ns.length ∧ m.cols = k.ns.length) ps ms →
    readSectors bra ket ps ((ms.map (rowLines rnd)).flatten ++ rest) = .ok (ms.map (readBack rnd)) := by
  intro ps ms rest h
  induction h with
  | nil => rfl
  | @cons p m ps ms hp hps ih =>
    obtain ⟨b, k, hb, hk, hne, hr, hc⟩ := hp
    rw [readSectors, readSector, getE_ok hb, getE_ok hk]
    simp only [Except.ok_bind', List.map_cons, List.flatten_cons, List.append_assoc]
    have := readRows_ok k.ns.length (List.length_pos_iff.mpr hne) b.ns.length
      (fun i j => rnd (chop (m.val i j))) ((ms.map (rowLines rnd)).flatten ++ rest)
    rw [rowLines, hr, hc, this]
    simp only [Except.ok_bind', Except.pure_ok, ih, readBack, hr, hc]

theorem writeSector_ok {bra ket : Space} {rnd : ℝ → ℝ} {verbose : Bool} {p : ℕ × ℕ} {m : Mat} {b k : Sub}
    (hb : bra[p.1]? = some b) (hk : ket[p.2]? = some k) (hr : m.rows = b.ns.length) (hc : m.cols = k.ns.length) :
    writeSector rnd verbose bra ket p m =
      .ok ((if verbose then [[.hash], [.hash]] else []) ++ rowLines rnd m ++ [[]]) := by
  simp [writeSector, getE_ok hb, getE_ok hk, hr, hc, rowLines, assertE]

theorem clean_all {ls : List Line} (h : ∀ l ∈ ls, Line.content l = true) : clean ls = ls :=
  List.filter_eq_self.mpr h

theorem clean_append (a b : List Line) : clean (a ++ b) = clean a ++ clean b := List.filter_append ..

theorem fits_forall₂ {bra ket : Space} {secs : Sectors} {mats : List Mat} (hs : SectorsOf secs bra ket)
    (hf : Fits secs mats bra ket) (hne : ∀ k ∈ ket, k.ns ≠ []) :
    List.Forall₂ (fun p m => ∃ b k, bra[p.1]? = some b ∧ ket[p.2]? = some k ∧ k.ns ≠ [] ∧
      m.rows = b.ns.length ∧ m.cols = k.ns.length) secs.pairs mats := by
  rw [List.forall₂_iff_get]
  refine ⟨hf.length.symm, fun x hx hx' => ?_⟩
  have h1 : secs.pairs[x]? = some (secs.pairs.get ⟨x, hx⟩) := by simp [hx]
  have h2 : mats[x]? = some (mats.get ⟨x, hx'⟩) := by simp [hx']
  obtain ⟨b, k, hb, hk, _⟩ := sectors_some hs (List.mem_of_getElem? h1)
  obtain ⟨hr, hc⟩ := hf.size x _ _ _ h1 h2
  exact ⟨b, k, hb, hk, hne k (List.mem_of_getElem? hk), hr.trans (dim_some hb), hc.trans (dim_some hk)⟩

theorem writeFile_clean {Orb : Type} {lib : Lib Orb} (laws : LibLaws lib) {rnd : ℝ → ℝ} {verbose : Bool}
    {type : Char} {bra ket : Space} {secs : Sectors} {mats : List Mat} (hs : SectorsOf secs bra ket)
    (hf : Fits secs mats bra ket) (hne : ∀ k ∈ ket, k.ns ≠ []) :
    ∃ file, writeFile lib rnd verbose type bra ket secs mats = .ok file ∧
      clean file = [[.int 2], [.chr type, .int secs.qn.J0, .int secs.qn.g0, .int secs.qn.Tz0],
        [.int (lib.info bra).length, .int (lib.info ket).length]] ++ lib.fmt (lib.info bra) ++
        lib.fmt (lib.info ket) ++ (mats.map (rowLines rnd)).flatten := by
  have h2 := fits_forall₂ hs hf hne
  have key : ∀ (ps : List (ℕ × ℕ)) (ms : List Mat),
      List.Forall₂ (fun p m => ∃ b k, bra[p.1]? = some b ∧ ket[p.2]? = some k ∧ k.ns ≠ [] ∧
        m.rows = b.ns.length ∧ m.cols = k.ns.length) ps ms →
      ∃ body, (ps.zip ms).mapM (fun pm => writeSector rnd verbose bra ket pm.1 pm.2) = .ok body ∧
        clean body.flatten = (ms.map (rowLines rnd)).flatten := by
    intro ps ms h
    induction h with
    | nil => exact ⟨[], rfl, rfl⟩
    | @cons p m ps ms hp hps ih =>
      obtain ⟨b, k, hb, hk, hne, hr, hc⟩ := hp
      obtain ⟨body, h1, h2⟩ := ih
      refine ⟨((if verbose then [[.hash], [.hash]] else []) ++ rowLines rnd m ++ [[]]) :: body, ?_, ?_⟩
      · rw [List.zip_cons_cons, List.mapM_cons, writeSector_ok hb hk hr hc, h1]
        rfl
      · rw [List.flatten_cons, clean_append, h2, List.map_cons, List.flatten_cons, clean_append, clean_append,
          clean_all (rowLines_content (by rw [hc]; exact List.length_pos_iff.mpr hne))]
        cases verbose <;> simp [clean, Line.content]
  obtain ⟨body, h1, h3⟩ := key _ _ h2
  refine ⟨writeHeader lib verbose type bra ket secs ++ body.flatten, ?_, ?_⟩
  · unfold writeFile
    rw [h1]
    simp [assertE, hf.length]
  · rw [clean_append, h3]
    congr 1
    simp only [writeHeader, clean_append, clean_all (laws.fmt_content _)]
    cases verbose <;> simp [clean, Line.content, List.filter_cons]

theorem readHeader_ok {Orb : Type} {lib : Lib Orb} (laws : LibLaws lib) {type : Char} {bra ket : Space} {qn : QN}
    (hb : lib.mkSpace (lib.info bra) = bra) (hk : lib.mkSpace (lib.info ket) = ket) (rest : List Line) :
    readHeader lib ([[.int 2], [.chr type, .int qn.J0, .int qn.g0, .int qn.Tz0],
        [.int (lib.info bra).length, .int (lib.info ket).length]] ++ lib.fmt (lib.info bra) ++
        lib.fmt (lib.info ket) ++ rest) = .ok (⟨some type, bra, ket, allSectors qn bra ket⟩, rest) := by
  have c1 : ∀ z : Int, ∀ l, Line.content (.int z :: l) = true := fun _ _ => rfl
  have c2 : ∀ z : Char, ∀ l, Line.content (.chr z :: l) = true := fun _ _ => rfl
  unfold readHeader
  simp only [List.cons_append, List.nil_append, List.append_assoc]
  rw [nextLine_content (c1 _ _)]
  simp only [readVersion, Except.ok_bind']
  unfold readInfo
  rw [if_neg (by decide), if_neg (by decide), if_pos rfl, nextLine_content (c2 _ _)]
  simp only
  rw [nextLine_content (c1 _ _)]
  simp only [readCounts]
  rw [if_pos ⟨Int.natCast_nonneg _, Int.natCast_nonneg _⟩]
  simp only [Except.ok_bind', Except.pure_ok, Int.toNat_natCast]
  rw [orbitalLines_append _ 0 _ _ (laws.fmt_length _) (laws.fmt_content _)]
  simp only [laws.parse_fmt, Except.ok_bind']
  rw [orbitalLines_append _ 0 _ _ (laws.fmt_length _) (laws.fmt_content _)]
  simp only [laws.parse_fmt, Except.ok_bind', hb, hk]

/-- The operator read back. -/
theorem readBack_elem {bra ket : Space} {secs : Sectors} {mats : List Mat} {rnd : ℝ → ℝ}
    (h0 : rnd 0 = 0) (hf : Fits secs mats bra ket) :
    Fits secs (mats.map (readBack rnd)) bra ket ∧
      ∀ i a k c, elem secs (mats.map (readBack rnd)) i a k c = rnd (chop (elem secs mats i a k c)) := by
  have hf' : Fits secs (mats.map (readBack rnd)) bra ket := by
    refine ⟨by simpa using hf.length, ?_⟩
    intro x i k m hx hm
    rw [List.getElem?_map, Option.map_eq_some_iff] at hm
    obtain ⟨m', hm', rfl⟩ := hm
    exact hf.size x i k m' hx hm'
  refine ⟨hf', ?_⟩
  intro i a k c
  have hz : rnd (chop 0) = 0 := by simp [chop, h0]
  by_cases hd : a < dim bra i ∧ c < dim ket k
  · rcases hx : secs.pairs.idxOf? (i, k) with _ | x
    · rw [elem_absent (idxOf?_none.mp hx), elem_absent (idxOf?_none.mp hx), hz]
    · obtain ⟨m, hm, hr, hc, hv⟩ := fits_block hf hx
      rw [← hv a c hd.1 hd.2]
      simp only [elem, hx, List.getElem?_map, hm, Option.map_some]
      rw [if_pos (by exact ⟨by rw [readBack, hr]; exact hd.1, by rw [readBack, hc]; exact hd.2⟩),
        readBack_val (hr ▸ hd.1) (hc ▸ hd.2)]
  · rw [elem_outside hf' hd, elem_outside hf hd, hz]

/-- **C53.** An operator written to a file is read back with the same type, spaces, quantum numbers and
sectors, and with every element rounded to the printed precision (after small values are set to zero),
whether or not the labels of the sectors are printed, and whatever follows in the file. -/
theorem file_round_trip {Orb : Type} {lib : Lib Orb} (laws : LibLaws lib) {rnd : ℝ → ℝ} (h0 : rnd 0 = 0)
    (verbose : Bool) (type : Char) {bra ket : Space} (qn : QN) {mats : List Mat} (hb : Built lib bra)
    (hk : Built lib ket) (hf : Fits (allSectors qn bra ket) mats bra ket) (extra : List Line) :
    ∃ file mats', writeFile lib rnd verbose type bra ket (allSectors qn bra ket) mats = .ok file ∧
      readFile lib (file ++ extra) = .ok (⟨some type, bra, ket, allSectors qn bra ket⟩, mats') ∧
      Fits (allSectors qn bra ket) mats' bra ket ∧
      ∀ i a k c, elem (allSectors qn bra ket) mats' i a k c =
        rnd (chop (elem (allSectors qn bra ket) mats i a k c)) := by
  have hs := allSectors_spec qn bra ket
  obtain ⟨file, h1, h2⟩ := writeFile_clean laws (rnd := rnd) (verbose := verbose) (type := type) hs hf hk.nonempty
  obtain ⟨hf', he⟩ := readBack_elem h0 hf
  refine ⟨file, _, h1, ?_, hf', he⟩
  rw [readFile_comments lib (ls' := clean file ++ clean extra)]
  · have hq : (allSectors qn bra ket).qn = qn := rfl
    rw [hq] at h2
    rw [h2]
    unfold readFile
    rw [List.append_assoc _ _ (clean extra), readHeader_ok laws hb.rebuild hk.rebuild]
    simp only [Except.ok_bind']
    rw [readSectors_ok rnd _ _ _ (fits_forall₂ hs hf hk.nonempty)]
    rfl
  · rw [List.filter_append, List.filter_append, clean, clean, List.filter_filter, List.filter_filter]
    simp

/-! ## What a successful read says about the file -/

theorem readFile_eq {Orb : Type} {lib : Lib Orb} {ls : List Line} {h : Header} {mats : List Mat}
    (r : readFile lib ls = .ok (h, mats)) :
    ∃ rest, readHeader lib ls = .ok (h, rest) ∧ readSectors h.bra h.ket h.secs.pairs rest = .ok mats := by
  unfold readFile at r
  simp only [Except.bind_eq_ok] at r
  obtain ⟨⟨h', rest⟩, r1, ms, r2, r3⟩ := r
  simp only [Except.pure_ok, Except.ok.injEq, Prod.mk.injEq] at r3
  obtain ⟨rfl, rfl⟩ := r3
  exact ⟨rest, r1, r2⟩

theorem readHeader_secs {Orb : Type} {lib : Lib Orb} {ls rest : List Line} {h : Header}
    (r : readHeader lib ls = .ok (h, rest)) : h.secs = allSectors h.secs.qn h.bra h.ket := by
  unfold readHeader at r
  simp only [Except.bind_eq_ok] at r
  obtain ⟨v, _, i, _, b, _, k, _, r3⟩ := r
  simp only [Except.pure_ok, Except.ok.injEq, Prod.mk.injEq] at r3
  obtain ⟨rfl, _⟩ := r3
  rfl

theorem readRow_value {cols : ℕ} {l : Line} {r : List ℝ} (h : readRow cols l = .ok r) :
    ∀ c < cols, ∃ t, l[c]? = some t ∧ t.real? = some (r.getD c 0) := by
  have key : ∀ (n : ℕ) (js : List ℕ) (r : List ℝ), js.mapM (fun j => match l[j]? with
      | some t => (match t.real? with
        | some x => Except.ok x
        | none => Except.error Err.parseError)
      | none => Except.error Err.parseError) = .ok r →
      ∀ (x j : ℕ), js[x]? = some j → ∃ t, l[j]? = some t ∧ t.real? = some (r.getD x 0) := by
    intro n js
    induction js with
    | nil => intro r _ x j hj; simp at hj
    | cons j js ih =>
      intro r hr x j' hj
      rw [List.mapM_cons] at hr
      simp only [Except.bind_eq_ok] at hr
      obtain ⟨v, hv, vs, hvs, hr⟩ := hr
      obtain rfl := Except.ok.inj hr
      cases x with
      | zero =>
        simp only [List.getElem?_cons_zero, Option.some.injEq] at hj
        subst hj
        cases ht : l[j]? with
        | none => simp [ht] at hv
        | some t =>
          refine ⟨t, rfl, ?_⟩
          simp only [ht] at hv
          cases hx : t.real? with
          | none => simp [hx] at hv
          | some x =>
            simp only [hx, Except.ok.injEq] at hv
            simp [hv]
      | succ x =>
        simp only [List.getElem?_cons_succ] at hj
        simpa using ih vs hvs x j' hj
  intro c hc
  exact key cols _ r h c c (by simp [hc])

theorem nextLine_cases (ls : List Line) : (clean ls = [] ∧ nextLine ls = ([], [])) ∨
    ∃ l, clean ls = l :: clean (nextLine ls).2 ∧ (nextLine ls).1 = l := by
  induction ls with
  | nil => left; exact ⟨rfl, rfl⟩
  | cons l ls ih =>
    by_cases h : Line.content l = true
    · right
      exact ⟨l, by simp [clean, nextLine, h, List.filter_cons], by simp [nextLine, h]⟩
    · simpa [clean, nextLine, h, List.filter_cons] using ih

theorem readRows_value {cols : ℕ} (hc : 0 < cols) (n : ℕ) : ∀ {ls rest : List Line} {rs : List (List ℝ)},
    readRows cols n ls = .ok (rs, rest) → ∃ used, clean ls = used ++ clean rest ∧ used.length = n ∧
      ∀ a < n, ∀ c < cols, ∃ l t, used[a]? = some l ∧ l[c]? = some t ∧ t.real? = some ((rs.getD a []).getD c 0) := by
  induction n with
  | zero =>
    intro ls rest rs h
    simp only [readRows, Except.ok.injEq, Prod.mk.injEq] at h
    obtain ⟨_, rfl⟩ := h
    exact ⟨[], rfl, rfl, by simp⟩
  | succ n ih =>
    intro ls rest rs h
    simp only [readRows, Except.bind_eq_ok] at h
    obtain ⟨r, hr, ⟨rs', rest'⟩, hrs, h⟩ := h
    simp only [Except.pure_ok, Except.ok.injEq, Prod.mk.injEq] at h
    obtain ⟨rfl, rfl⟩ := h
    obtain ⟨used, hu, hl, hv⟩ := ih hrs
    have hrow := readRow_value hr
    rcases nextLine_cases ls with ⟨_, hn⟩ | ⟨l, hl', hn⟩
    · obtain ⟨t, ht, _⟩ := hrow 0 hc
      rw [hn] at ht
      simp at ht
    · rw [hn] at hrow
      refine ⟨l :: used, by rw [hl', hu]; rfl, by simp [hl], ?_⟩
      intro a ha c hc'
      cases a with
      | zero =>
        obtain ⟨t, h1, h2⟩ := hrow c hc'
        exact ⟨l, t, rfl, h1, by simpa using h2⟩
      | succ a => simpa using hv a (by omega) c hc'

/-- Lines of data before sector number `x`. -/
def rowsBefore (bra : Space) (ps : List (ℕ × ℕ)) (x : ℕ) : ℕ := ((ps.take x).map fun p => dim bra p.1).sum

theorem readSectors_value {bra ket : Space} (hne : ∀ k ∈ ket, k.ns ≠ []) : ∀ (ps : List (ℕ × ℕ))
    {ls : List Line} {mats : List Mat}, readSectors bra ket ps ls = .ok mats → mats.length = ps.length ∧
      ∀ (x i k : ℕ), ps[x]? = some (i, k) → ∃ m, mats[x]? = some m ∧ m.rows = dim bra i ∧ m.cols = dim ket k ∧
        ∀ a < m.rows, ∀ c < m.cols, ∃ l t, (clean ls)[rowsBefore bra ps x + a]? = some l ∧ l[c]? = some t ∧
          t.real? = some (m.val a c) := by
  intro ps
  induction ps with
  | nil =>
    intro ls mats h
    simp only [readSectors, Except.ok.injEq] at h
    subst h
    simp
  | cons p ps ih =>
    intro ls mats h
    simp only [readSectors, Except.bind_eq_ok] at h
    obtain ⟨⟨m, rest⟩, h1, ms, h2, h3⟩ := h
    simp only [Except.pure_ok, Except.ok.injEq] at h3
    subst h3
    unfold readSector at h1
    simp only [Except.bind_eq_ok, getE_eq_ok] at h1
    obtain ⟨b, hb, k, hk, ⟨rows, rest'⟩, hr, h1⟩ := h1
    simp only [Except.pure_ok, Except.ok.injEq, Prod.mk.injEq] at h1
    obtain ⟨rfl, rfl⟩ := h1
    obtain ⟨used, hu, hl, hv⟩ := readRows_value
      (List.length_pos_iff.mpr (hne k (List.mem_of_getElem? hk))) _ hr
    obtain ⟨hlen, hrest⟩ := ih h2
    refine ⟨by simp [hlen], ?_⟩
    intro x i k' hx
    cases x with
    | zero =>
      simp only [List.getElem?_cons_zero, Option.some.injEq] at hx
      subst hx
      refine ⟨_, rfl, (dim_some hb).symm, (dim_some hk).symm, ?_⟩
      intro a ha c hc
      obtain ⟨l, t, h1, h2, h3⟩ := hv a ha c hc
      refine ⟨l, t, ?_, h2, h3⟩
      have ha' : a < used.length := by rw [hl]; exact ha
      simpa [hu, rowsBefore, List.getElem?_append_left ha'] using h1
    | succ x =>
      simp only [List.getElem?_cons_succ] at hx ⊢
      obtain ⟨m, hm, h1, h2, h3⟩ := hrest x i k' hx
      refine ⟨m, hm, h1, h2, ?_⟩
      intro a ha c hc
      obtain ⟨l, t, h4, h5, h6⟩ := h3 a ha c hc
      refine ⟨l, t, ?_, h5, h6⟩
      have e : rowsBefore bra (p :: ps) (x + 1) + a = used.length + (rowsBefore bra ps x + a) := by
        simp [rowsBefore, hl, dim_some hb]; omega
      rw [e, hu, List.getElem?_append_right (by omega)]
      simpa using h4

theorem readSectors_fits {bra ket : Space} {secs : Sectors} {ls : List Line} {mats : List Mat}
    (r : readSectors bra ket secs.pairs ls = .ok mats) : Fits secs mats bra ket := by
  have key : ∀ (ps : List (ℕ × ℕ)) {ls : List Line} {mats : List Mat}, readSectors bra ket ps ls = .ok mats →
      mats.length = ps.length ∧ ∀ (x i k : ℕ) (m : Mat), ps[x]? = some (i, k) → mats[x]? = some m →
        m.rows = dim bra i ∧ m.cols = dim ket k := by
    intro ps
    induction ps with
    | nil =>
      intro ls mats h
      simp only [readSectors, Except.ok.injEq] at h
      subst h
      simp
    | cons p ps ih =>
      intro ls mats h
      simp only [readSectors, Except.bind_eq_ok] at h
      obtain ⟨⟨m, rest⟩, h1, ms, h2, h3⟩ := h
      simp only [Except.pure_ok, Except.ok.injEq] at h3
      subst h3
      unfold readSector at h1
      simp only [Except.bind_eq_ok, getE_eq_ok] at h1
      obtain ⟨b, hb, k, hk, ⟨rows, rest'⟩, hr, h1⟩ := h1
      simp only [Except.pure_ok, Except.ok.injEq, Prod.mk.injEq] at h1
      obtain ⟨rfl, rfl⟩ := h1
      obtain ⟨hlen, hrest⟩ := ih h2
      refine ⟨by simp [hlen], ?_⟩
      intro x i k' m hx hm
      cases x with
      | zero =>
        simp only [List.getElem?_cons_zero, Option.some.injEq] at hx hm
        subst hx
        subst hm
        exact ⟨(dim_some hb).symm, (dim_some hk).symm⟩
      | succ x => exact hrest x i k' m (by simpa using hx) (by simpa using hm)
  obtain ⟨h1, h2⟩ := key _ r
  exact ⟨h1, h2⟩

/-- **C53.** Whenever a file is accepted, every element of the operator is the number found in the row and
column of the file belonging to it: a file with missing lines or missing values is never accepted. -/
theorem readFile_value {Orb : Type} {lib : Lib Orb} {ls : List Line} {h : Header} {mats : List Mat}
    (r : readFile lib ls = .ok (h, mats)) (hne : ∀ k ∈ h.ket, k.ns ≠ []) :
    ∃ rest, readHeader lib ls = .ok (h, rest) ∧ ∀ (x i k : ℕ), h.secs.pairs[x]? = some (i, k) →
      ∃ m, mats[x]? = some m ∧ m.rows = dim h.bra i ∧ m.cols = dim h.ket k ∧ ∀ a < m.rows, ∀ c < m.cols,
        ∃ l t, (rest.filter Line.content)[rowsBefore h.bra h.secs.pairs x + a]? = some l ∧ l[c]? = some t ∧
          t.real? = some (m.val a c) := by
  obtain ⟨rest, r1, r2⟩ := readFile_eq r
  exact ⟨rest, r1, (readSectors_value hne _ r2).2⟩

/-- **C71.** A header accepted by the reader carries version 0, 1 or 2. -/
theorem readHeader_version {Orb : Type} {lib : Lib Orb} {ls rest : List Line} {h : Header}
    (r : readHeader lib ls = .ok (h, rest)) : ∃ v l, (nextLine ls).1 = .int v :: l ∧ (v = 0 ∨ v = 1 ∨ v = 2) ∧
      (h.type = none ↔ v = 0) ∧ (v = 1 → h.type = some 'R') := by
  unfold readHeader at r
  simp only [Except.bind_eq_ok] at r
  obtain ⟨v, hv, i, hi, b, _, k, _, r3⟩ := r
  simp only [Except.pure_ok, Except.ok.injEq, Prod.mk.injEq] at r3
  obtain ⟨rfl, _⟩ := r3
  refine ⟨v, ?_⟩
  unfold readVersion at hv
  split at hv
  · rename_i v' l hl
    simp only [Except.ok.injEq] at hv
    subst hv
    refine ⟨l, hl, ?_⟩
    unfold readInfo at hi
    split at hi
    · subst_vars
      dsimp only at hi
      split at hi
      · simp only [Except.bind_eq_ok, Except.pure_ok, Except.ok.injEq] at hi
        obtain ⟨_, _, _, _, rfl⟩ := hi
        simp
      · simp at hi
    split at hi
    · subst_vars
      dsimp only at hi
      split at hi
      · split at hi
        · simp only [Except.bind_eq_ok, Except.pure_ok, Except.ok.injEq] at hi
          obtain ⟨_, _, _, _, rfl⟩ := hi
          simp
        · simp at hi
      · simp at hi
    split at hi
    · subst_vars
      dsimp only at hi
      split at hi
      · simp only [Except.bind_eq_ok, Except.pure_ok, Except.ok.injEq] at hi
        obtain ⟨_, _, rfl⟩ := hi
        simp
      · simp at hi
    · simp at hi
  · simp at hv

/-- **C71, refuted.** A file of any other version is not reported: the variables describing the operator
stay uninitialised. -/
theorem unknown_version_undefined {Orb : Type} (lib : Lib Orb) (v : Int) (l : Line) (ls : List Line)
    (hv : v ≠ 0 ∧ v ≠ 1 ∧ v ≠ 2) :
    readHeader lib ((.int v :: l) :: ls) = .error .undefinedBehaviour := by
  unfold readHeader
  rw [nextLine_content rfl]
  simp [readVersion, readInfo, hv.1, hv.2.1, hv.2.2]

/-! ## Programs -/

theorem info_inj {Orb : Type} {lib : Lib Orb} {s t : Space} (hs : Built lib s) (ht : Built lib t)
    (h : lib.info s = lib.info t) : s = t := by
  rw [← hs.rebuild, ← ht.rebuild, h]

/-- **C50, C51.** For two files of overlaps with matching inner space, `radial-compose` writes a file from
which the product is read back. -/
theorem radialCompose_element {Orb : Type} [DecidableEq Orb] {lib : Lib Orb} (laws : LibLaws lib) {rnd : ℝ → ℝ}
    (h0 : rnd 0 = 0) {f1 f2 : List Line} {h1 h2 : Header} {m1 m2 : List Mat}
    (r1 : readFile lib f1 = .ok (h1, m1)) (r2 : readFile lib f2 = .ok (h2, m2)) (t1 : h1.type = some 'R')
    (q1 : h1.secs.qn = scalarQN) (q2 : h2.secs.qn = scalarQN) (hin : h1.ket = h2.bra)
    (g1 : GoodSpace h1.bra) (g2 : GoodSpace h1.ket) (b1 : Built lib h1.bra) (b2 : Built lib h2.ket) :
    ∃ out mats, radialCompose lib rnd f1 f2 = .ok out ∧
      readFile lib out = .ok (⟨some 'R', h1.bra, h2.ket, allSectors scalarQN h1.bra h2.ket⟩, mats) ∧
      ∀ i a k c, elem (allSectors scalarQN h1.bra h2.ket) mats i a k c = rnd (chop
        (∑ t ∈ states h1.ket, elem h1.secs m1 i a t.1 t.2 * elem h2.secs m2 t.1 t.2 k c)) := by
  obtain ⟨rest1, r1, r1'⟩ := readFile_eq r1
  obtain ⟨rest2, r2, r2'⟩ := readFile_eq r2
  have f1' := readSectors_fits (secs := h1.secs) r1'
  have f2' := readSectors_fits (secs := h2.secs) r2'
  have s1 : SectorsOf h1.secs h1.bra h1.ket := by rw [readHeader_secs r1]; exact allSectors_spec _ _ _
  have s2 : SectorsOf h2.secs h1.ket h2.ket := by rw [readHeader_secs r2, hin]; exact allSectors_spec _ _ _
  rw [← hin] at f2' r2'
  obtain ⟨mats, c1, c2, c3⟩ := compose_element f1' f2' (allSectors_spec scalarQN h1.bra h2.ket) s1 s2
    (by rw [q1, q2]; exact covers_scalar_left g1 g2 rfl)
  obtain ⟨out, mats', w1, w2, _, w3⟩ := file_round_trip laws h0 true 'R' scalarQN b1 b2 c2 []
  rw [List.append_nil] at w2
  refine ⟨out, mats', ?_, w2, ?_⟩
  · unfold radialCompose
    simp only [r1, r2, Except.ok_bind', checkRadial, t1, if_true, r1', r2', ← hin]
    rw [if_neg (by simp)]
    have c1' := c1
    rw [show (⟨0, 0, 0⟩ : QN) = scalarQN from rfl, c1', Except.ok_bind', w1]
  · intro i a k c
    rw [w3, c3]

/-- **C51, partial.** `radial-compose` stops unless the first file is of radial type and the inner spaces
agree.  Missing: the type of the second file. -/
theorem radialCompose_rejects_partial {Orb : Type} [DecidableEq Orb] {lib : Lib Orb} {rnd : ℝ → ℝ}
    {f1 f2 out : List Line} (h : radialCompose lib rnd f1 f2 = .ok out) :
    ∃ h1 h2 m1 m2, readFile lib f1 = .ok (h1, m1) ∧ readFile lib f2 = .ok (h2, m2) ∧ h1.type = some 'R' ∧
      lib.info h1.ket = lib.info h2.bra := by
  unfold radialCompose at h
  simp only [Except.bind_eq_ok] at h
  obtain ⟨⟨h1, rest1⟩, r1, ⟨h2, rest2⟩, r2, _, hc, _, _, h⟩ := h
  simp only at h hc
  split at h
  · simp at h
  · rename_i hi
    simp only [Except.bind_eq_ok] at h
    obtain ⟨m1, e1, m2, e2, _⟩ := h
    refine ⟨h1, h2, m1, m2, ?_, ?_, ?_, by simpa using hi⟩
    · simp [readFile, r1, e1]
    · simp [readFile, r2, e2]
    · unfold checkRadial at hc
      split at hc
      · simp at hc
      · rename_i c hh
        rw [hh]
        split at hc
        · simp_all
        · simp at hc

/-- **C51, refuted.** Whatever the type and the tensor character of the operator in the second file,
`radial-compose` accepts it and labels the result an overlap. -/
theorem radialCompose_accepts_nonradial {Orb : Type} [DecidableEq Orb] {lib : Lib Orb} (laws : LibLaws lib)
    {rnd : ℝ → ℝ} (h0 : rnd 0 = 0) {f1 f2 : List Line} {h1 h2 : Header} {m1 m2 : List Mat}
    (r1 : readFile lib f1 = .ok (h1, m1)) (r2 : readFile lib f2 = .ok (h2, m2)) (t1 : h1.type = some 'R')
    (hin : h1.ket = h2.bra) (b1 : Built lib h1.bra) (b2 : Built lib h2.ket) :
    ∃ out h mats, radialCompose lib rnd f1 f2 = .ok out ∧ readFile lib out = .ok (h, mats) ∧
      h.type = some 'R' ∧ h.secs.qn = scalarQN := by
  obtain ⟨rest1, r1, r1'⟩ := readFile_eq r1
  obtain ⟨rest2, r2, r2'⟩ := readFile_eq r2
  have f1' := readSectors_fits (secs := h1.secs) r1'
  have f2' := readSectors_fits (secs := h2.secs) r2'
  rw [← hin] at f2' r2'
  obtain ⟨mats, c1, c2, c3⟩ := compose_sector f1' f2' (allSectors_spec scalarQN h1.bra h2.ket)
  obtain ⟨out, mats', w1, w2, _, w3⟩ := file_round_trip laws h0 true 'R' scalarQN b1 b2 c2 []
  rw [List.append_nil] at w2
  refine ⟨out, _, mats', ?_, w2, rfl, rfl⟩
  unfold radialCompose
  simp only [r1, r2, Except.ok_bind', checkRadial, t1, if_true, r1', r2', ← hin]
  rw [if_neg (by simp)]
  rw [show (⟨0, 0, 0⟩ : QN) = scalarQN from rfl, c1, Except.ok_bind', w1]

/-- **C72.** `radial-xform` writes a file from which the transformed operator is read back, of the same
type and tensor character, between the states of the ket space of the transformation. -/
theorem radialXform_element {Orb : Type} [DecidableEq Orb] {lib : Lib Orb} (laws : LibLaws lib) {rnd : ℝ → ℝ}
    (h0 : rnd 0 = 0) {orbitals : List Orb} {fx fo : List Line} {x h : Header} {xm m : List Mat} {t : Char}
    (rx : readFile lib fx = .ok (x, xm)) (ro : readFile lib fo = .ok (h, m)) (tx : x.type = some 'R')
    (th : h.type = some t) (qx : x.secs.qn = scalarQN) (e1 : h.bra = h.ket) (e2 : x.bra = h.ket)
    (e3 : lib.mkSpace orbitals = h.ket) (gs : GoodSpace h.ket) (gt : GoodSpace x.ket) (b : Built lib x.ket) :
    ∃ out mats, radialXform lib rnd orbitals fx fo = .ok out ∧
      readFile lib out = .ok (⟨some t, x.ket, x.ket, allSectors h.secs.qn x.ket x.ket⟩, mats) ∧
      ∀ i a k c, elem (allSectors h.secs.qn x.ket x.ket) mats i a k c = rnd (chop
        (∑ s ∈ states h.ket, ∑ s' ∈ states h.ket, elem x.secs xm s.1 s.2 i a *
          elem h.secs m s.1 s.2 s'.1 s'.2 * elem x.secs xm s'.1 s'.2 k c)) := by
  obtain ⟨restx, rx, rx'⟩ := readFile_eq rx
  obtain ⟨resto, ro, ro'⟩ := readFile_eq ro
  have fx' := readSectors_fits (secs := x.secs) rx'
  have fo' := readSectors_fits (secs := h.secs) ro'
  have sx : SectorsOf x.secs h.ket x.ket := by rw [readHeader_secs rx, e2]; exact allSectors_spec _ _ _
  have so : SectorsOf h.secs h.ket h.ket := by rw [readHeader_secs ro, e1]; exact allSectors_spec _ _ _
  rw [e2] at fx'
  rw [e1] at fo'
  obtain ⟨mats, c1, c2, c3⟩ := similarity_element gs gt ⟨qx, sx, fx'⟩ so fo'
    (allSectors_spec h.secs.qn x.ket x.ket) rfl
  obtain ⟨out, mats', w1, w2, _, w3⟩ := file_round_trip laws h0 true t h.secs.qn b b c2 []
  rw [List.append_nil] at w2
  refine ⟨out, mats', ?_, w2, ?_⟩
  · unfold radialXform
    simp only [ro, rx, Except.ok_bind', e1, e2, e3]
    rw [if_neg (by simp), if_neg (by simp)]
    simp only [checkRadial, tx, if_true, Except.ok_bind']
    rw [if_neg (by simp [qx, scalarQN])]
    rw [e1] at ro'
    rw [e2] at rx'
    simp only [ro', rx', Except.ok_bind', c1, th, w1]
  · intro i a k c
    rw [w3, c3]

/-- **C72.** `radial-xform` succeeds only on an operator between equal spaces which are those of the
orbital file, with a scalar transformation of radial type starting from them. -/
theorem radialXform_rejects {Orb : Type} [DecidableEq Orb] {lib : Lib Orb} {rnd : ℝ → ℝ} {orbitals : List Orb}
    {fx fo out : List Line} (hok : radialXform lib rnd orbitals fx fo = .ok out) :
    ∃ x h xm m t, readFile lib fx = .ok (x, xm) ∧ readFile lib fo = .ok (h, m) ∧ x.type = some 'R' ∧
      x.secs.qn = scalarQN ∧ h.type = some t ∧ lib.info h.bra = lib.info h.ket ∧
      lib.info x.bra = lib.info h.ket ∧ lib.info (lib.mkSpace orbitals) = lib.info h.ket := by
  unfold radialXform at hok
  simp only [Except.bind_eq_ok] at hok
  obtain ⟨⟨h, resto⟩, ro, ⟨x, restx⟩, rx, hok⟩ := hok
  simp only at hok
  split at hok
  · simp at hok
  rename_i i1
  split at hok
  · simp at hok
  rename_i i2
  simp only [Except.bind_eq_ok] at hok
  obtain ⟨_, hc, hok⟩ := hok
  split at hok
  · simp at hok
  rename_i i3
  simp only [Except.bind_eq_ok] at hok
  obtain ⟨m, e1, xm, e2, r, hs, hok⟩ := hok
  split at hok
  · simp at hok
  rename_i t ht
  refine ⟨x, h, xm, m, t, by simp [readFile, rx, e2], by simp [readFile, ro, e1], ?_,
    similarity_rejects hs, ht, by simpa using i1, ?_, by simpa using i2⟩
  · unfold checkRadial at hc
    split at hc
    · simp at hc
    · rename_i c hh
      rw [hh]
      split at hc
      · simp_all
      · simp at hc
  · by_contra hn
    exact i3 (Or.inl fun h => hn h.symm)

/-! ## Examples -/

/-- A toy library: one line per subspace. -/
def toyFmt (b : Sub) : Line :=
  [.int b.labels.l, .int b.labels.tj, .chr (match b.labels.sp with | .p => 'p' | .n => 'n')] ++
    b.ns.map fun n : ℕ => Tok.int n

/-- Parser of the toy library. -/
def toyParse (l : Line) : Except Err Sub :=
  match l with
  | .int l :: .int tj :: .chr c :: rest => do
    let ns ← rest.mapM fun t => match t with
      | .int n => Except.ok n.toNat
      | _ => Except.error Err.parseError
    pure ⟨⟨l.toNat, tj.toNat, if c = 'p' then .p else .n⟩, ns⟩
  | _ => .error .parseError

def toyLib : Lib Sub where
  info := id
  mkSpace := id
  fmt os := os.map toyFmt
  parse _ ls := ls.mapM toyParse

theorem toyLib_laws : LibLaws toyLib := by
  refine ⟨by simp [toyLib], ?_, ?_⟩
  · intro os l hl
    simp only [toyLib, List.mem_map] at hl
    obtain ⟨b, _, rfl⟩ := hl
    rfl
  · intro os
    have key : ∀ b : Sub, toyParse (toyFmt b) = .ok b := by
      intro b
      obtain ⟨⟨l, tj, sp⟩, ns⟩ := b
      have : (ns.map fun n : ℕ => Tok.int n).mapM (fun t => match t with
          | .int n => Except.ok n.toNat
          | _ => Except.error Err.parseError) = .ok ns := by
        induction ns with
        | nil => rfl
        | cons n ns ih => rw [List.map_cons, List.mapM_cons, ih]; simp
      simp only [toyFmt, toyParse, List.cons_append, List.nil_append]
      rw [this]
      cases sp <;> simp
    simp only [toyLib]
    induction os with
    | nil => rfl
    | cons b os ih => rw [List.map_cons, List.mapM_cons, key, ih]; rfl

theorem sampleSpace_built : Built toyLib sampleSpace := ⟨rfl, by decide⟩

example : ∃ file mats', writeFile toyLib id true 'S' sampleSpace sampleSpace (allSectors ⟨1, 1, 0⟩ sampleSpace
    sampleSpace) (sampleOp ⟨1, 1, 0⟩) = .ok file ∧
    readFile toyLib file = .ok (⟨some 'S', sampleSpace, sampleSpace, allSectors ⟨1, 1, 0⟩ sampleSpace
      sampleSpace⟩, mats') := by
  obtain ⟨file, mats', h1, h2, _⟩ := file_round_trip toyLib_laws (rnd := id) rfl true 'S' ⟨1, 1, 0⟩
    sampleSpace_built sampleSpace_built (sampleOp_fits ⟨1, 1, 0⟩) []
  exact ⟨file, mats', h1, by simpa using h2⟩

/-- The second file of the refutation of C51: a spherical tensor operator. -/
example : ∃ f1 f2 out h2 m2, readFile toyLib f2 = .ok (h2, m2) ∧ h2.type = some 'S' ∧ h2.secs.qn = ⟨1, 1, 0⟩ ∧
    radialCompose toyLib id f1 f2 = .ok out := by
  obtain ⟨f1, m1, _, r1, _⟩ := file_round_trip toyLib_laws (rnd := id) rfl true 'R' scalarQN
    sampleSpace_built sampleSpace_built (sampleOp_fits scalarQN) []
  obtain ⟨f2, m2, _, r2, _⟩ := file_round_trip toyLib_laws (rnd := id) rfl true 'S' ⟨1, 1, 0⟩
    sampleSpace_built sampleSpace_built (sampleOp_fits ⟨1, 1, 0⟩) []
  rw [List.append_nil] at r1 r2
  obtain ⟨out, _, _, h, _⟩ := radialCompose_accepts_nonradial toyLib_laws (rnd := id) rfl r1 r2 rfl rfl
    sampleSpace_built sampleSpace_built
  exact ⟨f1, f2, out, _, m2, r2, rfl, rfl, h⟩

/-- Files meeting the hypotheses of `radialXform_element` and `radialCompose_element`. -/
example : ∃ fx fo out out', radialXform toyLib id sampleSpace fx fo = .ok out ∧
    radialCompose toyLib id fx fx = .ok out' := by
  obtain ⟨fx, mx, _, rx, _⟩ := file_round_trip toyLib_laws (rnd := id) rfl true 'R' scalarQN
    sampleSpace_built sampleSpace_built (sampleOp_fits scalarQN) []
  obtain ⟨fo, mo, _, ro, _⟩ := file_round_trip toyLib_laws (rnd := id) rfl true 'S' ⟨1, 1, 0⟩
    sampleSpace_built sampleSpace_built (sampleOp_fits ⟨1, 1, 0⟩) []
  rw [List.append_nil] at rx ro
  obtain ⟨out, _, h, _⟩ := radialXform_element toyLib_laws (rnd := id) rfl (orbitals := sampleSpace) rx ro rfl rfl
    rfl rfl rfl rfl sampleSpace_good sampleSpace_good sampleSpace_built
  obtain ⟨out', _, h', _⟩ := radialCompose_element toyLib_laws (rnd := id) rfl rx rx rfl rfl rfl rfl
    sampleSpace_good sampleSpace_good sampleSpace_built sampleSpace_built
  exact ⟨fx, fo, out, out', h, h'⟩

end Verif.Obme
