import Verif.Script.CompareMe
import Verif.Obme.Lemmas
import Verif.Mixer.Lemmas
import Mathlib.Tactic.Linarith

/-!
# What a comparison of two files shows (C158)
-/

namespace Verif.Script.Compare
open Verif
open Verif.H2 (Except.ok_bind' Except.error_bind' Except.pure_ok Except.bind_eq_ok)

/-! ## Specification -/

/-- A row of data: labels, as many as the format has or the line holds, and a last word with the element. -/
def IsRow (c : Conversions) (ws : List String) (r : List ℝ × Val) : Prop :=
  ∃ ls v, ws = ls ++ [v] ∧ c.value v = some r.2 ∧ r.1.length = min c.labels.length ls.length ∧
    ∀ (i : ℕ) f w x, c.labels[i]? = some f → ls[i]? = some w → r.1[i]? = some x → f w = some x

/-- The rows of a file, after the empty lines, the comments and then the header. -/
def Data (c : Conversions) (f : List (List String)) (header : ℕ) (rows : List (List ℝ × Val)) : Prop :=
  List.Forall₂ (IsRow c) ((f.filter fun ws => decide (ws ≠ [] ∧ ws.head? ≠ some "#")).drop header) rows

/-- The element with given labels: that of the last row with these labels, or zero if there is none. -/
def Value (rows : List (List ℝ × Val)) (l : List ℝ) (v : Val) : Prop :=
  (∃ pre post, rows = pre ++ (l, v) :: post ∧ ∀ r ∈ post, r.1 ≠ l) ∨ ((∀ r ∈ rows, r.1 ≠ l) ∧ v = .num 0)

/-- A line of the comparison shows two elements, their difference and their ratio, and is flagged if the elements are numbers
that differ by more than the threshold. -/
structure Shows (threshold : ℝ) (row : Row) : Prop where
  difference : ∀ x y, row.first = .num x → row.second = .num y → row.difference = .num (y - x)
  ratio : ∀ x y, row.first = .num x → row.second = .num y → x ≠ 0 → row.ratio = .num (y / x)
  undefined : ∀ y, row.first = .num 0 → row.second = .num y → row.ratio = .nan
  flag : row.flag = true ↔ ∃ x y, row.first = .num x ∧ row.second = .num y ∧ threshold < |y - x|

/-! ## Lemmas -/

theorem convert_ok {α : Type} {f : String → Option α} {w : String} {x : α} : convert f w = .ok x ↔ f w = some x := by
  unfold convert
  cases f w <;> simp

theorem readLine_ok {c : Conversions} {ws : List String} {r : List ℝ × Val} : readLine c ws = .ok r ↔ IsRow c ws r := by
  unfold readLine lastValue IsRow
  simp only [Except.bind_eq_ok, Except.pure_ok, Except.ok.injEq, Mixer.mapM_ok_iff]
  constructor
  · rintro ⟨ls, h1, x, h2, rfl⟩
    rcases List.eq_nil_or_concat ws with rfl | ⟨l, v, rfl⟩
    · simp at h2
    · simp only [List.concat_eq_append, List.dropLast_concat, List.getLast?_concat, convert_ok] at h1 h2 ⊢
      refine ⟨l, v, rfl, h2, ?_, ?_⟩
      · rw [← h1.length_eq, List.length_zip]
      · intro i f w x hf hw hx
        have hz : (c.labels.zip l)[i]? = some (f, w) := by
          rw [List.getElem?_zip_eq_some]
          exact ⟨hf, hw⟩
        obtain ⟨y, hy, hc⟩ := Obme.forall₂_getElem? h1 hz
        rw [hx] at hy
        cases hy
        exact hc
  · rintro ⟨l, v, rfl, h2, h3, h4⟩
    refine ⟨r.1, ?_, r.2, ?_, rfl⟩
    · rw [List.dropLast_concat, List.forall₂_iff_get]
      refine ⟨by rw [List.length_zip, h3], ?_⟩
      intro i hi hi'
      rw [List.get_eq_getElem, List.get_eq_getElem, List.getElem_zip, convert_ok]
      rw [List.length_zip] at hi
      exact h4 i _ _ _ (List.getElem?_eq_getElem (by omega)) (List.getElem?_eq_getElem (by omega))
        (List.getElem?_eq_getElem hi')
    · rw [List.getLast?_concat]
      exact convert_ok.mpr h2

theorem active_eq : active = fun ws => decide (ws ≠ [] ∧ ws.head? ≠ some "#") := by
  funext ws
  cases ws <;> simp [active]

theorem store_fold (rows : List (List ℝ × Val)) (l : List ℝ) :
    Value rows l ((rows.foldl store (fun _ => none) l).getD (.num 0)) ∧
      ((∃ r ∈ rows, r.1 = l) ↔ (rows.foldl store (fun _ => none) l).isSome) := by
  induction rows using List.reverseRecOn with
  | nil => exact ⟨.inr ⟨by simp, rfl⟩, by simp⟩
  | append_singleton rows r ih =>
    rw [List.foldl_append, List.foldl_cons, List.foldl_nil]
    unfold store
    by_cases h : l = r.1
    · subst h
      rw [if_pos rfl]
      exact ⟨.inl ⟨rows, [], rfl, by simp⟩, by simp⟩
    · rw [if_neg h]
      change Value _ _ ((rows.foldl store (fun _ => none) l).getD _) ∧ (_ ↔ (rows.foldl store (fun _ => none) l).isSome = true)
      refine ⟨?_, ?_⟩
      · rcases ih.1 with ⟨pre, post, e, hp⟩ | ⟨hn, e⟩
        · refine .inl ⟨pre, post ++ [r], by
            conv_lhs => rw [e]
            simp, ?_⟩
          intro r' hr
          rw [List.mem_append, List.mem_singleton] at hr
          rcases hr with hr | rfl
          · exact hp r' hr
          · exact Ne.symm h
        · refine .inr ⟨?_, e⟩
          intro r' hr
          rw [List.mem_append, List.mem_singleton] at hr
          rcases hr with hr | rfl
          · exact hn r' hr
          · exact Ne.symm h
      · rw [← ih.2]
        constructor
        · rintro ⟨r', hr, e⟩
          rw [List.mem_append, List.mem_singleton] at hr
          rcases hr with hr | rfl
          · exact ⟨r', hr, e⟩
          · exact absurd e.symm h
        · rintro ⟨r', hr, e⟩
          exact ⟨r', List.mem_append_left _ hr, e⟩

theorem readFile_ok {c : Conversions} {f : List (List String)} {h : ℕ} {a : List (List ℝ) × (List ℝ → Option Val)} :
    readFile c f h = .ok a ↔ ∃ rows, Data c f h rows ∧ a = (rows.map (·.1), rows.foldl store fun _ => none) := by
  unfold readFile Data
  simp only [Except.bind_eq_ok, Except.pure_ok, Except.ok.injEq, Mixer.mapM_ok_iff, readLine_ok, active_eq]
  constructor
  · rintro ⟨rows, h1, rfl⟩
    exact ⟨rows, h1, rfl⟩
  · rintro ⟨rows, h1, rfl⟩
    exact ⟨rows, h1, rfl⟩

/-- A file can be read in one way only. -/
theorem Value.unique {rows : List (List ℝ × Val)} {l : List ℝ} {v w : Val} (h : Value rows l v) (h' : Value rows l w) : v = w := by
  have key : ∀ {v : Val}, Value rows l v → v = ((rows.reverse.find? fun r => @decide (r.1 = l) (Classical.propDecidable _)).map (·.2)).getD (.num 0) := by
    intro v h
    rcases h with ⟨pre, post, rfl, hp⟩ | ⟨hn, rfl⟩
    · rw [List.reverse_append, List.reverse_cons, List.find?_append, List.find?_append, List.find?_eq_none.mpr]
      · simp
      · intro r hr
        simpa using hp r (List.mem_reverse.mp hr)
    · rw [List.find?_eq_none.mpr]
      · rfl
      · intro r hr
        simpa using hn r (List.mem_reverse.mp hr)
  rw [key h, key h']

theorem compareLine_shows {d1 d2 : List ℝ → Option Val} {t : ℝ} {l : List ℝ} {row : Row} :
    compareLine d1 d2 t l = .ok row → row.labels = l ∧ d1 l = some row.first ∧ row.second = (d2 l).getD (.num 0) ∧ Shows t row := by
  unfold compareLine
  intro h
  cases hd : d1 l with
  | none => simp [look, hd] at h
  | some x =>
    simp only [look, hd, Except.ok_bind', Except.pure_ok, Except.ok.injEq] at h
    subst h
    refine ⟨rfl, rfl, rfl, ⟨?_, ?_, ?_, ?_⟩⟩
    · intro x y e1 e2
      simp only at e1 e2
      simp only [e1, e2, sub]
    · intro x y e1 e2 hx
      simp only at e1 e2
      simp only [e1, e2, div, if_neg hx]
    · intro y e1 e2
      simp only at e1 e2
      simp only [e1, e2, div, if_true]
    · simp only
      cases x with
      | nan =>
        have : sub ((d2 l).getD (.num 0)) .nan = .nan := by
          cases (d2 l).getD (.num 0) <;> rfl
        rw [this]
        simp [exceeds]
      | num x =>
        cases hy : (d2 l).getD (.num 0) with
        | nan => simp [sub, exceeds]
        | num y => simp [sub, exceeds]

/-! ## Properties -/

/-- **C158, lines.** A comparison is made exactly when both files can be read.  It has a line for every row of the first file,
in its order, with the elements of the two files that have the labels of the row. -/
theorem compare_lines (c1 c2 : Conversions) (f1 f2 : List (List String)) (h1 h2 : ℕ) (t : ℝ) :
    ((∃ out, compare c1 c2 f1 f2 h1 h2 t = .ok out) ↔ (∃ r1, Data c1 f1 h1 r1) ∧ ∃ r2, Data c2 f2 h2 r2) ∧
    ∀ out r1 r2, compare c1 c2 f1 f2 h1 h2 t = .ok out → Data c1 f1 h1 r1 → Data c2 f2 h2 r2 →
      List.Forall₂ (fun r row => row.labels = r.1 ∧ Value r1 r.1 row.first ∧ Value r2 r.1 row.second ∧ Shows t row) r1 out := by
  have hex : ∀ r1 r2, Data c1 f1 h1 r1 → Data c2 f2 h2 r2 → ∃ out, compare c1 c2 f1 f2 h1 h2 t = .ok out ∧
      List.Forall₂ (fun r row => row.labels = r.1 ∧ Value r1 r.1 row.first ∧ Value r2 r.1 row.second ∧ Shows t row) r1 out := by
    intro r1 r2 d1 d2
    have e1 := readFile_ok.mpr ⟨r1, d1, rfl⟩
    have e2 := readFile_ok.mpr ⟨r2, d2, rfl⟩
    have hrow : ∀ r ∈ r1, ∃ row, compareLine (r1.foldl store fun _ => none) (r2.foldl store fun _ => none) t r.1 = .ok row := by
      intro r hr
      obtain ⟨x, hx⟩ := Option.isSome_iff_exists.mp ((store_fold r1 r.1).2.mp ⟨r, hr, rfl⟩)
      exact ⟨_, by unfold compareLine look; rw [hx]; rfl⟩
    have hall : ∃ out, (r1.map (·.1)).mapM (compareLine (r1.foldl store fun _ => none) (r2.foldl store fun _ => none) t) = .ok out := by
      have : Nonempty Row := ⟨⟨[], .nan, .nan, .nan, .nan, false⟩⟩
      choose! g hg using hrow
      refine ⟨r1.map g, ?_⟩
      rw [Mixer.mapM_ok_iff, List.forall₂_map_left_iff, List.forall₂_map_right_iff, List.forall₂_same]
      exact hg
    obtain ⟨out, ho⟩ := hall
    refine ⟨out, by rw [compare, e1, Except.ok_bind', e2, Except.ok_bind', ho], ?_⟩
    rw [Mixer.mapM_ok_iff, List.forall₂_map_left_iff] at ho
    refine ho.imp ?_
    intro r row h
    obtain ⟨a1, a2, a3, a4⟩ := compareLine_shows h
    refine ⟨a1, ?_, ?_, a4⟩
    · have := (store_fold r1 r.1).1
      rw [a2] at this
      exact this
    · rw [a3]
      exact (store_fold r2 r.1).1
  have huniq : ∀ {c : Conversions} {f : List (List String)} {h : ℕ} {r r' : List (List ℝ × Val)}, Data c f h r → Data c f h r' → r = r' := by
    intro c f h r r' d d'
    unfold Data at d d'
    generalize (f.filter _).drop h = ls at d d'
    induction d generalizing r' with
    | nil =>
      cases d'
      rfl
    | cons hr _ ih =>
      cases d' with
      | cons hr' d' =>
        rw [ih d']
        congr 1
        have := (readLine_ok.mpr hr).symm.trans (readLine_ok.mpr hr')
        cases this
        rfl
  refine ⟨⟨?_, ?_⟩, ?_⟩
  · rintro ⟨out, h⟩
    simp only [compare, Except.bind_eq_ok] at h
    obtain ⟨a, ha, b, hb, -⟩ := h
    obtain ⟨r1, d1, -⟩ := readFile_ok.mp ha
    obtain ⟨r2, d2, -⟩ := readFile_ok.mp hb
    exact ⟨⟨r1, d1⟩, ⟨r2, d2⟩⟩
  · rintro ⟨⟨r1, d1⟩, ⟨r2, d2⟩⟩
    obtain ⟨out, h, -⟩ := hex r1 r2 d1 d2
    exact ⟨out, h⟩
  · intro out r1 r2 h d1 d2
    obtain ⟨out', h', hf⟩ := hex r1 r2 d1 d2
    rw [h] at h'
    cases h'
    exact hf

/-- **C158, agreement.** If no line is flagged, all elements are numbers, and the second file has no labels that the first has
not, then the two files agree within the threshold, element by element, a missing element counting as zero. -/
theorem compare_no_flag_partial {c1 c2 : Conversions} {f1 f2 : List (List String)} {h1 h2 : ℕ} {t : ℝ} (ht : 0 ≤ t)
    {out : List Row} (h : compare c1 c2 f1 f2 h1 h2 t = .ok out) {r1 r2 : List (List ℝ × Val)} (d1 : Data c1 f1 h1 r1)
    (d2 : Data c2 f2 h2 r2) (hsub : ∀ r ∈ r2, ∃ r' ∈ r1, r'.1 = r.1) (hflag : ∀ row ∈ out, row.flag = false) {l : List ℝ}
    {x y : ℝ} (hx : Value r1 l (.num x)) (hy : Value r2 l (.num y)) : |y - x| ≤ t := by
  by_cases hl : ∃ r ∈ r1, r.1 = l
  · obtain ⟨r, hr, rfl⟩ := hl
    have hf := (compare_lines c1 c2 f1 f2 h1 h2 t).2 out r1 r2 h d1 d2
    obtain ⟨i, hi⟩ := List.mem_iff_getElem?.mp hr
    obtain ⟨row, hrow, -, a2, a3, a4⟩ := Obme.forall₂_getElem? hf hi
    have e1 := a2.unique hx
    have e2 := a3.unique hy
    have hno := hflag row (List.mem_iff_getElem?.mpr ⟨i, hrow⟩)
    by_contra hc
    have := a4.flag.mpr ⟨x, y, e1, e2, not_le.mp hc⟩
    rw [hno] at this
    cases this
  · have n1 : Value r1 l (.num 0) := .inr ⟨fun r hr e => hl ⟨r, hr, e⟩, rfl⟩
    have n2 : Value r2 l (.num 0) := .inr ⟨fun r hr e => by
      obtain ⟨r', hr', e'⟩ := hsub r hr
      exact hl ⟨r', hr', e'.trans e⟩, rfl⟩
    cases hx.unique n1
    cases hy.unique n2
    simpa using ht

/-- **C158, refuted: rows of the second file only.** Lines added to the second file, with labels that the first file does not
have, change nothing in the comparison, whatever their elements. -/
theorem compare_ignores {c1 c2 : Conversions} {f1 f2 extra : List (List String)} {h1 h2 : ℕ} {t : ℝ} {out : List Row}
    (h : compare c1 c2 f1 f2 h1 h2 t = .ok out) {r1 rx : List (List ℝ × Val)} (d1 : Data c1 f1 h1 r1)
    (hh : h2 ≤ (f2.filter fun ws => decide (ws ≠ [] ∧ ws.head? ≠ some "#")).length)
    (dx : Data c2 extra 0 rx) (hne : ∀ r ∈ rx, ∀ r' ∈ r1, r'.1 ≠ r.1) :
    compare c1 c2 f1 (f2 ++ extra) h1 h2 t = .ok out := by
  simp only [compare, Except.bind_eq_ok] at h ⊢
  obtain ⟨a, ha, b, hb, h⟩ := h
  obtain ⟨r1', d1', rfl⟩ := readFile_ok.mp ha
  obtain ⟨r2, d2, rfl⟩ := readFile_ok.mp hb
  have hr : r1' = r1 := by
    have e := (readFile_ok.mpr ⟨r1, d1, rfl⟩ : readFile c1 f1 h1 = .ok _)
    have e2 := (compare_lines c1 c2 f1 f2 h1 h2 t).2
    unfold Data at d1 d1'
    clear e e2 h ha hb hne
    generalize (f1.filter _).drop h1 = ls at d1 d1'
    induction d1 generalizing r1' with
    | nil =>
      cases d1'
      rfl
    | cons hr _ ih =>
      cases d1' with
      | cons hr' d' =>
        rw [ih _ d']
        congr 1
        have := (readLine_ok.mpr hr).symm.trans (readLine_ok.mpr hr')
        cases this
        rfl
  subst hr
  have d2' : Data c2 (f2 ++ extra) h2 (r2 ++ rx) := by
    unfold Data at *
    rw [List.filter_append, List.drop_append_of_le_length hh]
    rw [List.drop_zero] at dx
    exact List.rel_append d2 dx
  refine ⟨_, ha, _, readFile_ok.mpr ⟨_, d2', rfl⟩, ?_⟩
  rw [Mixer.mapM_ok_iff] at h ⊢
  rw [List.forall₂_map_left_iff] at h ⊢
  have key : ∀ r ∈ r1', (r2 ++ rx).foldl store (fun _ => none) r.1 = r2.foldl store (fun _ => none) r.1 := by
    intro r hr
    rw [List.foldl_append]
    generalize r2.foldl store (fun _ => none) = d
    have hx : ∀ r' ∈ rx, r.1 ≠ r'.1 := fun r' hr' => hne r' hr' r hr
    clear dx hne d2'
    induction rx generalizing d with
    | nil => rfl
    | cons q rx ih =>
      rw [List.foldl_cons, ih _ fun r' hr' => hx r' (List.mem_cons_of_mem _ hr')]
      unfold store
      rw [if_neg (hx q (List.mem_cons_self ..))]
  rw [List.forall₂_iff_get] at h ⊢
  refine ⟨h.1, fun i hi hi' => ?_⟩
  have := h.2 i hi hi'
  have e := key _ (List.get_mem r1' ⟨i, hi⟩)
  simp only [compareLine, e] at this ⊢
  exact this

/-- **C158, refuted: not a number.** A line with an element that is not a number is never flagged. -/
theorem compare_nan {c1 c2 : Conversions} {f1 f2 : List (List String)} {h1 h2 : ℕ} {t : ℝ} {out : List Row}
    (h : compare c1 c2 f1 f2 h1 h2 t = .ok out) {row : Row} (hr : row ∈ out) (hn : row.first = .nan ∨ row.second = .nan) :
    row.flag = false := by
  obtain ⟨⟨r1, d1⟩, ⟨r2, d2⟩⟩ := (compare_lines c1 c2 f1 f2 h1 h2 t).1.mp ⟨out, h⟩
  have hf := (compare_lines c1 c2 f1 f2 h1 h2 t).2 out r1 r2 h d1 d2
  obtain ⟨i, hi⟩ := List.mem_iff_getElem?.mp hr
  obtain ⟨r, -, -, -, -, hs⟩ := Obme.forall₂_getElem? hf.flip hi
  cases hb : row.flag with
  | false => rfl
  | true =>
    obtain ⟨x, y, e1, e2, -⟩ := hs.flag.mp hb
    rcases hn with e | e
    · rw [e] at e1
      cases e1
    · rw [e] at e2
      cases e2

/-! ## Examples -/

namespace Ex

/-- Labels and elements written in words. -/
noncomputable def conv : Conversions where
  value s := if s = "one" then some (.num 1) else if s = "two" then some (.num 2) else if s = "nan" then some .nan else none
  labels := [fun s => if s = "a" then some 0 else if s = "b" then some 1 else none]

theorem row_a : IsRow conv ["a", "one"] ([0], .num 1) :=
  ⟨["a"], "one", rfl, by simp [conv], rfl, by
    intro i f w x hf hw hx
    rcases i with _ | i
    · cases hf
      cases hw
      cases hx
      simp
    · simp at hw⟩

theorem row_b (s : String) (v : Val) (h : conv.value s = some v) : IsRow conv ["b", s] ([1], v) :=
  ⟨["b"], s, rfl, h, rfl, by
    intro i f w x hf hw hx
    rcases i with _ | i
    · cases hf
      cases hw
      cases hx
      simp
    · simp at hw⟩

def file1 : List (List String) := [["#", "comment"], [], ["a", "one"]]

theorem data1 : Data conv file1 0 [([0], .num 1)] := by
  simp only [Data, file1, List.filter_cons, List.filter_nil, List.drop_zero]
  simp only [ne_eq, List.cons_ne_nil, List.head?_cons, Option.some.injEq, not_true_eq_false, and_false, decide_false,
    String.reduceEq, not_false_eq_true, and_self, decide_true, if_true, false_and, Bool.false_eq_true, if_false]
  exact .cons row_a .nil

/-- A file agrees with itself, and no line is flagged; the same comparison results when the second file has an element 2
that the first has not.  So an unflagged comparison does not mean agreement. -/
example : ∃ out, compare conv conv file1 file1 0 0 (1 / 10) = .ok out ∧
    compare conv conv file1 (file1 ++ [["b", "two"]]) 0 0 (1 / 10) = .ok out ∧ (∀ row ∈ out, row.flag = false) ∧
    Value [([0], .num 1)] [1] (.num 0) ∧ Value [([0], .num 1), ([1], .num 2)] [1] (.num 2) := by
  obtain ⟨out, h⟩ := (compare_lines conv conv file1 file1 0 0 (1 / 10)).1.mpr ⟨⟨_, data1⟩, ⟨_, data1⟩⟩
  refine ⟨out, h, ?_, ?_, .inr ⟨by simp, rfl⟩, .inl ⟨[([0], .num 1)], [], rfl, by simp⟩⟩
  · refine compare_ignores h data1 (by simp) (rx := [([1], .num 2)]) ?_ (by simp)
    simp only [Data, List.filter_cons, List.filter_nil, List.drop_zero]
    simp only [ne_eq, List.cons_ne_nil, List.head?_cons, Option.some.injEq,
      String.reduceEq, not_false_eq_true, and_self, decide_true, if_true]
    exact .cons (row_b "two" (.num 2) (by simp [conv])) .nil
  · intro row hrow
    have hf := (compare_lines conv conv file1 file1 0 0 (1 / 10)).2 out _ _ h data1 data1
    cases hf with
    | cons hr hn =>
      cases hn
      rw [List.mem_singleton] at hrow
      subst hrow
      obtain ⟨-, a1, a2, a3⟩ := hr
      have v : Value [([0], .num 1)] [0] (.num 1) := .inl ⟨[], [], rfl, by simp⟩
      cases hb : row.flag with
      | false => rfl
      | true =>
        obtain ⟨x, y, e1, e2, hlt⟩ := a3.flag.mp hb
        rw [a1.unique v] at e1
        rw [a2.unique v] at e2
        cases e1
        cases e2
        norm_num at hlt

end Ex

end Verif.Script.Compare
