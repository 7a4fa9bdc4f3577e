import Verif.Script.Partitioning
import Verif.H2.Lemmas
import Mathlib.Data.List.Chain

/-!
# What the formatted partitioning says (C159)
-/

namespace Verif.Script.Partitioning
open Verif
open Verif.H2 (Except.ok_bind' Except.error_bind' Except.pure_ok Except.bind_eq_ok)

/-! ## Specification -/

/-- A word: not empty, without blanks. -/
def IsWord (t : List Char) : Prop := t ≠ [] ∧ ∀ c ∈ t, c.isWhitespace = false

/-- Text with given words: words separated by blanks, and blanks around them. -/
inductive Text : List Char → List (List Char) → Prop
  | nil : Text [] []
  | blank {c : Char} {l : List Char} {ws : List (List Char)} : c.isWhitespace = true → Text l ws → Text (c :: l) ws
  | last {t : List Char} : IsWord t → Text t [t]
  | word {t : List Char} {c : Char} {l : List Char} {ws : List (List Char)} : IsWord t → c.isWhitespace = true →
      Text l ws → Text (t ++ c :: l) (t :: ws)

/-- An orbital file of format 15099: no empty line; leaving out the lines that begin with `#`, the format, a line of two
words, and lines that end with the weights. -/
def OrbitalFile (int? : String → Option Int) (lines : List (List String)) (w : List String) : Prop :=
  [] ∉ lines ∧ ∃ h n rest, (lines.filter fun ws => !((ws.headD "").startsWith "#")) = h :: n :: rest ∧
    int? (h.headD "") = some 15099 ∧ n.length = 2 ∧ List.Forall₂ (fun ws x => ws.getLast? = some x) rest w

/-! ## Words -/

theorem words_blank {c : Char} (h : c.isWhitespace = true) (l : List Char) : words (c :: l) = words l := by
  cases l with
  | nil => simp [words, h]
  | cons d l => simp [words, h]

theorem words_word {t : List Char} (ht : IsWord t) {rest : List Char} (hr : ∀ c ∈ rest.head?, c.isWhitespace = true) :
    words (t ++ rest) = t :: words rest := by
  obtain ⟨hne, hs⟩ := ht
  induction t with
  | nil => exact absurd rfl hne
  | cons c t ih =>
    have hc := hs c (List.mem_cons_self ..)
    cases t with
    | nil =>
      cases rest with
      | nil => simp [words, hc]
      | cons d rest =>
        have hd := hr d rfl
        simp [words, hc, hd]
    | cons d t =>
      have hd := hs d (List.mem_cons_of_mem _ (List.mem_cons_self ..))
      have := ih (by simp) fun x hx => hs x (List.mem_cons_of_mem _ hx)
      rw [List.cons_append] at this
      simp [words, hc, hd, this]

theorem words_blanks {s : List Char} (h : ∀ c ∈ s, c.isWhitespace = true) (l : List Char) : words (s ++ l) = words l := by
  induction s with
  | nil => rfl
  | cons c s ih =>
    rw [List.cons_append, words_blank (h c (List.mem_cons_self ..)), ih fun x hx => h x (List.mem_cons_of_mem _ hx)]

theorem text_words {l : List Char} {ws : List (List Char)} (h : Text l ws) : words l = ws := by
  induction h with
  | nil => rfl
  | blank hc _ ih => rw [words_blank hc, ih]
  | last ht =>
    have := words_word ht (rest := []) (by simp)
    rw [List.append_nil] at this
    exact this
  | word ht hc _ ih => rw [words_word ht (by simpa using hc), words_blank hc, ih]

theorem words_isWord : ∀ (l : List Char), ∀ t ∈ words l, IsWord t := by
  intro l
  fun_induction words l with
  | case1 => simp
  | case2 c h => simp
  | case3 c h =>
    intro t ht
    rw [List.mem_singleton] at ht
    subst ht
    exact ⟨by simp, by simpa using h⟩
  | case4 c d cs h ih => exact ih
  | case5 c d cs h h' ih =>
    intro t ht
    rw [List.mem_cons] at ht
    rcases ht with rfl | ht
    · exact ⟨by simp, by simpa using h⟩
    · exact ih t ht
  | case6 c d cs h h' w ws e ih =>
    intro t ht
    rw [List.mem_cons] at ht
    rcases ht with rfl | ht
    · refine ⟨by simp, ?_⟩
      intro x hx
      rw [List.mem_cons] at hx
      rcases hx with rfl | hx
      · simpa using h
      · exact (ih w (by rw [e]; exact List.mem_cons_self ..)).2 x hx
    · exact ih t (by rw [e]; exact List.mem_cons_of_mem _ ht)
  | case7 c d cs h h' e ih =>
    intro t ht
    rw [List.mem_singleton] at ht
    subst ht
    exact ⟨by simp, by simpa using h⟩

theorem text_tail {d : Char} {cs : List Char} {ws : List (List Char)} (h : Text (d :: cs) ws) (hd : d.isWhitespace = true) :
    Text cs ws := by
  generalize e : d :: cs = l at h
  cases h with
  | nil => cases e
  | blank _ h =>
    cases e
    exact h
  | last ht =>
    subst e
    exact absurd hd (by simp [ht.2 d (List.mem_cons_self ..)])
  | @word t c l ws ht _ _ =>
    cases t with
    | nil => exact absurd rfl ht.1
    | cons x t =>
      cases e
      exact absurd hd (by simp [ht.2 d (List.mem_cons_self ..)])

theorem text_cons {c d : Char} {cs w : List Char} {ws : List (List Char)} (h : Text (d :: cs) (w :: ws))
    (hc : c.isWhitespace = false) (hd : d.isWhitespace = false) : Text (c :: d :: cs) ((c :: w) :: ws) := by
  have hw : ∀ {t : List Char}, IsWord t → IsWord (c :: t) := by
    intro t ht
    refine ⟨by simp, ?_⟩
    intro x hx
    rw [List.mem_cons] at hx
    rcases hx with rfl | hx
    · exact hc
    · exact ht.2 x hx
  generalize e : d :: cs = l at h
  generalize e' : w :: ws = l' at h
  cases h with
  | nil => cases e
  | blank h' _ =>
    cases e
    exact absurd h' (by simp [hd])
  | last ht =>
    cases e'
    exact .last (hw ht)
  | @word t x l ws ht hx h =>
    cases e'
    exact .word (hw ht) hx h

theorem words_text : ∀ (l : List Char), Text l (words l) := by
  intro l
  induction l with
  | nil => exact .nil
  | cons c l ih =>
    cases hc : c.isWhitespace with
    | true =>
      rw [words_blank hc]
      exact .blank hc ih
    | false =>
      have h1 : IsWord [c] := ⟨by simp, by simpa using hc⟩
      cases l with
      | nil =>
        simp only [words, hc, Bool.false_eq_true, if_false]
        exact .last h1
      | cons d cs =>
        cases hd : d.isWhitespace with
        | true =>
          simp only [words, hc, hd, Bool.false_eq_true, if_false, if_true]
          exact .word h1 hd (text_tail ih hd)
        | false =>
          simp only [words, hc, hd, Bool.false_eq_true, if_false]
          cases hw : words (d :: cs) with
          | nil =>
            rw [hw] at ih
            generalize e : d :: cs = l at ih
            generalize e' : ([] : List (List Char)) = l' at ih
            cases ih with
            | nil => cases e
            | blank h _ =>
              cases e
              exact absurd h (by simp [hd])
            | last _ => cases e'
            | word _ _ _ => cases e'
          | cons w ws =>
            rw [hw] at ih
            exact text_cons ih hc hd

theorem text_iff {l : List Char} {ws : List (List Char)} : Text l ws ↔ words l = ws :=
  ⟨text_words, fun h => h ▸ words_text l⟩

/-! ## The body, without indices -/

def bodyRec : Option String → List String → List (List Char) → List Char
  | prev, w :: ws, t :: ts => (if prev ≠ some w then ['\n'] else []) ++ pad t ++ bodyRec (some w) ws ts
  | _, _, _ => []

theorem zip_body (w : List String) : ∀ (ts : List (List Char)) (k : ℕ), k + ts.length = w.length →
    ((ts.zipIdx k).flatMap fun p => piece w p.2 p.1) = bodyRec (before w k) (w.drop k) ts := by
  intro ts
  induction ts with
  | nil =>
    intro k h
    rw [List.drop_eq_nil_of_le (by simpa using h.ge)]
    rfl
  | cons t ts ih =>
    intro k h
    rw [List.length_cons] at h
    have hk : k < w.length := by omega
    rw [List.zipIdx_cons, List.flatMap_cons, ih (k + 1) (by omega), List.drop_eq_getElem_cons hk, bodyRec]
    have hb : before w (k + 1) = some w[k] := by
      simp [before, List.getElem?_eq_getElem hk]
    rw [hb]
    simp only [piece, List.getElem?_eq_getElem hk]

theorem body_eq {w : List String} {ts : List (List Char)} (h : ts.length = w.length) :
    body w ts = bodyRec w.getLast? w ts ++ ['\n'] := by
  unfold body
  rw [zip_body w ts 0 (by omega)]
  rfl

/-! ## Words of the body -/

theorem pad_words {t : List Char} : ∃ s, pad t = s ++ t ∧ (∀ c ∈ s, c.isWhitespace = true) ∧ (s = [] ↔ 8 ≤ t.length) := by
  refine ⟨_, rfl, ?_, ?_⟩
  · intro c hc
    rw [List.eq_of_mem_replicate hc]
    rfl
  · rw [List.replicate_eq_nil_iff]
    omega

/-- The words after a word `a`: as many as there are places with a blank. -/
theorem words_after : ∀ (ws : List String) (ts : List (List Char)) (a : List Char) (prev : String), IsWord a →
    (∀ t ∈ ts, IsWord t) → ts.length = ws.length →
    ((words (a ++ (bodyRec (some prev) ws ts ++ ['\n'])) = a :: ts ↔
      ∀ (i : ℕ) x t, ((prev :: ws)[i]? = some x ∧ ws[i]? = some x) → ts[i]? = some t → t.length ≤ 7)) ∧
    (words (a ++ (bodyRec (some prev) ws ts ++ ['\n']))).length ≤ 1 + ts.length := by
  intro ws
  induction ws with
  | nil =>
    intro ts a prev ha _ hl
    cases List.length_eq_zero_iff.mp hl
    have : words (a ++ (bodyRec (some prev) [] [] ++ ['\n'])) = [a] := by
      show words (a ++ ['\n']) = [a]
      rw [words_word ha (by simp)]
      rfl
    rw [this]
    simp
  | cons w ws ih =>
    intro ts a prev ha hts hl
    cases ts with
    | nil => cases hl
    | cons t ts =>
      have ht := hts t (List.mem_cons_self ..)
      have hts' : ∀ t ∈ ts, IsWord t := fun x hx => hts x (List.mem_cons_of_mem _ hx)
      have hl' : ts.length = ws.length := by simpa using hl
      obtain ⟨s, hp, hs, hs0⟩ := pad_words (t := t)
      rw [bodyRec, hp]
      by_cases hsep : prev = w ∧ 8 ≤ t.length
      · obtain ⟨rfl, h8⟩ := hsep
        have hs' := hs0.mpr h8
        subst hs'
        have hat : IsWord (a ++ t) := ⟨by
          intro e
          exact ha.1 (List.append_eq_nil_iff.mp e).1, by
          intro c hc
          rw [List.mem_append] at hc
          rcases hc with hc | hc
          · exact ha.2 c hc
          · exact ht.2 c hc⟩
        have hlen := (ih ts (a ++ t) prev hat hts' hl').2
        simp only [ne_eq, not_true_eq_false, if_false, List.nil_append, List.append_assoc] at hlen ⊢
        refine ⟨⟨fun h => ?_, fun h => ?_⟩, by rw [List.length_cons]; omega⟩
        · rw [h] at hlen
          simp only [List.length_cons] at hlen
          omega
        · have := h 0 prev t ⟨rfl, rfl⟩ rfl
          omega
      · have hbl : ∃ c s', (if some prev ≠ some w then ['\n'] else []) ++ s = c :: s' ∧ ∀ x ∈ c :: s', x.isWhitespace = true := by
          by_cases hw : prev = w
          · have : s ≠ [] := fun e => hsep ⟨hw, hs0.mp e⟩
            obtain ⟨c, s', rfl⟩ := List.exists_cons_of_ne_nil this
            exact ⟨c, s', by simp [hw], hs⟩
          · refine ⟨'\n', s, by simp [hw], ?_⟩
            intro x hx
            rw [List.mem_cons] at hx
            rcases hx with rfl | hx
            · rfl
            · exact hs x hx
        obtain ⟨c, s', e, hc⟩ := hbl
        have e2 : (if some prev ≠ some w then ['\n'] else []) ++ (s ++ t) ++ bodyRec (some w) ws ts ++ ['\n'] =
            (c :: s') ++ (t ++ (bodyRec (some w) ws ts ++ ['\n'])) := by
          rw [← e]
          simp only [List.append_assoc]
        rw [e2, words_word ha (by simpa using hc c (List.mem_cons_self ..)), words_blanks hc]
        obtain ⟨i1, i2⟩ := ih ts t w ht hts' hl'
        constructor
        · rw [List.cons.injEq, and_iff_right rfl, i1]
          constructor
          · intro h i x t' h1 h2
            cases i with
            | zero =>
              simp only [List.getElem?_cons_zero, Option.some.injEq] at h1 h2
              subst h2
              by_contra hlt
              exact hsep ⟨h1.1.trans h1.2.symm, by omega⟩
            | succ i => exact h i x t' (by simpa using h1) (by simpa using h2)
          · intro h i x t' h1 h2
            exact h (i + 1) x t' (by simpa using h1) (by simpa using h2)
        · rw [List.length_cons, List.length_cons]
          omega

/-! ## Properties -/

theorem weights_ok {int? : String → Option Int} {lines : List (List String)} {w : List String} (h : OrbitalFile int? lines w) :
    weights int? lines = .ok w := by
  obtain ⟨h0, hd, n, rest, e, h1, h2, h3⟩ := h
  unfold weights content
  rw [if_neg h0, e]
  simp only [h1, h2, if_true]
  congr 1
  clear e
  induction h3 with
  | nil => rfl
  | cons hx _ ih =>
    rw [List.map_cons, ih]
    congr 1
    rw [List.getLastD_eq_getLast?, hx]
    rfl

/-- **C159, entries.** The script keeps the header line and, read again, its output has the same entries in the same order,
exactly if no entry that follows another one on its line has eight characters or more. -/
theorem format_entries {int? : String → Option Int} {orbitals : List (List String)} {w : List String}
    (ho : OrbitalFile int? orbitals w) {header rest : List Char} {ts : List (List Char)} (hr : Text rest ts)
    (hl : w.length = ts.length) :
    ∃ out, run int? orbitals header rest = .ok (header ++ out) ∧ (Text out ts ↔
      ∀ (i : ℕ) x t, w[i]? = some x → w[i + 1]? = some x → ts[i + 1]? = some t → t.length ≤ 7) := by
  have hw := text_words hr
  refine ⟨body w ts, by simp only [run, weights_ok ho, Except.ok_bind', hw, hl, if_true, Except.pure_ok], ?_⟩
  have hword : ∀ t ∈ ts, IsWord t := by
    rw [← hw]
    exact words_isWord rest
  rw [text_iff, body_eq hl.symm]
  cases w with
  | nil =>
    cases List.length_eq_zero_iff.mp hl.symm
    simp [bodyRec, words]
  | cons x w =>
    cases ts with
    | nil => cases hl
    | cons t ts =>
      obtain ⟨s, hp, hs, -⟩ := pad_words (t := t)
      have hl' : ts.length = w.length := by simpa using hl.symm
      have e : words (bodyRec (x :: w).getLast? (x :: w) (t :: ts) ++ ['\n']) = words (t ++ (bodyRec (some x) w ts ++ ['\n'])) := by
        rw [bodyRec, hp]
        split
        · simp only [List.append_assoc, List.cons_append, List.nil_append]
          rw [words_blank rfl, words_blanks hs]
        · simp only [List.append_assoc, List.nil_append]
          rw [words_blanks hs]
      rw [e, (words_after w ts t x (hword t (List.mem_cons_self ..)) (fun t' h => hword t' (List.mem_cons_of_mem _ h)) hl').1]
      constructor
      · intro h i y t' h1 h2 h3
        exact h i y t' ⟨h1, by simpa using h2⟩ (by simpa using h3)
      · intro h i y t' h1 h2
        exact h i y t' h1.1 (by simpa using h1.2) (by simpa using h2)

/-- A run of equal weights. -/
theorem body_run (x : String) : ∀ (g : List (List Char)) (prev : Option String) (ws : List String) (ts : List (List Char)), g ≠ [] →
    bodyRec prev (List.replicate g.length x ++ ws) (g ++ ts) =
      (if prev ≠ some x then ['\n'] else []) ++ g.flatMap pad ++ bodyRec (some x) ws ts := by
  intro g
  induction g with
  | nil =>
    intro _ _ _ h
    exact absurd rfl h
  | cons t g ih =>
    intro prev ws ts _
    rw [List.length_cons, List.replicate_succ, List.cons_append, List.cons_append, bodyRec, List.flatMap_cons]
    cases g with
    | nil => simp
    | cons t' g =>
      rw [ih (some x) ws ts (by simp)]
      simp

theorem body_runs : ∀ (gs : List (String × List (List Char))) (prev : Option String), (∀ g ∈ gs, g.2 ≠ []) →
    (gs.IsChain fun g g' => g.1 ≠ g'.1) →
    bodyRec prev (gs.flatMap fun g => List.replicate g.2.length g.1) (gs.flatMap (·.2)) ++ ['\n'] =
      (if gs.head?.map (·.1) = prev ∧ gs ≠ [] then [] else ['\n']) ++ gs.flatMap fun g => g.2.flatMap pad ++ ['\n'] := by
  intro gs
  induction gs with
  | nil =>
    intro prev _ _
    simp [bodyRec]
  | cons g gs ih =>
    intro prev hne hch
    rw [List.flatMap_cons, List.flatMap_cons, List.flatMap_cons, body_run g.1 g.2 _ _ _ (hne g (List.mem_cons_self ..)),
      List.append_assoc, ih (some g.1) (fun g' h => hne g' (List.mem_cons_of_mem _ h)) hch.tail]
    have : ¬ (gs.head?.map (·.1) = some g.1 ∧ gs ≠ []) := by
      rintro ⟨h, -⟩
      cases gs with
      | nil => cases h
      | cons g' gs =>
        rw [List.isChain_cons_cons] at hch
        simp only [List.head?_cons, Option.map_some, Option.some.injEq] at h
        exact hch.1 h.symm
    rw [if_neg this]
    by_cases hp : prev = some g.1
    · simp [hp]
    · have : ¬ some g.1 = prev := fun e => hp e.symm
      simp [hp, this]

/-- **C159, lines.** If the weights come in runs, the entries of a run stand on one line, padded to eight characters; after the
header line there is an empty line, unless the first and the last weight are the same. -/
theorem format_lines {int? : String → Option Int} {orbitals : List (List String)} {header rest : List Char}
    {gs : List (String × List (List Char))} (ho : OrbitalFile int? orbitals (gs.flatMap fun g => List.replicate g.2.length g.1))
    (hr : Text rest (gs.flatMap (·.2))) (hne : ∀ g ∈ gs, g.2 ≠ []) (hch : gs.IsChain fun g g' => g.1 ≠ g'.1) :
    run int? orbitals header rest = .ok (header ++
      ((if (gs.head?.map (·.1)) = gs.getLast?.map (·.1) ∧ gs ≠ [] then [] else ['\n']) ++
      gs.flatMap fun g => (g.2.flatMap fun t => List.replicate (8 - t.length) ' ' ++ t) ++ ['\n'])) := by
  have hl : (gs.flatMap fun g => List.replicate g.2.length g.1).length = (gs.flatMap (·.2)).length := by
    simp [List.length_flatMap]
  have hlast : (gs.flatMap fun g => List.replicate g.2.length g.1).getLast? = gs.getLast?.map (·.1) := by
    rcases List.eq_nil_or_concat gs with rfl | ⟨l, g, rfl⟩
    · rfl
    · simp only [List.concat_eq_append, List.flatMap_append, List.flatMap_cons, List.flatMap_nil, List.append_nil,
        List.getLast?_concat, Option.map_some]
      have : g.2 ≠ [] := hne g (by simp)
      have hpos : g.2.length ≠ 0 := by simpa using this
      rw [List.getLast?_append, List.getLast?_replicate, if_neg hpos]
      rfl
  simp only [run, weights_ok ho, Except.ok_bind', text_words hr, hl, if_true, Except.pure_ok]
  rw [body_eq hl.symm, body_runs gs _ hne hch, hlast]
  rfl

/-- **C159, refusal.** If the numbers of weights and of entries differ, or the orbital file has an empty line or another format,
the script ends without output. -/
theorem format_refuses {int? : String → Option Int} {orbitals : List (List String)} {header rest : List Char}
    {ts : List (List Char)} (hr : Text rest ts) :
    (∀ w, OrbitalFile int? orbitals w → w.length ≠ ts.length → run int? orbitals header rest = .error .exitFailure) ∧
    ([] ∈ orbitals → run int? orbitals header rest = .error .exitFailure) ∧
    (∀ h l, (orbitals.filter fun ws => !((ws.headD "").startsWith "#")) = h :: l → int? (h.headD "") ≠ some 15099 →
      run int? orbitals header rest = .error .exitFailure) := by
  refine ⟨?_, ?_, ?_⟩
  · intro w ho hl
    simp only [run, weights_ok ho, Except.ok_bind', text_words hr, if_neg hl]
  · intro h
    simp only [run, weights, if_pos h, Except.error_bind']
  · intro h l e hne
    by_cases h0 : [] ∈ orbitals
    · simp only [run, weights, if_pos h0, Except.error_bind']
    · simp only [run, weights, if_neg h0, content, e, if_neg hne, Except.error_bind']

/-! ## Examples -/

namespace Ex

/-- An orbital file with three orbitals of two weights. -/
def orbitals : List (List String) :=
  [["#", "comment"], ["15099"], ["3", "0"], ["1", "0", "0", "1", "1", "0.0"], ["2", "0", "1", "1", "1", "1.0"],
   ["3", "0", "1", "3", "1", "1.0"]]

def int? (s : String) : Option Int := if s = "15099" then some 15099 else none

theorem orbital_file : OrbitalFile int? orbitals ["0.0", "1.0", "1.0"] := by
  refine ⟨by decide +kernel, ["15099"], ["3", "0"], [["1", "0", "0", "1", "1", "0.0"], ["2", "0", "1", "1", "1", "1.0"],
   ["3", "0", "1", "3", "1", "1.0"]], by decide +kernel, rfl, rfl, ?_⟩
  exact .cons rfl (.cons rfl (.cons rfl .nil))

/-- Three entries on one line are written on two lines after an empty one, and can be read again. -/
example : run int? orbitals "h\n".toList "1 2 3\n".toList = .ok "h\n\n       1\n       2       3\n".toList ∧
    ∃ out, run int? orbitals "h\n".toList "1 2 3\n".toList = .ok ("h\n".toList ++ out) ∧ Text out [['1'], ['2'], ['3']] := by
  have ht : Text "1 2 3\n".toList [['1'], ['2'], ['3']] := text_iff.mpr (by decide +kernel)
  constructor
  · have := format_lines (header := "h\n".toList) (gs := [("0.0", [['1']]), ("1.0", [['2'], ['3']])]) orbital_file ht
      (by simp) (by simp)
    rw [this]
    decide +kernel
  · obtain ⟨out, h1, h2⟩ := format_entries orbital_file (header := "h\n".toList) ht rfl
    refine ⟨out, h1, h2.mpr ?_⟩
    intro i x t _ _ h
    rcases i with _ | _ | i <;> simp at h <;> subst h <;> decide

/-- An entry of eight characters is joined to the one before it on the line. -/
example : ∃ out, run int? orbitals "h\n".toList "1 2 12345678".toList = .ok ("h\n".toList ++ out) ∧
    ¬ Text out [['1'], ['2'], "12345678".toList] := by
  have ht : Text "1 2 12345678".toList [['1'], ['2'], "12345678".toList] := text_iff.mpr (by decide +kernel)
  obtain ⟨out, h1, h2⟩ := format_entries orbital_file (header := "h\n".toList) ht rfl
  refine ⟨out, h1, fun h => ?_⟩
  have := h2.mp h 1 "1.0" "12345678".toList rfl rfl rfl
  exact absurd this (by decide +kernel)

end Ex

end Verif.Script.Partitioning
