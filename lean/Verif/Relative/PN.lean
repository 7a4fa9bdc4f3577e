import Verif.Relative.JPV
import Verif.H2.Lemmas
import Mathlib.Data.List.Perm.Basic
import Mathlib.Data.List.Pairwise

/-!
# Reader of pn-format relative operator files (C40)

Model of `ReadPNOperator` (`libraries/relative/pn_io.cpp` 22-111).  Same simplifications as for the
JPV reader: lines are token lists, indexing is a record of lookup functions.
-/

namespace Verif.Relative
open Verif Verif.H2

/-- One assignment `relative_component_matrices[comp][sector](row,col) = value`. -/
structure Write where
  comp : ℕ
  sector : ℕ
  row : ℕ
  col : ℕ
  val : ℝ

/-- Fields of a line. -/
structure PNLine where
  np : Int
  Lp : Int
  n : Int
  L : Int
  S : Int
  J : Int
  Tz : Int
  me : ℝ

/-- Extraction of the eight fields (`pn_io.cpp` 57-58). -/
noncomputable def parsePN : Line → Except Err PNLine
  | .int np :: .int Lp :: .int n :: .int L :: .int S :: .int J :: .int Tz :: me :: _ =>
    match me.toReal with
    | some x => .ok ⟨np, Lp, n, L, S, J, Tz, x⟩
    | none => .error .parseError
  | _ => .error .parseError

/-- Effect of one line (`pn_io.cpp` 60-109). A component index outside the array of three, a missing
sector and a negative radial index are out-of-range accesses. -/
noncomputable def pnWrites (sp : JSpace) (p : PNLine) : Except Err (List Write) :=
  let T := (p.L + p.S + 1).tmod 2
  let Tp := (p.Lp + p.S + 1).tmod 2
  match sp.sub p.Lp p.S p.J Tp (p.Lp.tmod 2), sp.sub p.L p.S p.J T (p.L.tmod 2) with
  | some b, some k =>
    if p.Tz + 1 < 0 ∨ 2 < p.Tz + 1 then .error .undefinedBehaviour
    else
      let np := if b > k then p.n else p.np
      let n := if b > k then p.np else p.n
      match sp.sector (min b k) (max b k) with
      | none => .error .undefinedBehaviour
      | some s =>
        if np < sp.size (min b k) ∧ n < sp.size (max b k) then
          if np < 0 ∨ n < 0 then .error .undefinedBehaviour
          else
            let c := (p.Tz + 1).toNat
            .ok (⟨c, s, np.toNat, n.toNat, p.me⟩ :: if b = k then [⟨c, s, n.toNat, np.toNat, p.me⟩] else [])
        else .ok []
  | _, _ => .error .exitFailure

/-- Perform one assignment. -/
noncomputable def Write.apply (op : Op) (w : Write) : Op := fun c s i j =>
  if c = w.comp ∧ s = w.sector ∧ i = w.row ∧ j = w.col then w.val else op c s i j

/-- One pass of the loop. -/
noncomputable def pnStep (sp : JSpace) (op : Op) (l : Line) : Except Err Op := do
  let p ← parsePN l
  let ws ← pnWrites sp p
  pure (ws.foldl Write.apply op)

/-- `ReadPNOperator` (`pn_io.cpp` 22-111): loop over lines. -/
noncomputable def readPN (sp : JSpace) (op : Op) (ls : List Line) : Except Err Op := ls.foldlM (pnStep sp) op

/-! ## Specification -/

/-- A cell of the operator: component, sector, row, column. -/
abbrev Cell := ℕ × ℕ × ℕ × ℕ

/-- The line gives cell `x` the value `v`: the cell of the matrix element, or its mirror image in a
diagonal sector, in the triangle that is stored. -/
def Assigns (sp : JSpace) (p : PNLine) (x : Cell) (v : ℝ) : Prop :=
  v = p.me ∧ (x.1 : Int) = p.Tz + 1 ∧ ∃ b k,
    sp.sub p.Lp p.S p.J ((p.Lp + p.S + 1).tmod 2) (p.Lp.tmod 2) = some b ∧
    sp.sub p.L p.S p.J ((p.L + p.S + 1).tmod 2) (p.L.tmod 2) = some k ∧
    ((b ≤ k ∧ sp.sector b k = some x.2.1 ∧ (x.2.2.1 : Int) = p.np ∧ (x.2.2.2 : Int) = p.n ∧
        x.2.2.1 < sp.size b ∧ x.2.2.2 < sp.size k) ∨
     (k ≤ b ∧ sp.sector k b = some x.2.1 ∧ (x.2.2.1 : Int) = p.n ∧ (x.2.2.2 : Int) = p.np ∧
        x.2.2.1 < sp.size k ∧ x.2.2.2 < sp.size b))

/-- No two lines address the same cell. -/
def Separate (sp : JSpace) (ls : List Line) : Prop :=
  ls.Pairwise fun l l' => ∀ p p' x v v', parsePN l = .ok p → parsePN l' = .ok p' →
    Assigns sp p x v → ¬ Assigns sp p' x v'

/-! ## Lemmas -/

theorem foldl_write_apply (op : Op) (ws : List Write) (c s i j : ℕ) :
    (ws.foldl Write.apply op) c s i j =
      match ws.reverse.find? (fun w => decide (c = w.comp ∧ s = w.sector ∧ i = w.row ∧ j = w.col)) with
      | some w => w.val
      | none => op c s i j := by
  induction ws using List.reverseRecOn with
  | nil => rfl
  | append_singleton ws w ih =>
    rw [List.foldl_append]
    simp only [List.foldl_cons, List.foldl_nil, Write.apply, List.reverse_append, List.reverse_cons,
      List.reverse_nil, List.nil_append, List.cons_append, List.find?_cons]
    by_cases h : c = w.comp ∧ s = w.sector ∧ i = w.row ∧ j = w.col
    · simp [h]
    · simp only [h, if_false, decide_false]
      exact ih

/-- What one successful line does to the operator. -/
theorem pnStep_value {sp : JSpace} {op op' : Op} {l : Line} (h : pnStep sp op l = .ok op') :
    ∃ p, parsePN l = .ok p ∧ (∀ c s i j v, Assigns sp p (c, s, i, j) v → op' c s i j = v) ∧
      (∀ c s i j, (∀ v, ¬ Assigns sp p (c, s, i, j) v) → op' c s i j = op c s i j) := by
  unfold pnStep at h
  cases hp : parsePN l with
  | error e => rw [hp] at h; cases h
  | ok p =>
    rw [hp, Except.ok_bind'] at h
    refine ⟨p, rfl, ?_⟩
    unfold pnWrites at h
    simp only at h
    cases hb : sp.sub p.Lp p.S p.J ((p.Lp + p.S + 1).tmod 2) (p.Lp.tmod 2) with
    | none => rw [hb] at h; cases h
    | some b =>
    cases hk : sp.sub p.L p.S p.J ((p.L + p.S + 1).tmod 2) (p.L.tmod 2) with
    | none => rw [hb, hk] at h; cases h
    | some k =>
    rw [hb, hk] at h
    simp only at h
    by_cases hT : p.Tz + 1 < 0 ∨ 2 < p.Tz + 1
    · rw [if_pos hT] at h; cases h
    rw [if_neg hT] at h
    cases hs : sp.sector (min b k) (max b k) with
    | none => rw [hs] at h; cases h
    | some s0 =>
    rw [hs] at h
    simp only at h
    obtain ⟨np, hnp⟩ : ∃ x, x = (if b > k then p.n else p.np) := ⟨_, rfl⟩
    obtain ⟨n, hn⟩ : ∃ x, x = (if b > k then p.np else p.n) := ⟨_, rfl⟩
    rw [← hnp, ← hn] at h
    by_cases hin : np < sp.size (min b k) ∧ n < sp.size (max b k)
    · rw [if_pos hin] at h
      by_cases hneg : np < 0 ∨ n < 0
      · rw [if_pos hneg] at h; cases h
      rw [if_neg hneg, Except.ok_bind', Except.pure_ok, Except.ok.injEq] at h
      subst h
      -- the assigned cells
      have hA : ∀ c s i j v, Assigns sp p (c, s, i, j) v ↔
          v = p.me ∧ c = (p.Tz + 1).toNat ∧ s = s0 ∧ ((i = np.toNat ∧ j = n.toNat) ∨ (b = k ∧ i = n.toNat ∧ j = np.toNat)) := by
        intro c s i j v
        unfold Assigns
        simp only [hb, hk, Option.some.injEq, exists_and_left, exists_eq_left']
        rcases lt_trichotomy b k with hlt | rfl | hgt
        · rw [if_neg (by omega)] at hnp hn
          rw [min_eq_left hlt.le, max_eq_right hlt.le] at hs hin
          rw [hs]
          simp only [Option.some.injEq]
          constructor
          · rintro ⟨h1, h2, h3⟩
            refine ⟨h1, by omega, ?_⟩
            rcases h3 with ⟨_, h4, h5, h6, _⟩ | ⟨h4, _⟩
            · exact ⟨h4.symm, Or.inl (by omega)⟩
            · omega
          · rintro ⟨h1, h2, h3, h4⟩
            refine ⟨h1, by omega, Or.inl ⟨hlt.le, h3.symm, ?_⟩⟩
            rcases h4 with h4 | h4 <;> omega
        · rw [if_neg (by omega)] at hnp hn
          rw [min_self, max_self] at hs
          rw [min_self, max_self] at hin
          rw [hs]
          simp only [Option.some.injEq, le_refl, true_and]
          constructor
          · rintro ⟨h1, h2, h3⟩
            refine ⟨h1, by omega, ?_⟩
            rcases h3 with ⟨h4, h5, h6, _⟩ | ⟨h4, h5, h6, _⟩
            · exact ⟨h4.symm, Or.inl (by omega)⟩
            · exact ⟨h4.symm, Or.inr (by omega)⟩
          · rintro ⟨h1, h2, h3, h4⟩
            refine ⟨h1, by omega, ?_⟩
            rcases h4 with h4 | h4
            · left; refine ⟨h3.symm, ?_⟩; omega
            · right; refine ⟨h3.symm, ?_⟩; omega
        · rw [if_pos hgt] at hnp hn
          rw [min_eq_right hgt.le, max_eq_left hgt.le] at hs hin
          rw [hs]
          simp only [Option.some.injEq]
          constructor
          · rintro ⟨h1, h2, h3⟩
            refine ⟨h1, by omega, ?_⟩
            rcases h3 with ⟨h4, _⟩ | ⟨_, h4, h5, h6, _⟩
            · omega
            · exact ⟨h4.symm, Or.inl (by omega)⟩
          · rintro ⟨h1, h2, h3, h4⟩
            refine ⟨h1, by omega, Or.inr ⟨hgt.le, h3.symm, ?_⟩⟩
            rcases h4 with h4 | h4 <;> omega
      constructor
      · intro c s i j v hv
        rw [hA] at hv
        obtain ⟨rfl, rfl, rfl, h4⟩ := hv
        by_cases hbk : b = k
        · simp only [hbk, if_true, List.foldl_cons, List.foldl_nil, Write.apply, true_and]
          rcases h4 with ⟨rfl, rfl⟩ | ⟨_, rfl, rfl⟩ <;> simp
        · simp only [hbk, if_false, List.foldl_cons, List.foldl_nil, Write.apply, true_and, false_and, or_false] at h4 ⊢
          rw [if_pos h4]
      · intro c s i j hno
        have hno' := hno p.me
        rw [hA] at hno'
        by_cases hbk : b = k
        · simp only [hbk, if_true, List.foldl_cons, List.foldl_nil, Write.apply]
          rw [if_neg (by rintro ⟨rfl, rfl, rfl, rfl⟩; simp [hbk] at hno'),
            if_neg (by rintro ⟨rfl, rfl, rfl, rfl⟩; simp [hbk] at hno')]
        · simp only [hbk, if_false, List.foldl_cons, List.foldl_nil, Write.apply]
          rw [if_neg (by rintro ⟨rfl, rfl, rfl, rfl⟩; simp [hbk] at hno')]
    · rw [if_neg hin, Except.ok_bind', Except.pure_ok, Except.ok.injEq] at h
      subst h
      refine ⟨?_, fun c s i j _ => rfl⟩
      intro c s i j v hv
      exfalso
      obtain ⟨_, _, b', k', e1, e2, h4⟩ := hv
      rw [hb] at e1
      rw [hk] at e2
      cases e1; cases e2
      apply hin
      simp only at h4
      rcases lt_trichotomy b k with hlt | rfl | hgt
      · rw [if_neg (by omega)] at hnp hn
        rw [min_eq_left hlt.le, max_eq_right hlt.le]
        rcases h4 with h4 | h4 <;> omega
      · rw [if_neg (by omega)] at hnp hn
        rw [min_self, max_self]
        rcases h4 with h4 | h4 <;> omega
      · rw [if_pos hgt] at hnp hn
        rw [min_eq_right hgt.le, max_eq_left hgt.le]
        rcases h4 with h4 | h4 <;> omega

/-- Whether a line is accepted does not depend on the operator read so far. -/
theorem pnStep_ok_indep {sp : JSpace} {op op' : Op} {l : Line} (h : pnStep sp op l = .ok op') (q : Op) :
    ∃ q', pnStep sp q l = .ok q' := by
  unfold pnStep at h ⊢
  cases hp : parsePN l with
  | error e => rw [hp] at h; cases h
  | ok p =>
    rw [hp, Except.ok_bind'] at h
    cases hw : pnWrites sp p with
    | error e => rw [hw] at h; cases h
    | ok ws => exact ⟨_, by rw [Except.ok_bind', hw, Except.ok_bind', Except.pure_ok]⟩

theorem readPN_cons (sp : JSpace) (op : Op) (l : Line) (ls : List Line) :
    readPN sp op (l :: ls) = (pnStep sp op l).bind fun op' => readPN sp op' ls := by
  unfold readPN
  rw [List.foldlM_cons]
  rfl

theorem readPN_ok_iff (sp : JSpace) (op : Op) (ls : List Line) :
    (∃ op', readPN sp op ls = .ok op') ↔ ∀ l ∈ ls, ∃ q q', pnStep sp q l = .ok q' := by
  induction ls generalizing op with
  | nil => simp [readPN]
  | cons l ls ih =>
    rw [readPN_cons]
    constructor
    · rintro ⟨op', h⟩
      cases hl : pnStep sp op l with
      | error e => rw [hl] at h; cases h
      | ok q =>
        rw [hl] at h
        simp only [List.mem_cons, forall_eq_or_imp]
        exact ⟨⟨op, q, hl⟩, (ih q).mp ⟨op', h⟩⟩
    · intro h
      simp only [List.mem_cons, forall_eq_or_imp] at h
      obtain ⟨⟨q, q', hl⟩, hrest⟩ := h
      obtain ⟨o, ho⟩ := pnStep_ok_indep hl op
      rw [ho]
      exact (ih o).mpr hrest

/-- Value of every cell after reading. -/
theorem readPN_value {sp : JSpace} {op op' : Op} {ls : List Line} (h : readPN sp op ls = .ok op')
    (hsep : Separate sp ls) (c s i j : ℕ) :
    (∀ l ∈ ls, ∀ p v, parsePN l = .ok p → Assigns sp p (c, s, i, j) v → op' c s i j = v) ∧
    ((∀ l ∈ ls, ∀ p v, parsePN l = .ok p → ¬ Assigns sp p (c, s, i, j) v) → op' c s i j = op c s i j) := by
  induction ls generalizing op with
  | nil =>
    simp only [readPN, List.foldlM_nil, Except.pure_ok, Except.ok.injEq] at h
    subst h
    simp
  | cons l ls ih =>
    rw [readPN_cons] at h
    cases hl : pnStep sp op l with
    | error e => rw [hl] at h; cases h
    | ok q =>
      rw [hl] at h
      have hs := List.pairwise_cons.mp hsep
      obtain ⟨ih1, ih2⟩ := ih h hs.2
      obtain ⟨p, hp, h1, h2⟩ := pnStep_value hl
      simp only [List.mem_cons, forall_eq_or_imp]
      refine ⟨⟨?_, ih1⟩, ?_⟩
      · intro p' v hp' hA
        rw [hp] at hp'
        cases hp'
        rw [ih2 (fun l' hl' p' v' hp' => hs.1 l' hl' p p' _ v v' hp hp' hA)]
        exact h1 c s i j v hA
      · rintro ⟨hno, hrest⟩
        rw [ih2 hrest]
        exact h2 c s i j (fun v => hno p v hp)

theorem separate_perm {sp : JSpace} {ls ls' : List Line} (hp : ls.Perm ls') (h : Separate sp ls) : Separate sp ls' := by
  refine (List.Perm.pairwise_iff ?_ hp).mp h
  intro l l' hl p p' x v v' h1 h2 h3 h4
  exact hl p' p x v' v h2 h1 h4 h3

/-! ## Property C40 -/

/-- **C40**, order independence: when no two lines address the same cell, reading the lines in any
order gives the same operator (and fails in one order only if it fails in every order). -/
theorem pn_order_independent (sp : JSpace) (op : Op) {ls ls' : List Line} (hp : ls.Perm ls')
    (hsep : Separate sp ls) :
    (∀ op', readPN sp op ls = .ok op' ↔ readPN sp op ls' = .ok op') := by
  have key : ∀ {a b : List Line}, a.Perm b → Separate sp a → ∀ op', readPN sp op a = .ok op' → readPN sp op b = .ok op' := by
    intro a b hab hsa op' h
    obtain ⟨o, ho⟩ := (readPN_ok_iff sp op b).mpr (fun l hl =>
      (readPN_ok_iff sp op a).mp ⟨op', h⟩ l (hab.mem_iff.mpr hl))
    rw [ho]
    congr 1
    funext c s i j
    have va := readPN_value h hsa c s i j
    have vb := readPN_value ho (separate_perm hab hsa) c s i j
    by_cases hex : ∃ l ∈ a, ∃ p v, parsePN l = .ok p ∧ Assigns sp p (c, s, i, j) v
    · obtain ⟨l, hl, p, v, h1, h2⟩ := hex
      rw [va.1 l hl p v h1 h2, vb.1 l (hab.mem_iff.mp hl) p v h1 h2]
    · have hno : ∀ l ∈ a, ∀ p v, parsePN l = .ok p → ¬ Assigns sp p (c, s, i, j) v :=
        fun l hl p v h1 h2 => hex ⟨l, hl, p, v, h1, h2⟩
      rw [va.2 hno, vb.2 (fun l hl => hno l (hab.mem_iff.mpr hl))]
  exact fun op' => ⟨key hp hsep op', key hp.symm (separate_perm hp hsep) op'⟩

/-- **C40**: every line inside the truncation is found in the result, at the cell it addresses and
(for a diagonal sector) at the mirror cell. -/
theorem pn_reads_back {sp : JSpace} {op op' : Op} {ls : List Line} (h : readPN sp op ls = .ok op')
    (hsep : Separate sp ls) {l : Line} (hl : l ∈ ls) {p : PNLine} (hp : parsePN l = .ok p) {c s i j : ℕ} {v : ℝ}
    (hA : Assigns sp p (c, s, i, j) v) : op' c s i j = v :=
  (readPN_value h hsep c s i j).1 l hl p v hp hA

/-- **C40**, symmetry: diagonal sectors come out symmetric (when they start so, as they do: zero). -/
theorem pn_diagonal_symmetric {sp : JSpace} {op op' : Op} {ls : List Line} (h : readPN sp op ls = .ok op')
    (hinj : ∀ b k b' k' s, sp.sector b k = some s → sp.sector b' k' = some s → b = b' ∧ k = k')
    {d s : ℕ} (hd : sp.sector d d = some s) (h0 : ∀ c i j, op c s i j = op c s j i) (c i j : ℕ) :
    op' c s i j = op' c s j i := by
  induction ls generalizing op with
  | nil =>
    simp only [readPN, List.foldlM_nil, Except.pure_ok, Except.ok.injEq] at h
    subst h
    exact h0 c i j
  | cons l ls ih =>
    rw [readPN_cons] at h
    cases hl : pnStep sp op l with
    | error e => rw [hl] at h; cases h
    | ok q =>
      rw [hl] at h
      refine ih h ?_
      intro c i j
      obtain ⟨p, hp, h1, h2⟩ := pnStep_value hl
      have hsym : ∀ i j v, Assigns sp p (c, s, i, j) v → Assigns sp p (c, s, j, i) v := by
        rintro i j v ⟨e1, e2, b, k, e3, e4, h5⟩
        refine ⟨e1, e2, b, k, e3, e4, ?_⟩
        rcases h5 with ⟨f1, f2, f3, f4, f5, f6⟩ | ⟨f1, f2, f3, f4, f5, f6⟩
        · obtain ⟨rfl, rfl⟩ := hinj _ _ _ _ _ f2 hd
          exact Or.inr ⟨le_refl _, f2, f4, f3, f6, f5⟩
        · obtain ⟨rfl, rfl⟩ := hinj _ _ _ _ _ f2 hd
          exact Or.inl ⟨le_refl _, f2, f4, f3, f6, f5⟩
      by_cases hA : ∃ v, Assigns sp p (c, s, i, j) v
      · obtain ⟨v, hv⟩ := hA
        rw [h1 c s i j v hv, h1 c s j i v (hsym i j v hv)]
      · have hB : ¬ ∃ v, Assigns sp p (c, s, j, i) v := fun ⟨v, hv⟩ => hA ⟨v, hsym j i v hv⟩
        rw [h2 c s i j (fun v hv => hA ⟨v, hv⟩), h2 c s j i (fun v hv => hB ⟨v, hv⟩), h0 c i j]

/-- **C40**, truncation (`_partial`: only for a radial quantum number outside the target): such a line
changes nothing. -/
theorem pn_outside_ignored_partial {sp : JSpace} {op : Op} {l : Line} {p : PNLine} (hp : parsePN l = .ok p)
    {b k s : ℕ} (hb : sp.sub p.Lp p.S p.J ((p.Lp + p.S + 1).tmod 2) (p.Lp.tmod 2) = some b)
    (hk : sp.sub p.L p.S p.J ((p.L + p.S + 1).tmod 2) (p.L.tmod 2) = some k)
    (hT : -1 ≤ p.Tz ∧ p.Tz ≤ 1) (hs : sp.sector (min b k) (max b k) = some s)
    (hout : (sp.size b : Int) ≤ p.np ∨ (sp.size k : Int) ≤ p.n) : pnStep sp op l = .ok op := by
  unfold pnStep
  rw [hp, Except.ok_bind']
  unfold pnWrites
  simp only [hb, hk, hs]
  rw [if_neg (by omega), if_neg]
  · rfl
  · rcases lt_trichotomy b k with hlt | rfl | hgt
    · rw [if_neg (by omega), if_neg (by omega), min_eq_left hlt.le, max_eq_right hlt.le]; omega
    · rw [if_neg (by omega), if_neg (by omega), min_self, max_self]; omega
    · rw [if_pos hgt, if_pos hgt, min_eq_right hgt.le, max_eq_left hgt.le]; omega

/-- **C40 is false for a channel outside the truncation**: a line whose channel is not in the target
space stops the program. -/
theorem pn_outside_channel_aborts {sp : JSpace} {op : Op} {l : Line} {p : PNLine} (hp : parsePN l = .ok p)
    (hb : sp.sub p.Lp p.S p.J ((p.Lp + p.S + 1).tmod 2) (p.Lp.tmod 2) = none ∨
      sp.sub p.L p.S p.J ((p.L + p.S + 1).tmod 2) (p.L.tmod 2) = none) :
    pnStep sp op l = .error .exitFailure := by
  unfold pnStep
  rw [hp, Except.ok_bind']
  unfold pnWrites
  rcases hb with h | h
  · simp only [h]; rfl
  · simp only [h]
    cases sp.sub p.Lp p.S p.J ((p.Lp + p.S + 1).tmod 2) (p.Lp.tmod 2) <;> rfl

/-! ## Examples -/

def exPNSpace : JSpace :=
  ⟨4, fun L S J T g => if L = 0 ∧ S = 1 ∧ J = 1 ∧ T = 0 ∧ g = 0 then some 0
    else if L = 2 ∧ S = 1 ∧ J = 1 ∧ T = 0 ∧ g = 0 then some 1 else none,
    fun k => if k = 0 then 3 else 2,
    fun b k => if b = 0 ∧ k = 0 then some 0 else if b = 0 ∧ k = 1 then some 1 else if b = 1 ∧ k = 1 then some 2 else none⟩

/-- An element of the coupled channel given in the lower triangle, and a diagonal one. -/
noncomputable def exLines : List Line :=
  [[.int 1, .int 2, .int 0, .int 0, .int 1, .int 1, .int 0, .dbl 5],
   [.int 0, .int 0, .int 2, .int 0, .int 1, .int 1, .int 0, .dbl 7],
   [.int 0, .int 2, .int 9, .int 0, .int 1, .int 1, .int 0, .dbl 8]]

example : ∃ op', readPN exPNSpace (fun _ _ _ _ => 0) exLines = .ok op' ∧
    op' 1 1 0 1 = 5 ∧ op' 1 0 0 2 = 7 ∧ op' 1 0 2 0 = 7 := by
  refine ⟨_, rfl, ?_⟩
  simp [Write.apply]

example : Separate exPNSpace exLines := by
  unfold Separate exLines
  simp only [List.pairwise_cons, List.mem_cons, List.not_mem_nil, or_false, forall_eq_or_imp, forall_eq,
    false_imp_iff, implies_true, List.Pairwise.nil, and_true]
  refine ⟨⟨?_, ?_⟩, ?_⟩ <;>
  · rintro p p' ⟨c, s, i, j⟩ v v' hp hp' ⟨_, _, b, k, e1, e2, h⟩ ⟨_, _, b', k', e1', e2', h'⟩
    simp only [parsePN, Tok.toReal, Except.ok.injEq] at hp hp'
    subst hp hp'
    simp [exPNSpace] at e1 e2 e1' e2'
    subst e1 e2 e1' e2'
    simp [exPNSpace] at h h'
    omega

end Verif.Relative
