import Verif.Moshinsky.BracketProps

/-!
# Memoisation, termination and selection rules of the Moshinsky bracket
-/

namespace Verif.Moshinsky
open Verif
open Verif.H2 hiding Mat

/-! ## Specification: the equations of Brody and Moshinsky -/

/-- All quantum numbers non-negative. -/
def Key.Nonneg (k : Key) : Prop :=
  0 ≤ k.n1d ∧ 0 ≤ k.l1d ∧ 0 ≤ k.n2d ∧ 0 ≤ k.l2d ∧ 0 ≤ k.n1 ∧ 0 ≤ k.l1 ∧ 0 ≤ k.n2 ∧ 0 ≤ k.l2

/-- Oscillator quanta are conserved. -/
def Key.Conserves (k : Key) : Prop :=
  2 * k.n1d + k.l1d + 2 * k.n2d + k.l2d = 2 * k.n1 + k.l1 + 2 * k.n2 + k.l2

/-- Non-negative quantum numbers, conserved quanta and both triangles. -/
def Key.Allowed (k : Key) : Prop :=
  k.Nonneg ∧ k.Conserves ∧ (|k.l1d - k.l2d| ≤ k.Λ ∧ k.Λ ≤ k.l1d + k.l2d) ∧
    (|k.l1 - k.l2| ≤ k.Λ ∧ k.Λ ≤ k.l1 + k.l2)

/-- The equations that define the brackets: selection rules, seed values, exchange of the ket and
lowering of `n1`.  The lowering equation has its six terms without side conditions. -/
structure Brackets (env : Env) (f : Key → ℝ) : Prop where
  selection : ∀ k, ¬ k.Allowed → f k = 0
  seeds : ∀ n1d l1d n2d l2d l1 l2 Λ, Key.Allowed ⟨n1d, l1d, n2d, l2d, 0, l1, 0, l2, Λ⟩ →
    f ⟨n1d, l1d, n2d, l2d, 0, l1, 0, l2, Λ⟩ = seedFormula env n1d l1d n2d l2d l1 l2 Λ
  exchange : ∀ n1d l1d n2d l2d l1 n2 l2 Λ, Key.Allowed ⟨n1d, l1d, n2d, l2d, 0, l1, n2, l2, Λ⟩ →
    n2 ≠ 0 → f ⟨n1d, l1d, n2d, l2d, 0, l1, n2, l2, Λ⟩
      = sgn (l2d - Λ) * f ⟨n1d, l1d, n2d, l2d, n2, l2, 0, l1, Λ⟩
  lowering : ∀ n1d l1d n2d l2d n1 l1 n2 l2 Λ, Key.Allowed ⟨n1d, l1d, n2d, l2d, n1, l1, n2, l2, Λ⟩ →
    n1 ≠ 0 → Real.sqrt (n1 * (n1 + l1 + 1 / 2)) * f ⟨n1d, l1d, n2d, l2d, n1, l1, n2, l2, Λ⟩
      = 1 / 2 * Real.sqrt (n1d * (n1d + l1d + 1 / 2))
          * f ⟨n1d - 1, l1d, n2d, l2d, n1 - 1, l1, n2, l2, Λ⟩
        + 1 / 2 * Real.sqrt (n2d * (n2d + l2d + 1 / 2))
          * f ⟨n1d, l1d, n2d - 1, l2d, n1 - 1, l1, n2, l2, Λ⟩
        + sgn (l1d + l2d + Λ) * (
          Real.sqrt (n1d * n2d * (l1d + 1) * (l2d + 1)) * env.sixj l1d (l1d + 1) 1 (l2d + 1) l2d Λ
            * f ⟨n1d - 1, l1d + 1, n2d - 1, l2d + 1, n1 - 1, l1, n2, l2, Λ⟩
          + Real.sqrt (n1d * (n2d + l2d + 1 / 2) * (l1d + 1) * l2d)
            * env.sixj l1d (l1d + 1) 1 (l2d - 1) l2d Λ
            * f ⟨n1d - 1, l1d + 1, n2d, l2d - 1, n1 - 1, l1, n2, l2, Λ⟩
          + Real.sqrt ((n1d + l1d + 1 / 2) * n2d * l1d * (l2d + 1))
            * env.sixj l1d (l1d - 1) 1 (l2d + 1) l2d Λ
            * f ⟨n1d, l1d - 1, n2d - 1, l2d + 1, n1 - 1, l1, n2, l2, Λ⟩
          + Real.sqrt ((n1d + l1d + 1 / 2) * (n2d + l2d + 1 / 2) * l1d * l2d)
            * env.sixj l1d (l1d - 1) 1 (l2d - 1) l2d Λ
            * f ⟨n1d, l1d - 1, n2d, l2d - 1, n1 - 1, l1, n2, l2, Λ⟩)

/-! ## Helper lemmas -/

theorem negative_iff (k : Key) : k.negative = true ↔ ¬ k.Nonneg := by
  simp only [Key.negative, Key.Nonneg, Bool.or_eq_true, decide_eq_true_eq]
  omega

theorem allowed_iff (k : Key) : k.Allowed ↔ k.negative = false ∧ k.forbidden = false := by
  rw [← Bool.not_eq_true, negative_iff]
  have hc : k.Conserves ↔ k.rhoDot = k.rho := Iff.rfl
  simp [Key.Allowed, Key.forbidden, hc, tri, and_assoc]

/-- Number of nested calls below a bracket. -/
def Key.height (k : Key) : ℕ := 2 * (k.n1 + k.n2).toNat + if k.n1 = 0 then 1 else 0

theorem sqrt_pos_of (n1 l1 : Int) (h : 0 < n1) (hl : 0 ≤ l1) :
    0 < Real.sqrt ((n1 : ℝ) * (n1 + l1 + 1 / 2)) := by
  apply Real.sqrt_pos.mpr
  have h1 : (0 : ℝ) < n1 := by exact_mod_cast h
  have h2 : (0 : ℝ) ≤ l1 := by exact_mod_cast hl
  positivity

/-- Every bracket requested by the recursion. -/
theorem terms_good (env : Env) {k : Key} (h : k.Nonneg) (hn : k.n1 ≠ 0) {t : ℝ × Key}
    (ht : t ∈ terms env k) : t.2.Nonneg ∧ t.2.rho = k.rho - 2 ∧ t.2.rhoDot = k.rhoDot - 2 ∧
      t.2.n1 = k.n1 - 1 ∧ t.2.n2 = k.n2 ∧ t.2.Λ = k.Λ := by
  simp only [terms, onlyIf, List.mem_append] at ht
  obtain ⟨h1, h2, h3, h4, h5, h6, h7, h8⟩ := h
  have key : ∀ (c : Prop) [Decidable c] (x : ℝ) (k' : Key), t ∈ (if c then [(x, k')] else []) →
      c ∧ t.2 = k' := by
    intro c _ x k' hm
    split at hm
    · rename_i hc
      simp only [List.mem_singleton] at hm
      exact ⟨hc, by rw [hm]⟩
    · simp at hm
  rcases ht with ((((ht | ht) | ht) | ht) | ht) | ht <;>
  · obtain ⟨hc, he⟩ := key _ _ _ ht
    rw [he]
    simp only [Key.Nonneg, Key.rho, Key.rhoDot, and_true]
    omega

/-- The weighted sum over the requested brackets is the unconditional six-term sum, for a function
that vanishes on negative arguments. -/
theorem terms_sum (env : Env) (f : Key → ℝ) (k : Key) :
    ((terms env k).map fun t => t.1 * f t.2).sum
      = 1 / 2 * Real.sqrt (k.n1d * (k.n1d + k.l1d + 1 / 2))
          * f ⟨k.n1d - 1, k.l1d, k.n2d, k.l2d, k.n1 - 1, k.l1, k.n2, k.l2, k.Λ⟩
        + 1 / 2 * Real.sqrt (k.n2d * (k.n2d + k.l2d + 1 / 2))
          * f ⟨k.n1d, k.l1d, k.n2d - 1, k.l2d, k.n1 - 1, k.l1, k.n2, k.l2, k.Λ⟩
        + sgn (k.l1d + k.l2d + k.Λ) * (
          Real.sqrt (k.n1d * k.n2d * (k.l1d + 1) * (k.l2d + 1))
            * env.sixj k.l1d (k.l1d + 1) 1 (k.l2d + 1) k.l2d k.Λ
            * f ⟨k.n1d - 1, k.l1d + 1, k.n2d - 1, k.l2d + 1, k.n1 - 1, k.l1, k.n2, k.l2, k.Λ⟩
          + Real.sqrt (k.n1d * (k.n2d + k.l2d + 1 / 2) * (k.l1d + 1) * k.l2d)
            * env.sixj k.l1d (k.l1d + 1) 1 (k.l2d - 1) k.l2d k.Λ
            * f ⟨k.n1d - 1, k.l1d + 1, k.n2d, k.l2d - 1, k.n1 - 1, k.l1, k.n2, k.l2, k.Λ⟩
          + Real.sqrt ((k.n1d + k.l1d + 1 / 2) * k.n2d * k.l1d * (k.l2d + 1))
            * env.sixj k.l1d (k.l1d - 1) 1 (k.l2d + 1) k.l2d k.Λ
            * f ⟨k.n1d, k.l1d - 1, k.n2d - 1, k.l2d + 1, k.n1 - 1, k.l1, k.n2, k.l2, k.Λ⟩
          + Real.sqrt ((k.n1d + k.l1d + 1 / 2) * (k.n2d + k.l2d + 1 / 2) * k.l1d * k.l2d)
            * env.sixj k.l1d (k.l1d - 1) 1 (k.l2d - 1) k.l2d k.Λ
            * f ⟨k.n1d, k.l1d - 1, k.n2d, k.l2d - 1, k.n1 - 1, k.l1, k.n2, k.l2, k.Λ⟩) := by
  have key : ∀ (c : Prop) [Decidable c] (x : ℝ) (k' : Key), (¬ c → x = 0) →
      ((onlyIf c x k').map fun t => t.1 * f t.2).sum = x * f k' := by
    intro c _ x k' hx
    unfold onlyIf
    split
    · simp
    · rename_i hc
      simp [hx hc]
  simp only [terms, List.map_append, List.sum_append]
  rw [key, key, key, key, key, key]
  · ring
  all_goals
    intro hc
    simp only [ne_eq, not_and_or, not_not] at hc
    first
    | (rcases hc with hc | hc <;> simp [hc])
    | simp [hc]

/-! ## Existence and uniqueness -/

/-- The recursion without a memo table, nested at most `d` deep. -/
noncomputable def plain (env : Env) : ℕ → Key → ℝ
  | 0, _ => 0
  | d + 1, k =>
    if k.negative then 0
    else if k.forbidden then 0
    else if k.n1 = 0 ∧ k.n2 = 0 then seedFormula env k.n1d k.l1d k.n2d k.l2d k.l1 k.l2 k.Λ
    else if k.n1 = 0 then sgn (k.l2d - k.Λ) * plain env d k.swapped
    else 1 / Real.sqrt (k.n1 * (k.n1 + k.l1 + 1 / 2))
      * ((terms env k).map fun t => t.1 * plain env d t.2).sum

theorem height_pos {k : Key} (h : k.n1 ≠ 0) : k.height = 2 * (k.n1 + k.n2).toNat := by
  simp [Key.height, h]

theorem height_zero {k : Key} (h : k.n1 = 0) : k.height = 2 * (k.n1 + k.n2).toNat + 1 := by
  simp [Key.height, h]

theorem height_le (k : Key) : k.height < 2 * (k.n1 + k.n2).toNat + 2 := by
  by_cases h : k.n1 = 0
  · rw [height_zero h]; omega
  · rw [height_pos h]; omega

theorem swapped_height {k : Key} (h : k.Nonneg) (h1 : k.n1 = 0) (h2 : k.n2 ≠ 0) :
    k.swapped.height < k.height := by
  obtain ⟨_, _, _, _, _, _, _, _⟩ := h
  rw [height_zero h1, height_pos (k := k.swapped) h2]
  simp only [Key.swapped]
  omega

theorem term_height (env : Env) {k : Key} (h : k.Nonneg) (h1 : k.n1 ≠ 0) {t : ℝ × Key}
    (ht : t ∈ terms env k) : t.2.height < k.height := by
  have hg := terms_good env h h1 ht
  obtain ⟨_, _, _, _, _, _, _, _⟩ := h
  have := height_le t.2
  rw [height_pos h1]
  rw [hg.2.2.2.1, hg.2.2.2.2.1] at this
  omega

theorem plain_stable (env : Env) : ∀ (d d' : ℕ) (k : Key), k.height < d → k.height < d' →
    plain env d k = plain env d' k := by
  intro d
  induction d with
  | zero => intro d' k h; omega
  | succ d ih =>
    intro d' k h h'
    obtain ⟨e, rfl⟩ : ∃ e, d' = e + 1 := ⟨d' - 1, by omega⟩
    simp only [plain]
    split
    · rfl
    rename_i hneg
    have hnn : k.Nonneg := by
      by_contra hc
      exact hneg ((negative_iff k).mpr hc)
    split
    · rfl
    split
    · rfl
    rename_i hns
    split
    · rename_i h1
      have := swapped_height hnn h1 (fun h2 => hns ⟨h1, h2⟩)
      rw [ih e k.swapped (by omega) (by omega)]
    · rename_i h1
      congr 2
      apply List.map_congr_left
      intro t ht
      have := term_height env hnn h1 ht
      rw [ih e t.2 (by omega) (by omega)]

/-- The brackets. -/
noncomputable def bracket (env : Env) (k : Key) : ℝ := plain env (k.height + 1) k

theorem bracket_eq (env : Env) (k : Key) (d : ℕ) (h : k.height < d) : plain env d k = bracket env k :=
  plain_stable env _ _ k h (Nat.lt_succ_self _)

theorem bracket_unfold (env : Env) (k : Key) : bracket env k =
    if k.negative then 0
    else if k.forbidden then 0
    else if k.n1 = 0 ∧ k.n2 = 0 then seedFormula env k.n1d k.l1d k.n2d k.l2d k.l1 k.l2 k.Λ
    else if k.n1 = 0 then sgn (k.l2d - k.Λ) * bracket env k.swapped
    else 1 / Real.sqrt (k.n1 * (k.n1 + k.l1 + 1 / 2))
      * ((terms env k).map fun t => t.1 * bracket env t.2).sum := by
  conv_lhs => unfold bracket plain
  split
  · rfl
  rename_i hneg
  have hnn : k.Nonneg := by
    by_contra hc
    exact hneg ((negative_iff k).mpr hc)
  split
  · rfl
  split
  · rfl
  rename_i hns
  split
  · rename_i h1
    rw [bracket_eq env _ _ (swapped_height hnn h1 (fun h2 => hns ⟨h1, h2⟩))]
  · rename_i h1
    congr 2
    apply List.map_congr_left
    intro t ht
    rw [bracket_eq env _ _ (term_height env hnn h1 ht)]

theorem bracket_brackets (env : Env) : Brackets env (bracket env) where
  selection := by
    intro k hk
    rw [allowed_iff] at hk
    rw [bracket_unfold]
    split
    · rfl
    rename_i h1
    split
    · rfl
    rename_i h2
    exact absurd ⟨by simpa using h1, by simpa using h2⟩ hk
  seeds := by
    intro n1d l1d n2d l2d l1 l2 Λ ha
    rw [allowed_iff] at ha
    rw [bracket_unfold, ha.1, ha.2]
    simp
  exchange := by
    intro n1d l1d n2d l2d l1 n2 l2 Λ ha hn
    rw [allowed_iff] at ha
    rw [bracket_unfold, ha.1, ha.2]
    simp [hn, Key.swapped]
  lowering := by
    intro n1d l1d n2d l2d n1 l1 n2 l2 Λ ha hn
    have hnn := ha.1
    rw [allowed_iff] at ha
    conv_lhs => rw [bracket_unfold]
    rw [ha.1, ha.2]
    simp only [Bool.false_eq_true, if_false, hn, false_and]
    rw [terms_sum]
    have := sqrt_pos_of n1 l1 (by have := hnn.2.2.2.2.1; simp only at this; omega) hnn.2.2.2.2.2.1
    rw [← mul_assoc, mul_one_div_cancel this.ne', one_mul]

theorem brackets_unique (env : Env) (f : Key → ℝ) (hf : Brackets env f) : f = bracket env := by
  have main : ∀ (n : ℕ) (k : Key), k.height ≤ n → f k = bracket env k := by
    intro n
    induction n using Nat.strong_induction_on with
    | _ n ih =>
      intro k hk
      by_cases ha : k.Allowed
      · have hnn := ha.1
        by_cases h1 : k.n1 = 0
        · by_cases h2 : k.n2 = 0
          · obtain ⟨n1d, l1d, n2d, l2d, n1, l1, n2, l2, Λ⟩ := k
            simp only at h1 h2
            subst h1 h2
            rw [hf.seeds _ _ _ _ _ _ _ ha, (bracket_brackets env).seeds _ _ _ _ _ _ _ ha]
          · have hs := swapped_height hnn h1 h2
            have := ih k.swapped.height (by omega) k.swapped le_rfl
            obtain ⟨n1d, l1d, n2d, l2d, n1, l1, n2, l2, Λ⟩ := k
            simp only at h1 h2
            subst h1
            simp only [Key.swapped] at this
            rw [hf.exchange _ _ _ _ _ _ _ _ ha h2,
              (bracket_brackets env).exchange _ _ _ _ _ _ _ _ ha h2, this]
        · have hpos := sqrt_pos_of k.n1 k.l1 (by have := hnn.2.2.2.2.1; omega) hnn.2.2.2.2.2.1
          apply mul_left_cancel₀ hpos.ne'
          have e1 := hf.lowering k.n1d k.l1d k.n2d k.l2d k.n1 k.l1 k.n2 k.l2 k.Λ ha h1
          have e2 := (bracket_brackets env).lowering k.n1d k.l1d k.n2d k.l2d k.n1 k.l1 k.n2 k.l2 k.Λ
            ha h1
          rw [← terms_sum env f k] at e1
          rw [← terms_sum env (bracket env) k] at e2
          refine e1.trans (Eq.trans ?_ e2.symm)
          congr 1
          apply List.map_congr_left
          intro t ht
          have := term_height env hnn h1 ht
          rw [ih t.2.height (by omega) t.2 le_rfl]
      · rw [hf.selection k ha, (bracket_brackets env).selection k ha]
  funext k
  exact main _ k le_rfl

/-! ## The memoised evaluation -/

/-- The memo table holds only correct values. -/
def Consistent (env : Env) (m : Memo) : Prop := ∀ k v, m k = some v → v = bracket env k

/-- Arguments for which the factorial table suffices (see `seed_defined`, `seed_limit`). -/
def Key.InRange (k : Key) : Prop := k.Allowed → k.rho ≤ 84

theorem sumTerms_ok (env : Env) (f : Key → Memo → Except Stop (ℝ × Memo)) (l : List (ℝ × Key))
    (hf : ∀ t ∈ l, ∀ m, Consistent env m →
      ∃ m', f t.2 m = .ok (bracket env t.2, m') ∧ Consistent env m') :
    ∀ m, Consistent env m → ∃ m', sumTerms f l m
      = .ok ((l.map fun t => t.1 * bracket env t.2).sum, m') ∧ Consistent env m' := by
  induction l with
  | nil => intro m hm; exact ⟨m, rfl, hm⟩
  | cons t ts ih =>
    intro m hm
    obtain ⟨m1, h1, hc1⟩ := hf t (by simp) m hm
    obtain ⟨m2, h2, hc2⟩ := ih (fun t' h' => hf t' (by simp [h'])) m1 hc1
    refine ⟨m2, ?_, hc2⟩
    simp only [sumTerms, h1, List.map_cons, List.sum_cons]
    change (do let s ← sumTerms f ts m1; pure (t.1 * bracket env t.2 + s.1, s.2)) = _
    rw [h2]
    rfl

theorem consistent_update (env : Env) {m : Memo} (hm : Consistent env m) (k : Key) :
    Consistent env (Function.update m k (some (bracket env k))) := by
  intro k' v hv
  by_cases h : k' = k
  · subst h
    rw [Function.update_self] at hv
    exact (Option.some.inj hv).symm
  · rw [Function.update_of_ne h] at hv
    exact hm k' v hv

theorem run_ok (env : Env) (order : List (ℝ × Key) → List (ℝ × Key))
    (horder : ∀ l, (order l).Perm l) :
    ∀ (d : ℕ) (k : Key), k.height < d → k.InRange → ∀ m, Consistent env m →
      ∃ m', run env order d k m = .ok (bracket env k, m') ∧ Consistent env m' := by
  intro d
  induction d with
  | zero => intro k h; omega
  | succ d ih =>
    intro k hk hr m hm
    by_cases hneg : k.negative = true
    · refine ⟨m, ?_, hm⟩
      rw [bracket_unfold]
      simp [run, hneg]
    have hnn : k.Nonneg := by
      by_contra hc
      exact hneg ((negative_iff k).mpr hc)
    cases hmk : m k with
    | some v =>
      refine ⟨m, ?_, hm⟩
      simp [run, hneg, hmk, hm k v hmk]
    | none =>
      by_cases hforb : k.forbidden = true
      · have hb : bracket env k = 0 := by rw [bracket_unfold]; simp [hneg, hforb]
        refine ⟨Function.update m k (some (bracket env k)), ?_, consistent_update env hm k⟩
        simp only [run, hneg, hmk, hforb, hb]
        rfl
      have hall : k.Allowed := by
        rw [allowed_iff]
        simp [hneg, hforb]
      have hrho := hr hall
      have hneg' : k.negative = false := by simpa using hneg
      have hforb' : k.forbidden = false := by simpa using hforb
      by_cases hs : k.n1 = 0 ∧ k.n2 = 0
      · have hb : bracket env k = seedFormula env k.n1d k.l1d k.n2d k.l2d k.l1 k.l2 k.Λ := by
          rw [bracket_unfold]; simp [hneg', hforb', hs]
        have hsd : seed env k.n1d k.l1d k.n2d k.l2d k.l1 k.l2 k.Λ
            = .ok (seedFormula env k.n1d k.l1d k.n2d k.l2d k.l1 k.l2 k.Λ) := by
          obtain ⟨h1, h2, h3, h4, h5, h6, h7, h8⟩ := hnn
          have hc := hall.2.1
          simp only [Key.Conserves, Key.rho, hs] at hc hrho
          exact seed_defined env h1 h2 h3 h4 h6 h8 (by omega) (by omega)
        refine ⟨Function.update m k (some (bracket env k)), ?_, consistent_update env hm k⟩
        simp only [run, hneg', hmk, hforb', hs, hsd, lift, hb]
        rfl
      by_cases h1 : k.n1 = 0
      · have h2 : k.n2 ≠ 0 := fun h2 => hs ⟨h1, h2⟩
        have hb : bracket env k = sgn (k.l2d - k.Λ) * bracket env k.swapped := by
          rw [bracket_unfold]; simp [hneg', hforb', h1, h2]
        have hh := swapped_height hnn h1 h2
        obtain ⟨m', hrun, hc'⟩ := ih k.swapped (by omega) (by
          intro _
          simp only [Key.rho, Key.swapped] at hrho ⊢
          omega) m hm
        refine ⟨Function.update m' k (some (bracket env k)), ?_, consistent_update env hc' k⟩
        simp only [run, hneg', hmk, hforb', if_false, Bool.false_eq_true]
        rw [if_neg hs, if_pos h1, hrun, hb]
        rfl
      · have hb : bracket env k = 1 / Real.sqrt (k.n1 * (k.n1 + k.l1 + 1 / 2))
            * ((terms env k).map fun t => t.1 * bracket env t.2).sum := by
          rw [bracket_unfold]; simp [hneg', hforb', h1]
        obtain ⟨m', hrun, hc'⟩ := sumTerms_ok env (run env order d) (order (terms env k)) (by
          intro t ht m1 hm1
          have ht' := (horder _).mem_iff.mp ht
          have hh := term_height env hnn h1 ht'
          have hg := terms_good env hnn h1 ht'
          exact ih t.2 (by omega) (fun _ => by omega) m1 hm1) m hm
        have hperm : ((order (terms env k)).map fun t => t.1 * bracket env t.2).sum
            = ((terms env k).map fun t => t.1 * bracket env t.2).sum :=
          ((horder _).map _).sum_eq
        rw [hperm] at hrun
        refine ⟨Function.update m' k (some (bracket env k)), ?_, consistent_update env hc' k⟩
        simp only [run, hneg', hmk, hforb', if_false, Bool.false_eq_true]
        rw [if_neg hs, if_neg h1, hrun, hb]
        rfl

/-! ## Property theorems -/

/-- The equations have exactly one solution, so that they specify the brackets. -/
theorem brackets_exist_unique (env : Env) : ∃! f, Brackets env f :=
  ⟨bracket env, bracket_brackets env, fun f hf => brackets_unique env f hf⟩

/-- C43: whatever brackets were requested before (any history, valid or invalid arguments), and in
whatever order the compiler evaluates the operands of the sum, every request returns the value
determined by the equations. -/
theorem memo_transparent (env : Env) (f : Key → ℝ) (hf : Brackets env f)
    (order : List (ℝ × Key) → List (ℝ × Key)) (horder : ∀ l, (order l).Perm l)
    (history : List Key) (hr : ∀ k ∈ history, k.InRange)
    (d : ℕ) (hd : ∀ k ∈ history, 2 * (k.n1 + k.n2).toNat + 2 ≤ d) :
    ∃ m, runAll env order d history (fun _ => none) = .ok (history.map f, m) := by
  rw [brackets_unique env f hf]
  suffices H : ∀ m, Consistent env m →
      ∃ m', runAll env order d history m = .ok (history.map (bracket env), m') from
    H _ (by intro k v h; simp at h)
  clear hf
  induction history with
  | nil => intro m _; exact ⟨m, rfl⟩
  | cons k ks ih =>
    intro m hm
    have hk := hd k (by simp)
    obtain ⟨m1, h1, hc1⟩ := run_ok env order horder d k
      (by have := height_le k; omega) (hr k (by simp)) m hm
    obtain ⟨m2, h2⟩ := ih (fun k' h' => hr k' (by simp [h'])) (fun k' h' => hd k' (by simp [h'])) m1 hc1
    refine ⟨m2, ?_⟩
    simp only [runAll, h1, List.map_cons]
    change (do let s ← runAll env order d ks m1; pure (bracket env k :: s.1, s.2)) = _
    rw [h2]
    rfl

/-- The sequence of calls open at one time: each bracket is requested by the one before it. -/
inductive Requested (env : Env) : Key → Key → Prop
  | swap (k : Key) : k.Allowed → k.n1 = 0 → k.n2 ≠ 0 → Requested env k k.swapped
  | lower (k : Key) (t : ℝ × Key) : k.Allowed → k.n1 ≠ 0 → t ∈ terms env k → Requested env k t.2

/-- C44: evaluation terminates for all integer arguments, nested at most `2(n1+n2)+2` calls deep,
whatever the memo table contains; it does not return only when the factorial table is exceeded. -/
theorem bracket_terminates (env : Env) (order : List (ℝ × Key) → List (ℝ × Key))
    (horder : ∀ l, (order l).Perm l) (k : Key) (m : Memo) (d : ℕ)
    (hd : 2 * (k.n1 + k.n2).toNat + 2 ≤ d) : run env order d k m ≠ .error .depth := by
  suffices H : ∀ (d : ℕ) (k : Key), k.height < d → ∀ m, run env order d k m ≠ .error .depth from
    H d k (by have := height_le k; omega) m
  clear hd m k d
  intro d
  induction d with
  | zero => intro k h; omega
  | succ d ih =>
    intro k hk m
    simp only [run]
    split
    · simp
    rename_i hneg
    have hnn : k.Nonneg := by
      by_contra hc
      exact hneg ((negative_iff k).mpr hc)
    split
    · simp
    rename_i hmk
    clear hmk
    have hbind : ∀ (x : Except Stop (ℝ × Memo)), x ≠ .error .depth → ∀ (g : ℝ × Memo → ℝ × Memo),
        (do let r ← x; pure (g r)) ≠ (.error .depth : Except Stop (ℝ × Memo)) := by
      intro x hx g
      cases x with
      | ok a => simp [Bind.bind, Except.bind, Pure.pure, Except.pure]
      | error e =>
        intro h
        apply hx
        simpa [Bind.bind, Except.bind] using h
    split
    · simp [Bind.bind, Except.bind, Pure.pure, Except.pure]
    split
    · cases seed env k.n1d k.l1d k.n2d k.l2d k.l1 k.l2 k.Λ with
      | ok a => simp [lift, Bind.bind, Except.bind, Pure.pure, Except.pure]
      | error e => simp [lift, Bind.bind, Except.bind]
    rename_i hs
    split
    · rename_i h1
      have hh := swapped_height hnn h1 (fun h2 => hs ⟨h1, h2⟩)
      exact hbind _ (ih k.swapped (by omega) m) (fun r => (sgn (k.l2d - k.Λ) * r.1,
        Function.update r.2 k (some (sgn (k.l2d - k.Λ) * r.1))))
    · rename_i h1
      refine hbind _ ?_ (fun r => (1 / Real.sqrt (k.n1 * (k.n1 + k.l1 + 1 / 2)) * r.1,
        Function.update r.2 k (some (1 / Real.sqrt (k.n1 * (k.n1 + k.l1 + 1 / 2)) * r.1))))
      have hl : ∀ t ∈ order (terms env k), ∀ m, run env order d t.2 m ≠ .error .depth := by
        intro t ht m
        have hh := term_height env hnn h1 ((horder _).mem_iff.mp ht)
        exact ih t.2 (by omega) m
      revert hl
      generalize order (terms env k) = l
      clear hk
      intro hl
      induction l generalizing m with
      | nil => simp [sumTerms]
      | cons t ts iht =>
        have h1' := hl t (by simp) m
        simp only [sumTerms]
        cases hrun : run env order d t.2 m with
        | error e =>
          rw [hrun] at h1'
          intro h
          apply h1'
          simpa [Bind.bind, Except.bind] using h
        | ok r =>
          have h2' := iht r.2 (fun t' h' => hl t' (by simp [h']))
          exact hbind _ h2' (fun s => (t.1 * r.1 + s.1, s.2))

/-- C44: selection rules.  Requests with negative arguments, unequal quanta or a violated triangle
return zero, after any history. -/
theorem selection_rules (env : Env) (order : List (ℝ × Key) → List (ℝ × Key))
    (horder : ∀ l, (order l).Perm l) (history : List Key) (hr : ∀ k ∈ history, k.InRange)
    (k : Key) (hk : ¬ k.Allowed)
    (d : ℕ) (hd : ∀ k' ∈ history ++ [k], 2 * (k'.n1 + k'.n2).toNat + 2 ≤ d) :
    ∃ l m, runAll env order d (history ++ [k]) (fun _ => none) = .ok (l ++ [0], m) := by
  obtain ⟨m, hm⟩ := memo_transparent env (bracket env) (bracket_brackets env) order horder
    (history ++ [k]) (by
      intro k' hk'
      rcases List.mem_append.mp hk' with h | h
      · exact hr k' h
      · rw [List.mem_singleton.mp h]
        exact fun ha => absurd ha hk) d hd
  refine ⟨history.map (bracket env), m, ?_⟩
  rw [hm, List.map_append, List.map_cons, List.map_nil, (bracket_brackets env).selection k hk]

/-- C44: every bracket requested during the evaluation of an allowed bracket, at any depth, has
non-negative arguments and conserves quanta, and its `ρ` is at most that of the original. -/
theorem requests_conserve (env : Env) {k k' : Key} (hk : k.Allowed)
    (h : Relation.ReflTransGen (Requested env) k k') :
    k'.Nonneg ∧ k'.Conserves ∧ k'.rho ≤ k.rho := by
  induction h with
  | refl => exact ⟨hk.1, hk.2.1, le_rfl⟩
  | tail _ hstep ih =>
    rename_i b c _
    cases hstep with
    | swap hb h1 h2 =>
      obtain ⟨⟨a1, a2, a3, a4, a5, a6, a7, a8⟩, hc, hle⟩ := ih
      simp only [Key.Conserves, Key.rho, Key.swapped, Key.Nonneg] at *
      omega
    | lower t hb h1 ht =>
      have hg := terms_good env hb.1 h1 ht
      obtain ⟨_, hc, hle⟩ := ih
      refine ⟨hg.1, ?_, by omega⟩
      have e1 := hg.2.1
      have e2 := hg.2.2.1
      simp only [Key.Conserves, Key.rho, Key.rhoDot] at *
      omega

/-- Non-vacuity: an allowed bracket whose evaluation lowers `n1`, and one that exchanges the ket. -/
example : Key.Allowed ⟨1, 0, 0, 1, 1, 0, 0, 1, 1⟩ ∧ Key.InRange ⟨1, 0, 0, 1, 1, 0, 0, 1, 1⟩ ∧
    Key.Allowed ⟨1, 0, 0, 1, 0, 1, 1, 0, 1⟩ ∧ ¬ Key.Allowed ⟨1, 0, 0, 1, 1, 0, 0, 0, 1⟩ := by
  simp [Key.Allowed, Key.InRange, Key.Nonneg, Key.Conserves, Key.rho]

end Verif.Moshinsky
