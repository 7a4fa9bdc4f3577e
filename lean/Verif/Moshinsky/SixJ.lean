import Verif.Moshinsky.SeedOverlap

/-!
# Six-j symbols exist

The contraction that defines six-j symbols is invariant under rotations, so it is a multiple of a coupling coefficient.
-/

namespace Verif.Moshinsky.Osc

/-! ## Raising and lowering -/

theorem tSum_raise (a b c β α : ℤ) : ((β : ℝ) + 1) * tSum a b c (β + 1) α + ((a : ℝ) + c - α + 1) * tSum a b c β (α - 1) =
    ((b : ℝ) - β + α) * tSum a b c β α := by
  rw [tSum_wide (β := β + 1) (S := wide a) (sub_wide (by omega) (by omega)),
    tSum_wide (α := α - 1) (S := wide a) (sub_wide (by omega) (by omega)),
    tSum_wide (β := β) (α := α) (S := wide a) (sub_wide (by omega) (by omega))]
  let f : ℤ → ℝ := fun k => sgn k * ((k : ℝ) * rf k * rf (a - k) * rf (β + 1 - k) * rf (b - β - 1 + k) * rf (α - k) * rf (c - α + k))
  have hf := sum_sgn_shift f (a := a) fun k hk => by
    rcases hk with hk | hk
    · simp only [f, rf_neg hk]
      ring
    · simp only [f, rf_neg (show a - k < 0 by omega)]
      ring
  have h1 : ∑ k ∈ wide a, (((b : ℝ) - β + α) * tTerm a b c β α k) = ∑ k ∈ wide a, (((β : ℝ) + 1) * tTerm a b c (β + 1) α k - f k) +
      ∑ k ∈ wide a, (((a : ℝ) + c - α + 1) * tTerm a b c β (α - 1) k + f (k + 1)) := by
    rw [← Finset.sum_add_distrib]
    refine Finset.sum_congr rfl fun k _ => ?_
    simp only [tTerm, f]
    rw [sgn_add_one, show a - (k + 1) = a - k - 1 by ring, show β + 1 - (k + 1) = β - k by ring, show b - β - 1 + (k + 1) = b - β + k by ring,
      show α - (k + 1) = α - k - 1 by ring, show c - α + (k + 1) = c - α + k + 1 by ring, show b - (β + 1) + k = b - β + k - 1 by ring,
      show b - β - 1 + k = b - β + k - 1 by ring, show c - (α - 1) + k = c - α + k + 1 by ring, show α - 1 - k = α - k - 1 by ring,
      rf_pred (a - k), rf_pred (b - β + k), rf_pred (α - k), show β + 1 - k = β - k + 1 by ring]
    have hk := rf_succ k
    have hβ := rf_succ (β - k)
    have hc := rf_succ (c - α + k)
    push_cast at hk hβ hc ⊢
    rw [hβ, hc]
    linear_combination (-sgn k * (((a : ℝ) - k) * rf (a - k)) * ((β - k + 1) * rf (β - k + 1)) * rf (b - β + k) * ((α - k) * rf (α - k)) * rf (c - α + k + 1)) * hk
  rw [Finset.mul_sum, Finset.mul_sum, Finset.mul_sum, h1, Finset.sum_sub_distrib, Finset.sum_add_distrib, hf]
  ring

/-- Reversal of all projections. -/
theorem tSum_flip (a b c β α : ℤ) : tSum a b c β α = sgn a * tSum a b c (a + b - β) (a + c - α) := by
  rw [tSum_exchange, tSum_symm]

/-- The sum vanishes unless the third projection is in range. -/
theorem tSum_zero' {a b c β α : ℤ} (h : b - β + α < 0 ∨ c + β - α < 0) : tSum a b c β α = 0 := by
  refine Finset.sum_eq_zero fun k _ => ?_
  unfold tTerm
  by_cases h1 : β - k < 0
  · rw [rf_neg h1]
    ring
  by_cases h2 : b - β + k < 0
  · rw [rf_neg h2]
    ring
  by_cases h3 : α - k < 0
  · rw [rf_neg h3]
    ring
  · rw [rf_neg (show c - α + k < 0 by omega)]
    ring

/-! ## Invariants -/

/-- The laws of invariant tensors of three angular momenta, the third projection being the sum of the first two. -/
structure Invariant (l1 l2 Λ : ℤ) (Y : ℤ → ℤ → ℝ) : Prop where
  raise : ∀ m1 m2 : ℤ, ((l1 : ℝ) - m1 + 1) * Y (m1 - 1) m2 + ((l2 : ℝ) - m2 + 1) * Y m1 (m2 - 1) = ((Λ : ℝ) + m1 + m2) * Y m1 m2
  lower : ∀ m1 m2 : ℤ, ((l1 : ℝ) + m1 + 1) * Y (m1 + 1) m2 + ((l2 : ℝ) + m2 + 1) * Y m1 (m2 + 1) = ((Λ : ℝ) - m1 - m2) * Y m1 m2
  range : ∀ m1 m2 : ℤ, l1 < |m1| ∨ l2 < |m2| ∨ Λ < |m1 + m2| → Y m1 m2 = 0

/-- Lowering follows from raising, for a function that is even or odd. -/
theorem Invariant.of_raise {l1 l2 Λ : ℤ} {Y : ℤ → ℤ → ℝ} {s : ℝ} (hs : s * s = 1)
    (raise : ∀ m1 m2 : ℤ, ((l1 : ℝ) - m1 + 1) * Y (m1 - 1) m2 + ((l2 : ℝ) - m2 + 1) * Y m1 (m2 - 1) = ((Λ : ℝ) + m1 + m2) * Y m1 m2)
    (flip : ∀ m1 m2, Y m1 m2 = s * Y (-m1) (-m2))
    (range : ∀ m1 m2 : ℤ, l1 < |m1| ∨ l2 < |m2| ∨ Λ < |m1 + m2| → Y m1 m2 = 0) : Invariant l1 l2 Λ Y where
  raise := raise
  lower := by
    intro m1 m2
    have h := raise (-m1) (-m2)
    rw [flip (m1 + 1) m2, flip m1 (m2 + 1), flip m1 m2, show -(m1 + 1) = -m1 - 1 by ring, show -(m2 + 1) = -m2 - 1 by ring]
    push_cast at h
    linear_combination s * h
  range := range

theorem Invariant.tensor (l1 l2 Λ : ℤ) :
    Invariant l1 l2 Λ fun m1 m2 => tSum (l1 + l2 - Λ) (Λ + l1 - l2) (Λ + l2 - l1) (l1 - m1) (l2 + m2) := by
  refine Invariant.of_raise (s := sgn (l1 + l2 - Λ)) (by unfold sgn; split_ifs <;> norm_num) ?_ ?_ ?_
  · intro m1 m2
    have := tSum_raise (l1 + l2 - Λ) (Λ + l1 - l2) (Λ + l2 - l1) (l1 - m1) (l2 + m2)
    rw [show l1 - (m1 - 1) = l1 - m1 + 1 by ring, show l2 + (m2 - 1) = l2 + m2 - 1 by ring]
    push_cast at this ⊢
    linear_combination this
  · intro m1 m2
    rw [tSum_flip]
    congr 2 <;> ring
  · intro m1 m2 h
    simp only [lt_abs] at h
    rcases h with h | h | h
    · exact tSum_zero (by omega)
    · exact tSum_zero (by omega)
    · exact tSum_zero' (by omega)

theorem Invariant.zero {l1 l2 Λ : ℕ} {Y : ℤ → ℤ → ℝ} (h : Invariant l1 l2 Λ Y)
    (h0 : (|(l1 : ℤ) - l2| ≤ Λ ∧ (Λ : ℤ) ≤ l1 + l2) → Y l1 (Λ - l1) = 0) (m1 m2 : ℤ) : Y m1 m2 = 0 := by
  -- the states of greatest projection
  have top : ∀ m : ℤ, ((l1 : ℝ) - m + 1) * Y (m - 1) (Λ + 1 - m) + ((l2 : ℝ) - Λ + m) * Y m (Λ - m) = 0 := by
    intro m
    have := h.raise m (Λ + 1 - m)
    rw [h.range m (Λ + 1 - m) (by simp only [lt_abs]; omega), show (Λ : ℤ) + 1 - m - 1 = Λ - m by ring] at this
    push_cast at this
    linear_combination this
  have h1 : ∀ m : ℤ, Y m (Λ - m) = 0 := by
    by_cases hb : (Λ : ℤ) + l1 < l2
    · have up : ∀ n : ℕ, Y (-l1 - 1 + n) (Λ - (-l1 - 1 + n)) = 0 := by
        intro n
        induction n with
        | zero => exact h.range _ _ (by simp only [lt_abs]; omega)
        | succ n ih =>
          have := top (-l1 + n)
          rw [show (-(l1 : ℤ) + n - 1) = -l1 - 1 + n by ring, show (Λ : ℤ) + 1 - (-l1 + n) = Λ - (-l1 - 1 + n) by ring, ih, mul_zero, zero_add] at this
          rcases mul_eq_zero.mp this with h2 | h2
          · exfalso
            have : (l2 : ℤ) - Λ + (-l1 + n) = 0 := by exact_mod_cast h2
            omega
          · rw [← h2]
            congr 1 <;> push_cast <;> ring
      intro m
      by_cases hm : m < -l1
      · exact h.range _ _ (by simp only [lt_abs]; omega)
      · have := up (m + l1 + 1).toNat
        rw [show (((m + l1 + 1).toNat : ℕ) : ℤ) = m + l1 + 1 by omega, show -(l1 : ℤ) - 1 + (m + l1 + 1) = m by ring] at this
        exact this
    · have hl : Y l1 (Λ - l1) = 0 := by
        by_cases ht : |(l1 : ℤ) - l2| ≤ Λ ∧ (Λ : ℤ) ≤ l1 + l2
        · exact h0 ht
        · rw [abs_le] at ht
          exact h.range _ _ (by simp only [lt_abs]; omega)
      have down : ∀ n : ℕ, Y (l1 - n) (Λ - (l1 - n)) = 0 := by
        intro n
        induction n with
        | zero => simpa using hl
        | succ n ih =>
          have := top (l1 - n)
          rw [ih, mul_zero, add_zero] at this
          rcases mul_eq_zero.mp this with h2 | h2
          · exfalso
            have : (l1 : ℤ) - (l1 - n) + 1 = 0 := by exact_mod_cast h2
            omega
          · rw [← h2]
            congr 1 <;> push_cast <;> ring
      intro m
      by_cases hm : (l1 : ℤ) < m
      · exact h.range _ _ (by simp only [lt_abs]; omega)
      · have := down (l1 - m).toNat
        rw [show (((l1 - m : ℤ).toNat : ℕ) : ℤ) = l1 - m by omega, show (l1 : ℤ) - (l1 - m) = m by ring] at this
        exact this
  have h2 : ∀ (n : ℕ) (m1 m2 : ℤ), m1 + m2 = Λ - n → Y m1 m2 = 0 := by
    intro n
    induction n with
    | zero =>
      intro m1 m2 hm
      rw [show m2 = Λ - m1 by push_cast at hm; omega]
      exact h1 m1
    | succ n ih =>
      intro m1 m2 hm
      have := h.lower m1 m2
      rw [ih (m1 + 1) m2 (by push_cast at hm; omega), ih m1 (m2 + 1) (by push_cast at hm; omega), mul_zero, mul_zero, add_zero] at this
      rcases mul_eq_zero.mp this.symm with h3 | h3
      · exfalso
        have : (Λ : ℤ) - m1 - m2 = 0 := by exact_mod_cast h3
        omega
      · exact h3
  by_cases hm : (Λ : ℤ) < m1 + m2
  · exact h.range _ _ (by simp only [lt_abs]; omega)
  · exact h2 (Λ - (m1 + m2) : ℤ).toNat m1 m2 (by omega)

/-- Invariants are multiples of each other. -/
theorem Invariant.multiple {l1 l2 Λ : ℕ} {Y : ℤ → ℤ → ℝ} (h : Invariant l1 l2 Λ Y) :
    ∃ c : ℝ, ∀ m1 m2, Y m1 m2 = c * tSum (l1 + l2 - Λ) (Λ + l1 - l2) (Λ + l2 - l1) (l1 - m1) (l2 + m2) := by
  have ht := Invariant.tensor l1 l2 Λ
  let t : ℤ → ℤ → ℝ := fun m1 m2 => tSum (l1 + l2 - Λ) (Λ + l1 - l2) (Λ + l2 - l1) (l1 - m1) (l2 + m2)
  refine ⟨Y l1 (Λ - l1) / t l1 (Λ - l1), fun m1 m2 => ?_⟩
  have hinv : Invariant l1 l2 Λ fun m1 m2 => Y m1 m2 - Y l1 (Λ - l1) / t l1 (Λ - l1) * t m1 m2 := by
    constructor
    · intro m1 m2
      linear_combination h.raise m1 m2 - Y l1 (Λ - l1) / t l1 (Λ - l1) * ht.raise m1 m2
    · intro m1 m2
      linear_combination h.lower m1 m2 - Y l1 (Λ - l1) / t l1 (Λ - l1) * ht.lower m1 m2
    · intro m1 m2 hm
      rw [h.range m1 m2 hm, show t m1 m2 = 0 from ht.range m1 m2 hm]
      ring
  have := hinv.zero (fun htr => by
    rw [abs_le] at htr
    have hne : t l1 (Λ - l1) ≠ 0 := by
      simp only [t]
      rw [show (l1 : ℤ) - l1 = 0 by ring, tSum, Finset.sum_eq_single_of_mem 0 (by rw [Finset.mem_Icc]; omega)]
      · rw [tTerm]
        have a0 := rf_pos (i := 0) le_rfl
        have a1 := rf_pos (i := (l1 : ℤ) + l2 - Λ) (by omega)
        have a2 := rf_pos (i := (Λ : ℤ) + l1 - l2) (by omega)
        have a3 := rf_pos (i := (Λ : ℤ) + l2 - l1) (by omega)
        have s0 : sgn 0 = 1 := by simp [sgn]
        rw [s0]
        simp only [sub_zero, add_zero]
        rw [show (l2 : ℤ) + (Λ - l1) = Λ + l2 - l1 by ring, sub_self]
        positivity
      · intro k hk hk'
        rw [Finset.mem_Icc] at hk
        rw [tTerm, rf_neg (i := 0 - k) (by omega)]
        ring
    rw [div_mul_cancel₀ _ hne, sub_self]) m1 m2
  linarith [this]

/-! ## The contraction -/

section
variable (l1 l1' κ l2' l2 Λ : ℕ)

/-- The first factor. -/
noncomputable def fac1 (m1 k : ℤ) : ℝ := tSum (l1' + κ - l1) (l1 + l1' - κ) (l1 + κ - l1') (l1' - m1) (κ + k)
/-- The third factor. -/
noncomputable def fac3 (n1 n2 : ℤ) : ℝ := tSum (l1 + l2 - Λ) (Λ + l1 - l2) (Λ + l2 - l1) (l1 - n1) (l2 + n2)
/-- The weight of the projection of the intermediate angular momentum. -/
noncomputable def wtκ (k : ℤ) : ℝ := sgn k * (ff (κ + k) * ff (κ - k))
/-- The weight of a projection. -/
noncomputable def wtl (n : ℤ) : ℝ := ff (l1 + n) * ff (l1 - n)

/-- A term of the contraction. -/
noncomputable def conTerm (m1 m2 k : ℤ) : ℝ :=
  wtκ κ k * (wtl l1 (m1 + k) * wtl l2 (m2 - k)) * (fac1 l1 l1' κ m1 k * fac1 l2 l2' κ m2 (-k) * fac3 l1 l2 Λ (m1 + k) (m2 - k))

/-- The contraction. -/
noncomputable def con (m1 m2 : ℤ) : ℝ := ∑ k ∈ Finset.Icc (-(κ : ℤ)) κ, conTerm l1 l1' κ l2' l2 Λ m1 m2 k

theorem fac1_raise (m1 k : ℤ) : ((l1' : ℝ) - m1 + 1) * fac1 l1 l1' κ (m1 - 1) k =
    ((l1 : ℝ) + m1 + k) * fac1 l1 l1' κ m1 k - ((κ : ℝ) - k + 1) * fac1 l1 l1' κ m1 (k - 1) := by
  have := tSum_raise (l1' + κ - l1) (l1 + l1' - κ) (l1 + κ - l1') (l1' - m1) (κ + k)
  unfold fac1
  rw [show (l1' : ℤ) - (m1 - 1) = l1' - m1 + 1 by ring, show (κ : ℤ) + (k - 1) = κ + k - 1 by ring]
  push_cast at this
  linear_combination this

theorem fac3_inv : Invariant l1 l2 Λ (fac3 l1 l2 Λ) := Invariant.tensor l1 l2 Λ

variable {l1 l1' κ l2' l2 Λ}

theorem fac1_zero {m1 k : ℤ} (h : (l1' : ℤ) < |m1| ∨ (κ : ℤ) < |k| ∨ (l1 : ℤ) < |m1 + k|) : fac1 l1 l1' κ m1 k = 0 := by
  simp only [lt_abs] at h
  unfold fac1
  rcases h with h | h | h
  · exact tSum_zero (by omega)
  · exact tSum_zero (by omega)
  · exact tSum_zero' (by omega)

theorem wtl_pred {n : ℤ} (h1 : -(l1 : ℤ) < n) (h2 : n ≤ l1) : wtl l1 (n - 1) * ((l1 : ℝ) + n) = wtl l1 n * ((l1 : ℝ) - n + 1) := by
  unfold wtl
  have e1 := ff_succ (i := (l1 : ℤ) + (n - 1)) (by omega)
  have e2 := ff_succ (i := (l1 : ℤ) - n) (by omega)
  rw [show (l1 : ℤ) + (n - 1) + 1 = l1 + n by ring] at e1
  rw [show (l1 : ℤ) - (n - 1) = l1 - n + 1 by ring, e1, e2]
  push_cast
  ring

theorem wtκ_pred {k : ℤ} (h1 : -(κ : ℤ) < k) (h2 : k ≤ κ) : wtκ κ k * ((κ : ℝ) - k + 1) = -(wtκ κ (k - 1) * ((κ : ℝ) + k)) := by
  unfold wtκ
  have e1 := ff_succ (i := (κ : ℤ) + (k - 1)) (by omega)
  have e2 := ff_succ (i := (κ : ℤ) - k) (by omega)
  have hs : sgn k = -sgn (k - 1) := by
    have := sgn_add_one (k - 1)
    rwa [sub_add_cancel] at this
  rw [show (κ : ℤ) + (k - 1) + 1 = κ + k by ring] at e1
  rw [show (κ : ℤ) - (k - 1) = κ - k + 1 by ring, e1, e2, hs]
  push_cast
  ring

variable (l1 l1' κ l2' l2 Λ)

theorem con_raise (m1 m2 : ℤ) : ((l1' : ℝ) - m1 + 1) * con l1 l1' κ l2' l2 Λ (m1 - 1) m2 +
    ((l2' : ℝ) - m2 + 1) * con l1 l1' κ l2' l2 Λ m1 (m2 - 1) = ((Λ : ℝ) + m1 + m2) * con l1 l1' κ l2' l2 Λ m1 m2 := by
  -- the terms that cancel
  let C : ℤ → ℝ := fun k => wtκ κ k * ((κ : ℝ) - k + 1) * (wtl l1 (m1 - 1 + k) * wtl l2 (m2 - k)) *
    (fac1 l1 l1' κ m1 (k - 1) * fac1 l2 l2' κ m2 (-k) * fac3 l1 l2 Λ (m1 - 1 + k) (m2 - k))
  let D : ℤ → ℝ := fun k => wtκ κ k * ((κ : ℝ) + k + 1) * (wtl l1 (m1 + k) * wtl l2 (m2 - 1 - k)) *
    (fac1 l1 l1' κ m1 k * fac1 l2 l2' κ m2 (-k - 1) * fac3 l1 l2 Λ (m1 + k) (m2 - 1 - k))
  have hCD : ∀ k, D (k + -1) = -C k := by
    intro k
    by_cases h : -(κ : ℤ) < k ∧ k ≤ κ
    · have := wtκ_pred h.1 h.2
      simp only [C, D]
      rw [show m1 + (k + -1) = m1 - 1 + k by ring, show m2 - 1 - (k + -1) = m2 - k by ring, show k + -1 = k - 1 by ring,
        show -(k - 1) - 1 = -k by ring]
      push_cast
      linear_combination ((wtl l1 (m1 - 1 + k) * wtl l2 (m2 - k)) *
        (fac1 l1 l1' κ m1 (k - 1) * fac1 l2 l2' κ m2 (-k) * fac3 l1 l2 Λ (m1 - 1 + k) (m2 - k))) * this
    · have h' : fac1 l1 l1' κ m1 (k - 1) * fac1 l2 l2' κ m2 (-k) = 0 := by
        by_cases h2 : k ≤ κ
        · rw [fac1_zero (k := k - 1) (Or.inr (Or.inl (by rw [lt_abs]; omega))), zero_mul]
        · rw [fac1_zero (k := -k) (Or.inr (Or.inl (by rw [lt_abs]; omega))), mul_zero]
      simp only [C, D]
      rw [show k + -1 = k - 1 by ring, show -(k - 1) - 1 = -k by ring, h']
      ring
  have hD0 : ∀ k : ℤ, (κ : ℤ) < |k| → D k = 0 := by
    intro k hk
    simp only [D]
    rw [fac1_zero (m1 := m1) (k := k) (Or.inr (Or.inl hk))]
    ring
  have hC0 : ∀ k : ℤ, (κ : ℤ) < |k| → C k = 0 := by
    intro k hk
    simp only [C]
    rw [fac1_zero (m1 := m2) (k := -k) (Or.inr (Or.inl (by rwa [abs_neg])))]
    ring
  have hsum : ∑ k ∈ Finset.Icc (-(κ : ℤ)) κ, D k = -∑ k ∈ Finset.Icc (-(κ : ℤ)) κ, C k := by
    rw [← sum_shift D (a := -(κ : ℤ)) (b := κ) (fun k hk => hD0 k (by rw [lt_abs]; omega)) (fun k hk => hD0 k (by rw [lt_abs]; omega)) (-1)
      (S := Finset.Icc (-(κ : ℤ) - 1) (κ + 1)) (Finset.Icc_subset_Icc (by omega) (by omega)), Finset.sum_congr rfl fun k _ => hCD k,
      Finset.sum_neg_distrib]
    congr 1
    symm
    refine Finset.sum_subset (Finset.Icc_subset_Icc (by omega) (by omega)) fun k _ hk => hC0 k ?_
    rw [Finset.mem_Icc] at hk
    rw [lt_abs]
    omega
  have hterm : ∀ k ∈ Finset.Icc (-(κ : ℤ)) κ, ((l1' : ℝ) - m1 + 1) * conTerm l1 l1' κ l2' l2 Λ (m1 - 1) m2 k +
      ((l2' : ℝ) - m2 + 1) * conTerm l1 l1' κ l2' l2 Λ m1 (m2 - 1) k = ((Λ : ℝ) + m1 + m2) * conTerm l1 l1' κ l2' l2 Λ m1 m2 k - C k - D k := by
    intro k _
    have r1 := fac1_raise l1 l1' κ m1 k
    have r2 := fac1_raise l2 l2' κ m2 (-k)
    have r3 := (fac3_inv l1 l2 Λ).raise (m1 + k) (m2 - k)
    -- the weights
    have w1 : wtl l1 (m1 + k - 1) * ((l1 : ℝ) + m1 + k) * fac1 l1 l1' κ m1 k * fac3 l1 l2 Λ (m1 + k - 1) (m2 - k) =
        wtl l1 (m1 + k) * ((l1 : ℝ) - (m1 + k) + 1) * fac1 l1 l1' κ m1 k * fac3 l1 l2 Λ (m1 + k - 1) (m2 - k) := by
      by_cases h : -(l1 : ℤ) < m1 + k ∧ m1 + k ≤ l1
      · have := wtl_pred h.1 h.2
        push_cast at this
        linear_combination (fac1 l1 l1' κ m1 k * fac3 l1 l2 Λ (m1 + k - 1) (m2 - k)) * this
      · by_cases h2 : m1 + k ≤ l1
        · rw [(fac3_inv l1 l2 Λ).range (m1 + k - 1) (m2 - k) (Or.inl (by rw [lt_abs]; omega))]
          ring
        · rw [fac1_zero (m1 := m1) (k := k) (Or.inr (Or.inr (by rw [lt_abs]; omega)))]
          ring
    have w2 : wtl l2 (m2 - k - 1) * ((l2 : ℝ) + m2 - k) * fac1 l2 l2' κ m2 (-k) * fac3 l1 l2 Λ (m1 + k) (m2 - k - 1) =
        wtl l2 (m2 - k) * ((l2 : ℝ) - (m2 - k) + 1) * fac1 l2 l2' κ m2 (-k) * fac3 l1 l2 Λ (m1 + k) (m2 - k - 1) := by
      by_cases h : -(l2 : ℤ) < m2 - k ∧ m2 - k ≤ l2
      · have := wtl_pred h.1 h.2
        push_cast at this
        linear_combination (fac1 l2 l2' κ m2 (-k) * fac3 l1 l2 Λ (m1 + k) (m2 - k - 1)) * this
      · by_cases h2 : m2 - k ≤ l2
        · rw [(fac3_inv l1 l2 Λ).range (m1 + k) (m2 - k - 1) (Or.inr (Or.inl (by rw [lt_abs]; omega)))]
          ring
        · rw [fac1_zero (m1 := m2) (k := -k) (Or.inr (Or.inr (by rw [lt_abs]; omega)))]
          ring
    simp only [C, D, conTerm]
    rw [show m1 - 1 + k = m1 + k - 1 by ring, show m2 - 1 - k = m2 - k - 1 by ring]
    push_cast at r1 r2 r3
    linear_combination (wtκ κ k * wtl l1 (m1 + k - 1) * wtl l2 (m2 - k) * fac1 l2 l2' κ m2 (-k) * fac3 l1 l2 Λ (m1 + k - 1) (m2 - k)) * r1 +
      (wtκ κ k * wtl l1 (m1 + k) * wtl l2 (m2 - k - 1) * fac1 l1 l1' κ m1 k * fac3 l1 l2 Λ (m1 + k) (m2 - k - 1)) * r2 +
      (wtκ κ k * wtl l2 (m2 - k) * fac1 l2 l2' κ m2 (-k)) * w1 + (wtκ κ k * wtl l1 (m1 + k) * fac1 l1 l1' κ m1 k) * w2 +
      (wtκ κ k * wtl l1 (m1 + k) * wtl l2 (m2 - k) * fac1 l1 l1' κ m1 k * fac1 l2 l2' κ m2 (-k)) * r3
  unfold con
  rw [Finset.mul_sum, Finset.mul_sum, Finset.mul_sum, ← Finset.sum_add_distrib, Finset.sum_congr rfl hterm, Finset.sum_sub_distrib,
    Finset.sum_sub_distrib, hsum]
  ring

theorem fac1_flip (m1 k : ℤ) : fac1 l1 l1' κ m1 k = sgn (l1' + κ - l1) * fac1 l1 l1' κ (-m1) (-k) := by
  unfold fac1
  rw [tSum_flip]
  congr 2 <;> ring

theorem fac3_flip (n1 n2 : ℤ) : fac3 l1 l2 Λ n1 n2 = sgn (l1 + l2 - Λ) * fac3 l1 l2 Λ (-n1) (-n2) := by
  unfold fac3
  rw [tSum_flip]
  congr 2 <;> ring

theorem con_inv : Invariant l1' l2' Λ (con l1 l1' κ l2' l2 Λ) := by
  refine Invariant.of_raise (s := sgn (l1' + κ - l1) * sgn (l2' + κ - l2) * sgn (l1 + l2 - Λ)) ?_ ?_ ?_ ?_
  · have : ∀ n, sgn n * sgn n = 1 := fun n => by unfold sgn; split_ifs <;> norm_num
    linear_combination (sgn (l2' + κ - l2) * sgn (l2' + κ - l2) * (sgn (l1 + l2 - Λ) * sgn (l1 + l2 - Λ))) * this (l1' + κ - l1) +
      (sgn (l1 + l2 - Λ) * sgn (l1 + l2 - Λ)) * this (l2' + κ - l2) + this (l1 + l2 - Λ)
  · intro m1 m2
    have := con_raise l1 l1' κ l2' l2 Λ m1 m2
    push_cast
    exact this
  · intro m1 m2
    unfold con
    rw [Finset.mul_sum]
    refine Finset.sum_bij (fun k _ => -k) ?_ ?_ ?_ ?_
    · intro k hk
      rw [Finset.mem_Icc] at hk ⊢
      omega
    · intro k _ k' _ h
      omega
    · intro k hk
      rw [Finset.mem_Icc] at hk
      exact ⟨-k, by rw [Finset.mem_Icc]; omega, by omega⟩
    · intro k _
      unfold conTerm
      rw [fac1_flip l1 l1' κ m1 k, fac1_flip l2 l2' κ m2 (-k), fac3_flip l1 l2 Λ (m1 + k), show -(m1 + k) = -m1 + -k by ring,
        show -(m2 - k) = -m2 - -k by ring]
      have e1 : wtκ κ (-k) = wtκ κ k := by
        unfold wtκ
        rw [show (κ : ℤ) + -k = κ - k by ring, show (κ : ℤ) - -k = κ + k by ring, sgn_parity (a := -k) (b := k) (by omega)]
        ring
      have e2 : ∀ (l : ℕ) (n : ℤ), wtl l (-n) = wtl l n := by
        intro l n
        unfold wtl
        rw [show (l : ℤ) + -n = l - n by ring, show (l : ℤ) - -n = l + n by ring]
        ring
      have e3 := e2 l1 (m1 + k)
      have e4 := e2 l2 (m2 - k)
      rw [show -(m1 + k) = -m1 + -k by ring] at e3
      rw [show -(m2 - k) = -m2 - -k by ring] at e4
      rw [e1, e3, e4]
      ring
  · intro m1 m2 h
    refine Finset.sum_eq_zero fun k _ => ?_
    unfold conTerm
    rcases h with h | h | h
    · rw [fac1_zero (m1 := m1) (Or.inl h)]
      ring
    · rw [fac1_zero (m1 := m2) (Or.inl h)]
      ring
    · rw [(fac3_inv l1 l2 Λ).range (m1 + k) (m2 - k) (Or.inr (Or.inr (by rwa [show m1 + k + (m2 - k) = m1 + m2 by ring])))]
      ring

end

/-- The contraction that defines six-j symbols is a multiple of a coupling coefficient. -/
theorem contraction (l1 l1' κ l2' l2 Λ : ℕ) : ∃ c : ℝ, ∀ m1 m2 M : ℤ,
    ∑ μ ∈ Finset.Icc (-(κ : ℤ)) κ, sgn μ * cg l1' m1 κ μ l1 (m1 + μ) * cg l2' m2 κ (-μ) l2 (m2 - μ) * cg l1 (m1 + μ) l2 (m2 - μ) Λ M =
      c * cg l1' m1 l2' m2 Λ M := by
  obtain ⟨c, hc⟩ := (con_inv l1 l1' κ l2' l2 Λ).multiple
  have ht := tri3_pos l1' l2' (Λ := Λ) (by omega)
  refine ⟨c * (tri3 l1' κ l1 * tri3 l2' κ l2 * tri3 l1 l2 Λ) / tri3 l1' l2' Λ, fun m1 m2 M => ?_⟩
  by_cases hM : m1 + m2 = M
  · have e : ∀ μ ∈ Finset.Icc (-(κ : ℤ)) κ,
        sgn μ * cg l1' m1 κ μ l1 (m1 + μ) * cg l2' m2 κ (-μ) l2 (m2 - μ) * cg l1 (m1 + μ) l2 (m2 - μ) Λ M =
        tri3 l1' κ l1 * tri3 l2' κ l2 * tri3 l1 l2 Λ * (pr l1' m1 * pr l2' m2 * pr Λ M) * conTerm l1 l1' κ l2' l2 Λ m1 m2 μ := by
      intro μ _
      rw [cg, if_pos rfl, cg, if_pos (by ring), cg, if_pos (by omega), conTerm, fac1, fac1, fac3, wtκ, wtl, wtl, ← pr_mul_self, ← pr_mul_self,
        ← pr_mul_self, pr_neg]
      ring
    rw [Finset.sum_congr rfl e, ← Finset.mul_sum, ← con, hc, cg, if_pos hM]
    field_simp
  · rw [cg_of_ne hM, mul_zero]
    refine Finset.sum_eq_zero fun μ _ => ?_
    rw [cg_of_ne (l1 := l1) (l2 := l2) (by omega), mul_zero]

/-- The six-j symbol. -/
noncomputable def six (l1 l1' κ l2' l2 Λ : ℤ) : ℝ :=
  (contraction l1.toNat l1'.toNat κ.toNat l2'.toNat l2.toNat Λ.toNat).choose /
    (sgn (l1'.toNat + l2.toNat + Λ.toNat) * √((2 * (l1.toNat : ℝ) + 1) * (2 * l2.toNat + 1)))

theorem six_sixJ : SixJ six := by
  intro l1 l1' κ l2' l2 Λ m1 m2 M
  have h := (contraction l1 l1' κ l2' l2 Λ).choose_spec m1 m2 M
  rw [h, six]
  simp only [Int.toNat_natCast]
  have h1 : sgn ((l1' : ℤ) + l2 + Λ) ≠ 0 := by unfold sgn; split_ifs <;> norm_num
  have h2 : √((2 * (l1 : ℝ) + 1) * (2 * l2 + 1)) ≠ 0 := by positivity
  field_simp

/-- The angular-momentum functions made of six-j symbols. -/
noncomputable def angularEnv : Env where
  sixj := six
  unitary := fun l1d l2d Λ l2 l1 κ => sgn (l1d + l2d + l2 + l1) * √((2 * Λ + 1) * (2 * κ + 1)) * six l1 l1d κ l2d l2 Λ

theorem angularEnv_angular : Angular angularEnv where
  sixj := six_sixJ
  unitary := by
    intro l1d l2d Λ l2 l1 κ
    simp only [angularEnv, Int.cast_natCast]

end Verif.Moshinsky.Osc
