import Verif.Moshinsky.OverlapProps

/-!
# Coupling coefficients of two angular momenta

The coupling coefficients in closed form (van der Waerden), and the laws of them that the recursion for the brackets rests on.
-/

namespace Verif.Moshinsky.Osc

/-- `1/i!`, zero for a negative argument. -/
noncomputable def rf (i : ℤ) : ℝ := if i < 0 then 0 else 1 / ff i

theorem rf_neg {i : ℤ} (h : i < 0) : rf i = 0 := if_pos h

theorem rf_of_nonneg {i : ℤ} (h : 0 ≤ i) : rf i = 1 / ff i := if_neg (by omega)

theorem rf_pos {i : ℤ} (h : 0 ≤ i) : 0 < rf i := by
  rw [rf_of_nonneg h]
  exact one_div_pos.mpr (ff_pos i)

theorem rf_succ (i : ℤ) : rf i = ((i : ℝ) + 1) * rf (i + 1) := by
  rcases lt_trichotomy i (-1) with h | rfl | h
  · rw [rf_neg (by omega), rf_neg (by omega), mul_zero]
  · rw [rf_neg (by omega)]
    simp
  · have h1 : (0 : ℝ) ≤ i := by exact_mod_cast (show 0 ≤ i by omega)
    have h2 := (ff_pos i).ne'
    have h3 : (i : ℝ) + 1 ≠ 0 := by positivity
    rw [rf_of_nonneg (by omega), rf_of_nonneg (by omega), ff_succ (by omega)]
    field_simp

/-- The same with the shift on the other side. -/
theorem rf_pred (i : ℤ) : rf (i - 1) = (i : ℝ) * rf i := by
  have := rf_succ (i - 1)
  rw [sub_add_cancel] at this
  rw [this]
  push_cast
  ring

/-! ## The alternating sum -/

/-- A term of the alternating sum. -/
noncomputable def tTerm (a b c β α k : ℤ) : ℝ :=
  sgn k * (rf k * rf (a - k) * rf (β - k) * rf (b - β + k) * rf (α - k) * rf (c - α + k))

/-- The alternating sum of the coupling coefficient of `l₁ = (a+b)/2` and `l₂ = (a+c)/2` to `Λ = (b+c)/2`, with `β = l₁ - m₁` and
`α = l₂ + m₂`. -/
noncomputable def tSum (a b c β α : ℤ) : ℝ := ∑ k ∈ Finset.Icc 0 a, tTerm a b c β α k

theorem tTerm_zero {a b c β α k : ℤ} (h : k < 0 ∨ a < k) : tTerm a b c β α k = 0 := by
  unfold tTerm
  rcases h with h | h
  · rw [rf_neg h]
    ring
  · rw [rf_neg (show a - k < 0 by omega)]
    ring

theorem tSum_wide {a b c β α : ℤ} {S : Finset ℤ} (h : Finset.Icc 0 a ⊆ S) : tSum a b c β α = ∑ k ∈ S, tTerm a b c β α k :=
  Finset.sum_subset h fun k _ hk => tTerm_zero (by rw [Finset.mem_Icc] at hk; omega)

theorem tSum_shift {a b c β α : ℤ} (d : ℤ) {S : Finset ℤ} (hS : Finset.Icc (0 - d) (a - d) ⊆ S) :
    ∑ k ∈ S, tTerm a b c β α (k + d) = tSum a b c β α :=
  sum_shift (tTerm a b c β α) (a := 0) (b := a) (fun _ hk => tTerm_zero (Or.inl hk)) (fun _ hk => tTerm_zero (Or.inr hk)) d hS

theorem tSum_symm (a b c β α : ℤ) : tSum a b c β α = tSum a c b α β := by
  refine Finset.sum_congr rfl fun k _ => ?_
  unfold tTerm
  ring

/-- The sum vanishes unless all exponents are in range. -/
theorem tSum_zero {a b c β α : ℤ} (h : a < 0 ∨ b < 0 ∨ c < 0 ∨ β < 0 ∨ a + b < β ∨ α < 0 ∨ a + c < α) : tSum a b c β α = 0 := by
  refine Finset.sum_eq_zero fun k hk => ?_
  rw [Finset.mem_Icc] at hk
  unfold tTerm
  by_cases h1 : β - k < 0
  · rw [rf_neg h1]
    ring
  by_cases h2 : b - β + k < 0
  · rw [rf_neg h2]
    ring
  by_cases h3 : α - k < 0
  · rw [rf_neg h3]
    ring
  · rw [rf_neg (show c - α + k < 0 by omega)]
    ring

theorem sum_sgn_shift (f : ℤ → ℝ) {a : ℤ} (h0 : ∀ k, k < 0 ∨ a < k → f k = 0) :
    ∑ k ∈ wide a, f k = ∑ k ∈ wide a, f (k + 1) := by
  rw [sum_shift f (a := 0) (b := a) (fun k hk => h0 k (Or.inl hk)) (fun k hk => h0 k (Or.inr hk)) 1 (S := wide a)
    (sub_wide (by omega) (by omega))]
  exact (Finset.sum_subset (sub_wide (by omega) (by omega)) fun k _ hk => h0 k (by rw [Finset.mem_Icc] at hk; omega)).symm

/-- Multiplication by the bracket of the first two. -/
theorem tSum_mul (a b c β α : ℤ) : (a : ℝ) * tSum a b c β α = tSum (a - 1) b c β α - tSum (a - 1) b c (β - 1) (α - 1) := by
  rw [tSum_wide (a := a) (S := wide a) (sub_wide (by omega) (by omega)),
    tSum_wide (a := a - 1) (β := β) (S := wide a) (sub_wide (by omega) (by omega)),
    ← tSum_shift (a := a - 1) (β := β - 1) (-1) (S := wide a) (sub_wide (by omega) (by omega)),
    Finset.mul_sum, ← Finset.sum_sub_distrib]
  refine Finset.sum_congr rfl fun k _ => ?_
  unfold tTerm
  have hs : sgn (k + -1) = -sgn k := by
    have := sgn_add_one (k + -1)
    rw [show k + -1 + 1 = k by ring] at this
    rw [this, neg_neg]
  rw [hs, show a - 1 - (k + -1) = a - k by ring, show β - 1 - (k + -1) = β - k by ring,
    show b - (β - 1) + (k + -1) = b - β + k by ring, show α - 1 - (k + -1) = α - k by ring,
    show c - (α - 1) + (k + -1) = c - α + k by ring, show k + -1 = k - 1 by ring, rf_pred k,
    show a - 1 - k = a - k - 1 by ring, rf_pred (a - k)]
  push_cast
  ring

/-- Replacing the first by the second. -/
theorem tSum_polar (a b c β α : ℤ) : (c : ℝ) * tSum a b c β α =
    ((β : ℝ) + 1) * tSum a (b + 1) (c - 1) (β + 1) α + ((a : ℝ) + b + 1 - β) * tSum a (b + 1) (c - 1) β (α - 1) := by
  rw [tSum_wide (b := b) (S := wide a) (sub_wide (by omega) (by omega)),
    tSum_wide (β := β + 1) (S := wide a) (sub_wide (by omega) (by omega)),
    tSum_wide (α := α - 1) (S := wide a) (sub_wide (by omega) (by omega))]
  -- the part that cancels after a shift
  let f : ℤ → ℝ := fun k => sgn k * ((k : ℝ) * rf k * rf (a - k) * rf (β + 1 - k) * rf (b - β + k) * rf (α - k) * rf (c - 1 - α + k))
  have hf := sum_sgn_shift f (a := a) fun k hk => by
    rcases hk with hk | hk
    · simp only [f, rf_neg hk]
      ring
    · simp only [f, rf_neg (show a - k < 0 by omega)]
      ring
  have h1 : ∑ k ∈ wide a, ((c : ℝ) * tTerm a b c β α k) = ∑ k ∈ wide a, (((β : ℝ) + 1) * tTerm a (b + 1) (c - 1) (β + 1) α k - f k) +
      ∑ k ∈ wide a, (((a : ℝ) + b + 1 - β) * tTerm a (b + 1) (c - 1) β (α - 1) k + f (k + 1)) := by
    rw [← Finset.sum_add_distrib]
    refine Finset.sum_congr rfl fun k _ => ?_
    simp only [tTerm, f]
    rw [sgn_add_one, show b + 1 - (β + 1) + k = b - β + k by ring, show c - 1 - (α - 1) + k = c - α + k by ring,
      show a - (k + 1) = a - k - 1 by ring, show β + 1 - (k + 1) = β - k by ring, show b - β + (k + 1) = b + 1 - β + k by ring,
      show α - (k + 1) = α - 1 - k by ring, show c - 1 - α + (k + 1) = c - α + k by ring, rf_pred (a - k),
      show c - 1 - α + k = c - α + k - 1 by ring, rf_pred (c - α + k), show α - 1 - k = α - k - 1 by ring, rf_pred (α - k),
      show b + 1 - β + k = b - β + k + 1 by ring, rf_succ (b - β + k), show β + 1 - k = β - k + 1 by ring, rf_succ (β - k)]
    have hk := rf_succ k
    push_cast
    linear_combination (-sgn k * ((a : ℝ) - k) * rf (a - k) * ((β : ℝ) - k + 1) * rf (β - k + 1) * rf (b - β + k + 1) *
      (α - k) * rf (α - k) * rf (c - α + k)) * hk
  rw [Finset.mul_sum, h1, Finset.sum_sub_distrib, Finset.sum_add_distrib, hf, Finset.mul_sum, Finset.mul_sum]
  ring

/-- Removing a bracket of the first two. -/
theorem tSum_omega (a b c β α : ℤ) : ((a : ℝ) + b + c + 2) * tSum a b c β α =
    ((a : ℝ) + 1 + b - β) * ((a : ℝ) + 1 + c - α) * tSum (a + 1) b c β α -
      ((β : ℝ) + 1) * ((α : ℝ) + 1) * tSum (a + 1) b c (β + 1) (α + 1) := by
  rw [tSum_wide (a := a) (S := wide (a + 1)) (sub_wide (by omega) (by omega)),
    tSum_wide (a := a + 1) (β := β) (S := wide (a + 1)) (sub_wide (by omega) (by omega)),
    tSum_wide (a := a + 1) (β := β + 1) (S := wide (a + 1)) (sub_wide (by omega) (by omega))]
  let f : ℤ → ℝ := fun k => sgn k * ((k : ℝ) * ((β : ℝ) + α + 2 - k) * rf k * rf (a + 1 - k) * rf (β + 1 - k) * rf (b - β - 1 + k) *
    rf (α + 1 - k) * rf (c - α - 1 + k))
  have hf := sum_sgn_shift f (a := a + 1) fun k hk => by
    rcases hk with hk | hk
    · simp only [f, rf_neg hk]
      ring
    · simp only [f, rf_neg (show a + 1 - k < 0 by omega)]
      ring
  have h1 : ∑ k ∈ wide (a + 1), (((a : ℝ) + b + c + 2) * tTerm a b c β α k) =
      ∑ k ∈ wide (a + 1), (((a : ℝ) + 1 + b - β) * ((a : ℝ) + 1 + c - α) * tTerm (a + 1) b c β α k - f (k + 1)) -
      ∑ k ∈ wide (a + 1), (((β : ℝ) + 1) * ((α : ℝ) + 1) * tTerm (a + 1) b c (β + 1) (α + 1) k - f k) := by
    rw [← Finset.sum_sub_distrib]
    refine Finset.sum_congr rfl fun k _ => ?_
    simp only [tTerm, f]
    rw [sgn_add_one, show a + 1 - (k + 1) = a - k by ring, show β + 1 - (k + 1) = β - k by ring,
      show b - β - 1 + (k + 1) = b - β + k by ring, show α + 1 - (k + 1) = α - k by ring,
      show c - α - 1 + (k + 1) = c - α + k by ring, show b - (β + 1) + k = b - β + k - 1 by ring, rf_pred (b - β + k),
      show c - (α + 1) + k = c - α + k - 1 by ring, rf_pred (c - α + k), show b - β - 1 + k = b - β + k - 1 by ring,
      rf_pred (b - β + k), show c - α - 1 + k = c - α + k - 1 by ring, rf_pred (c - α + k),
      show a + 1 - k = a - k + 1 by ring, show β + 1 - k = β - k + 1 by ring, rf_succ (a - k), rf_succ (β - k),
      show α + 1 - k = α - k + 1 by ring, rf_succ (α - k)]
    have hk := rf_succ k
    push_cast
    linear_combination (sgn k * ((β : ℝ) + α + 1 - k) * (((a : ℝ) - k + 1) * rf (a - k + 1)) * (((β : ℝ) - k + 1) * rf (β - k + 1)) *
      rf (b - β + k) * (((α : ℝ) - k + 1) * rf (α - k + 1)) * rf (c - α + k)) * hk
  rw [Finset.mul_sum, h1, Finset.sum_sub_distrib, Finset.sum_sub_distrib, hf, Finset.mul_sum, Finset.mul_sum]
  ring

theorem tSum_exchange (a b c β α : ℤ) : tSum a b c β α = sgn a * tSum a c b (a + c - α) (a + b - β) := by
  rw [tSum, tSum, Finset.mul_sum]
  refine Finset.sum_bij (fun k _ => a - k) ?_ ?_ ?_ ?_
  · intro k hk
    rw [Finset.mem_Icc] at hk ⊢
    omega
  · intro k _ k' _ h
    omega
  · intro k hk
    rw [Finset.mem_Icc] at hk
    exact ⟨a - k, by rw [Finset.mem_Icc]; omega, by omega⟩
  · intro k _
    unfold tTerm
    have hs : sgn k = sgn a * sgn (a - k) := by
      rw [sgn_mul_sgn]
      exact sgn_parity (by omega)
    rw [hs, show a - (a - k) = k by ring, show a + c - α - (a - k) = c - α + k by ring,
      show c - (a + c - α) + (a - k) = α - k by ring, show a + b - β - (a - k) = b - β + k by ring,
      show b - (a + b - β) + (a - k) = β - k by ring]
    ring

/-! ## The coupling coefficients -/

/-- The part of the normalisation that depends on a projection. -/
noncomputable def pr (l m : ℤ) : ℝ := √(ff (l + m) * ff (l - m))

/-- The part of the normalisation that depends on the three angular momenta. -/
noncomputable def tri3 (l1 l2 Λ : ℤ) : ℝ :=
  √((2 * Λ + 1) * ff (l1 + l2 - Λ) * ff (Λ + l1 - l2) * ff (Λ + l2 - l1) / ff (l1 + l2 + Λ + 1))

/-- The coupling coefficient `(l₁ m₁ l₂ m₂ | Λ M)` of two angular momenta, in the phase convention of Condon and Shortley. -/
noncomputable def cg : Coupling := fun l1 m1 l2 m2 Λ M =>
  if m1 + m2 = M then tri3 l1 l2 Λ * pr l1 m1 * pr l2 m2 * pr Λ M *
    tSum (l1 + l2 - Λ) (Λ + l1 - l2) (Λ + l2 - l1) (l1 - m1) (l2 + m2) else 0

theorem pr_pos (l m : ℤ) : 0 < pr l m := Real.sqrt_pos.mpr (mul_pos (ff_pos _) (ff_pos _))

theorem pr_neg (l m : ℤ) : pr l (-m) = pr l m := by
  unfold pr
  rw [sub_neg_eq_add, ← sub_eq_add_neg, mul_comm]

theorem pr_mul_self (l m : ℤ) : pr l m * pr l m = ff (l + m) * ff (l - m) :=
  Real.mul_self_sqrt (mul_pos (ff_pos _) (ff_pos _)).le

theorem tri3_pos (l1 l2 : ℤ) {Λ : ℤ} (h : 0 ≤ Λ) : 0 < tri3 l1 l2 Λ := by
  have h1 := ff_pos (l1 + l2 - Λ)
  have h2 := ff_pos (Λ + l1 - l2)
  have h3 := ff_pos (Λ + l2 - l1)
  have h4 := ff_pos (l1 + l2 + Λ + 1)
  have h5 : (0 : ℝ) ≤ Λ := by exact_mod_cast h
  unfold tri3
  positivity

theorem cg_of_ne {l1 l2 Λ : ℕ} {m1 m2 M : ℤ} (h : m1 + m2 ≠ M) : cg l1 m1 l2 m2 Λ M = 0 := if_neg h

theorem cg_range {l1 l2 Λ : ℕ} {m1 m2 M : ℤ} (h : (l1 : ℤ) < |m1| ∨ (l2 : ℤ) < |m2|) : cg l1 m1 l2 m2 Λ M = 0 := by
  unfold cg
  split_ifs
  · rw [tSum_zero, mul_zero]
    rw [lt_abs, lt_abs] at h
    omega
  · rfl

/-- The projection of the sum is within range as well. -/
theorem cg_range' {l1 l2 Λ : ℕ} {m1 m2 M : ℤ} (h : (Λ : ℤ) < |M|) : cg l1 m1 l2 m2 Λ M = 0 := by
  unfold cg
  split_ifs with hM
  · have : tSum (l1 + l2 - Λ) (Λ + l1 - l2) (Λ + l2 - l1) (l1 - m1) (l2 + m2) = 0 := by
      refine Finset.sum_eq_zero fun k hk => ?_
      rw [Finset.mem_Icc] at hk
      unfold tTerm
      rcases lt_abs.mp h with h | h
      · by_cases h1 : (Λ : ℤ) + l2 - l1 - (l2 + m2) + k < 0
        · rw [rf_neg h1]
          ring
        · rw [rf_neg (show (l1 : ℤ) - m1 - k < 0 by omega)]
          ring
      · by_cases h1 : (Λ : ℤ) + l1 - l2 - (l1 - m1) + k < 0
        · rw [rf_neg h1]
          ring
        · rw [rf_neg (show (l2 : ℤ) + m2 - k < 0 by omega)]
          ring
    rw [this, mul_zero]
  · rfl

theorem cg_triangle {l1 l2 Λ : ℕ} {m1 m2 M : ℤ} (h : ¬(|(l1 : ℤ) - l2| ≤ Λ ∧ (Λ : ℤ) ≤ l1 + l2)) : cg l1 m1 l2 m2 Λ M = 0 := by
  unfold cg
  split_ifs
  · rw [tSum_zero, mul_zero]
    rw [abs_le] at h
    omega
  · rfl

theorem tri3_comm (l1 l2 Λ : ℤ) : tri3 l1 l2 Λ = tri3 l2 l1 Λ := by
  unfold tri3
  rw [add_comm l1 l2]
  congr 2
  ring

theorem cg_exchange (l1 : ℕ) (m1 : ℤ) (l2 : ℕ) (m2 : ℤ) (Λ : ℕ) (M : ℤ) :
    cg l1 m1 l2 m2 Λ M = sgn (l1 + l2 - Λ) * cg l2 m2 l1 m1 Λ M := by
  unfold cg
  rw [add_comm m2 m1]
  split_ifs
  · rw [tSum_exchange, tri3_comm, add_comm (l1 : ℤ) l2, show (l2 : ℤ) + l1 - Λ + (Λ + l2 - l1) - (l2 + m2) = l2 - m2 by ring,
      show (l2 : ℤ) + l1 - Λ + (Λ + l1 - l2) - (l1 - m1) = l1 + m1 by ring]
    ring
  · rw [mul_zero]

end Verif.Moshinsky.Osc
