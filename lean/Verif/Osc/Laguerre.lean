import Mathlib.Analysis.SpecialFunctions.Gamma.Basic
import Mathlib.Algebra.BigOperators.Intervals
import Mathlib.Analysis.Calculus.Deriv.Pow
import Mathlib.Analysis.Calculus.Deriv.Add
import Mathlib.Tactic.FieldSimp
import Mathlib.Tactic.LinearCombination
import Mathlib.Tactic.Positivity

/-! # Generalised Laguerre polynomials

A small specification, independent of the code: the polynomials by their explicit sum
`L_n^α(x) = Σ_k (-1)^k binom(n+α, n-k) x^k / k!` and the identities used below. -/

namespace Verif.Osc

/-- `binom(y + m - 1, m)` as the product `y (y+1) ... (y+m-1) / m!`. -/
noncomputable def rising (y : ℝ) (m : ℕ) : ℝ := (∏ i ∈ Finset.range m, (y + i)) / m.factorial

/-- Coefficient of `x^k` of `L_n^α`: `(-1)^k / k! · binom(n+α, n-k)`. -/
noncomputable def lagCoef (α : ℝ) (n k : ℕ) : ℝ :=
  (-1) ^ k / k.factorial * rising (α + k + 1) (n - k)

/-- The generalised Laguerre polynomial. -/
noncomputable def laguerre (n : ℕ) (α x : ℝ) : ℝ :=
  ∑ k ∈ Finset.range (n + 1), lagCoef α n k * x ^ k

theorem rising_zero (y : ℝ) : rising y 0 = 1 := by simp [rising]

theorem rising_succ (y : ℝ) (m : ℕ) : (m + 1) * rising y (m + 1) = (y + m) * rising y m := by
  unfold rising
  rw [Finset.prod_range_succ, Nat.factorial_succ]
  push_cast
  field_simp

theorem rising_shift (y : ℝ) (m : ℕ) : (m + 1) * rising y (m + 1) = y * rising (y + 1) m := by
  unfold rising
  rw [Finset.prod_range_succ', Nat.factorial_succ]
  have : ∀ i ∈ Finset.range m, y + ((i + 1 : ℕ) : ℝ) = y + 1 + i := by
    intro i _; push_cast; ring
  rw [Finset.prod_congr rfl this]
  push_cast
  field_simp
  ring

/-- Pascal's rule. -/
theorem rising_pascal (y : ℝ) (m : ℕ) : rising y (m + 1) = rising (y + 1) (m + 1) - rising (y + 1) m := by
  have h1 := rising_shift y m
  have h2 := rising_succ (y + 1) m
  have h3 : (m : ℝ) + 1 ≠ 0 := by positivity
  apply mul_left_cancel₀ h3
  linear_combination h1 - h2

theorem laguerre_zero (α x : ℝ) : laguerre 0 α x = 1 := by
  simp [laguerre, lagCoef, rising_zero]

theorem laguerre_one (α x : ℝ) : laguerre 1 α x = 1 + α - x := by
  simp [laguerre, lagCoef, rising, Finset.sum_range_succ]
  ring

/-- `L_{n+1}^α = L_{n+1}^{α+1} - L_n^{α+1}`. -/
theorem laguerre_lower (n : ℕ) (α x : ℝ) :
    laguerre (n + 1) α x = laguerre (n + 1) (α + 1) x - laguerre n (α + 1) x := by
  unfold laguerre
  rw [Finset.sum_range_succ _ (n + 1), Finset.sum_range_succ _ (n + 1)]
  have hl : lagCoef α (n + 1) (n + 1) = lagCoef (α + 1) (n + 1) (n + 1) := by
    simp [lagCoef, rising_zero]
  rw [hl, add_sub_right_comm, ← Finset.sum_sub_distrib]
  congr 1
  apply Finset.sum_congr rfl
  intro k hk
  have hk' : k ≤ n := by have := Finset.mem_range.mp hk; omega
  obtain ⟨m, rfl⟩ := Nat.exists_eq_add_of_le hk'
  have e1 : k + m + 1 - k = m + 1 := by omega
  have e2 : k + m - k = m := by omega
  simp only [lagCoef, e1, e2]
  rw [rising_pascal]
  have e3 : α + k + 1 + 1 = α + 1 + k + 1 := by ring
  rw [e3]
  ring

/-- `x L_n^{α+1} = (n+α+1) L_n^α - (n+1) L_{n+1}^α`. -/
theorem laguerre_raise (n : ℕ) (α x : ℝ) :
    x * laguerre n (α + 1) x = (n + α + 1) * laguerre n α x - (n + 1) * laguerre (n + 1) α x := by
  unfold laguerre
  rw [Finset.sum_range_succ (fun k => lagCoef (α + 1) n k * x ^ k) n,
    Finset.sum_range_succ' (fun k => lagCoef α n k * x ^ k) n,
    Finset.sum_range_succ' (fun k => lagCoef α (n + 1) k * x ^ k) (n + 1),
    Finset.sum_range_succ (fun k => lagCoef α (n + 1) (k + 1) * x ^ (k + 1)) n]
  have h0 : (n + α + 1) * lagCoef α n 0 = (n + 1) * lagCoef α (n + 1) 0 := by
    have := rising_succ (α + 1) n
    simp only [lagCoef, Nat.sub_zero]
    norm_num
    linear_combination -this
  have hn : x * (lagCoef (α + 1) n n * x ^ n) = -(n + 1) * (lagCoef α (n + 1) (n + 1) * x ^ (n + 1)) := by
    simp only [lagCoef, Nat.sub_self, rising_zero, Nat.factorial_succ]
    push_cast
    have : (n : ℝ) + 1 ≠ 0 := by positivity
    field_simp
    ring
  have hmid : ∀ k ∈ Finset.range n, x * (lagCoef (α + 1) n k * x ^ k)
      = (n + α + 1) * (lagCoef α n (k + 1) * x ^ (k + 1))
        - (n + 1) * (lagCoef α (n + 1) (k + 1) * x ^ (k + 1)) := by
    intro k hk
    obtain ⟨m, rfl⟩ := Nat.exists_eq_add_of_lt (Finset.mem_range.mp hk)
    have e1 : k + m + 1 - k = m + 1 := by omega
    have e2 : k + m + 1 - (k + 1) = m := by omega
    have e3 : k + m + 1 + 1 - (k + 1) = m + 1 := by omega
    simp only [lagCoef, e1, e2, e3]
    have h1 := rising_succ (α + k + 2) m
    have a1 : α + 1 + (k : ℝ) + 1 = α + k + 2 := by ring
    have a2 : α + ((k + 1 : ℕ) : ℝ) + 1 = α + k + 2 := by push_cast; ring
    rw [a1, a2, Nat.factorial_succ, pow_succ (-1 : ℝ), pow_succ x]
    push_cast
    have hk1 : (k : ℝ) + 1 ≠ 0 := by positivity
    field_simp
    linear_combination -(x * x ^ k) * h1
  rw [mul_add, Finset.mul_sum, Finset.sum_congr rfl hmid, Finset.sum_sub_distrib, ← Finset.mul_sum,
    ← Finset.mul_sum, hn]
  simp only [pow_zero, mul_one]
  linear_combination -h0

/-- The three-term recurrence. -/
theorem laguerre_three_term (n : ℕ) (α x : ℝ) :
    (n + 2) * laguerre (n + 2) α x
      = (2 * n + 3 + α - x) * laguerre (n + 1) α x - (n + 1 + α) * laguerre n α x := by
  have h1 := laguerre_raise (n + 1) α x
  have h2 := laguerre_raise n α x
  have h3 := laguerre_lower n α x
  push_cast at h1
  linear_combination h1 - h2 + x * h3

/-- `d/dx L_{n+1}^α = -L_n^{α+1}`. -/
theorem hasDerivAt_laguerre (n : ℕ) (α x : ℝ) :
    HasDerivAt (fun y => laguerre (n + 1) α y) (-laguerre n (α + 1) x) x := by
  unfold laguerre
  have h : ∀ k ∈ Finset.range (n + 1 + 1), HasDerivAt (fun y : ℝ => lagCoef α (n + 1) k * y ^ k)
      (lagCoef α (n + 1) k * (k * x ^ (k - 1))) x := by
    intro k _
    exact (hasDerivAt_pow k x).const_mul _
  have hs := HasDerivAt.fun_sum h
  refine hs.congr_deriv ?_
  rw [Finset.sum_range_succ', ← Finset.sum_neg_distrib]
  simp only [Nat.cast_zero, zero_mul, mul_zero, add_zero]
  apply Finset.sum_congr rfl
  intro k _
  have e : n + 1 - (k + 1) = n - k := by omega
  simp only [lagCoef, e, Nat.add_sub_cancel, Nat.factorial_succ, pow_succ (-1 : ℝ)]
  have a2 : α + ((k + 1 : ℕ) : ℝ) + 1 = α + 1 + k + 1 := by push_cast; ring
  rw [a2]
  push_cast
  have hk1 : (k : ℝ) + 1 ≠ 0 := by positivity
  field_simp

end Verif.Osc
