import Verif.SU2.Symmetry
import Verif.SU2.Complete

/-!
# Coupling with an angular momentum zero or one

Arguments doubled.
-/

namespace Verif.SU2
open Verif.Moshinsky Verif.Moshinsky.Osc

theorem ff_mul_pred {i : ℤ} (h : 0 ≤ i) : ff i * rf (i - 1) = i := by
  rw [rf_pred, mul_left_comm, ff_rf h, mul_one]

theorem tSum_none (b c β α : ℤ) : tSum 0 b c β α = rf β * rf (b - β) * rf α * rf (c - α) := by
  rw [tSum, Finset.Icc_self, Finset.sum_singleton, tTerm]
  simp [sgn, rf_zero]

theorem rf_one : rf 1 = 1 := by
  rw [rf_of_nonneg (by omega)]
  simp [ff]

theorem tSum_once (b c β α : ℤ) : tSum 1 b c β α = rf β * rf (b - β) * rf α * rf (c - α) -
    rf (β - 1) * rf (b - β + 1) * rf (α - 1) * rf (c - α + 1) := by
  rw [tSum, show Finset.Icc (0 : ℤ) 1 = {0, 1} from rfl, Finset.sum_pair (by omega), tTerm, tTerm]
  simp [sgn, rf_zero, rf_one]
  ring

theorem prd_sq (j m : ℤ) : prd j m * prd j m = ff ((j + m) / 2) * ff ((j - m) / 2) :=
  Real.mul_self_sqrt (mul_pos (ff_pos _) (ff_pos _)).le

/-- Coupling with angular momentum zero. -/
theorem cgd_scalar {j : ℕ} {m : ℤ} (hm : m ∈ projs j) : cgd j m 0 0 j m = 1 := by
  rw [mem_projs] at hm
  have hA := ff_rf (i := (j + m) / 2) (by omega)
  have hB := ff_rf (i := (j - m) / 2) (by omega)
  have hj := (ff_pos (j : ℤ)).ne'
  have hj1 : (j : ℝ) + 1 ≠ 0 := by positivity
  have ht : trid j (0 : ℕ) j = 1 := by
    unfold trid
    rw [show ((j : ℤ) + (0 : ℕ) - j) / 2 = 0 by omega, show ((j : ℤ) + j - (0 : ℕ)) / 2 = j by omega,
      show ((j : ℤ) + (0 : ℕ) + j) / 2 + 1 = j + 1 by omega, ff_succ (by omega), show ff 0 = 1 by simp [ff]]
    push_cast
    rw [show ((j : ℝ) + 1) * 1 * ff j * 1 / ((j + 1) * ff j) = 1 by field_simp, Real.sqrt_one]
  have hp : prd (0 : ℕ) 0 = 1 := by simp [prd, ff]
  have hs := prd_sq j m
  unfold cgd
  rw [if_pos (by omega), ht, hp, show ((j : ℤ) + (0 : ℕ) - j) / 2 = 0 by omega, tSum_none,
    show ((j : ℤ) + j - (0 : ℕ)) / 2 - (j - m) / 2 = (j + m) / 2 by omega, show (((0 : ℕ) : ℤ) + 0) / 2 = 0 by omega, sub_zero, rf_zero]
  linear_combination (rf ((j - m) / 2) * rf ((j + m) / 2)) * hs + (ff ((j - m) / 2) * rf ((j - m) / 2)) * hA + hB

theorem trid_vector {j : ℕ} (h : 0 < j) : trid j (2 : ℕ) j * √((j : ℝ) * (j + 2) / 4) = 1 / 2 := by
  obtain ⟨i, rfl⟩ : ∃ i, j = i + 1 := ⟨j - 1, by omega⟩
  have hi := (ff_pos (i : ℤ)).ne'
  unfold trid
  rw [show ((i + 1 : ℕ) + (2 : ℕ) - (i + 1 : ℕ) : ℤ) / 2 = 1 by omega, show ((i + 1 : ℕ) + (i + 1 : ℕ) - (2 : ℕ) : ℤ) / 2 = i by omega,
    show ((i + 1 : ℕ) + (2 : ℕ) + (i + 1 : ℕ) : ℤ) / 2 + 1 = i + 1 + 1 + 1 by omega, ff_succ (by omega), ff_succ (by omega), ff_succ (by omega),
    show ff 1 = 1 by simp [ff], ← Real.sqrt_mul, show (1 / 2 : ℝ) = √((1 / 2) ^ 2) by rw [Real.sqrt_sq (by norm_num)]]
  · congr 1
    push_cast
    have h1 : (i : ℝ) + 1 ≠ 0 := by positivity
    have h2 : (i : ℝ) + 1 + 1 ≠ 0 := by positivity
    have h3 : (i : ℝ) + 1 + 1 + 1 ≠ 0 := by positivity
    field_simp
    ring
  · have := ff_pos (i : ℤ)
    push_cast
    positivity

/-- The component along the axis. -/
theorem cgd_vector_zero {j : ℕ} {m : ℤ} (hm : m ∈ projs j) : cgd j m 2 0 j m * √((j : ℝ) * (j + 2) / 4) = m / 2 := by
  rcases Nat.eq_zero_or_pos j with rfl | hj
  · rw [mem_projs] at hm
    rw [show m = 0 by omega]
    simp
  have ht := trid_vector hj
  rw [mem_projs] at hm
  have hA := ff_rf (i := (j + m) / 2) (by omega)
  have hB := ff_rf (i := (j - m) / 2) (by omega)
  have hA' := ff_mul_pred (i := (j + m) / 2) (by omega)
  have hB' := ff_mul_pred (i := (j - m) / 2) (by omega)
  have hp : prd (2 : ℕ) 0 = 1 := by simp [prd, ff]
  have hs := prd_sq j m
  have hm' : (((j + m) / 2 : ℤ) : ℝ) - (((j - m) / 2 : ℤ) : ℝ) = m := by
    exact_mod_cast (show ((j : ℤ) + m) / 2 - (j - m) / 2 = m by omega)
  unfold cgd
  rw [if_pos (by omega), hp, show ((j : ℤ) + (2 : ℕ) - j) / 2 = 1 by omega, tSum_once,
    show ((j : ℤ) + j - (2 : ℕ)) / 2 - (j - m) / 2 = (j + m) / 2 - 1 by omega, show (((2 : ℕ) : ℤ) + 0) / 2 = 1 by omega, rf_one,
    show (1 : ℤ) - 1 = 0 by ring, rf_zero, zero_add, rf_one, show ∀ x : ℤ, x - 1 + 1 = x by intros; ring]
  calc _ = (trid j (2 : ℕ) j * √((j : ℝ) * (j + 2) / 4)) * ((prd j m * prd j m) *
      (rf ((j - m) / 2) * rf ((j + m) / 2 - 1) - rf ((j - m) / 2 - 1) * rf ((j + m) / 2))) := by ring
    _ = 1 / 2 * (m : ℝ) := by
        rw [ht, hs, ← hm', ← hA', ← hB']
        linear_combination (ff ((j + m) / 2) * rf ((j + m) / 2 - 1) / 2) * hB - (ff ((j - m) / 2) * rf ((j - m) / 2 - 1) / 2) * hA
    _ = _ := by ring

/-- The raising component. -/
theorem cgd_vector_up {j : ℕ} {m : ℤ} (hm : m ∈ projs j) : cgd j m 2 2 j (m + 2) * √((j : ℝ) * (j + 2) / 4) = -up j m / √2 := by
  by_cases hj : m = j
  · rw [hj, up_top, cgd_range fun h => by have := h.2.2; rw [mem_projs] at this; omega]
    simp
  rw [mem_projs] at hm
  have ht := trid_vector (j := j) (by omega)
  have hA := ff_rf (i := (j + m) / 2) (by omega)
  have hB := ff_rf (i := (j - m) / 2 - 1) (by omega)
  have hp : prd (2 : ℕ) 2 = √2 := by simp [prd, ff]
  have hu := prd_up (j := j) (m := m) (by omega) (by omega) (by omega)
  have hs := prd_sq j m
  have h2 : √(2 : ℝ) ≠ 0 := by positivity
  have h2' : √(2 : ℝ) * √2 = 2 := Real.mul_self_sqrt (by norm_num)
  have hv : up j m * up j m = (((j + m) / 2 : ℤ) + 1 : ℝ) * (((j - m) / 2 : ℤ) : ℝ) := by
    rw [up_sq (by rw [mem_projs]; omega)]
    have e1 : (j : ℝ) - m = 2 * (((j - m) / 2 : ℤ) : ℝ) := by exact_mod_cast (show (j : ℤ) - m = 2 * ((j - m) / 2) by omega)
    have e2 : (j : ℝ) + m = 2 * (((j + m) / 2 : ℤ) : ℝ) := by exact_mod_cast (show (j : ℤ) + m = 2 * ((j + m) / 2) by omega)
    rw [e1, e2]
    ring
  have hf : ff ((j - m) / 2) = (((j - m) / 2 : ℤ) : ℝ) * ff ((j - m) / 2 - 1) := by
    have := ff_succ (i := (j - m) / 2 - 1) (by omega)
    rw [sub_add_cancel] at this
    rw [this]
    push_cast
    ring
  have hne : up j m ≠ 0 := by
    intro h0
    rw [h0, mul_zero] at hv
    have e1 : (0 : ℝ) ≤ (((j + m) / 2 : ℤ) : ℝ) := by exact_mod_cast (show 0 ≤ ((j : ℤ) + m) / 2 by omega)
    have e2 : (0 : ℝ) < (((j - m) / 2 : ℤ) : ℝ) := by exact_mod_cast (show 0 < ((j : ℤ) - m) / 2 by omega)
    have : 0 < ((((j + m) / 2 : ℤ) : ℝ) + 1) * (((j - m) / 2 : ℤ) : ℝ) := by positivity
    linarith
  unfold cgd
  rw [if_pos (by omega), hp, show ((j : ℤ) + (2 : ℕ) - j) / 2 = 1 by omega, tSum_once,
    show ((j : ℤ) + j - (2 : ℕ)) / 2 - (j - m) / 2 + 1 = (j + m) / 2 by omega, show (((2 : ℕ) : ℤ) + 2) / 2 = 2 by omega,
    show (2 : ℤ) - 1 = 1 by ring, rf_one, show (1 : ℤ) - 2 = -1 by ring, rf_neg (show (-1 : ℤ) < 0 by omega),
    show (-1 : ℤ) + 1 = 0 by ring, rf_zero]
  refine mul_left_cancel₀ hne ?_
  rw [mul_div_assoc']
  rw [eq_div_iff h2]
  have k : prd j m * (up j m * prd j (m + 2)) * (rf ((j - m) / 2 - 1) * rf ((j + m) / 2)) = up j m * up j m := by
    rw [hu, hv]
    linear_combination (((j + m) / 2 : ℤ) + 1 : ℝ) * (rf ((j - m) / 2 - 1) * rf ((j + m) / 2)) * (hs + ff ((j + m) / 2) * hf) +
      (((j + m) / 2 : ℤ) + 1 : ℝ) * (((j - m) / 2 : ℤ) : ℝ) * (ff ((j - m) / 2 - 1) * rf ((j - m) / 2 - 1) * hA + hB)
  linear_combination (-(√2 * √2) * (up j m * prd j m * prd j (m + 2)) * (rf ((j - m) / 2 - 1) * rf ((j + m) / 2))) * ht
    - (√2 * √2 / 2) * k - up j m * up j m / 2 * h2'

/-- The lowering component. -/
theorem cgd_vector_dn {j : ℕ} {m : ℤ} (hm : m ∈ projs j) : cgd j m 2 (-2) j (m - 2) * √((j : ℝ) * (j + 2) / 4) = dn j m / √2 := by
  have := cgd_vector_up (j := j) (m := -m) (by rw [mem_projs] at *; omega)
  rw [up_neg] at this
  rw [cgd_flip, neg_neg, show -(m - 2) = -m + 2 by ring, show ((j : ℤ) + (2 : ℕ) - j) / 2 = 1 by omega, show sgn 1 = -1 by simp [sgn]]
  linear_combination -this

end Verif.SU2
