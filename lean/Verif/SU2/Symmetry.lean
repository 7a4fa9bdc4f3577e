import Verif.SU2.Recouple

/-!
# Exchange of an angular momentum with the total

`(j₁ m₁ j₂ m₂ | J M)` in terms of `(J M j₂ -m₂ | j₁ m₁)`.
-/

namespace Verif.SU2
open Verif.Moshinsky Verif.Moshinsky.Osc

theorem tTerm_turn (a b c β α k : ℤ) : tTerm c b a (c + β - α) (a + c - α) (c - α + k) = sgn (c - α) * tTerm a b c β α k := by
  unfold tTerm
  have h : sgn (c - α + k) = sgn (c - α) * sgn k := by
    unfold sgn
    split_ifs <;> first | omega | norm_num
  rw [h, show c - (c - α + k) = α - k by ring, show c + β - α - (c - α + k) = β - k by ring, show b - (c + β - α) + (c - α + k) = b - β + k by ring,
    show a + c - α - (c - α + k) = a - k by ring, show a - (a + c - α) + (c - α + k) = k by ring]
  ring

/-- The alternating sum over a wider range. -/
theorem tSum_wide (a b c β α : ℤ) {lo hi : ℤ} (h1 : lo ≤ 0) (h2 : a ≤ hi) : tSum a b c β α = ∑ k ∈ Finset.Icc lo hi, tTerm a b c β α k := by
  unfold tSum
  refine Finset.sum_subset (Finset.Icc_subset_Icc h1 h2) fun k _ hk => tTerm_zero ?_
  rw [Finset.mem_Icc] at hk
  omega

theorem tSum_turn (a b c β α : ℤ) : tSum c b a (c + β - α) (a + c - α) = sgn (c - α) * tSum a b c β α := by
  rw [tSum_wide a b c β α (lo := min 0 (α - c)) (hi := max a α) (by omega) (by omega),
    tSum_wide c b a _ _ (lo := c - α + min 0 (α - c)) (hi := c - α + max a α) (by omega) (by omega), Finset.mul_sum]
  refine Finset.sum_bij' (fun k _ => k - (c - α)) (fun k _ => c - α + k) ?_ ?_ ?_ ?_ ?_
  · intro k hk
    rw [Finset.mem_Icc] at *
    omega
  · intro k hk
    rw [Finset.mem_Icc] at *
    omega
  · intro k _
    ring
  · intro k _
    ring
  · intro k _
    rw [← tTerm_turn, add_sub_cancel]

theorem trid_turn {j1 j2 J : ℕ} : √((J : ℝ) + 1) * trid J j2 j1 = √((j1 : ℝ) + 1) * trid j1 j2 J := by
  unfold trid
  rw [← Real.sqrt_mul (by positivity), ← Real.sqrt_mul (by positivity)]
  congr 1
  push_cast
  rw [show (J : ℤ) + j2 - j1 = J + j2 - j1 by ring, show (j1 : ℤ) + J - j2 = J + j1 - j2 by ring, show (J : ℤ) + j2 + j1 = j1 + j2 + J by ring,
    show (j1 : ℤ) + j2 - J = j1 + j2 - J by ring]
  ring

/-- Exchange of the first angular momentum with the total. -/
theorem cgd_turn (j1 : ℕ) (m1 : ℤ) (j2 : ℕ) (m2 : ℤ) (J : ℕ) (M : ℤ) :
    √((J : ℝ) + 1) * cgd J M j2 (-m2) j1 m1 = sgn (((J : ℤ) - j1 - m2) / 2) * (√((j1 : ℝ) + 1) * cgd j1 m1 j2 m2 J M) := by
  unfold cgd
  by_cases h : m1 + m2 = M ∧ ((j1 : ℤ) + m1) % 2 = 0 ∧ ((j2 : ℤ) + m2) % 2 = 0 ∧ ((j1 : ℤ) + j2 + J) % 2 = 0
  · rw [if_pos h, if_pos (by omega)]
    obtain ⟨h1, h2, h3, h4⟩ := h
    have e := tSum_turn (((j1 : ℤ) + j2 - J) / 2) (((J : ℤ) + j1 - j2) / 2) (((J : ℤ) + j2 - j1) / 2) ((j1 - m1) / 2) ((j2 + m2) / 2)
    rw [show ((J : ℤ) + j2 - j1) / 2 + (j1 - m1) / 2 - (j2 + m2) / 2 = (J - M) / 2 by omega,
      show ((j1 : ℤ) + j2 - J) / 2 + ((J : ℤ) + j2 - j1) / 2 - (j2 + m2) / 2 = (j2 + -m2) / 2 by omega,
      show ((J : ℤ) + j2 - j1) / 2 - (j2 + m2) / 2 = ((J : ℤ) - j1 - m2) / 2 by omega] at e
    rw [show ((j1 : ℤ) + J - j2) = J + j1 - j2 by ring, e, prd_neg]
    linear_combination (prd J M * prd j2 m2 * prd j1 m1 * sgn (((J : ℤ) - j1 - m2) / 2) *
      tSum (((j1 : ℤ) + j2 - J) / 2) (((J : ℤ) + j1 - j2) / 2) (((J : ℤ) + j2 - j1) / 2) ((j1 - m1) / 2) ((j2 + m2) / 2)) * trid_turn (j1 := j1) (j2 := j2) (J := J)
  · rw [if_neg h, if_neg (by omega)]
    ring

end Verif.SU2
