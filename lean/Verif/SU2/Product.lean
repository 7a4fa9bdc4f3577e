import Verif.SU2.Recouple
import Verif.Moshinsky.BranchProps

/-!
# Products of two tensor operators on the same system
-/

namespace Verif.SU2

open Verif.Moshinsky (sgn)

/-- The overlap of `((a k2)b k1)c` and `(a (k1 k2)k)c`, by sums over projections. -/
noncomputable def recoupling (a b c k1 k2 k : ℕ) : ℝ :=
  ∑ m ∈ projs a, ∑ q ∈ projs k, ∑ q1 ∈ projs k1, ∑ q2 ∈ projs k2, ∑ μ ∈ projs b,
    (cgd a m k2 q2 b μ * cgd b μ k1 q1 c c) * (cgd k1 q1 k2 q2 k q * cgd a m k q c c)

theorem sum_inner {a b c k1 k2 : ℕ} {m q1 q2 M' : ℤ} :
    ∑ μ ∈ projs b, cgd a m k2 q2 b μ * cgd b μ k1 q1 c M' = sgn (((a : ℤ) + k2 - b) / 2) * amp3 k2 a k1 b c M' q2 m q1 := by
  by_cases h : m + q2 ∈ projs b
  · rw [Finset.sum_eq_single_of_mem (m + q2) h fun μ _ hne => by rw [cgd_of_ne (by omega), zero_mul], amp3, cgd_exchange a m, add_comm q2 m]
    ring
  · rw [Finset.sum_eq_zero fun μ hμ => by rw [cgd_of_ne (fun e => h (e ▸ hμ)), zero_mul], amp3, add_comm q2 m]
    rw [cgd_exchange k2 q2, cgd_range (by tauto)]
    ring

/-- Elements of a product of tensor operators, coupled to rank `k`. -/
theorem product_phase (a b c k1 k2 k : ℕ) : ∃ w, ∀ m ∈ projs a, ∀ q ∈ projs k, ∀ M',
    ∑ q1 ∈ projs k1, ∑ q2 ∈ projs k2, cgd k1 q1 k2 q2 k q * ∑ μ ∈ projs b, cgd a m k2 q2 b μ * cgd b μ k1 q1 c M' = w * cgd a m k q c M' := by
  by_cases hk : Coupled k1 k2 k
  swap
  · refine ⟨0, fun m _ q _ M' => ?_⟩
    rw [zero_mul]
    exact Finset.sum_eq_zero fun q1 _ => Finset.sum_eq_zero fun q2 _ => by rw [cgd_triangle hk, zero_mul]
  refine ⟨sgn (((a : ℤ) + k2 - b) / 2) * sgn (((k1 : ℤ) + k2 - k) / 2) * sgn (((k : ℤ) + a - c) / 2) * overlap3 k2 a k1 b k c c, fun m hm q hq M' => ?_⟩
  have hk' : Coupled k2 k1 k := by
    obtain ⟨h1, h2, h3⟩ := hk
    rw [abs_le] at h1
    refine ⟨?_, by omega, by omega⟩
    rw [abs_le]
    omega
  have e : ∀ q1 ∈ projs k1, ∀ q2 ∈ projs k2, cgd k1 q1 k2 q2 k q * ∑ μ ∈ projs b, cgd a m k2 q2 b μ * cgd b μ k1 q1 c M' =
      ∑ κ ∈ (sums k2 k1).filter (fun κ => Coupled κ a c), sgn (((a : ℤ) + k2 - b) / 2) * sgn (((k1 : ℤ) + k2 - k) / 2) * overlap3 k2 a k1 b κ c c * cgd κ q a m c M' *
        (cgd k2 q2 k1 q1 k q * cgd k2 q2 k1 q1 κ q) := by
    intro q1 h1 q2 h2
    rw [sum_inner, recouple3 _ _ _ _ _ _ h2 hm h1, Finset.mul_sum, Finset.mul_sum]
    refine Finset.sum_congr rfl fun κ _ => ?_
    rw [amp3, cgd_exchange k1 q1]
    by_cases hs : q2 + q1 = q
    · rw [hs]
      ring
    · rw [show cgd k2 q2 k1 q1 k q = 0 from cgd_of_ne hs]
      ring
  rw [Finset.sum_congr rfl fun q1 h1 => Finset.sum_congr rfl fun q2 h2 => e q1 h1 q2 h2]
  rw [Finset.sum_congr rfl fun q1 _ => Finset.sum_comm, Finset.sum_comm]
  have o : ∀ κ : ℕ, ∑ q1 ∈ projs k1, ∑ q2 ∈ projs k2, cgd k2 q2 k1 q1 k q * cgd k2 q2 k1 q1 κ q = if k = κ then 1 else 0 := by
    intro κ
    rw [Finset.sum_comm, cgd_ortho hk' hq]
    simp
  simp only [← Finset.mul_sum, o]
  rw [cgd_exchange a m k q]
  by_cases hc : Coupled k a c
  · rw [Finset.sum_eq_single_of_mem k (Finset.mem_filter.mpr ⟨mem_sums.mpr hk', hc⟩) fun κ _ hne => by rw [if_neg (Ne.symm hne), mul_zero], if_pos rfl]
    have s2 : sgn (((k : ℤ) + a - c) / 2) * sgn (((a : ℤ) + k - c) / 2) = 1 := by
      rw [add_comm (k : ℤ) a]
      exact Verif.Moshinsky.sgn_mul_self _
    linear_combination (-(sgn (((a : ℤ) + k2 - b) / 2) * sgn (((k1 : ℤ) + k2 - k) / 2) * overlap3 k2 a k1 b k c c * cgd k q a m c M')) * s2
  · rw [cgd_triangle hc, mul_zero, mul_zero]
    refine Finset.sum_eq_zero fun κ hκ => ?_
    rw [if_neg, mul_zero]
    rintro rfl
    exact hc (Finset.mem_filter.mp hκ).2

/-- **Products.**  Elements of a product of tensor operators, coupled to rank `k`. -/
theorem product_recoupling {a b c k1 k2 k : ℕ} {m q : ℤ} (hm : m ∈ projs a) (hq : q ∈ projs k) (M' : ℤ) :
    ∑ q1 ∈ projs k1, ∑ q2 ∈ projs k2, cgd k1 q1 k2 q2 k q * ∑ μ ∈ projs b, cgd a m k2 q2 b μ * cgd b μ k1 q1 c M' = recoupling a b c k1 k2 k * cgd a m k q c M' := by
  obtain ⟨w, hw⟩ := product_phase a b c k1 k2 k
  rw [hw m hm q hq]
  by_cases hc : Coupled a k c
  · have hcc : (c : ℤ) ∈ projs c := by
      rw [mem_projs]
      omega
    have : recoupling a b c k1 k2 k = w := by
      unfold recoupling
      trans ∑ m ∈ projs a, ∑ q ∈ projs k, w * (cgd a m k q c c * cgd a m k q c c)
      · refine Finset.sum_congr rfl fun m hm => Finset.sum_congr rfl fun q hq => ?_
        rw [← mul_assoc, ← hw m hm q hq, Finset.sum_mul]
        refine Finset.sum_congr rfl fun q1 _ => ?_
        rw [Finset.sum_mul]
        refine Finset.sum_congr rfl fun q2 _ => ?_
        rw [Finset.mul_sum, Finset.sum_mul]
        refine Finset.sum_congr rfl fun μ _ => ?_
        ring
      · simp only [← Finset.mul_sum]
        rw [cgd_ortho hc hcc, if_pos ⟨rfl, rfl⟩, mul_one]
    rw [this]
  · rw [cgd_triangle hc, mul_zero, mul_zero]

end Verif.SU2
