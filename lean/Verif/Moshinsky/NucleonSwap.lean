import Verif.Moshinsky.NucleonCoeff
import Verif.Moshinsky.ProgramExamples
import Verif.SU2.Symmetry

/-!
# Exchange of bra and ket

The reduction factor and the factor of an exchange of bra and ket, in the convention of Rose, obey the law that C58 needs.
-/

namespace Verif.Moshinsky
open Verif MvPolynomial Osc Program
open Verif.SU2 hiding couple

/-- Exchange of the first angular momentum with the total, integral angular momenta. -/
theorem cg_turn (j1 : ℕ) (m1 : ℤ) (j2 : ℕ) (m2 : ℤ) (J : ℕ) (M : ℤ) :
    √(2 * (J : ℝ) + 1) * Osc.cg J M j2 (-m2) j1 m1 = sgn ((J : ℤ) + j1 + m2) * (√(2 * (j1 : ℝ) + 1) * Osc.cg j1 m1 j2 m2 J M) := by
  have h := cgd_turn (2 * j1) (2 * m1) (2 * j2) (2 * m2) (2 * J) (2 * M)
  rw [← cgd_even j1 m1, ← cgd_even J M]
  push_cast at h
  rw [show (2 : ℤ) * -m2 = -(2 * m2) by ring, h]
  congr 1
  exact sgn_parity (by omega)

/-- Coupling coefficients of three angular momenta that couple do not all vanish. -/
theorem cg_ne_zero {j1 j2 J : ℕ} (h : Tri j1 j2 J) : ∃ m1 m2 M : ℤ, Osc.cg j1 m1 j2 m2 J M ≠ 0 := by
  by_contra hc
  push Not at hc
  have hC : Coupled (2 * j1) (2 * j2) (2 * J) := by
    unfold Tri at h
    unfold Coupled
    rw [abs_le]
    push_cast
    omega
  have hn := cgd_norm hC (top_mem (2 * J))
  have e : ∀ m1 ∈ projs (2 * j1), ∀ m2 ∈ projs (2 * j2), cgd (2 * j1) m1 (2 * j2) m2 (2 * J) ((2 * J : ℕ) : ℤ) ^ 2 = 0 := by
    intro m1 h1 m2 h2
    rw [mem_projs] at h1 h2
    obtain ⟨k1, rfl⟩ : ∃ k, m1 = 2 * k := ⟨m1 / 2, by omega⟩
    obtain ⟨k2, rfl⟩ : ∃ k, m2 = 2 * k := ⟨m2 / 2, by omega⟩
    push_cast
    rw [cgd_even, hc, zero_pow two_ne_zero]
  rw [Finset.sum_congr rfl fun m1 h1 => Finset.sum_congr rfl fun m2 h2 => e m1 h1 m2 h2] at hn
  simp at hn

/-- The law of exchange of bra and ket. -/
theorem rose_swap {rose : Int → Int → Int → Int → Int → Int → Int → ℝ} (hr : IsRose rose) {J J' J0 : ℕ} (h : Tri J' J0 J) (Jb Jk l : ℕ) :
    √(2 * (Jb : ℝ) + 1) * √(2 * (J' : ℝ) + 1) * (sgn (J + J') * rose Jk l J' Jb l J J0) =
      √(2 * (Jk : ℝ) + 1) * √(2 * (J : ℝ) + 1) * (sgn (Jb + Jk) * rose Jb l J Jk l J' J0) := by
  obtain ⟨M', M0, M, hne⟩ := cg_ne_zero h
  have h1 := hr Jb l J Jk J' J0 M M' M0
  have h2 := hr Jk l J' Jb J J0 M' M (-M0)
  have e : √(2 * (Jb : ℝ) + 1) * (rose Jk l J' Jb l J J0 * Osc.cg J M J0 (-M0) J' M') =
      sgn (Jb + Jk + M0) * √(2 * (Jk : ℝ) + 1) * (rose Jb l J Jk l J' J0 * Osc.cg J' M' J0 M0 J M) := by
    rw [← h1, ← h2]
    simp only [Finset.mul_sum]
    rw [Finset.sum_congr rfl fun m' _ => Finset.sum_comm, Finset.sum_comm]
    refine Finset.sum_congr rfl fun m _ => ?_
    rw [Finset.sum_comm]
    refine Finset.sum_congr rfl fun mc _ => Finset.sum_congr rfl fun m' _ => ?_
    linear_combination Osc.cg Jk m' l mc J' M' * Osc.cg Jb m l mc J M * cg_turn Jk m' J0 M0 Jb m
  have e' := cg_turn J' M' J0 M0 J M
  have s1 : sgn (Jb + Jk + M0) = sgn (Jb + Jk) * sgn M0 := (sgn_mul_sgn _ _).symm
  have s2 : sgn (J + J' + M0) = sgn (J + J') * sgn M0 := (sgn_mul_sgn _ _).symm
  have q1 := sgn_mul_self M0
  refine mul_right_cancel₀ hne ?_
  rw [s1] at e
  rw [s2] at e'
  have k : sgn M0 * √(2 * (Jb : ℝ) + 1) * √(2 * (J' : ℝ) + 1) * (sgn (J + J') * rose Jk l J' Jb l J J0) * Osc.cg J' M' J0 M0 J M =
      sgn M0 * √(2 * (Jk : ℝ) + 1) * √(2 * (J : ℝ) + 1) * (sgn (Jb + Jk) * rose Jb l J Jk l J' J0) * Osc.cg J' M' J0 M0 J M := by
    linear_combination √(2 * (J : ℝ) + 1) * e - √(2 * (Jb : ℝ) + 1) * rose Jk l J' Jb l J J0 * e'
  linear_combination sgn M0 * k - (√(2 * (Jb : ℝ) + 1) * √(2 * (J' : ℝ) + 1) * (sgn (J + J') * rose Jk l J' Jb l J J0) * Osc.cg J' M' J0 M0 J M -
    √(2 * (Jk : ℝ) + 1) * √(2 * (J : ℝ) + 1) * (sgn (Jb + Jk) * rose Jb l J Jk l J' J0) * Osc.cg J' M' J0 M0 J M) * q1

/-- The reduction factor vanishes unless the operator connects the total angular momenta. -/
theorem roseC_zero {J J' J0 : ℕ} (h : ¬Tri J' J0 J) (Jb Jk l : ℕ) : roseC Jb l J Jk l J' J0 = 0 := by
  simp only [roseC, Int.toNat_natCast]
  refine Finset.sum_eq_zero fun _ _ => Finset.sum_eq_zero fun _ _ => Finset.sum_eq_zero fun _ _ => ?_
  have h1 : ¬Coupled (2 * J') (2 * J0) (2 * J) := by
    intro hc
    apply h
    unfold Coupled at hc
    unfold Tri
    rw [abs_le] at hc
    push_cast at hc
    omega
  rw [amp3, amp3, cgd_triangle (j1 := 2 * J') h1]
  ring

/-- The coefficients of the `am` library obey the law of exchange that the chain of transformations relies on. -/
theorem swapLaw_envC (J0 T0 : ℕ) : SwapLaw (envC fun _ => roseSwap) J0 T0 := by
  intro Jb Jk l J J' T T'
  show roseC Jb l J Jk l J' J0 * roseSwap (Jb, T) (Jk, T') = roseSwap (J, T) (J', T') * roseC Jk l J' Jb l J J0
  by_cases h : Tri J' J0 J
  swap
  · rw [roseC_zero h, roseC_zero fun h' => h (by unfold Tri at *; omega)]
    ring
  have e := rose_swap roseC_isRose h Jb Jk l
  have p : ∀ n : ℕ, √(2 * (n : ℝ) + 1) ≠ 0 := fun n => (Real.sqrt_pos.mpr (by positivity)).ne'
  have m : ∀ a b : ℕ, √((2 * (a : ℝ) + 1) * (2 * b + 1)) = √(2 * a + 1) * √(2 * b + 1) := fun a b => Real.sqrt_mul (by positivity) _
  have s : ∀ a b c d : ℕ, (-1 : ℝ) ^ (a + b + c + d) = sgn (a + b) * sgn (c + d) := by
    intro a b c d
    rw [sgn_mul_sgn, neg_one_pow_sgn]
    exact sgn_parity (by push_cast; omega)
  unfold roseSwap
  simp only [m, s]
  have := p Jb; have := p J; have := p T; have := p T'
  field_simp
  linear_combination -sgn (T + T') * e

end Verif.Moshinsky
