import Verif.Separable.Props
import Verif.Relative.TrueProduct

/-!
# The recoupling factors of angular momentum

The three factors of `am/racah_reduction.h` for the coupling coefficients of Condon and Shortley.
-/

namespace Verif.Separable
open Verif Verif.SU2 Verif.Moshinsky Verif.Moshinsky.Osc
open Verif.Relative (red1D red2D red12D cgD reduces1 reduces2 reduces12 sgn_pow)

/-- The factors: those of an operator on the first, on the second, and of a product of operators on the two systems. -/
noncomputable def amS : Am where
  f1 tc td J' ta _ J J0 := red1D tc td (2 * J') ta (2 * J) (2 * J0.toNat)
  f2 _ td J' ta tb J J0 := red2D ta td (2 * J') tb (2 * J) (2 * J0.toNat)
  f12 tc td J' ta tb J J1 J2 J0 := red12D tc td (2 * J') ta tb (2 * J) (2 * J1.toNat) (2 * J2.toNat) (2 * J0.toNat)

theorem exchange_law : ExchangeLaw amS := by
  intro tc td J' ta tb J J1 J2 J0 hcd hab
  simp only [amS, Int.toNat_natCast, red12D, overlap4]
  have e : ∀ ma m1 mb m2, amp4 tb (2 * J2) ta (2 * J1) td tc (2 * J') (2 * J' : ℕ) mb m2 ma m1 *
      amp4 tb ta (2 * J2) (2 * J1) (2 * J) (2 * J0) (2 * J') (2 * J' : ℕ) mb ma m2 m1 =
      (-1) ^ (J' + J + (tc + td) / 2 + (ta + tb) / 2 + J1 + J2 + J0) *
      (amp4 ta (2 * J1) tb (2 * J2) tc td (2 * J') (2 * J' : ℕ) ma m1 mb m2 *
        amp4 ta tb (2 * J1) (2 * J2) (2 * J) (2 * J0) (2 * J') (2 * J' : ℕ) ma mb m1 m2) := by
    intro ma m1 mb m2
    simp only [amp4]
    rw [cgd_exchange td, cgd_exchange tb mb ta, cgd_exchange (2 * J2), add_comm mb ma, add_comm m2 m1]
    have s : sgn (((td : ℤ) + tc - (2 * J' : ℕ)) / 2) * sgn (((tb : ℤ) + ta - (2 * J : ℕ)) / 2) *
        sgn ((((2 * J2 : ℕ) : ℤ) + (2 * J1 : ℕ) - (2 * J0 : ℕ)) / 2) = (-1) ^ (J' + J + (tc + td) / 2 + (ta + tb) / 2 + J1 + J2 + J0) := by
      rw [sgn_mul_sgn, sgn_mul_sgn, ← sgn_pow]
      refine sgn_parity ?_
      push_cast
      omega
    rw [← s]
    ring
  simp only [e, Finset.mul_sum]
  calc _ = ∑ mb ∈ projs tb, ∑ ma ∈ projs ta, ∑ m2 ∈ projs (2 * J2), ∑ m1 ∈ projs (2 * J1),
        (-1) ^ (J' + J + (tc + td) / 2 + (ta + tb) / 2 + J1 + J2 + J0) *
      (amp4 ta (2 * J1) tb (2 * J2) tc td (2 * J') (2 * J' : ℕ) ma m1 mb m2 *
        amp4 ta tb (2 * J1) (2 * J2) (2 * J) (2 * J0) (2 * J') (2 * J' : ℕ) ma mb m1 m2) :=
        Finset.sum_congr rfl fun mb _ => Finset.sum_comm
    _ = _ := by
      rw [Finset.sum_comm]
      refine Finset.sum_congr rfl fun ma _ => ?_
      rw [Finset.sum_comm (s := projs (2 * J1))]
      refine Finset.sum_congr rfl fun mb _ => ?_
      rw [Finset.sum_comm]

theorem scalar_one {tc td J : ℕ} (h : Coupled tc td (2 * J)) : red1D tc td (2 * J) tc (2 * J) 0 = 1 := by
  have hJ : ((2 * J : ℕ) : ℤ) ∈ projs (2 * J) := top_mem _
  have h0 : projs 0 = {0} := by decide
  rw [red1D, overlap3, ← cgd_norm h hJ]
  refine Finset.sum_congr rfl fun ma hma => ?_
  rw [h0, Finset.sum_singleton]
  refine Finset.sum_congr rfl fun mc _ => ?_
  simp only [amp3, add_zero]
  rw [cgd_scalar hma]
  by_cases hm : ma + mc = (2 * J : ℕ)
  · rw [hm, cgd_scalar hJ]
    ring
  · rw [cgd_of_ne hm]
    ring

theorem scalar_law : ScalarLaw amS where
  f1 tc td J h1 h2 h3 := by
    have := scalar_one (tc := tc) (td := td) (J := J) ⟨by exact_mod_cast h2, h3, by omega⟩
    simpa [amS] using this
  f2 tc td J h1 h2 h3 := by
    have := scalar_one (tc := td) (td := tc) (J := J) ⟨by rw [abs_sub_comm]; exact_mod_cast h2, by omega, by omega⟩
    simp only [amS, red2D, Int.toNat_zero, mul_zero]
    rw [red1D] at this
    rw [this, mul_one, sgn_mul_self]

end Verif.Separable
