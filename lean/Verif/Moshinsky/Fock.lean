import Mathlib.Algebra.MvPolynomial.PDeriv
import Mathlib.Algebra.MvPolynomial.Rename
import Mathlib.Algebra.MvPolynomial.CommRing
import Mathlib.RingTheory.MvPolynomial.Homogeneous
import Mathlib.Data.Real.Basic
import Mathlib.Data.Nat.Factorial.Basic

/-!
# The scalar product of states of oscillators

Polynomials in the creation operators.  Distinct products of creation operators are orthogonal and the norm squared of
`∏ c_i^{k_i}` is `∏ k_i!`.
-/

namespace Verif.Moshinsky.Osc
open MvPolynomial

section
variable {σ : Type*} [Fintype σ]

/-- The norm squared of a product of creation operators. -/
noncomputable def dfac (d : σ →₀ ℕ) : ℝ := ∏ i, ((d i).factorial : ℝ)

/-- The scalar product of two states. -/
noncomputable def fock (u v : MvPolynomial σ ℝ) : ℝ := ∑ d ∈ u.support, u.coeff d * v.coeff d * dfac d

theorem fock_eq {u v : MvPolynomial σ ℝ} {S : Finset (σ →₀ ℕ)} (h : u.support ⊆ S) :
    fock u v = ∑ d ∈ S, u.coeff d * v.coeff d * dfac d :=
  Finset.sum_subset h fun d _ hd => by rw [notMem_support_iff.mp hd, zero_mul, zero_mul]

theorem fock_add_left (u u' v : MvPolynomial σ ℝ) : fock (u + u') v = fock u v + fock u' v := by
  classical
  rw [fock_eq (S := (u + u').support ∪ u.support ∪ u'.support) (by intro d hd; simp only [Finset.mem_union]; tauto),
    fock_eq (u := u) (S := (u + u').support ∪ u.support ∪ u'.support) (by intro d hd; simp only [Finset.mem_union]; tauto),
    fock_eq (u := u') (S := (u + u').support ∪ u.support ∪ u'.support) (by intro d hd; simp only [Finset.mem_union]; tauto),
    ← Finset.sum_add_distrib]
  refine Finset.sum_congr rfl fun d _ => ?_
  rw [coeff_add]
  ring

theorem fock_add_right (u v v' : MvPolynomial σ ℝ) : fock u (v + v') = fock u v + fock u v' := by
  unfold fock
  rw [← Finset.sum_add_distrib]
  refine Finset.sum_congr rfl fun d _ => ?_
  rw [coeff_add]
  ring

theorem fock_smul_left (c : ℝ) (u v : MvPolynomial σ ℝ) : fock (c • u) v = c * fock u v := by
  rw [fock_eq (u := c • u) (S := u.support) support_smul, fock, Finset.mul_sum]
  refine Finset.sum_congr rfl fun d _ => ?_
  rw [coeff_smul, smul_eq_mul]
  ring

theorem fock_smul_right (c : ℝ) (u v : MvPolynomial σ ℝ) : fock u (c • v) = c * fock u v := by
  rw [fock, fock, Finset.mul_sum]
  refine Finset.sum_congr rfl fun d _ => ?_
  rw [coeff_smul, smul_eq_mul]
  ring

theorem fock_comm (u v : MvPolynomial σ ℝ) : fock u v = fock v u := by
  classical
  rw [fock_eq (u := u) (S := u.support ∪ v.support) Finset.subset_union_left,
    fock_eq (u := v) (S := u.support ∪ v.support) Finset.subset_union_right]
  refine Finset.sum_congr rfl fun d _ => ?_
  ring

/-- The scalar product as a bilinear form. -/
noncomputable def fockL : MvPolynomial σ ℝ →ₗ[ℝ] MvPolynomial σ ℝ →ₗ[ℝ] ℝ :=
  LinearMap.mk₂ ℝ fock fock_add_left fock_smul_left fock_add_right fock_smul_right

@[simp] theorem fockL_apply (u v : MvPolynomial σ ℝ) : fockL u v = fock u v := rfl

theorem dfac_succ (d : σ →₀ ℕ) (i : σ) : dfac (d + Finsupp.single i 1) = (d i + 1) * dfac d := by
  classical
  unfold dfac
  rw [← Finset.mul_prod_erase _ _ (Finset.mem_univ i), ← Finset.mul_prod_erase _ (fun i => ((d i).factorial : ℝ)) (Finset.mem_univ i)]
  rw [Finset.prod_congr rfl (g := fun j => ((d j).factorial : ℝ)) fun j hj => by
    rw [Finsupp.add_apply, Finsupp.single_eq_of_ne (Finset.ne_of_mem_erase hj), add_zero]]
  rw [Finsupp.add_apply, Finsupp.single_eq_same, Nat.factorial_succ]
  push_cast
  ring

/-- A creation operator is the adjoint of the annihilation operator. -/
theorem fock_X_left (i : σ) (u v : MvPolynomial σ ℝ) : fock (X i * u) v = fock u (pderiv i v) := by
  rw [fock, support_X_mul, Finset.sum_map, fock]
  refine Finset.sum_congr rfl fun d _ => ?_
  rw [addLeftEmbedding_apply, coeff_X_mul, coeff_pderiv, add_comm, dfac_succ]
  push_cast
  ring

theorem fock_X_right (i : σ) (u v : MvPolynomial σ ℝ) : fock u (X i * v) = fock (pderiv i u) v := by
  rw [fock_comm, fock_X_left, fock_comm]

/-- Renaming the oscillators keeps the scalar product. -/
theorem fock_rename (e : σ ≃ σ) (u v : MvPolynomial σ ℝ) : fock (rename e u) (rename e v) = fock u v := by
  induction u using MvPolynomial.induction_on generalizing v with
  | C a =>
    have h : ∀ w : MvPolynomial σ ℝ, fock (C a) w = a * w.coeff 0 := by
      intro w
      rw [← monomial_zero', fock_eq (S := {0}) support_monomial_subset]
      simp [dfac]
    rw [rename_C, h, h]
    congr 1
    have := coeff_rename_mapDomain e e.injective v 0
    rwa [Finsupp.mapDomain_zero] at this
  | add p q hp hq => rw [map_add, fock_add_left, fock_add_left, hp, hq]
  | mul_X p i hp => rw [map_mul, rename_X, mul_comm, fock_X_left, mul_comm p, fock_X_left, pderiv_rename e.injective, hp]

/-- States with different numbers of quanta are orthogonal. -/
theorem fock_homogeneous {u v : MvPolynomial σ ℝ} {a b : ℕ} (hu : u.IsHomogeneous a) (hv : v.IsHomogeneous b) (h : a ≠ b) :
    fock u v = 0 := by
  refine Finset.sum_eq_zero fun d hd => ?_
  by_cases hv0 : coeff d v = 0
  · rw [hv0, mul_zero, zero_mul]
  · exact absurd ((hu (mem_support_iff.mp hd)).symm.trans (hv hv0)) h

/-- The norm of a state is not negative, and zero only for the zero state. -/
theorem fock_self (u : MvPolynomial σ ℝ) : 0 ≤ fock u u :=
  Finset.sum_nonneg fun _ _ => mul_nonneg (mul_self_nonneg _) (Finset.prod_nonneg fun _ _ => Nat.cast_nonneg _)

end

end Verif.Moshinsky.Osc
