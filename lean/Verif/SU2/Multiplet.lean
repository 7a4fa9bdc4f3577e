import Verif.SU2.Coeff
import Mathlib.LinearAlgebra.BilinearMap
import Mathlib.LinearAlgebra.Matrix.NonsingularInverse

/-!
# Multiplets

Families of vectors that are rotated into each other like the states of one angular momentum: their overlaps, their coupling, and
the orthogonality and completeness of the coupling coefficients.
-/

namespace Verif.SU2

/-- The vectors `u m` are the states of angular momentum `j` for the raising operator `P` and the lowering operator `Q`. -/
structure Multiplet {V : Type*} [AddCommGroup V] [Module ℝ V] (P Q : V →ₗ[ℝ] V) (j : ℕ) (u : ℤ → V) : Prop where
  out : ∀ m, m ∉ projs j → u m = 0
  raise : ∀ m ∈ projs j, P (u m) = up j m • u (m + 2)
  lower : ∀ m ∈ projs j, Q (u m) = dn j m • u (m - 2)

section
variable {V : Type*} [AddCommGroup V] [Module ℝ V] {P Q : V →ₗ[ℝ] V}

theorem up_sq {j : ℕ} {m : ℤ} (hm : m ∈ projs j) : up j m * up j m = ((j : ℝ) - m) * (j + m + 2) / 4 := by
  rw [mem_projs] at hm
  have h1 : (0 : ℝ) ≤ (j : ℝ) - m := by have : (m : ℝ) ≤ j := by exact_mod_cast hm.2.1
                                        linarith
  have h2 : (0 : ℝ) ≤ (j : ℝ) + m + 2 := by have : -(j : ℝ) ≤ m := by exact_mod_cast hm.1
                                            linarith
  unfold up
  have := Real.mul_self_sqrt (mul_nonneg h1 h2)
  push_cast
  linear_combination this / 4

theorem dn_sq {j : ℕ} {m : ℤ} (hm : m ∈ projs j) : dn j m * dn j m = ((j : ℝ) + m) * (j - m + 2) / 4 := by
  have := up_sq (j := j) (m := -m) (by rw [mem_projs] at *; omega)
  rw [up_neg] at this
  rw [this]
  push_cast
  ring

theorem up_top (j : ℤ) : up j j = 0 := by simp [up]

theorem dn_bottom (j : ℤ) : dn j (-j) = 0 := by rw [← up_neg, neg_neg, up_top]

theorem Multiplet.lower_raise {j : ℕ} {u : ℤ → V} (h : Multiplet P Q j u) {m : ℤ} (hm : m ∈ projs j) :
    Q (P (u m)) = (((j : ℝ) - m) * (j + m + 2) / 4) • u m := by
  rw [h.raise m hm, map_smul]
  by_cases hj : m = j
  · subst hj
    rw [up_top, zero_smul]
    simp
  · rw [h.lower (m + 2) (by rw [mem_projs] at *; omega), smul_smul, dn_up, up_sq hm, add_sub_cancel_right]

theorem Multiplet.raise_lower {j : ℕ} {u : ℤ → V} (h : Multiplet P Q j u) {m : ℤ} (hm : m ∈ projs j) :
    P (Q (u m)) = (((j : ℝ) + m) * (j - m + 2) / 4) • u m := by
  rw [h.lower m hm, map_smul]
  by_cases hj : m = -j
  · subst hj
    rw [dn_bottom, zero_smul]
    simp
  · rw [h.raise (m - 2) (by rw [mem_projs] at *; omega), smul_smul, up_dn, dn_sq hm, sub_add_cancel]

variable {B : V →ₗ[ℝ] V →ₗ[ℝ] ℝ}

/-- States of different angular momentum or projection are orthogonal. -/
theorem Multiplet.ortho (hP : ∀ x y, B (P x) y = B x (Q y)) (hQ : ∀ x y, B (Q x) y = B x (P y)) {j j' : ℕ} {u u' : ℤ → V}
    (h : Multiplet P Q j u) (h' : Multiplet P Q j' u') {m m' : ℤ} (hne : j ≠ j' ∨ m ≠ m') : B (u m) (u' m') = 0 := by
  by_cases hm : m ∈ projs j
  swap
  · rw [h.out m hm, map_zero, LinearMap.zero_apply]
  by_cases hm' : m' ∈ projs j'
  swap
  · rw [h'.out m' hm', map_zero]
  have h1 : B (P (Q (u m))) (u' m') = B (u m) (P (Q (u' m'))) := by rw [hP, hQ]
  have h2 : B (Q (P (u m))) (u' m') = B (u m) (Q (P (u' m'))) := by rw [hQ, hP]
  rw [h.raise_lower hm, h'.raise_lower hm'] at h1
  rw [h.lower_raise hm, h'.lower_raise hm'] at h2
  simp only [map_smul, LinearMap.smul_apply, smul_eq_mul] at h1 h2
  generalize B (u m) (u' m') = G at h1 h2 ⊢
  by_cases hmm : m = m'
  · subst hmm
    have hj : j ≠ j' := by tauto
    have e : (((j : ℝ) - j') * (j + j' + 2)) * G = 0 := by linear_combination 4 * h1
    rcases mul_eq_zero.mp e with e | e
    · rcases mul_eq_zero.mp e with e | e
      · exact absurd (by exact_mod_cast sub_eq_zero.mp e) hj
      · exfalso
        have : (0 : ℝ) ≤ j := Nat.cast_nonneg j
        have : (0 : ℝ) ≤ j' := Nat.cast_nonneg j'
        linarith
    · exact e
  · have e : ((m : ℝ) - m') * G = 0 := by linear_combination h1 - h2
    rcases mul_eq_zero.mp e with e | e
    · exact absurd (by exact_mod_cast sub_eq_zero.mp e) hmm
    · exact e

theorem Multiplet.step (hP : ∀ x y, B (P x) y = B x (Q y)) {j : ℕ} {u u' : ℤ → V}
    (h : Multiplet P Q j u) (h' : Multiplet P Q j u') {m : ℤ} (hm : m ∈ projs j) (hm' : m + 2 ∈ projs j) :
    B (u m) (u' m) = B (u (m + 2)) (u' (m + 2)) := by
  have h1 : B (P (u m)) (P (u' m)) = B (u m) (Q (P (u' m))) := by rw [hP]
  rw [h.raise m hm, h'.lower_raise hm, h'.raise m hm] at h1
  simp only [map_smul, LinearMap.smul_apply, smul_eq_mul] at h1
  rw [← mul_assoc, up_sq hm] at h1
  refine (mul_left_cancel₀ ?_ h1).symm
  rw [mem_projs] at hm hm'
  have h2 : (m : ℝ) + 2 ≤ j := by exact_mod_cast hm'.2.1
  have h3 : -(j : ℝ) ≤ m := by exact_mod_cast hm.1
  have : 0 < ((j : ℝ) - m) * (j + m + 2) / 4 := by
    have a : 0 < (j : ℝ) - m := by linarith
    have b : 0 < (j : ℝ) + m + 2 := by linarith
    positivity
  exact this.ne'

/-- The overlap of two states of the same angular momentum and projection does not depend on the projection. -/
theorem Multiplet.overlap (hP : ∀ x y, B (P x) y = B x (Q y)) {j : ℕ} {u u' : ℤ → V}
    (h : Multiplet P Q j u) (h' : Multiplet P Q j u') {m : ℤ} (hm : m ∈ projs j) : B (u m) (u' m) = B (u j) (u' j) := by
  have key : ∀ n : ℕ, ∀ m : ℤ, m ∈ projs j → (j : ℤ) - m = 2 * n → B (u m) (u' m) = B (u j) (u' j) := by
    intro n
    induction n with
    | zero =>
      intro m _ e
      rw [show m = j by omega]
    | succ n ih =>
      intro m hm e
      have hm' : m + 2 ∈ projs j := by rw [mem_projs] at *; omega
      rw [h.step hP h' hm hm']
      exact ih (m + 2) hm' (by push_cast at e ⊢; omega)
  have hm' := mem_projs.mp hm
  exact key (((j : ℤ) - m) / 2).toNat m hm (by omega)

end

/-! ## Coupling -/

section
variable {V₁ V₂ V : Type*} [AddCommGroup V₁] [Module ℝ V₁] [AddCommGroup V₂] [Module ℝ V₂] [AddCommGroup V] [Module ℝ V]

/-- The states `u`, `v` of angular momenta `j1`, `j2` coupled to `J M`, the product of two states being `T`. -/
noncomputable def couple (T : V₁ →ₗ[ℝ] V₂ →ₗ[ℝ] V) (j1 : ℕ) (u : ℤ → V₁) (j2 : ℕ) (v : ℤ → V₂) (J : ℕ) (M : ℤ) : V :=
  ∑ m1 ∈ projs j1, ∑ m2 ∈ projs j2, cgd j1 m1 j2 m2 J M • T (u m1) (v m2)

theorem sum_step {j : ℕ} (f : ℤ → V) (hf : f (j + 2) = 0) (hf' : f (-j) = 0) :
    ∑ m ∈ projs j, f (m + 2) = ∑ m ∈ projs j, f m := by
  have e : ∑ m ∈ projs j, f (m + 2) = ∑ m ∈ (projs j).image (· + 2), f m := by
    rw [Finset.sum_image]
    intro a _ b _ h
    simpa using h
  rw [e]
  have h1 : ∀ m, m ∈ (projs j).image (· + 2) ↔ m - 2 ∈ projs j := by
    intro m
    rw [Finset.mem_image]
    constructor
    · rintro ⟨a, ha, rfl⟩
      simpa using ha
    · intro h
      exact ⟨m - 2, h, by ring⟩
  trans ∑ m ∈ (projs j).image (· + 2) ∪ projs j, f m
  · refine Finset.sum_subset Finset.subset_union_left fun m hm hm' => ?_
    rw [Finset.mem_union] at hm
    rw [h1, mem_projs] at hm hm'
    rw [mem_projs] at hm
    rw [show m = -j by omega, hf']
  · symm
    refine Finset.sum_subset Finset.subset_union_right fun m hm hm' => ?_
    rw [Finset.mem_union, h1, mem_projs, mem_projs] at hm
    rw [mem_projs] at hm'
    rw [show m = j + 2 by omega, hf]

variable {P₁ Q₁ : V₁ →ₗ[ℝ] V₁} {P₂ Q₂ : V₂ →ₗ[ℝ] V₂} {P Q : V →ₗ[ℝ] V} {T : V₁ →ₗ[ℝ] V₂ →ₗ[ℝ] V}

theorem couple_raise (hP : ∀ x y, P (T x y) = T (P₁ x) y + T x (P₂ y)) {j1 j2 : ℕ} {u : ℤ → V₁} {v : ℤ → V₂}
    (hu : Multiplet P₁ Q₁ j1 u) (hv : Multiplet P₂ Q₂ j2 v) (J : ℕ) (M : ℤ) :
    P (couple T j1 u j2 v J M) = up J M • couple T j1 u j2 v J (M + 2) := by
  have e : P (couple T j1 u j2 v J M) = (∑ m2 ∈ projs j2, ∑ m1 ∈ projs j1, (up j1 m1 * cgd j1 m1 j2 m2 J M) • T (u (m1 + 2)) (v m2)) +
      ∑ m1 ∈ projs j1, ∑ m2 ∈ projs j2, (up j2 m2 * cgd j1 m1 j2 m2 J M) • T (u m1) (v (m2 + 2)) := by
    rw [Finset.sum_comm, couple, map_sum, ← Finset.sum_add_distrib]
    refine Finset.sum_congr rfl fun m1 h1 => ?_
    rw [map_sum, ← Finset.sum_add_distrib]
    refine Finset.sum_congr rfl fun m2 h2 => ?_
    rw [map_smul, hP, hu.raise m1 h1, hv.raise m2 h2, map_smul, map_smul, LinearMap.smul_apply, smul_add, smul_smul, smul_smul,
      mul_comm (up j1 m1), mul_comm (up j2 m2)]
  have e1 : ∀ m2 ∈ projs j2, ∑ m1 ∈ projs j1, (up j1 m1 * cgd j1 m1 j2 m2 J M) • T (u (m1 + 2)) (v m2) =
      ∑ m1 ∈ projs j1, (dn j1 m1 * cgd j1 (m1 - 2) j2 m2 J M) • T (u m1) (v m2) := by
    intro m2 _
    rw [← sum_step fun m1 => (dn j1 m1 * cgd j1 (m1 - 2) j2 m2 J M) • T (u m1) (v m2)]
    · refine Finset.sum_congr rfl fun m1 _ => ?_
      rw [dn_up, add_sub_cancel_right]
    · rw [hu.out _ (by rw [mem_projs]; omega), map_zero, LinearMap.zero_apply, smul_zero]
    · rw [dn_bottom, zero_mul, zero_smul]
  have e2 : ∀ m1 ∈ projs j1, ∑ m2 ∈ projs j2, (up j2 m2 * cgd j1 m1 j2 m2 J M) • T (u m1) (v (m2 + 2)) =
      ∑ m2 ∈ projs j2, (dn j2 m2 * cgd j1 m1 j2 (m2 - 2) J M) • T (u m1) (v m2) := by
    intro m1 _
    rw [← sum_step fun m2 => (dn j2 m2 * cgd j1 m1 j2 (m2 - 2) J M) • T (u m1) (v m2)]
    · refine Finset.sum_congr rfl fun m2 _ => ?_
      rw [dn_up, add_sub_cancel_right]
    · rw [hv.out _ (by rw [mem_projs]; omega), map_zero, smul_zero]
    · rw [dn_bottom, zero_mul, zero_smul]
  rw [e, Finset.sum_congr rfl e1, Finset.sum_congr rfl e2, Finset.sum_comm, ← Finset.sum_add_distrib, couple, Finset.smul_sum]
  refine Finset.sum_congr rfl fun m1 _ => ?_
  rw [← Finset.sum_add_distrib, Finset.smul_sum]
  refine Finset.sum_congr rfl fun m2 _ => ?_
  rw [← add_smul, cgd_raise, smul_smul]

theorem couple_lower (hQ : ∀ x y, Q (T x y) = T (Q₁ x) y + T x (Q₂ y)) {j1 j2 : ℕ} {u : ℤ → V₁} {v : ℤ → V₂}
    (hu : Multiplet P₁ Q₁ j1 u) (hv : Multiplet P₂ Q₂ j2 v) (J : ℕ) (M : ℤ) :
    Q (couple T j1 u j2 v J M) = dn J M • couple T j1 u j2 v J (M - 2) := by
  have e : Q (couple T j1 u j2 v J M) = (∑ m2 ∈ projs j2, ∑ m1 ∈ projs j1, (dn j1 m1 * cgd j1 m1 j2 m2 J M) • T (u (m1 - 2)) (v m2)) +
      ∑ m1 ∈ projs j1, ∑ m2 ∈ projs j2, (dn j2 m2 * cgd j1 m1 j2 m2 J M) • T (u m1) (v (m2 - 2)) := by
    rw [Finset.sum_comm, couple, map_sum, ← Finset.sum_add_distrib]
    refine Finset.sum_congr rfl fun m1 h1 => ?_
    rw [map_sum, ← Finset.sum_add_distrib]
    refine Finset.sum_congr rfl fun m2 h2 => ?_
    rw [map_smul, hQ, hu.lower m1 h1, hv.lower m2 h2, map_smul, map_smul, LinearMap.smul_apply, smul_add, smul_smul, smul_smul,
      mul_comm (dn j1 m1), mul_comm (dn j2 m2)]
  have e1 : ∀ m2 ∈ projs j2, ∑ m1 ∈ projs j1, (dn j1 m1 * cgd j1 m1 j2 m2 J M) • T (u (m1 - 2)) (v m2) =
      ∑ m1 ∈ projs j1, (up j1 m1 * cgd j1 (m1 + 2) j2 m2 J M) • T (u m1) (v m2) := by
    intro m2 _
    rw [← sum_step fun m1 => (dn j1 m1 * cgd j1 m1 j2 m2 J M) • T (u (m1 - 2)) (v m2)]
    · refine Finset.sum_congr rfl fun m1 _ => ?_
      rw [dn_up, add_sub_cancel_right]
    · rw [dn_up, up_top, zero_mul, zero_smul]
    · rw [dn_bottom, zero_mul, zero_smul]
  have e2 : ∀ m1 ∈ projs j1, ∑ m2 ∈ projs j2, (dn j2 m2 * cgd j1 m1 j2 m2 J M) • T (u m1) (v (m2 - 2)) =
      ∑ m2 ∈ projs j2, (up j2 m2 * cgd j1 m1 j2 (m2 + 2) J M) • T (u m1) (v m2) := by
    intro m1 _
    rw [← sum_step fun m2 => (dn j2 m2 * cgd j1 m1 j2 m2 J M) • T (u m1) (v (m2 - 2))]
    · refine Finset.sum_congr rfl fun m2 _ => ?_
      rw [dn_up, add_sub_cancel_right]
    · rw [dn_up, up_top, zero_mul, zero_smul]
    · rw [dn_bottom, zero_mul, zero_smul]
  rw [e, Finset.sum_congr rfl e1, Finset.sum_congr rfl e2, Finset.sum_comm, ← Finset.sum_add_distrib, couple, Finset.smul_sum]
  refine Finset.sum_congr rfl fun m1 _ => ?_
  rw [← Finset.sum_add_distrib, Finset.smul_sum]
  refine Finset.sum_congr rfl fun m2 _ => ?_
  rw [← add_smul, cgd_lower, smul_smul]

/-- Coupled states are the states of the coupled angular momentum. -/
theorem Multiplet.couple (hP : ∀ x y, P (T x y) = T (P₁ x) y + T x (P₂ y)) (hQ : ∀ x y, Q (T x y) = T (Q₁ x) y + T x (Q₂ y)) {j1 j2 : ℕ}
    {u : ℤ → V₁} {v : ℤ → V₂} (hu : Multiplet P₁ Q₁ j1 u) (hv : Multiplet P₂ Q₂ j2 v) (J : ℕ) :
    Multiplet P Q J (couple T j1 u j2 v J) where
  out m hm := Finset.sum_eq_zero fun m1 _ => Finset.sum_eq_zero fun m2 _ => by rw [cgd_range fun h => hm h.2.2, zero_smul]
  raise m _ := couple_raise hP hu hv J m
  lower m _ := couple_lower hQ hu hv J m

end

end Verif.SU2
