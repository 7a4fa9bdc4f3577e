import Verif.Moshinsky.SeedCoeff
import Verif.Moshinsky.Recoupling

/-!
# Summing the coefficients over projections
-/

namespace Verif.Moshinsky.Osc

/-- The coefficient, as a product of two coupling coefficients. -/
theorem gk_cg (κ l1d l2d l1 l2 : ℕ) {m1d m2d m1 m2 : ℤ} (h : m1 + m2 = m1d + m2d) :
    pr l1d m1d * pr l2d m2d * pr l1 m1 * pr l2 m2 * gk κ l1d m1d l2d m2d l1 m1 l2 m2 =
      sgn κ / (tri3 l1d κ l1 * tri3 l2d κ l2) * (sgn (m1 - m1d) * cg l1d m1d κ (m1 - m1d) l1 m1 * cg l2d m2d κ (-(m1 - m1d)) l2 m2) := by
  have t1 := tri3_pos l1d κ (Λ := l1) (by omega)
  have t2 := tri3_pos l2d κ (Λ := l2) (by omega)
  rw [cg, if_pos (by ring), cg, if_pos (by omega), gk, pr_neg, ← sgn_mul_sgn, ← pr_mul_self, ← sub_eq_add_neg]
  field_simp

theorem sum_gk {sixj : Int → Int → Int → Int → Int → Int → ℝ} (hs : SixJ sixj) (κ l1d l2d l1 l2 Λ : ℕ) {M : ℤ}
    (ht : |(l1d : ℤ) - l2d| ≤ Λ ∧ (Λ : ℤ) ≤ l1d + l2d) (hM : |M| ≤ Λ) :
    ∑ m1d ∈ Finset.Icc (-(l1d : ℤ)) l1d, ∑ m2d ∈ Finset.Icc (-(l2d : ℤ)) l2d, cg l1d m1d l2d m2d Λ M *
      ∑ m1 ∈ Finset.Icc (-(l1 : ℤ)) l1, ∑ m2 ∈ Finset.Icc (-(l2 : ℤ)) l2, cg l1 m1 l2 m2 Λ M *
        (pr l1d m1d * pr l2d m2d * pr l1 m1 * pr l2 m2 *
          if m1 + m2 = m1d + m2d then gk κ l1d m1d l2d m2d l1 m1 l2 m2 else 0) =
      sgn κ / (tri3 l1d κ l1 * tri3 l2d κ l2) * (sgn (l1d + l2 + Λ) * √((2 * l1 + 1) * (2 * l2 + 1)) * sixj l1 l1d κ l2d l2 Λ) := by
  have e : ∀ m1d ∈ Finset.Icc (-(l1d : ℤ)) l1d, ∀ m2d ∈ Finset.Icc (-(l2d : ℤ)) l2d,
      ∑ m1 ∈ Finset.Icc (-(l1 : ℤ)) l1, ∑ m2 ∈ Finset.Icc (-(l2 : ℤ)) l2, cg l1 m1 l2 m2 Λ M *
        (pr l1d m1d * pr l2d m2d * pr l1 m1 * pr l2 m2 *
          if m1 + m2 = m1d + m2d then gk κ l1d m1d l2d m2d l1 m1 l2 m2 else 0) =
      sgn κ / (tri3 l1d κ l1 * tri3 l2d κ l2) * (sgn (l1d + l2 + Λ) * √((2 * l1 + 1) * (2 * l2 + 1)) * sixj l1 l1d κ l2d l2 Λ) *
        cg l1d m1d l2d m2d Λ M := by
    intro m1d h1 m2d h2
    rw [Finset.mem_Icc] at h1 h2
    let H : ℤ → ℝ := fun k => sgn k * cg l1d m1d κ k l1 (m1d + k) * cg l2d m2d κ (-k) l2 (m2d - k) * cg l1 (m1d + k) l2 (m2d - k) Λ M
    have hi : ∀ m1, ∑ m2 ∈ Finset.Icc (-(l2 : ℤ)) l2, cg l1 m1 l2 m2 Λ M *
        (pr l1d m1d * pr l2d m2d * pr l1 m1 * pr l2 m2 *
          if m1 + m2 = m1d + m2d then gk κ l1d m1d l2d m2d l1 m1 l2 m2 else 0) =
        sgn κ / (tri3 l1d κ l1 * tri3 l2d κ l2) * H (m1 + -m1d) := by
      intro m1
      have e1 : ∀ m2, cg l1 m1 l2 m2 Λ M * (pr l1d m1d * pr l2d m2d * pr l1 m1 * pr l2 m2 *
          if m1 + m2 = m1d + m2d then gk κ l1d m1d l2d m2d l1 m1 l2 m2 else 0) =
          if m2 = m1d + m2d - m1 then sgn κ / (tri3 l1d κ l1 * tri3 l2d κ l2) * H (m1 + -m1d) else 0 := by
        intro m2
        by_cases h : m1 + m2 = m1d + m2d
        · rw [if_pos h, gk_cg _ _ _ _ _ h, if_pos (by omega)]
          simp only [H]
          rw [show m1d + (m1 + -m1d) = m1 by ring, show m2d - (m1 + -m1d) = m2 by omega, ← sub_eq_add_neg]
          ring
        · rw [if_neg h, if_neg (by omega), mul_zero, mul_zero]
      rw [Finset.sum_congr rfl fun m2 _ => e1 m2, Finset.sum_ite_eq']
      split_ifs with h
      · rfl
      · rw [Finset.mem_Icc] at h
        have : H (m1 + -m1d) = 0 := by
          simp only [H]
          rw [cg_range (l1 := l1) (l2 := l2) (Or.inr (by rw [lt_abs]; omega)), mul_zero]
        rw [this, mul_zero]
    rw [Finset.sum_congr rfl fun m1 _ => hi m1, ← Finset.mul_sum]
    have hH : ∀ k, (κ : ℤ) < |k| → H k = 0 := by
      intro k hk
      simp only [H]
      rw [cg_range (l1 := l1d) (l2 := κ) (Or.inr hk)]
      ring
    have hs1 : ∑ m1 ∈ Finset.Icc (-(l1 : ℤ)) l1, H (m1 + -m1d) =
        ∑ m1 ∈ Finset.Icc (-((l1 : ℤ) + l1d + κ)) (l1 + l1d + κ), H (m1 + -m1d) := by
      refine Finset.sum_subset (Finset.Icc_subset_Icc (by omega) (by omega)) fun m1 _ hm => ?_
      rw [Finset.mem_Icc] at hm
      simp only [H]
      rw [cg_range (l1 := l1) (l2 := l2) (Or.inl (by rw [lt_abs]; omega)), mul_zero]
    rw [hs1, sum_shift H (a := -(κ : ℤ)) (b := κ) (fun k hk => hH k (by rw [lt_abs]; omega)) (fun k hk => hH k (by rw [lt_abs]; omega)) (-m1d)
      (Finset.Icc_subset_Icc (by omega) (by omega))]
    simp only [H]
    rw [hs]
    ring
  have e' : ∀ m1d ∈ Finset.Icc (-(l1d : ℤ)) l1d, ∀ m2d ∈ Finset.Icc (-(l2d : ℤ)) l2d, _ = _ := fun m1d h1 m2d h2 =>
    congrArg (fun x => cg l1d m1d l2d m2d Λ M * x) (e m1d h1 m2d h2)
  rw [Finset.sum_congr rfl fun m1d h1 => Finset.sum_congr rfl fun m2d h2 => e' m1d h1 m2d h2]
  have hn := cg_norm ht hM
  generalize sgn κ / (tri3 l1d κ l1 * tri3 l2d κ l2) * (sgn (l1d + l2 + Λ) * √((2 * l1 + 1) * (2 * l2 + 1)) * sixj l1 l1d κ l2d l2 Λ) = c
  trans c * ∑ m1 ∈ Finset.Icc (-(l1d : ℤ)) l1d, ∑ m2 ∈ Finset.Icc (-(l2d : ℤ)) l2d, cg l1d m1 l2d m2 Λ M ^ 2
  · rw [Finset.mul_sum]
    refine Finset.sum_congr rfl fun m1d _ => ?_
    rw [Finset.mul_sum]
    refine Finset.sum_congr rfl fun m2d _ => ?_
    ring
  · rw [hn, mul_one]

theorem dp_add_anti {R : Type*} [CommRing R] [Algebra ℝ R] (x y : R) (n : ℕ) :
    dp (x + y) n = ∑ p ∈ Finset.antidiagonal n, dp x p.1 * dp y p.2 := by
  rw [dp_add x y n le_rfl, Finset.Nat.sum_antidiagonal_eq_sum_range_succ_mk]
  symm
  refine Finset.sum_bij (fun i _ => (i : ℤ)) ?_ ?_ ?_ ?_
  · intro i hi
    rw [Finset.mem_range] at hi
    rw [Finset.mem_Icc]
    omega
  · intro i _ j _ h
    exact_mod_cast h
  · intro k hk
    rw [Finset.mem_Icc] at hk
    exact ⟨k.toNat, by rw [Finset.mem_range]; omega, by omega⟩
  · intro i hi
    rw [Finset.mem_range] at hi
    simp only
    rw [Nat.cast_sub (by omega)]

/-- The prefactor of the generating function. -/
noncomputable def prefF (n1d l1d n2d l2d : ℕ) : ℝ :=
  (1 / 2) ^ n1d * (-(1 / 2)) ^ n2d * ((1 / (2 * √2)) ^ l1d * (1 / (2 * √2)) ^ l2d)

theorem genF_expand (n1d l1d n2d l2d : ℕ) : genF n1d l1d n2d l2d = prefF n1d l1d n2d l2d •
    ∑ p ∈ Finset.antidiagonal l1d, ∑ r ∈ Finset.antidiagonal l2d, ∑ n ∈ Finset.Icc 0 (2 * (p.2 : ℤ)),
      coefT p.1 p.2 r.1 r.2 (n1d + n2d) n • (dp br11 (2 * p.1 + n) * dp br22 (2 * r.2 + n) *
        wSum brU br12 (-br21) brL (2 * p.2 - n) (2 * r.1 - n) (2 * (n1d + n2d : ℕ))) := by
  have e : genF n1d l1d n2d l2d = prefF n1d l1d n2d l2d •
      (dp (br11 * br11 + -(br12 * br12)) l1d * dp (br21 * br21 + br22 * br22) l2d * (brL * brL) ^ (n1d + n2d)) := by
    rw [genF, dp_smul, dp_smul, prefF, Int.toNat_natCast, Int.toNat_natCast, smul_pow, smul_pow, smul_mul_smul_comm, smul_mul_smul_comm,
      smul_mul_smul_comm, pow_add]
    congr 1
    rw [mul_comm]
  rw [e, dp_add_anti, dp_add_anti, Finset.sum_mul_sum, Finset.sum_mul]
  congr 1
  refine Finset.sum_congr rfl fun p _ => ?_
  rw [Finset.sum_mul]
  refine Finset.sum_congr rfl fun r _ => ?_
  rw [bracket_powers]

theorem genF_coeff (n1d l1d n2d l2d : ℕ) {m1d m2d : ℤ} (l1 m1 l2 m2 : ℤ) (r1 : m1d ∈ Finset.Icc (-(l1d : ℤ)) l1d)
    (r2 : m2d ∈ Finset.Icc (-(l2d : ℤ)) l2d) :
    (genF n1d l1d n2d l2d).coeff (ex8 l1d m1d l2d m2d l1 m1 l2 m2) = prefF n1d l1d n2d l2d *
      ∑ p ∈ Finset.antidiagonal l1d, ∑ r ∈ Finset.antidiagonal l2d, ∑ n ∈ Finset.Icc 0 (2 * (p.2 : ℤ)),
        coefT p.1 p.2 r.1 r.2 (n1d + n2d) n *
          if ((p.1 : ℤ) + r.1 + (n1d + n2d) = l1 ∧ (p.2 : ℤ) + r.2 + (n1d + n2d) = l2) ∧ m1 + m2 = m1d + m2d then
            gk (p.2 + r.1 + (n1d + n2d) - n) l1d m1d l2d m2d l1 m1 l2 m2 else 0 := by
  rw [genF_expand, AddMonoidAlgebra.coeff_smul_apply, smul_eq_mul]
  simp only [AddMonoidAlgebra.coeff_sum, Finsupp.finsetSum_apply, AddMonoidAlgebra.coeff_smul_apply, smul_eq_mul]
  congr 1
  refine Finset.sum_congr rfl fun p hp => Finset.sum_congr rfl fun r hr => Finset.sum_congr rfl fun n hn => ?_
  rw [Finset.mem_antidiagonal] at hp hr
  rw [Finset.mem_Icc] at hn
  obtain ⟨i, i'⟩ := p
  obtain ⟨j, j'⟩ := r
  subst hp hr
  simp only at *
  congr 1
  have := coeff_w (κ := i' + j + (n1d + n2d) - n) (l1d := (i + i' : ℕ)) (l2d := (j + j' : ℕ)) (l1' := i + j + (n1d + n2d))
    (l2' := i' + j' + (n1d + n2d)) (γ := 2 * (n1d + n2d : ℕ)) (by push_cast; ring) (by positivity) (by unfold sgn; rw [if_pos (by omega)]) (by push_cast; omega)
    (by push_cast; omega) m1d m2d l1 m1 l2 m2 r1 r2
  rw [← this]
  rw [show ((i + j + (n1d + n2d) : ℤ) + (i + i' : ℕ) - (i' + j + (n1d + n2d) - n)) = 2 * i + n by push_cast; ring,
    show ((i' + j' + (n1d + n2d) : ℤ) + (j + j' : ℕ) - (i' + j + (n1d + n2d) - n)) = 2 * j' + n by push_cast; ring,
    show (((i + i' : ℕ) : ℤ) + (i' + j + (n1d + n2d) - n) - (i + j + (n1d + n2d))) = 2 * i' - n by push_cast; ring,
    show (((j + j' : ℕ) : ℤ) + (i' + j + (n1d + n2d) - n) - (i' + j' + (n1d + n2d))) = 2 * j - n by push_cast; ring]

end Verif.Moshinsky.Osc
