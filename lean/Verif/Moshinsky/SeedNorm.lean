import Verif.Moshinsky.SeedSum
import Verif.Moshinsky.BracketProps

/-!
# The overlaps with nodeless states as a triple sum
-/

namespace Verif.Moshinsky.Osc

/-- The part of the normalisation of an oscillator state that does not depend on the projection. -/
noncomputable def nu (n l : ℕ) : ℝ := √((2 * (l : ℝ) + 1) / ((2 * n).doubleFactorial * (2 * n + 2 * l + 1).doubleFactorial))

theorem single_hs (c : Fin 3 → Two) (n l : ℕ) (m : ℤ) :
    single c n l m = ((-1) ^ n * nu n l * pr l m) • (rr (c 0) (c 1) (c 2) ^ n * hs l m (c 0) (c 1) (c 2)) := by
  rw [single, osc, hs, mul_smul_comm, smul_smul]
  congr 1
  have h : √(rho n l m) = nu n l * pr l m * (√2 : ℝ) ^ (-m) := by
    have e : (√2 : ℝ) ^ (-m) = √((2 : ℝ) ^ (-m)) := by
      have h0 : (0 : ℝ) ≤ (√2 : ℝ) ^ (-m) := zpow_nonneg (Real.sqrt_nonneg _) _
      rw [← Real.sqrt_mul_self h0, ← mul_zpow, Real.mul_self_sqrt (by norm_num)]
    rw [e, nu, pr, ← Real.sqrt_mul (by positivity), ← Real.sqrt_mul (mul_nonneg (by positivity) (mul_pos (ff_pos _) (ff_pos _)).le), rho, zpow_neg]
    congr 1
    field_simp
  rw [h]
  ring

/-- The doubly coupled sum over projections. -/
noncomputable def spread (l1d l2d l1 l2 Λ : ℕ) (M : ℤ) (g : ℤ → ℤ → ℤ → ℤ → ℝ) : ℝ :=
  ∑ m1d ∈ Finset.Icc (-(l1d : ℤ)) l1d, ∑ m2d ∈ Finset.Icc (-(l2d : ℤ)) l2d, cg l1d m1d l2d m2d Λ M *
    ∑ m1 ∈ Finset.Icc (-(l1 : ℤ)) l1, ∑ m2 ∈ Finset.Icc (-(l2 : ℤ)) l2, cg l1 m1 l2 m2 Λ M *
      (pr l1d m1d * pr l2d m2d * pr l1 m1 * pr l2 m2 * g m1d m2d m1 m2)

theorem spread_sum {ι : Type*} (S : Finset ι) (l1d l2d l1 l2 Λ : ℕ) (M : ℤ) (g : ι → ℤ → ℤ → ℤ → ℤ → ℝ) :
    spread l1d l2d l1 l2 Λ M (fun m1d m2d m1 m2 => ∑ i ∈ S, g i m1d m2d m1 m2) = ∑ i ∈ S, spread l1d l2d l1 l2 Λ M (g i) := by
  unfold spread
  simp only [Finset.mul_sum]
  rw [Finset.sum_comm' (s := S) (t := fun _ => Finset.Icc (-(l1d : ℤ)) l1d) (t' := Finset.Icc (-(l1d : ℤ)) l1d) (s' := fun _ => S) (by tauto)]
  refine Finset.sum_congr rfl fun m1d _ => ?_
  rw [Finset.sum_comm' (s := S) (t := fun _ => Finset.Icc (-(l2d : ℤ)) l2d) (t' := Finset.Icc (-(l2d : ℤ)) l2d) (s' := fun _ => S) (by tauto)]
  refine Finset.sum_congr rfl fun m2d _ => ?_
  rw [Finset.sum_comm' (s := S) (t := fun _ => Finset.Icc (-(l1 : ℤ)) l1) (t' := Finset.Icc (-(l1 : ℤ)) l1) (s' := fun _ => S) (by tauto)]
  refine Finset.sum_congr rfl fun m1 _ => ?_
  rw [Finset.sum_comm]

theorem spread_mul (l1d l2d l1 l2 Λ : ℕ) (M : ℤ) (c : ℝ) (g : ℤ → ℤ → ℤ → ℤ → ℝ) :
    spread l1d l2d l1 l2 Λ M (fun m1d m2d m1 m2 => c * g m1d m2d m1 m2) = c * spread l1d l2d l1 l2 Λ M g := by
  unfold spread
  simp only [Finset.mul_sum]
  refine Finset.sum_congr rfl fun m1d _ => Finset.sum_congr rfl fun m2d _ => Finset.sum_congr rfl fun m1 _ => Finset.sum_congr rfl fun m2 _ => ?_
  ring

theorem spread_congr {l1d l2d l1 l2 Λ : ℕ} {M : ℤ} {g g' : ℤ → ℤ → ℤ → ℤ → ℝ}
    (h : ∀ m1d ∈ Finset.Icc (-(l1d : ℤ)) l1d, ∀ m2d ∈ Finset.Icc (-(l2d : ℤ)) l2d, ∀ m1 m2, g m1d m2d m1 m2 = g' m1d m2d m1 m2) :
    spread l1d l2d l1 l2 Λ M g = spread l1d l2d l1 l2 Λ M g' := by
  unfold spread
  refine Finset.sum_congr rfl fun m1d h1 => Finset.sum_congr rfl fun m2d h2 => ?_
  simp only [h m1d h1 m2d h2]

theorem overlap_spread (n1d l1d n2d l2d l1 l2 Λ : ℕ) (M : ℤ) : overlap cg n1d l1d n2d l2d 0 l1 0 l2 Λ M =
    (-1) ^ (n1d + n2d) * (nu n1d l1d * nu n2d l2d * nu 0 l1 * nu 0 l2) *
      spread l1d l2d l1 l2 Λ M (fun m1d m2d m1 m2 => fock (rc n1d l1d n2d l2d m1d m2d) (hh l1 m1 l2 m2)) := by
  have e1 : ∀ m1d m2d, single relative n1d l1d m1d * single centre n2d l2d m2d =
      ((-1) ^ (n1d + n2d) * (nu n1d l1d * nu n2d l2d) * (pr l1d m1d * pr l2d m2d)) • rc n1d l1d n2d l2d m1d m2d := by
    intro m1d m2d
    rw [single_hs, single_hs, smul_mul_smul_comm, rc]
    congr 1
    ring
  have e2 : ∀ m1 m2, single first 0 l1 m1 * single second 0 l2 m2 = (nu 0 l1 * nu 0 l2 * (pr l1 m1 * pr l2 m2)) • hh l1 m1 l2 m2 := by
    intro m1 m2
    rw [single_hs, single_hs, smul_mul_smul_comm, hh, pow_zero, pow_zero, pow_zero, one_mul, one_mul, one_mul, one_mul]
    congr 1
    ring
  have e3 : ∀ v : Two, fock (coupledState cg relative centre n1d l1d n2d l2d Λ M) v =
      ∑ m1d ∈ Finset.Icc (-(l1d : ℤ)) l1d, ∑ m2d ∈ Finset.Icc (-(l2d : ℤ)) l2d, cg l1d m1d l2d m2d Λ M *
        ((-1) ^ (n1d + n2d) * (nu n1d l1d * nu n2d l2d) * (pr l1d m1d * pr l2d m2d) * fock (rc n1d l1d n2d l2d m1d m2d) v) := by
    intro v
    rw [coupledState, couple, ← fockL_apply]
    simp only [e1, map_sum, LinearMap.sum_apply, map_smul, LinearMap.smul_apply, fockL_apply, smul_eq_mul]
  rw [overlap, e3, coupledState, couple]
  simp only [e2, ← fockL_apply, map_sum, map_smul, smul_eq_mul]
  rw [spread]
  simp only [Finset.mul_sum]
  refine Finset.sum_congr rfl fun m1d _ => Finset.sum_congr rfl fun m2d _ => Finset.sum_congr rfl fun m1 _ => Finset.sum_congr rfl fun m2 _ => ?_
  ring

/-- The value of the sum over projections for one intermediate angular momentum. -/
noncomputable def spreadVal (sixj : Int → Int → Int → Int → Int → Int → ℝ) (κ l1d l2d l1 l2 Λ : ℤ) : ℝ :=
  sgn κ / (tri3 l1d κ l1 * tri3 l2d κ l2) * (sgn (l1d + l2 + Λ) * √((2 * l1 + 1) * (2 * l2 + 1)) * sixj l1 l1d κ l2d l2 Λ)

/-- The overlap with a nodeless state as a sum over the terms of the generating function. -/
theorem overlap_sum {sixj : Int → Int → Int → Int → Int → Int → ℝ} (hs : SixJ sixj) (n1d l1d n2d l2d l1 l2 Λ : ℕ) {M : ℤ}
    (ht : |(l1d : ℤ) - l2d| ≤ Λ ∧ (Λ : ℤ) ≤ l1d + l2d) (hM : |M| ≤ Λ) : overlap cg n1d l1d n2d l2d 0 l1 0 l2 Λ M =
    (-1) ^ (n1d + n2d) * (nu n1d l1d * nu n2d l2d * nu 0 l1 * nu 0 l2) * prefF n1d l1d n2d l2d *
      ∑ p ∈ Finset.antidiagonal l1d, ∑ r ∈ Finset.antidiagonal l2d, ∑ n ∈ Finset.Icc 0 (2 * (p.2 : ℤ)),
        if (p.1 + r.1 + (n1d + n2d) = l1 ∧ p.2 + r.2 + (n1d + n2d) = l2) ∧ n ≤ 2 * r.1 then
          coefT p.1 p.2 r.1 r.2 (n1d + n2d) n * spreadVal sixj (p.2 + r.1 + (n1d + n2d) - n) l1d l2d l1 l2 Λ else 0 := by
  rw [overlap_spread, mul_assoc (_ * _) (prefF _ _ _ _)]
  congr 1
  rw [spread_congr (g' := fun m1d m2d m1 m2 => prefF n1d l1d n2d l2d *
      ∑ p ∈ Finset.antidiagonal l1d, ∑ r ∈ Finset.antidiagonal l2d, ∑ n ∈ Finset.Icc 0 (2 * (p.2 : ℤ)),
        coefT p.1 p.2 r.1 r.2 (n1d + n2d) n *
          if ((p.1 : ℤ) + r.1 + (n1d + n2d) = l1 ∧ (p.2 : ℤ) + r.2 + (n1d + n2d) = l2) ∧ m1 + m2 = m1d + m2d then
            gk (p.2 + r.1 + (n1d + n2d) - n) l1d m1d l2d m2d l1 m1 l2 m2 else 0)
    (fun m1d h1 m2d h2 m1 m2 => by rw [fock_rc _ _ _ _ h1 h2, genF_coeff _ _ _ _ _ _ _ _ h1 h2]),
    spread_mul, spread_sum]
  congr 1
  refine Finset.sum_congr rfl fun p hp => ?_
  rw [spread_sum]
  refine Finset.sum_congr rfl fun r hr => ?_
  rw [spread_sum]
  refine Finset.sum_congr rfl fun n hn => ?_
  rw [spread_mul]
  rw [Finset.mem_antidiagonal] at hp hr
  rw [Finset.mem_Icc] at hn
  have hz : ∀ g : ℤ → ℤ → ℤ → ℤ → ℝ, (∀ m1d m2d m1 m2, g m1d m2d m1 m2 = 0) → spread l1d l2d l1 l2 Λ M g = 0 := by
    intro g hg
    simp [spread, hg]
  by_cases h1 : p.1 + r.1 + (n1d + n2d) = l1 ∧ p.2 + r.2 + (n1d + n2d) = l2
  · by_cases h2 : n ≤ 2 * r.1
    · rw [if_pos ⟨h1, h2⟩]
      congr 1
      obtain ⟨κ, hκ⟩ : ∃ κ : ℕ, (κ : ℤ) = p.2 + r.1 + (n1d + n2d) - n := ⟨((p.2 : ℤ) + r.1 + (n1d + n2d) - n).toNat, by omega⟩
      rw [← hκ]
      have := sum_gk hs κ l1d l2d l1 l2 Λ ht hM
      rw [spreadVal]
      push_cast at this ⊢
      rw [← this, spread]
      have hc : ∀ m1d m2d m1 m2 : ℤ, (((p.1 : ℤ) + r.1 + (n1d + n2d) = l1 ∧ (p.2 : ℤ) + r.2 + (n1d + n2d) = l2) ∧ m1 + m2 = m1d + m2d) ↔
          m1 + m2 = m1d + m2d := by
        intro m1d m2d m1 m2
        omega
      simp only [hc]
    · rw [if_neg (fun h => h2 h.2), hz, mul_zero]
      intro m1d m2d m1 m2
      split_ifs
      · rw [gk, tSum_zero (a := l2d + _ - l2) (Or.inl (by omega)), mul_zero, mul_zero]
      · rfl
  · rw [if_neg (fun h => h1 h.1), hz, mul_zero]
    intro m1d m2d m1 m2
    rw [if_neg]
    intro h
    omega

end Verif.Moshinsky.Osc
