import Verif.Moshinsky.SeedTens

/-!
# The coefficients of the generating function
-/

namespace Verif.Moshinsky.Osc

/-- The coefficient of a coupled product, for an intermediate angular momentum `κ`. -/
noncomputable def gk (κ l1d m1d l2d m2d l1 m1 l2 m2 : ℤ) : ℝ :=
  sgn (κ + (m1 - m1d)) * (ff (κ + (m1 - m1d)) * ff (κ - (m1 - m1d))) *
    (tSum (l1d + κ - l1) (l1 + l1d - κ) (l1 + κ - l1d) (l1d - m1d) (κ + (m1 - m1d)) *
      tSum (l2d + κ - l2) (l2 + l2d - κ) (l2 + κ - l2d) (l2d - m2d) (κ - (m1 - m1d)))

theorem coeff_w {κ l1d l2d l1' l2' γ : ℤ} (hγ : γ = 2 * κ - (l1d + κ - l1') - (l2d + κ - l2')) (hγ0 : 0 ≤ γ) (hγ2 : sgn γ = 1)
    (hA : 0 ≤ l1' + l1d - κ) (hB : 0 ≤ l2' + l2d - κ) (m1d m2d l1 m1 l2 m2 : ℤ)
    (r1 : m1d ∈ Finset.Icc (-l1d) l1d) (r2 : m2d ∈ Finset.Icc (-l2d) l2d) :
    (dp br11 (l1' + l1d - κ) * dp br22 (l2' + l2d - κ) * wSum brU br12 (-br21) brL (l1d + κ - l1') (l2d + κ - l2') γ).coeff
      (ex8 l1d m1d l2d m2d l1 m1 l2 m2) =
    if (l1' = l1 ∧ l2' = l2) ∧ m1 + m2 = m1d + m2d then gk κ l1d m1d l2d m2d l1 m1 l2 m2 else 0 := by
  by_cases hx1 : l1d + κ - l1' < 0
  · rw [wSum_zero (Or.inl hx1), mul_zero]
    split_ifs with h
    · rw [gk, tSum_zero (a := l1d + κ - l1) (Or.inl (by omega)), zero_mul, mul_zero]; rfl
    · rfl
  by_cases hx2 : l2d + κ - l2' < 0
  · rw [wSum_zero (Or.inr (Or.inl hx2)), mul_zero]
    split_ifs with h
    · rw [gk, tSum_zero (a := l2d + κ - l2) (Or.inl (by omega)), mul_zero, mul_zero]; rfl
    · rfl
  have hc := contract (var 0) (var 1) (var 4) (var 5) (var 2) (var 3) (var 6) (var 7) (n := 2 * κ) (x1 := l1d + κ - l1')
    (l2d + κ - l2').toNat (by omega) (by omega)
  rw [show (((l2d + κ - l2').toNat : ℕ) : ℤ) = l2d + κ - l2' by omega, ← hγ, hγ2, one_smul] at hc
  rw [show wSum brU br12 (-br21) brL (l1d + κ - l1') (l2d + κ - l2') γ = _ from hc.symm, Finset.mul_sum, AddMonoidAlgebra.coeff_sum,
    Finsupp.finsetSum_apply]
  have e : ∀ d ∈ Finset.Icc 0 (2 * κ), (dp br11 (l1' + l1d - κ) * dp br22 (l2' + l2d - κ) *
      ((sgn d * (ff d * ff (2 * κ - d))) • (phi (var 0) (var 1) (var 4) (var 5) (l1d + κ - l1') (2 * κ - (l1d + κ - l1')) d *
        phi (var 2) (var 3) (var 6) (var 7) (l2d + κ - l2') (2 * κ - (l2d + κ - l2')) (2 * κ - d)))).coeff (ex8 l1d m1d l2d m2d l1 m1 l2 m2) =
      if d = κ + (m1 - m1d) then
        (if (l1' = l1 ∧ l2' = l2) ∧ m1 + m2 = m1d + m2d then gk κ l1d m1d l2d m2d l1 m1 l2 m2 else 0) else 0 := by
    intro d _
    rw [mul_smul_comm, AddMonoidAlgebra.coeff_smul_apply, mul_mul_mul_comm,
      coeff_tens _ _ _ _ hA (by omega) hB (by omega) l1d m1d l2d m2d l1 m1 l2 m2 (by omega) (by omega) r1 r2]
    split_ifs with h1 h2 h3 h3 h2 h3
    · obtain ⟨⟨rfl, rfl⟩, h4⟩ := h3
      rw [gk, smul_eq_mul, h2]
      rw [show 2 * κ - (l1d + κ - l1') = l1' + κ - l1d by ring, show 2 * κ - (l2d + κ - l2') = l2' + κ - l2d by ring,
        show 2 * κ - (κ + (m1 - m1d)) = κ - (m1 - m1d) by ring]
    · omega
    · omega
    · omega
    · rw [smul_zero]
    · rw [smul_zero]
  rw [Finset.sum_congr rfl e, Finset.sum_ite_eq']
  split_ifs with h1 h2 h2
  · rfl
  · rfl
  · rw [Finset.mem_Icc, not_and_or] at h1
    rw [gk, tSum_zero (a := l1d + κ - l1) (by omega), zero_mul, mul_zero]
  · rfl

/-- The numbers in the expansion of a product of powers of brackets. -/
noncomputable def coefT (i i' j j' N : ℕ) (n : ℤ) : ℝ :=
  sgn i' * (rf i * rf i' * (rf j * rf j')) * ((2 * (i' : ℝ) + 2 * j + 2 * N - 2 * n + 1) * gc (2 * i') (2 * j) (2 * N) n) *
    (rf n * ff (2 * i + n) * ff (2 * j' + n))

theorem powers_expand {R : Type*} [CommRing R] [Algebra ℝ R] {a b c e u w : R} (hp : u * w - b * -c = a * e) (i i' j j' N : ℕ) :
    dp (a * a) i * dp (-(b * b)) i' * (dp (c * c) j * dp (e * e) j') * (w * w) ^ N =
      ∑ n ∈ Finset.Icc 0 (2 * (i' : ℤ)), coefT i i' j j' N n •
        (dp a (2 * i + n) * dp e (2 * j' + n) * wSum u b (-c) w (2 * i' - n) (2 * j - n) (2 * N)) := by
  have hg := gordan (A := u) (B := b) (C := -c) (D := w) (2 * i') (2 * j) (2 * N)
  push_cast at hg
  rw [hp] at hg
  have e0 : dp (a * a) i * dp (-(b * b)) i' * (dp (c * c) j * dp (e * e) j') * (w * w) ^ N =
      (sgn i' * (rf i * rf i' * (rf j * rf j'))) • (a ^ (2 * i) * e ^ (2 * j') * (b ^ (2 * i') * (-c) ^ (2 * j) * w ^ (2 * N))) := by
    rw [dp_neg_sgn, dp_eq_rf, dp_eq_rf, dp_eq_rf, dp_eq_rf]
    simp only [Int.toNat_natCast]
    simp only [smul_smul, smul_mul_assoc, mul_smul_comm]
    congr 1
    · ring
    · rw [neg_pow, (even_two_mul j).neg_one_pow]
      ring
  rw [e0, hg, Finset.mul_sum, Finset.smul_sum]
  refine Finset.sum_congr rfl fun n hn => ?_
  rw [Finset.mem_Icc] at hn
  obtain ⟨n, rfl⟩ := Int.eq_ofNat_of_zero_le hn.1
  have h1 : dp a (2 * i + n) = rf (2 * i + n) • a ^ (2 * i + n) := by
    rw [dp_eq_rf]
    congr 1
  have h2 : dp e (2 * j' + n) = rf (2 * j' + n) • e ^ (2 * j' + n) := by
    rw [dp_eq_rf]
    congr 1
  have f1 : ff (2 * i + n) * rf (2 * i + n) = 1 := ff_rf (by omega)
  have f2 : ff (2 * j' + n) * rf (2 * j' + n) = 1 := ff_rf (by omega)
  rw [h1, h2, dp_eq_rf (a * e), coefT]
  simp only [Int.toNat_natCast, smul_smul, smul_mul_assoc, mul_smul_comm]
  congr 1
  · have f : ff (2 * i + n) * rf (2 * i + n) * (ff (2 * j' + n) * rf (2 * j' + n)) = 1 := by rw [f1, f2, one_mul]
    push_cast
    linear_combination (-(sgn i' * (rf i * rf i' * (rf j * rf j')) * ((2 * (i' : ℝ) + 2 * j + 2 * N - 2 * n + 1) * gc (2 * i') (2 * j) (2 * N) n) * rf n)) * f
  · ring

theorem bracket_powers (i i' j j' N : ℕ) :
    dp (br11 * br11) i * dp (-(br12 * br12)) i' * (dp (br21 * br21) j * dp (br22 * br22) j') * (brL * brL) ^ N =
      ∑ n ∈ Finset.Icc 0 (2 * (i' : ℤ)), coefT i i' j j' N n •
        (dp br11 (2 * i + n) * dp br22 (2 * j' + n) * wSum brU br12 (-br21) brL (2 * i' - n) (2 * j - n) (2 * N)) :=
  powers_expand pluecker i i' j j' N

end Verif.Moshinsky.Osc
