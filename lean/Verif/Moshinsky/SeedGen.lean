import Verif.Moshinsky.Null
import Verif.Moshinsky.Contract

/-!
# Generating functions of products of solid harmonics
-/

namespace Verif.Moshinsky.Osc

section
variable {R : Type*} [CommRing R] [Algebra ℝ R]

theorem inv_sqrt2_pow {k m : ℤ} (h : 0 ≤ k) (h' : 0 ≤ k + m) :
    (1 / √2 : ℝ) ^ k.toNat * (1 / √2 : ℝ) ^ (k + m).toNat = (√2 : ℝ) ^ (-m) * (2 : ℝ) ^ (-k) := by
  have h2 : (2 : ℝ) = √2 ^ (2 : ℤ) := by
    rw [zpow_ofNat, Real.sq_sqrt (by norm_num)]
  have e : ∀ i : ℤ, 0 ≤ i → (1 / √2 : ℝ) ^ i.toNat = (√2 : ℝ) ^ (-i) := by
    intro i hi
    rw [zpow_neg, one_div, inv_pow]
    congr 1
    rw [← zpow_natCast, show ((i.toNat : ℕ) : ℤ) = i by omega]
  rw [e _ h, e _ h', ← zpow_add₀ sqrt2_ne]
  conv_rhs => rw [show (2 : ℝ) ^ (-k) = (√2 ^ (2 : ℤ)) ^ (-k) by rw [← h2]]
  rw [← zpow_mul, ← zpow_add₀ sqrt2_ne]
  congr 1
  ring

/-- The harmonic polynomials as coefficients of a divided power. -/
theorem hs_gen (l : ℕ) (p z q s t : R) :
    dp ((1 / √2 : ℝ) • (p * (s * s)) + z * (s * t) + (1 / √2 : ℝ) • (q * (t * t))) l =
      ∑ m ∈ Finset.Icc (-(l : ℤ)) l, hs l m p z q * (s ^ ((l : ℤ) + m).toNat * t ^ ((l : ℤ) - m).toNat) := by
  have e1 : dp ((1 / √2 : ℝ) • (p * (s * s)) + z * (s * t) + (1 / √2 : ℝ) • (q * (t * t))) l =
      ∑ k ∈ Finset.Icc 0 (l : ℤ), ∑ m ∈ Finset.Icc (-(l : ℤ)) l,
        dp ((1 / √2 : ℝ) • (q * (t * t))) k * (dp ((1 / √2 : ℝ) • (p * (s * s))) (k + m) * dp (z * (s * t)) (l - m - 2 * k)) := by
    rw [add_comm, dp_add _ _ (l : ℤ) le_rfl]
    refine Finset.sum_congr rfl fun k hk => ?_
    rw [Finset.mem_Icc] at hk
    rw [dp_add _ _ ((l : ℤ) - k) (S := Finset.Icc (k - l) (k + l)) (Finset.Icc_subset_Icc (by omega) (by omega)), Finset.mul_sum]
    symm
    refine Finset.sum_bij (fun m _ => k + m) ?_ ?_ ?_ ?_
    · intro m hm
      rw [Finset.mem_Icc] at hm ⊢
      omega
    · intro m _ m' _ h
      omega
    · intro i hi
      rw [Finset.mem_Icc] at hi
      exact ⟨i - k, by rw [Finset.mem_Icc]; omega, by omega⟩
    · intro m _
      rw [show (l : ℤ) - k - (k + m) = l - m - 2 * k by ring]
  rw [e1, Finset.sum_comm]
  refine Finset.sum_congr rfl fun m hm => ?_
  rw [Finset.mem_Icc] at hm
  rw [hs, solid, Finset.smul_sum, Finset.sum_mul]
  refine Finset.sum_congr rfl fun k hk => ?_
  rw [Finset.mem_Icc] at hk
  rw [solidTerm]
  by_cases h1 : k + m < 0
  · rw [dp_neg h1, dp_neg h1]
    simp
  by_cases h2 : (l : ℤ) - m - 2 * k < 0
  · rw [dp_neg h2, dp_neg h2]
    simp
  rw [dp_smul, dp_smul, dp_mul_pow, dp_mul_pow, dp_mul_pow]
  have hc := inv_sqrt2_pow (k := k) (m := m) hk.1 (by omega)
  have hs : s ^ ((l : ℤ) + m).toNat = (s * s) ^ (k + m).toNat * s ^ ((l : ℤ) - m - 2 * k).toNat := by
    rw [← pow_two, ← pow_mul, ← pow_add]
    congr 1
    omega
  have ht : t ^ ((l : ℤ) - m).toNat = (t * t) ^ k.toNat * t ^ ((l : ℤ) - m - 2 * k).toNat := by
    rw [← pow_two, ← pow_mul, ← pow_add]
    congr 1
    omega
  rw [hs, ht, smul_mul_assoc, smul_mul_assoc, mul_smul_comm, smul_smul, hc, mul_pow, smul_smul, smul_mul_assoc]
  congr 1
  ring

end

/-! ## The brackets of the four spinors -/

/-- Scalar product of the first upper and the first lower spinor. -/
noncomputable def br11 : Spin := var 0 * var 4 + var 1 * var 5
/-- First upper, second lower. -/
noncomputable def br12 : Spin := var 0 * var 6 + var 1 * var 7
/-- Second upper, first lower. -/
noncomputable def br21 : Spin := var 2 * var 4 + var 3 * var 5
/-- Second upper, second lower. -/
noncomputable def br22 : Spin := var 2 * var 6 + var 3 * var 7
/-- The two upper. -/
noncomputable def brU : Spin := var 0 * var 3 - var 1 * var 2
/-- The two lower. -/
noncomputable def brL : Spin := var 4 * var 7 - var 5 * var 6

theorem pluecker : brU * brL - br12 * -br21 = br11 * br22 := by
  unfold brU brL br12 br21 br11 br22
  ring

theorem nullVec_var : nullVec (0, 0) = (1 / √2 : ℝ) • (var 4 * var 4) ∧ nullVec (0, 1) = var 4 * var 5 ∧
    nullVec (0, 2) = (1 / √2 : ℝ) • (var 5 * var 5) ∧ nullVec (1, 0) = (1 / √2 : ℝ) • (var 6 * var 6) ∧
    nullVec (1, 1) = var 6 * var 7 ∧ nullVec (1, 2) = (1 / √2 : ℝ) • (var 7 * var 7) := by
  simp only [nullVec, var, mono_mul]
  refine ⟨?_, ?_, ?_, ?_, ?_, ?_⟩ <;>
  · congr 1
    try congr 1
    funext i
    fin_cases i <;> rfl

theorem half : (1 / √2 : ℝ) * (1 / √2) = 1 / 2 := by
  have : √2 * √2 = (2 : ℝ) := Real.mul_self_sqrt (by norm_num)
  field_simp
  linear_combination -this

theorem null_relative (i : Fin 3) : null (relative i) = (1 / √2 : ℝ) • (nullVec (0, i) - nullVec (1, i)) := by
  rw [relative, map_smul, map_sub, first, second, null, MvPolynomial.aeval_X, MvPolynomial.aeval_X]

theorem null_centre (i : Fin 3) : null (centre i) = (1 / √2 : ℝ) • (nullVec (0, i) + nullVec (1, i)) := by
  rw [centre, map_smul, map_add, first, second, null, MvPolynomial.aeval_X, MvPolynomial.aeval_X]

theorem am_half : (algebraMap ℝ Spin) (1 / 2) = algebraMap ℝ Spin (1 / √2) * algebraMap ℝ Spin (1 / √2) ∧
    2 * (algebraMap ℝ Spin (1 / √2) * algebraMap ℝ Spin (1 / √2)) = 1 := by
  rw [← map_mul, half]
  refine ⟨rfl, ?_⟩
  rw [← map_ofNat (algebraMap ℝ Spin) 2, ← map_mul, ← map_one (algebraMap ℝ Spin)]
  norm_num

theorem null_rr_relative : null (rr (relative 0) (relative 1) (relative 2)) = (1 / 2 : ℝ) • (brL * brL) := by
  obtain ⟨h1, h2, h3, h4, h5, h6⟩ := nullVec_var
  obtain ⟨e1, e2⟩ := am_half
  rw [rr, map_sub, map_mul, map_mul, map_mul, null_relative, null_relative, null_relative, h1, h2, h3, h4, h5, h6, map_ofNat]
  simp only [Algebra.smul_def]
  rw [e1, brL]
  generalize (algebraMap ℝ Spin) (1 / √2) = h at *
  linear_combination (-(h * h) * (var 4 * var 4 - var 6 * var 6) * (var 5 * var 5 - var 7 * var 7)) * e2

theorem null_rr_centre : null (rr (centre 0) (centre 1) (centre 2)) = (-(1 / 2) : ℝ) • (brL * brL) := by
  obtain ⟨h1, h2, h3, h4, h5, h6⟩ := nullVec_var
  obtain ⟨e1, e2⟩ := am_half
  rw [rr, map_sub, map_mul, map_mul, map_mul, null_centre, null_centre, null_centre, h1, h2, h3, h4, h5, h6, map_ofNat]
  simp only [Algebra.smul_def]
  rw [map_neg, e1, brL]
  generalize (algebraMap ℝ Spin) (1 / √2) = h at *
  linear_combination (-(h * h) * (var 4 * var 4 + var 6 * var 6) * (var 5 * var 5 + var 7 * var 7)) * e2

/-- The quadratic form of the relative coordinate. -/
theorem gen_relative : (1 / √2 : ℝ) • (null (relative 0) * (var 0 * var 0)) + null (relative 1) * (var 0 * var 1) +
    (1 / √2 : ℝ) • (null (relative 2) * (var 1 * var 1)) = (1 / (2 * √2) : ℝ) • (br11 * br11 + -(br12 * br12)) := by
  obtain ⟨h1, h2, h3, h4, h5, h6⟩ := nullVec_var
  obtain ⟨e1, e2⟩ := am_half
  rw [null_relative, null_relative, null_relative, h1, h2, h3, h4, h5, h6]
  rw [show (1 / (2 * √2) : ℝ) = 1 / 2 * (1 / √2) by field_simp]
  simp only [Algebra.smul_def]
  rw [map_mul, e1, br11, br12]
  generalize (algebraMap ℝ Spin) (1 / √2) = h at *
  linear_combination (-h * (var 4 * var 5 - var 6 * var 7) * (var 0 * var 1)) * e2

/-- The quadratic form of the centre-of-mass coordinate. -/
theorem gen_centre : (1 / √2 : ℝ) • (null (centre 0) * (var 2 * var 2)) + null (centre 1) * (var 2 * var 3) +
    (1 / √2 : ℝ) • (null (centre 2) * (var 3 * var 3)) = (1 / (2 * √2) : ℝ) • (br21 * br21 + br22 * br22) := by
  obtain ⟨h1, h2, h3, h4, h5, h6⟩ := nullVec_var
  obtain ⟨e1, e2⟩ := am_half
  rw [null_centre, null_centre, null_centre, h1, h2, h3, h4, h5, h6]
  rw [show (1 / (2 * √2) : ℝ) = 1 / 2 * (1 / √2) by field_simp]
  simp only [Algebra.smul_def]
  rw [map_mul, e1, br21, br22]
  generalize (algebraMap ℝ Spin) (1 / √2) = h at *
  linear_combination (-h * (var 4 * var 5 + var 6 * var 7) * (var 2 * var 3)) * e2

/-- Polynomials evaluated on the null vectors contain no upper spinors. -/
theorem null_upper (f : Two) (e : Fin 8 → ℤ) (h : e 0 ≠ 0 ∨ e 1 ≠ 0 ∨ e 2 ≠ 0 ∨ e 3 ≠ 0) : (null f).coeff e = 0 := by
  induction f using MvPolynomial.induction_on generalizing e with
  | C a =>
    rw [null, MvPolynomial.algHom_C, Algebra.algebraMap_eq_smul_one, ← mono_zero, AddMonoidAlgebra.coeff_smul_apply, coeff_mono,
      if_neg, smul_zero]
    rintro rfl
    simp at h
  | add p q hp hq =>
    have : null (p + q) = null p + null q := map_add _ _ _
    rw [this]
    change (null p).coeff e + (null q).coeff e = 0
    rw [hp e h, hq e h, add_zero]
  | mul_X p i hp =>
    have hg : ∃ (c : ℝ) (g : Fin 8 → ℤ), nullVec i = c • mono g ∧ g 0 = 0 ∧ g 1 = 0 ∧ g 2 = 0 ∧ g 3 = 0 := by
      match i with
      | (0, 0) => exact ⟨_, _, rfl, rfl, rfl, rfl, rfl⟩
      | (0, 1) => exact ⟨1, _, (one_smul ℝ _).symm, rfl, rfl, rfl, rfl⟩
      | (0, 2) => exact ⟨_, _, rfl, rfl, rfl, rfl, rfl⟩
      | (1, 0) => exact ⟨_, _, rfl, rfl, rfl, rfl, rfl⟩
      | (1, 1) => exact ⟨1, _, (one_smul ℝ _).symm, rfl, rfl, rfl, rfl⟩
      | (1, 2) => exact ⟨_, _, rfl, rfl, rfl, rfl, rfl⟩
    obtain ⟨c, g, h1, g0, g1, g2, g3⟩ := hg
    have hx : null (MvPolynomial.X i) = nullVec i := MvPolynomial.aeval_X _ _
    rw [map_mul, hx, h1, mul_smul_comm, AddMonoidAlgebra.coeff_smul_apply, coeff_mul_mono, hp, smul_zero]
    simpa only [Pi.sub_apply, g0, g1, g2, g3, sub_zero] using h

/-- The product of the harmonic polynomials of the relative and the centre-of-mass coordinate with powers of the radii. -/
noncomputable def rc (n1d l1d n2d l2d : ℕ) (m1d m2d : ℤ) : Two :=
  rr (relative 0) (relative 1) (relative 2) ^ n1d * hs l1d m1d (relative 0) (relative 1) (relative 2) *
    (rr (centre 0) (centre 1) (centre 2) ^ n2d * hs l2d m2d (centre 0) (centre 1) (centre 2))

/-- The generating function of these products, evaluated on the null vectors. -/
noncomputable def genF (n1d l1d n2d l2d : ℕ) : Spin :=
  ((1 / 2 : ℝ) • (brL * brL)) ^ n1d * ((-(1 / 2) : ℝ) • (brL * brL)) ^ n2d *
    (dp ((1 / (2 * √2) : ℝ) • (br11 * br11 + -(br12 * br12))) l1d * dp ((1 / (2 * √2) : ℝ) • (br21 * br21 + br22 * br22)) l2d)

theorem genF_eq (n1d l1d n2d l2d : ℕ) : genF n1d l1d n2d l2d =
    ∑ m1d ∈ Finset.Icc (-(l1d : ℤ)) l1d, ∑ m2d ∈ Finset.Icc (-(l2d : ℤ)) l2d, null (rc n1d l1d n2d l2d m1d m2d) *
      mono ![(l1d : ℤ) + m1d, l1d - m1d, l2d + m2d, l2d - m2d, 0, 0, 0, 0] := by
  rw [genF, ← gen_relative, ← gen_centre, hs_gen, hs_gen, Finset.sum_mul_sum, Finset.mul_sum]
  refine Finset.sum_congr rfl fun m1d h1 => ?_
  rw [Finset.mul_sum]
  refine Finset.sum_congr rfl fun m2d h2 => ?_
  rw [Finset.mem_Icc] at h1 h2
  rw [rc, map_mul, map_mul, map_mul, map_pow, map_pow, map_hs, map_hs, null_rr_relative, null_rr_centre]
  have e : mono ![(l1d : ℤ) + m1d, l1d - m1d, l2d + m2d, l2d - m2d, 0, 0, 0, 0] =
      var 0 ^ ((l1d : ℤ) + m1d).toNat * var 1 ^ ((l1d : ℤ) - m1d).toNat *
        (var 2 ^ ((l2d : ℤ) + m2d).toNat * var 3 ^ ((l2d : ℤ) - m2d).toNat) := by
    simp only [var, mono_pow, mono_mul]
    congr 1
    rw [show ((((l1d : ℤ) + m1d).toNat : ℕ) : ℤ) = l1d + m1d by omega, show ((((l1d : ℤ) - m1d).toNat : ℕ) : ℤ) = l1d - m1d by omega,
      show ((((l2d : ℤ) + m2d).toNat : ℕ) : ℤ) = l2d + m2d by omega, show ((((l2d : ℤ) - m2d).toNat : ℕ) : ℤ) = l2d - m2d by omega]
    funext i
    fin_cases i <;> simp
  rw [e]
  ring

/-- The exponents of all four spinors. -/
def ex8 (l1d m1d l2d m2d l1 m1 l2 m2 : ℤ) : Fin 8 → ℤ :=
  ![l1d + m1d, l1d - m1d, l2d + m2d, l2d - m2d, l1 + m1, l1 - m1, l2 + m2, l2 - m2]

/-- Scalar products with products of harmonic polynomials are coefficients of the generating function. -/
theorem fock_rc (n1d l1d n2d l2d : ℕ) {m1d m2d : ℤ} (h1 : m1d ∈ Finset.Icc (-(l1d : ℤ)) l1d)
    (h2 : m2d ∈ Finset.Icc (-(l2d : ℤ)) l2d) (l1 m1 l2 m2 : ℤ) :
    fock (rc n1d l1d n2d l2d m1d m2d) (hh l1 m1 l2 m2) = (genF n1d l1d n2d l2d).coeff (ex8 l1d m1d l2d m2d l1 m1 l2 m2) := by
  rw [fock_hh, genF_eq, AddMonoidAlgebra.coeff_sum, Finsupp.finsetSum_apply, Finset.sum_eq_single_of_mem m1d h1,
    AddMonoidAlgebra.coeff_sum, Finsupp.finsetSum_apply, Finset.sum_eq_single_of_mem m2d h2, coeff_mul_mono]
  · congr 1
    funext i
    fin_cases i <;> simp [ex, ex8]
  · intro b _ hb
    rw [coeff_mul_mono]
    refine null_upper _ _ ?_
    simp only [ex8, Pi.sub_apply]
    right; right; left
    simpa [sub_eq_zero] using hb.symm
  · intro b _ hb
    rw [AddMonoidAlgebra.coeff_sum, Finsupp.finsetSum_apply]
    refine Finset.sum_eq_zero fun b' _ => ?_
    rw [coeff_mul_mono]
    refine null_upper _ _ ?_
    simp only [ex8, Pi.sub_apply]
    left
    simpa [sub_eq_zero] using hb.symm

end Verif.Moshinsky.Osc
