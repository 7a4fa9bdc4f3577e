import Verif.Moshinsky.SeedGen

/-!
# Coefficients of products of spinor brackets
-/

namespace Verif.Moshinsky.Osc

theorem dp_pair (i j : Fin 8) (n : ℤ) : dp (var i * var j) n = rf n • mono (Pi.single i n + Pi.single j n) := by
  rcases lt_or_ge n 0 with h | h
  · rw [dp_neg h, rf_neg h, zero_smul]
  · rw [dp_eq_rf, mul_pow, var, var, mono_pow, mono_pow, mono_mul, show ((n.toNat : ℕ) : ℤ) = n by omega, ← Pi.single_smul,
      ← Pi.single_smul, smul_eq_mul, mul_one]

/-- A bracket times a contracted polynomial. -/
theorem tens (a b c d : Fin 8) {A x : ℤ} (y δ : ℤ) (hA : 0 ≤ A) (hx : 0 ≤ x) :
    dp (var a * var c + var b * var d) A * phi (var a) (var b) (var c) (var d) x y δ =
      ∑ β ∈ Finset.Icc 0 (x + A), tSum x A y β δ •
        mono (Pi.single a (x + A - β) + Pi.single b β + (Pi.single c (δ + A - β) + Pi.single d (y - δ + β))) := by
  rw [phi, Finset.mul_sum]
  have e1 : ∀ k ∈ Finset.Icc 0 x, dp (var a * var c + var b * var d) A *
      (dp (var a) (x - k) * dp (-var b) k * dp (var c) (δ - k) * dp (var d) (y - δ + k)) =
      ∑ β ∈ Finset.Icc 0 (x + A), tTerm x A y β δ k •
        mono (Pi.single a (x + A - β) + Pi.single b β + (Pi.single c (δ + A - β) + Pi.single d (y - δ + β))) := by
    intro k hk
    rw [Finset.mem_Icc] at hk
    rw [add_comm (var a * var c), dp_add _ _ A (S := Finset.Icc (-k) (x + A - k)) (Finset.Icc_subset_Icc (by omega) (by omega)), Finset.sum_mul]
    refine Finset.sum_bij (fun i _ => i + k) ?_ ?_ ?_ ?_
    · intro i hi
      rw [Finset.mem_Icc] at hi ⊢
      omega
    · intro i _ j _ h
      omega
    · intro β hβ
      rw [Finset.mem_Icc] at hβ
      exact ⟨β - k, by rw [Finset.mem_Icc]; omega, by omega⟩
    · intro i _
      rw [dp_pair, dp_pair, dp_neg_sgn, dp_var, dp_var, dp_var, dp_var, tTerm]
      simp only [smul_mul_smul_comm, mono_mul, smul_smul, mul_smul_comm, smul_mul_assoc]
      rw [show i + k - k = i by ring, show A - (i + k) + k = A - i by ring]
      congr 1
      · ring
      · congr 1
        rw [show x + A - (i + k) = A - i + (x - k) by ring, show δ + A - (i + k) = A - i + (δ - k) by ring,
          show y - δ + (i + k) = i + (y - δ + k) by ring]
        simp only [Pi.single_add]
        abel
  rw [Finset.sum_congr rfl e1, Finset.sum_comm]
  refine Finset.sum_congr rfl fun β _ => ?_
  rw [tSum, Finset.sum_smul]

/-- The coefficient of such products for two particles. -/
theorem coeff_tens {A x1 B x2 : ℤ} (y1 y2 δ1 δ2 : ℤ) (hA : 0 ≤ A) (hx : 0 ≤ x1) (hB : 0 ≤ B) (hx' : 0 ≤ x2)
    (l1d m1d l2d m2d l1 m1 l2 m2 : ℤ) (h1 : x1 + A = 2 * l1d) (h2 : x2 + B = 2 * l2d) (r1 : m1d ∈ Finset.Icc (-l1d) l1d) (r2 : m2d ∈ Finset.Icc (-l2d) l2d) :
    (dp br11 A * phi (var 0) (var 1) (var 4) (var 5) x1 y1 δ1 * (dp br22 B * phi (var 2) (var 3) (var 6) (var 7) x2 y2 δ2)).coeff
      (ex8 l1d m1d l2d m2d l1 m1 l2 m2) =
    if (A + y1 = 2 * l1 ∧ B + y2 = 2 * l2) ∧ δ1 = l1 + m1 - A + (l1d - m1d) ∧ δ2 = l2 + m2 - B + (l2d - m2d) then
      tSum x1 A y1 (l1d - m1d) δ1 * tSum x2 B y2 (l2d - m2d) δ2 else 0 := by
  rw [Finset.mem_Icc] at r1 r2
  rw [br11, br22, tens _ _ _ _ _ _ hA hx, tens _ _ _ _ _ _ hB hx', Finset.sum_mul_sum, AddMonoidAlgebra.coeff_sum, Finsupp.finsetSum_apply,
    Finset.sum_eq_single_of_mem (l1d - m1d) (by rw [Finset.mem_Icc]; omega), AddMonoidAlgebra.coeff_sum, Finsupp.finsetSum_apply,
    Finset.sum_eq_single_of_mem (l2d - m2d) (by rw [Finset.mem_Icc]; omega), smul_mul_smul_comm, mono_mul, AddMonoidAlgebra.coeff_smul_apply, coeff_mono]
  · rw [smul_eq_mul, mul_ite, mul_one, mul_zero]
    refine if_congr ?_ rfl rfl
    rw [funext_iff]
    simp only [Fin.forall_fin_succ, ex8]
    simp
    omega
  · intro β _ hβ
    rw [smul_mul_smul_comm, mono_mul, AddMonoidAlgebra.coeff_smul_apply, coeff_mono, if_neg, smul_zero]
    intro h
    have := congrFun h 3
    simp [ex8] at this
    omega
  · intro β _ hβ
    rw [AddMonoidAlgebra.coeff_sum, Finsupp.finsetSum_apply]
    refine Finset.sum_eq_zero fun β' _ => ?_
    rw [smul_mul_smul_comm, mono_mul, AddMonoidAlgebra.coeff_smul_apply, coeff_mono, if_neg, smul_zero]
    intro h
    have := congrFun h 1
    simp [ex8] at this
    omega

end Verif.Moshinsky.Osc
