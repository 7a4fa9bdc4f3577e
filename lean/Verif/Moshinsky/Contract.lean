import Verif.Moshinsky.Spinor

/-!
# Contraction of two coupled spinors
-/

namespace Verif.Moshinsky.Osc

section
variable {R : Type*} [CommRing R] [Algebra ℝ R]

/-- Component of the product of a power of the bracket with an auxiliary spinor and a power of the scalar product with it:
the factor of `u^d v^(x+y-d)` in `[η τ]^(x) ⟨τ ζ⟩^(y)`. -/
noncomputable def phi (s t U V : R) (x y d : ℤ) : R :=
  ∑ k ∈ Finset.Icc 0 x, dp s (x - k) * dp (-t) k * dp U (d - k) * dp V (y - d + k)

theorem phi_wide (s t U V : R) (x y d : ℤ) {S : Finset ℤ} (hS : Finset.Icc 0 x ⊆ S) :
    phi s t U V x y d = ∑ k ∈ S, dp s (x - k) * dp (-t) k * dp U (d - k) * dp V (y - d + k) :=
  Finset.sum_subset hS fun k _ hk => by
    rw [Finset.mem_Icc, not_and_or] at hk
    rcases hk with h | h
    · rw [dp_neg (show k < 0 by omega)]
      ring
    · rw [dp_neg (show x - k < 0 by omega)]
      ring

theorem dp_mul_pow (x y : R) (i : ℤ) : dp (x * y) i = dp x i * y ^ i.toNat := by
  rw [dp_eq_rf, dp_eq_rf, mul_pow, smul_mul_assoc]

/-- The product of two divided powers with a common auxiliary spinor. -/
theorem phi_gen (s t U V u v : R) {x y : ℤ} (hx : 0 ≤ x) (hy : 0 ≤ y) :
    dp (s * v + -t * u) x * dp (U * u + V * v) y =
      ∑ d ∈ Finset.Icc 0 (x + y), phi s t U V x y d * (u ^ d.toNat * v ^ (x + y - d).toNat) := by
  have e1 : dp (s * v + -t * u) x = ∑ k ∈ Finset.Icc 0 x, dp (-t) k * u ^ k.toNat * (dp s (x - k) * v ^ (x - k).toNat) := by
    rw [add_comm, dp_add _ _ x le_rfl]
    refine Finset.sum_congr rfl fun k _ => ?_
    rw [dp_mul_pow, dp_mul_pow]
  have e2 : ∀ k : ℤ, dp (U * u + V * v) y = ∑ d ∈ Finset.Icc k (y + k), dp U (d - k) * u ^ (d - k).toNat * (dp V (y - d + k) * v ^ (y - d + k).toNat) := by
    intro k
    rw [dp_add _ _ y le_rfl]
    refine Finset.sum_bij (fun i _ => i + k) ?_ ?_ ?_ ?_
    · intro i hi
      rw [Finset.mem_Icc] at hi ⊢
      omega
    · intro i _ i' _ h
      omega
    · intro d hd
      rw [Finset.mem_Icc] at hd
      exact ⟨d - k, by rw [Finset.mem_Icc]; omega, by omega⟩
    · intro i _
      rw [dp_mul_pow, dp_mul_pow, add_sub_cancel_right, show y - (i + k) + k = y - i by ring]
  have e3 : ∀ k ∈ Finset.Icc 0 x, dp (-t) k * u ^ k.toNat * (dp s (x - k) * v ^ (x - k).toNat) * dp (U * u + V * v) y =
      ∑ d ∈ Finset.Icc 0 (x + y), dp s (x - k) * dp (-t) k * dp U (d - k) * dp V (y - d + k) * (u ^ d.toNat * v ^ (x + y - d).toNat) := by
    intro k hk
    rw [Finset.mem_Icc] at hk
    rw [e2 k, Finset.mul_sum, ← Finset.sum_subset (Finset.Icc_subset_Icc hk.1 (show y + k ≤ x + y by omega))]
    · refine Finset.sum_congr rfl fun d hd => ?_
      rw [Finset.mem_Icc] at hd
      rw [show d.toNat = k.toNat + (d - k).toNat by omega, show (x + y - d).toNat = (x - k).toNat + (y - d + k).toNat by omega,
        pow_add, pow_add]
      ring
    · intro d _ hd
      rw [Finset.mem_Icc, not_and_or] at hd
      rcases hd with h | h
      · rw [dp_neg (show d - k < 0 by omega)]
        ring
      · rw [dp_neg (show y - d + k < 0 by omega)]
        ring
  rw [e1, Finset.sum_mul, Finset.sum_congr rfl e3, Finset.sum_comm]
  refine Finset.sum_congr rfl fun d _ => ?_
  rw [phi, Finset.sum_mul]

/-! ## Extraction of a power of a formal variable -/

open Polynomial

theorem dp_C (a : R) (i : ℤ) : dp (C a) i = C (dp a i) := (map_dp (CAlgHom (R := ℝ) (A := R)) a i).symm

theorem dp_lin (a b : R) (m : ℤ) {S : Finset ℤ} (hS : Finset.Icc 0 m ⊆ S) :
    dp (C a * X + C b) m = ∑ i ∈ S, C (dp a i * dp b (m - i)) * X ^ i.toNat := by
  rw [dp_add _ _ m hS]
  refine Finset.sum_congr rfl fun i _ => ?_
  rw [dp_mul_pow, dp_C, dp_C, C_mul]
  ring

theorem coeff_pair (a b a' b' : R) (m m' : ℤ) (N : ℕ) :
    (dp (C a * X + C b) m * dp (C a' * X + C b') m').coeff N =
      ∑ j ∈ Finset.Icc 0 m, dp a j * dp b (m - j) * dp a' (N - j) * dp b' (m' - N + j) := by
  rw [dp_lin a b m le_rfl, Finset.sum_mul, finset_sum_coeff]
  refine Finset.sum_congr rfl fun i hi => ?_
  rw [Finset.mem_Icc] at hi
  rw [mul_assoc, coeff_C_mul, mul_assoc (dp a i * dp b (m - i))]
  congr 1
  rw [coeff_X_pow_mul']
  split_ifs with h
  · rw [dp_lin a' b' m' (S := Finset.Icc 0 (max m' N)) (Finset.Icc_subset_Icc le_rfl (le_max_left _ _)), finset_sum_coeff,
      Finset.sum_eq_single ((N : ℤ) - i)]
    · rw [coeff_C_mul_X_pow, if_pos (by omega), show m' - ((N : ℤ) - i) = m' - N + i by ring]
    · intro j hj hne
      rw [Finset.mem_Icc] at hj
      rw [coeff_C_mul_X_pow, if_neg (by omega)]
    · intro hn
      exfalso
      apply hn
      rw [Finset.mem_Icc]
      exact ⟨by omega, le_trans (by omega) (le_max_right _ _)⟩
  · rw [dp_neg (show (N : ℤ) - i < 0 by omega), zero_mul]

/-- Contraction over the auxiliary spinor. -/
theorem contract (s1 t1 U1 V1 s2 t2 U2 V2 : R) {n x1 : ℤ} (x2 : ℕ) (h1 : 0 ≤ x1) (h2 : x1 ≤ n) :
    ∑ d ∈ Finset.Icc 0 n, (sgn d * (ff d * ff (n - d))) • (phi s1 t1 U1 V1 x1 (n - x1) d * phi s2 t2 U2 V2 x2 (n - x2) (n - d)) =
      sgn (n - x1 - x2) • wSum (s1 * t2 - t1 * s2) (s1 * U2 + t1 * V2) (-(s2 * U1 + t2 * V1)) (U1 * V2 - V1 * U2) x1 x2 (n - x1 - x2) := by
  -- the auxiliary spinor
  let u : R[X] := C (-s2) * X + C (-V2)
  let v : R[X] := C (-t2) * X + C U2
  have g := phi_gen (C s1) (C t1) (C U1) (C V1) u v h1 (show 0 ≤ n - x1 by omega)
  rw [show x1 + (n - x1) = n by ring] at g
  have b1 : C s1 * v + -C t1 * u = C (-(s1 * t2 - t1 * s2)) * X + C (s1 * U2 + t1 * V2) := by
    simp only [u, v, map_neg, map_add, map_sub, map_mul]
    ring
  have b2 : C U1 * u + C V1 * v = C (-(s2 * U1 + t2 * V1)) * X + C (-(U1 * V2 - V1 * U2)) := by
    simp only [u, v, map_neg, map_add, map_sub, map_mul]
    ring
  rw [b1, b2] at g
  have gc := congrArg (fun f => coeff f x2) g
  simp only [coeff_pair, finset_sum_coeff] at gc
  rw [wSum, Finset.smul_sum]
  have l1 : ∀ j ∈ Finset.Icc 0 x1, dp (-(s1 * t2 - t1 * s2)) j * dp (s1 * U2 + t1 * V2) (x1 - j) * dp (-(s2 * U1 + t2 * V1)) (x2 - j) *
      dp (-(U1 * V2 - V1 * U2)) (n - x1 - x2 + j) =
      sgn (n - x1 - x2) • wTerm (s1 * t2 - t1 * s2) (s1 * U2 + t1 * V2) (-(s2 * U1 + t2 * V1)) (U1 * V2 - V1 * U2) x1 x2 (n - x1 - x2) j := by
    intro j _
    unfold wTerm
    rw [dp_neg_sgn (s1 * t2 - t1 * s2), dp_neg_sgn (U1 * V2 - V1 * U2)]
    simp only [smul_mul_assoc, mul_smul_comm, smul_smul]
    congr 1
    rw [sgn_mul_sgn]
    exact sgn_parity (by omega)
  rw [Finset.sum_congr rfl l1] at gc
  rw [gc]
  refine Finset.sum_congr rfl fun d hd => ?_
  rw [Finset.mem_Icc] at hd
  have hu : u ^ d.toNat = ff d • dp u d := by
    rw [pow_eq_dp, show ((d.toNat : ℕ) : ℤ) = d by omega]
  have hv : v ^ (n - d).toNat = ff (n - d) • dp v (n - d) := by
    rw [pow_eq_dp, show (((n - d).toNat : ℕ) : ℤ) = n - d by omega]
  have hphi : phi (C s1) (C t1) (C U1) (C V1) x1 (n - x1) d = C (phi s1 t1 U1 V1 x1 (n - x1) d) := by
    unfold phi
    rw [map_sum]
    refine Finset.sum_congr rfl fun k _ => ?_
    rw [← map_neg, dp_C, dp_C, dp_C, dp_C, map_mul, map_mul, map_mul]
  rw [hu, hv, hphi, coeff_C_mul, smul_mul_smul_comm, coeff_smul, mul_smul_comm, mul_comm (sgn d), mul_smul]
  congr 1
  simp only [u, v]
  rw [coeff_pair, ← mul_smul_comm]
  congr 1
  rw [phi, Finset.smul_sum]
  -- the index of the second
  let f : ℤ → R := fun k => dp s2 (x2 - k) * dp (-t2) k * dp U2 (n - d - k) * dp V2 (d - x2 + k)
  have hf : ∀ k : ℤ, k < 0 ∨ (x2 : ℤ) < k → f k = 0 := by
    intro k hk
    simp only [f]
    rcases hk with h | h
    · rw [dp_neg h]
      ring
    · rw [dp_neg (show (x2 : ℤ) - k < 0 by omega)]
      ring
  have hL : ∀ k ∈ Finset.Icc 0 (x2 : ℤ), sgn d • (dp s2 (x2 - k) * dp (-t2) k * dp U2 (n - d - k) * dp V2 (n - x2 - (n - d) + k)) = sgn d • f k := by
    intro k _
    simp only [f]
    rw [show n - (x2 : ℤ) - (n - d) + k = d - x2 + k by ring]
  rw [Finset.sum_congr rfl hL]
  have hR : ∀ j ∈ Finset.Icc 0 d, dp (-s2) j * dp (-V2) (d - j) * dp (-t2) (x2 - j) * dp U2 (n - d - x2 + j) = sgn d • f (x2 - j) := by
    intro j _
    simp only [f]
    rw [dp_neg_sgn s2, dp_neg_sgn V2, show (x2 : ℤ) - (x2 - j) = j by ring, show n - d - ((x2 : ℤ) - j) = n - d - x2 + j by ring,
      show d - (x2 : ℤ) + (x2 - j) = d - j by ring, smul_mul_smul_comm, sgn_mul_sgn, show j + (d - j) = d by ring]
    simp only [smul_mul_assoc]
    congr 1
    ring
  rw [Finset.sum_congr rfl hR, ← Finset.smul_sum, ← Finset.smul_sum]
  congr 1
  -- both are the sum over all values
  have z1 : ∑ k ∈ Finset.Icc 0 (x2 : ℤ), f k = ∑ k ∈ Finset.Icc (x2 - d) x2 ∪ Finset.Icc 0 (x2 : ℤ), f k :=
    Finset.sum_subset Finset.subset_union_right fun k _ hk => hf k (by rw [Finset.mem_Icc] at hk; omega)
  have z2 : ∑ k ∈ Finset.Icc (x2 - d) (x2 : ℤ), f k = ∑ k ∈ Finset.Icc (x2 - d) x2 ∪ Finset.Icc 0 (x2 : ℤ), f k :=
    Finset.sum_subset Finset.subset_union_left fun k hk hk' => by
      rw [Finset.mem_union, Finset.mem_Icc, Finset.mem_Icc] at hk
      rw [Finset.mem_Icc] at hk'
      simp only [f]
      rw [dp_neg (show d - (x2 : ℤ) + k < 0 by omega)]
      ring
  rw [z1, ← z2]
  refine Finset.sum_bij (fun k _ => (x2 : ℤ) - k) ?_ ?_ ?_ ?_
  · intro k hk
    rw [Finset.mem_Icc] at hk ⊢
    omega
  · intro k _ k' _ h
    omega
  · intro j hj
    rw [Finset.mem_Icc] at hj
    exact ⟨x2 - j, by rw [Finset.mem_Icc]; omega, by omega⟩
  · intro k _
    rw [sub_sub_cancel]

end

end Verif.Moshinsky.Osc
