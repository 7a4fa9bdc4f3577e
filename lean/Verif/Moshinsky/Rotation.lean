import Verif.Moshinsky.Ortho

/-!
# Rotations of the oscillator states

Raising and lowering of the projections.  States of different angular momentum or projection are orthogonal.
-/

namespace Verif.Moshinsky.Osc
open MvPolynomial

/-! ## Harmonic polynomials -/

section
variable {R : Type*} [CommRing R] [Algebra ℝ R] {D : Derivation ℝ R R} {p z q : R}

theorem D_dp_mul (x : R) (i : ℤ) : D (dp x i) = dp x (i - 1) * D x := by
  rcases lt_trichotomy i 0 with h | rfl | h
  · rw [dp_neg h, dp_neg (by omega), map_zero, zero_mul]
  · rw [dp_neg (show (0 : ℤ) - 1 < 0 by omega), dp, if_neg (by omega)]
    simp
  · obtain ⟨n, rfl⟩ : ∃ n : ℕ, i = (n : ℤ) + 1 := ⟨(i - 1).toNat, by omega⟩
    have hf := (ff_pos (n : ℤ)).ne'
    have h1 : ((n : ℤ) : ℝ) + 1 ≠ 0 := by
      have : (0 : ℝ) ≤ (n : ℤ) := by exact_mod_cast Int.natCast_nonneg n
      positivity
    rw [dp, dp, if_neg (by omega), if_neg (by omega), ff_succ (by omega), add_sub_cancel_right, D.map_smul, D.leibniz_pow,
      show ((n : ℤ) + 1).toNat = n + 1 by omega, Nat.add_sub_cancel, smul_eq_mul, Int.toNat_natCast,
      ← Nat.cast_smul_eq_nsmul ℝ, smul_smul, smul_mul_assoc]
    congr 1
    push_cast at h1 ⊢
    field_simp

/-- A derivation that raises the projection. -/
structure Raises (D : Derivation ℝ R R) (p z q : R) : Prop where
  hp : D p = 0
  hz : D z = (√2 : ℝ) • p
  hq : D q = (√2 : ℝ) • z

/-- A derivation that lowers the projection. -/
structure Lowers (D : Derivation ℝ R R) (p z q : R) : Prop where
  hp : D p = (√2 : ℝ) • z
  hz : D z = (√2 : ℝ) • q
  hq : D q = 0

theorem raise_rr (h : Raises D p z q) : D (rr p z q) = 0 := by
  rw [D_rr, h.hp, h.hz, h.hq]
  simp only [mul_smul_comm, mul_zero]
  rw [show 2 * z * p = 2 * (p * z) by ring, sub_zero, sub_self]

theorem lower_rr (h : Lowers D p z q) : D (rr p z q) = 0 := by
  rw [D_rr, h.hp, h.hz, h.hq]
  simp only [mul_smul_comm, mul_zero]
  rw [sub_zero, show 2 * z * q = 2 * (q * z) by ring, sub_self]

theorem raise_solid (h : Raises D p z q) (l m : ℤ) : D (solid l m p z q) = (((l : ℝ) + m + 1) * (√2 / 2)) • solid l (m + 1) p z q := by
  have e : ∀ k, D (solidTerm l m p z q k) = (√2 * ((k : ℝ) + m + 1)) • solidTerm l (m + 1) p z q k +
      (√2 / 2 * ((l : ℝ) - m - 2 * k + 1)) • solidTerm l (m + 1) p z q (k + -1) := by
    intro k
    have e1 := mul_dp p (k + m)
    have e2 := mul_dp z (l - m - 2 * k)
    rw [solidTerm, solidTerm, solidTerm, D.map_smul, D.leibniz, D.leibniz, D_dp_mul, D_dp_mul, D_dp_mul, h.hp, h.hz, h.hq,
      show k + (m + 1) = k + m + 1 by ring, show l - (m + 1) - 2 * k = l - m - 2 * k - 1 by ring, show k + -1 + (m + 1) = k + m by ring,
      show l - (m + 1) - 2 * (k + -1) = l - m - 2 * k + 1 by ring, show -(k + -1) = -k + 1 by ring, show k + -1 = k - 1 by ring,
      zpow_add₀ (by norm_num), zpow_one]
    simp only [smul_eq_mul, mul_zero, add_zero, mul_smul_comm, smul_add]
    rw [show dp p (k + m) * dp z (l - m - 2 * k) * (dp q (k - 1) * z) = (dp p (k + m) * dp q (k - 1)) * (z * dp z (l - m - 2 * k)) by ring,
      show dp q k * (dp p (k + m) * (dp z (l - m - 2 * k - 1) * p)) = (dp q k * dp z (l - m - 2 * k - 1)) * (p * dp p (k + m)) by ring, e1, e2]
    push_cast
    simp only [mul_smul_comm, smul_smul]
    rw [add_comm]
    congr 1
    · rw [show dp q k * dp z (l - m - 2 * k - 1) * dp p (k + m + 1) = dp p (k + m + 1) * dp z (l - m - 2 * k - 1) * dp q k by ring]
      congr 1
      ring
    · rw [show dp p (k + m) * dp q (k - 1) * dp z (l - m - 2 * k + 1) = dp p (k + m) * dp z (l - m - 2 * k + 1) * dp q (k - 1) by ring]
      congr 1
      ring
  have s1 := solid_eq (l := l) (m := m + 1) (p := p) (z := z) (q := q) (S := wide l) (sub_wide (by omega) (by omega))
  let f : ℤ → R := fun k => (√2 / 2 * ((l : ℝ) - m - 2 * k - 1)) • solidTerm l (m + 1) p z q k
  have s2 : ∑ k ∈ wide l, f (k + -1) = ∑ k ∈ wide l, f k := by
    have hz : ∀ k, k ∉ Finset.Icc 0 l → f k = 0 := fun k hk => by simp only [f]; rw [solidTerm_zero hk, smul_zero]
    rw [sum_shift f (a := 0) (b := l) (fun k hk => hz k (by rw [Finset.mem_Icc]; omega)) (fun k hk => hz k (by rw [Finset.mem_Icc]; omega)) (-1)
      (sub_wide (by omega) (by omega))]
    exact Finset.sum_subset (sub_wide (by omega) (by omega)) fun k _ hk => hz k hk
  rw [solid_eq (l := l) (S := wide l) (sub_wide (by omega) (by omega)), map_sum, Finset.sum_congr rfl fun k _ => e k, Finset.sum_add_distrib]
  have s3 : ∑ k ∈ wide l, (√2 / 2 * ((l : ℝ) - m - 2 * k + 1)) • solidTerm l (m + 1) p z q (k + -1) = ∑ k ∈ wide l, f (k + -1) := by
    refine Finset.sum_congr rfl fun k _ => ?_
    simp only [f]
    congr 1
    push_cast
    ring
  rw [s3, s2, ← Finset.sum_add_distrib, s1, Finset.smul_sum]
  refine Finset.sum_congr rfl fun k _ => ?_
  simp only [f]
  rw [← add_smul]
  congr 1
  ring

theorem lower_solid (h : Lowers D p z q) (l m : ℤ) : D (solid l m p z q) = (((l : ℝ) - m + 1) * √2) • solid l (m - 1) p z q := by
  have e : ∀ k, D (solidTerm l m p z q k) = (√2 * ((l : ℝ) - m - 2 * k + 1)) • solidTerm l (m - 1) p z q k +
      (2 * √2 * ((k : ℝ) + 1)) • solidTerm l (m - 1) p z q (k + 1) := by
    intro k
    have e1 := mul_dp q k
    have e2 := mul_dp z (l - m - 2 * k)
    rw [solidTerm, solidTerm, solidTerm, D.map_smul, D.leibniz, D.leibniz, D_dp_mul, D_dp_mul, D_dp_mul, h.hp, h.hz, h.hq,
      show k + (m - 1) = k + m - 1 by ring, show l - (m - 1) - 2 * k = l - m - 2 * k + 1 by ring, show k + 1 + (m - 1) = k + m by ring,
      show l - (m - 1) - 2 * (k + 1) = l - m - 2 * k - 1 by ring, show -(k + 1) = -k - 1 by ring,
      zpow_sub₀ (by norm_num), zpow_one]
    simp only [smul_eq_mul, mul_zero, zero_add, mul_smul_comm, mul_add, smul_add]
    rw [show dp q k * (dp p (k + m) * (dp z (l - m - 2 * k - 1) * q)) = (dp p (k + m) * dp z (l - m - 2 * k - 1)) * (q * dp q k) by ring,
      show dp q k * (dp z (l - m - 2 * k) * (dp p (k + m - 1) * z)) = (dp p (k + m - 1) * dp q k) * (z * dp z (l - m - 2 * k)) by ring, e1, e2]
    push_cast
    simp only [mul_smul_comm, smul_smul]
    rw [add_comm]
    congr 1
    · rw [show dp p (k + m - 1) * dp q k * dp z (l - m - 2 * k + 1) = dp p (k + m - 1) * dp z (l - m - 2 * k + 1) * dp q k by ring]
      congr 1
      ring
    · congr 1
      ring
  have s1 := solid_eq (l := l) (m := m - 1) (p := p) (z := z) (q := q) (S := wide l) (sub_wide (by omega) (by omega))
  let f : ℤ → R := fun k => (2 * √2 * (k : ℝ)) • solidTerm l (m - 1) p z q k
  have s2 : ∑ k ∈ wide l, f (k + 1) = ∑ k ∈ wide l, f k := by
    have hz : ∀ k, k ∉ Finset.Icc 0 l → f k = 0 := fun k hk => by simp only [f]; rw [solidTerm_zero hk, smul_zero]
    rw [sum_shift f (a := 0) (b := l) (fun k hk => hz k (by rw [Finset.mem_Icc]; omega)) (fun k hk => hz k (by rw [Finset.mem_Icc]; omega)) 1
      (sub_wide (by omega) (by omega))]
    exact Finset.sum_subset (sub_wide (by omega) (by omega)) fun k _ hk => hz k hk
  rw [solid_eq (l := l) (S := wide l) (sub_wide (by omega) (by omega)), map_sum, Finset.sum_congr rfl fun k _ => e k, Finset.sum_add_distrib]
  have s3 : ∑ k ∈ wide l, (2 * √2 * ((k : ℝ) + 1)) • solidTerm l (m - 1) p z q (k + 1) = ∑ k ∈ wide l, f (k + 1) := by
    refine Finset.sum_congr rfl fun k _ => ?_
    simp only [f]
    congr 1
    push_cast
    ring
  rw [s3, s2, ← Finset.sum_add_distrib, s1, Finset.smul_sum]
  refine Finset.sum_congr rfl fun k _ => ?_
  simp only [f]
  rw [← add_smul]
  congr 1
  ring

end

/-! ## States -/

/-- The oscillator state with a factor that simplifies raising and lowering. -/
noncomputable def st (c : Fin 3 → Two) (n l : ℕ) (m : ℤ) : Two := pr l m • single c n l m

theorem st_solid (c : Fin 3 → Two) (n l : ℕ) (m : ℤ) : st c n l m =
    ((-1) ^ n * nu n l * (ff (l + m) * ff (l - m)) * (√2 : ℝ) ^ (-m)) • (rr (c 0) (c 1) (c 2) ^ n * solid l m (c 0) (c 1) (c 2)) := by
  rw [st, single_hs, hs, mul_smul_comm, smul_smul, smul_smul, ← pr_mul_self]
  congr 1
  ring

theorem st_out {c : Fin 3 → Two} {n l : ℕ} {m : ℤ} (h : (l : ℤ) < |m|) : st c n l m = 0 := by
  rw [st, single, osc_out h, smul_zero]

theorem root_two (m : ℤ) : (√2 : ℝ) ^ (-(m + 1)) * √2 = √2 ^ (-m) := by
  have h2 : (√2 : ℝ) ≠ 0 := by positivity
  rw [neg_add, zpow_add₀ h2, zpow_neg_one, inv_mul_cancel_right₀ h2]

theorem raise_st {D : Derivation ℝ Two Two} {c : Fin 3 → Two} (h : Raises D (c 0) (c 1) (c 2)) (n l : ℕ) {m : ℤ} (hm : |m| ≤ l) :
    D (st c n l m) = ((l : ℝ) - m) • st c n l (m + 1) := by
  have hm' := abs_le.mp hm
  rw [st_solid, st_solid, D.map_smul, D.leibniz, D_pow, raise_rr h, raise_solid h]
  by_cases hl : m = l
  · rw [solid_out (l := (l : ℤ)) (m := m + 1) (by rw [lt_abs]; omega)]
    simp
  simp only [mul_zero, smul_zero, add_zero, smul_eq_mul, mul_smul_comm, smul_smul, Int.cast_natCast]
  have hz := root_two m
  have h2 : √2 * √2 = (2 : ℝ) := Real.mul_self_sqrt (by norm_num)
  congr 1
  have e := ff_succ (i := (l : ℤ) - (m + 1)) (by omega)
  rw [show (l : ℤ) - (m + 1) + 1 = l - m by ring] at e
  rw [← hz, show (l : ℤ) + (m + 1) = l + m + 1 by ring, ff_succ (by omega), e]
  push_cast
  linear_combination ((-1) ^ n * nu n l * (ff (l + m) * ((l - (m + 1) + 1) * ff (l - (m + 1)))) * √2 ^ (-(m + 1)) * (l + m + 1) / 2) * h2

theorem lower_st {D : Derivation ℝ Two Two} {c : Fin 3 → Two} (h : Lowers D (c 0) (c 1) (c 2)) (n l : ℕ) {m : ℤ} (hm : |m| ≤ l) :
    D (st c n l m) = ((l : ℝ) + m) • st c n l (m - 1) := by
  have hm' := abs_le.mp hm
  rw [st_solid, st_solid, D.map_smul, D.leibniz, D_pow, lower_rr h, lower_solid h]
  by_cases hl : m = -l
  · rw [solid_out (l := (l : ℤ)) (m := m - 1) (by rw [lt_abs]; omega)]
    simp
  simp only [mul_zero, smul_zero, add_zero, smul_eq_mul, mul_smul_comm, smul_smul, Int.cast_natCast]
  have hz := root_two (m - 1)
  rw [sub_add_cancel] at hz
  congr 1
  have e := ff_succ (i := (l : ℤ) + (m - 1)) (by omega)
  rw [show (l : ℤ) + (m - 1) + 1 = l + m by ring] at e
  rw [← hz, show (l : ℤ) - (m - 1) = l - m + 1 by ring, ff_succ (i := (l : ℤ) - m) (by omega), e]
  push_cast
  ring

/-- The coupled state with a factor that simplifies raising and lowering. -/
noncomputable def cst (a b : Fin 3 → Two) (n1 l1 n2 l2 Λ : ℕ) (M : ℤ) : Two :=
  ∑ m ∈ Finset.Icc (-(l1 : ℤ)) l1, fac3 l1 l2 Λ m (M - m) • (st a n1 l1 m * st b n2 l2 (M - m))

theorem coupled_cst (a b : Fin 3 → Two) (n1 l1 n2 l2 Λ : ℕ) (M : ℤ) :
    coupledState cg a b n1 l1 n2 l2 Λ M = (tri3 l1 l2 Λ * pr Λ M) • cst a b n1 l1 n2 l2 Λ M := by
  rw [coupledState, couple, cst, Finset.smul_sum]
  refine Finset.sum_congr rfl fun m _ => ?_
  have e : cg l1 m l2 (M - m) Λ M • (single a n1 l1 m * single b n2 l2 (M - m)) =
      (tri3 l1 l2 Λ * pr Λ M) • fac3 l1 l2 Λ m (M - m) • (st a n1 l1 m * st b n2 l2 (M - m)) := by
    rw [cg, if_pos (by ring), st, st, smul_mul_smul_comm, smul_smul, smul_smul, fac3]
    congr 1
    ring
  by_cases hm : |M - m| ≤ l2
  · rw [Finset.sum_eq_single (M - m), e]
    · intro m2 _ h2
      rw [cg_of_ne (by omega), zero_smul]
    · intro h2
      rw [Finset.mem_Icc] at h2
      rw [abs_le] at hm
      omega
  · rw [← e, cg_range (Or.inr (not_le.mp hm)), zero_smul]
    refine Finset.sum_eq_zero fun m2 h2 => ?_
    rw [Finset.mem_Icc] at h2
    rw [abs_le] at hm
    rw [cg_of_ne (by omega), zero_smul]

section
variable {D : Derivation ℝ Two Two} {a b : Fin 3 → Two}

theorem raise_cst (ha : Raises D (a 0) (a 1) (a 2)) (hb : Raises D (b 0) (b 1) (b 2)) (n1 l1 n2 l2 Λ : ℕ) (M : ℤ) :
    D (cst a b n1 l1 n2 l2 Λ M) = ((Λ : ℝ) + M + 1) • cst a b n1 l1 n2 l2 Λ (M + 1) := by
  let f : ℤ → Two := fun m => (((l1 : ℝ) - m + 1) * fac3 l1 l2 Λ (m - 1) (M + 1 - m)) • (st a n1 l1 m * st b n2 l2 (M + 1 - m))
  let g : ℤ → Two := fun m => (((l2 : ℝ) - (M - m)) * fac3 l1 l2 Λ m (M - m)) • (st a n1 l1 m * st b n2 l2 (M + 1 - m))
  have e : ∀ m ∈ Finset.Icc (-(l1 : ℤ)) l1, D (fac3 l1 l2 Λ m (M - m) • (st a n1 l1 m * st b n2 l2 (M - m))) = f (m + 1) + g m := by
    intro m hm
    rw [Finset.mem_Icc] at hm
    have r1 := raise_st ha n1 l1 (m := m) (abs_le.mpr hm)
    simp only [f, g]
    rw [show m + 1 - 1 = m by ring, show M + 1 - (m + 1) = M - m by ring]
    by_cases h2 : |M - m| ≤ l2
    · have r2 := raise_st hb n2 l2 h2
      rw [D.map_smul, D.leibniz, r1, r2, show M - m + 1 = M + 1 - m by ring]
      simp only [smul_eq_mul, mul_smul_comm, smul_add, smul_smul]
      rw [add_comm, mul_comm (st b n2 l2 (M - m))]
      push_cast
      congr 2
      · ring
      · ring
    · have h0 : fac3 l1 l2 Λ m (M - m) = 0 := (fac3_inv l1 l2 Λ).range _ _ (Or.inr (Or.inl (not_le.mp h2)))
      rw [h0]
      simp
  have hs : ∑ m ∈ Finset.Icc (-(l1 : ℤ)) l1, f (m + 1) = ∑ m ∈ Finset.Icc (-(l1 : ℤ)) l1, f m := by
    have h0 : ∀ m, m < -(l1 : ℤ) + 1 → f m = 0 := by
      intro m hm
      simp only [f]
      rw [(fac3_inv l1 l2 Λ).range (m - 1) _ (Or.inl (by rw [lt_abs]; omega)), mul_zero, zero_smul]
    rw [sum_shift f (a := -(l1 : ℤ) + 1) (b := l1) h0 (fun m hm => by simp only [f]; rw [st_out (by rw [lt_abs]; omega), zero_mul, smul_zero]) 1
      (Finset.Icc_subset_Icc (by omega) (by omega))]
    refine Finset.sum_subset (Finset.Icc_subset_Icc (by omega) le_rfl) fun m hm hm' => h0 m ?_
    rw [Finset.mem_Icc] at hm hm'
    omega
  rw [cst, map_sum, Finset.sum_congr rfl e, Finset.sum_add_distrib, hs, ← Finset.sum_add_distrib, cst, Finset.smul_sum]
  refine Finset.sum_congr rfl fun m _ => ?_
  have r := (fac3_inv l1 l2 Λ).raise m (M + 1 - m)
  simp only [f, g]
  rw [← add_smul, smul_smul]
  congr 1
  rw [show M + 1 - m - 1 = M - m by ring] at r
  push_cast at r ⊢
  linear_combination r

theorem lower_cst (ha : Lowers D (a 0) (a 1) (a 2)) (hb : Lowers D (b 0) (b 1) (b 2)) (n1 l1 n2 l2 Λ : ℕ) (M : ℤ) :
    D (cst a b n1 l1 n2 l2 Λ M) = ((Λ : ℝ) - M + 1) • cst a b n1 l1 n2 l2 Λ (M - 1) := by
  let f : ℤ → Two := fun m => (((l1 : ℝ) + m + 1) * fac3 l1 l2 Λ (m + 1) (M - 1 - m)) • (st a n1 l1 m * st b n2 l2 (M - 1 - m))
  let g : ℤ → Two := fun m => (((l2 : ℝ) + (M - m)) * fac3 l1 l2 Λ m (M - m)) • (st a n1 l1 m * st b n2 l2 (M - 1 - m))
  have e : ∀ m ∈ Finset.Icc (-(l1 : ℤ)) l1, D (fac3 l1 l2 Λ m (M - m) • (st a n1 l1 m * st b n2 l2 (M - m))) = f (m + -1) + g m := by
    intro m hm
    rw [Finset.mem_Icc] at hm
    have r1 := lower_st ha n1 l1 (m := m) (abs_le.mpr hm)
    simp only [f, g]
    rw [show m + -1 + 1 = m by ring, show M - 1 - (m + -1) = M - m by ring, show m + -1 = m - 1 by ring]
    by_cases h2 : |M - m| ≤ l2
    · have r2 := lower_st hb n2 l2 h2
      rw [D.map_smul, D.leibniz, r1, r2, show M - m - 1 = M - 1 - m by ring]
      simp only [smul_eq_mul, mul_smul_comm, smul_add, smul_smul]
      rw [add_comm, mul_comm (st b n2 l2 (M - m))]
      push_cast
      congr 2
      · ring
      · ring
    · have h0 : fac3 l1 l2 Λ m (M - m) = 0 := (fac3_inv l1 l2 Λ).range _ _ (Or.inr (Or.inl (not_le.mp h2)))
      rw [h0]
      simp
  have hs : ∑ m ∈ Finset.Icc (-(l1 : ℤ)) l1, f (m + -1) = ∑ m ∈ Finset.Icc (-(l1 : ℤ)) l1, f m := by
    have h0 : ∀ m, (l1 : ℤ) - 1 < m → f m = 0 := by
      intro m hm
      simp only [f]
      rw [(fac3_inv l1 l2 Λ).range (m + 1) _ (Or.inl (by rw [lt_abs]; omega)), mul_zero, zero_smul]
    rw [sum_shift f (a := -(l1 : ℤ)) (b := l1 - 1) (fun m hm => by simp only [f]; rw [st_out (by rw [lt_abs]; omega), zero_mul, smul_zero]) h0 (-1)
      (Finset.Icc_subset_Icc (by omega) (by omega))]
    refine Finset.sum_subset (Finset.Icc_subset_Icc le_rfl (by omega)) fun m hm hm' => h0 m ?_
    rw [Finset.mem_Icc] at hm hm'
    omega
  rw [cst, map_sum, Finset.sum_congr rfl e, Finset.sum_add_distrib, hs, ← Finset.sum_add_distrib, cst, Finset.smul_sum]
  refine Finset.sum_congr rfl fun m _ => ?_
  have r := (fac3_inv l1 l2 Λ).lower m (M - 1 - m)
  simp only [f, g]
  rw [← add_smul, smul_smul]
  congr 1
  rw [show M - 1 - m + 1 = M - m by ring] at r
  push_cast at r ⊢
  linear_combination r

end

/-! ## The operators -/

/-- Raising of the projection of the total orbital angular momentum. -/
noncomputable def raising : Derivation ℝ Two Two :=
  (√2 : ℝ) • ∑ i : Fin 2, ((X (i, 0) : Two) • pderiv (i, 1) + (X (i, 1) : Two) • pderiv (i, 2))
/-- Lowering of the projection of the total orbital angular momentum. -/
noncomputable def lowering : Derivation ℝ Two Two :=
  (√2 : ℝ) • ∑ i : Fin 2, ((X (i, 1) : Two) • pderiv (i, 0) + (X (i, 2) : Two) • pderiv (i, 1))

theorem raising_apply (u : Two) : raising u = (√2 : ℝ) • ((X (0, 0) * pderiv (0, 1) u + X (0, 1) * pderiv (0, 2) u) +
    (X (1, 0) * pderiv (1, 1) u + X (1, 1) * pderiv (1, 2) u)) := by
  simp [raising, Fin.sum_univ_two]

theorem lowering_apply (u : Two) : lowering u = (√2 : ℝ) • ((X (0, 1) * pderiv (0, 0) u + X (0, 2) * pderiv (0, 1) u) +
    (X (1, 1) * pderiv (1, 0) u + X (1, 2) * pderiv (1, 1) u)) := by
  simp [lowering, Fin.sum_univ_two]

/-- Raising and lowering are adjoint. -/
theorem raising_adjoint (u v : Two) : fock (raising u) v = fock u (lowering v) := by
  rw [raising_apply, lowering_apply, fock_smul_left, fock_smul_right]
  simp only [fock_add_left, fock_add_right, fock_X_left, fock_X_right]

theorem lowering_adjoint (u v : Two) : fock (lowering u) v = fock u (raising v) := by
  rw [fock_comm, ← raising_adjoint, fock_comm]

theorem raises_first : Raises raising (first 0) (first 1) (first 2) := by
  constructor <;> simp [raising_apply, first, pderiv_X]

theorem raises_second : Raises raising (second 0) (second 1) (second 2) := by
  constructor <;> simp [raising_apply, second, pderiv_X]

theorem lowers_first : Lowers lowering (first 0) (first 1) (first 2) := by
  constructor <;> simp [lowering_apply, first, pderiv_X]

theorem lowers_second : Lowers lowering (second 0) (second 1) (second 2) := by
  constructor <;> simp [lowering_apply, second, pderiv_X]

theorem raises_relative : Raises raising (relative 0) (relative 1) (relative 2) := by
  constructor <;> simp only [relative, Derivation.map_smul, map_sub, raises_first.hp, raises_first.hz, raises_first.hq, raises_second.hp,
    raises_second.hz, raises_second.hq, ← smul_sub, sub_self, smul_zero] <;> rw [smul_comm]

theorem raises_centre : Raises raising (centre 0) (centre 1) (centre 2) := by
  constructor <;> simp only [centre, Derivation.map_smul, map_add, raises_first.hp, raises_first.hz, raises_first.hq, raises_second.hp,
    raises_second.hz, raises_second.hq, ← smul_add, add_zero, smul_zero] <;> rw [smul_comm]

theorem lowers_relative : Lowers lowering (relative 0) (relative 1) (relative 2) := by
  constructor <;> simp only [relative, Derivation.map_smul, map_sub, lowers_first.hp, lowers_first.hz, lowers_first.hq, lowers_second.hp,
    lowers_second.hz, lowers_second.hq, ← smul_sub, sub_self, smul_zero] <;> rw [smul_comm]

theorem lowers_centre : Lowers lowering (centre 0) (centre 1) (centre 2) := by
  constructor <;> simp only [centre, Derivation.map_smul, map_add, lowers_first.hp, lowers_first.hz, lowers_first.hq, lowers_second.hp,
    lowers_second.hz, lowers_second.hq, ← smul_add, add_zero, smul_zero] <;> rw [smul_comm]

/-- Creation operators that are rotated together. -/
structure Rotates (a : Fin 3 → Two) : Prop where
  up : Raises raising (a 0) (a 1) (a 2)
  dn : Lowers lowering (a 0) (a 1) (a 2)

/-- States of different angular momentum or projection are orthogonal. -/
theorem cst_ortho {a b a' b' : Fin 3 → Two} (ha : Rotates a) (hb : Rotates b) (ha' : Rotates a') (hb' : Rotates b')
    {n1 l1 n2 l2 Λ n1' l1' n2' l2' Λ' : ℕ} {M M' : ℤ} (h : Λ ≠ Λ' ∨ M ≠ M') :
    fock (cst a b n1 l1 n2 l2 Λ M) (cst a' b' n1' l1' n2' l2' Λ' M') = 0 := by
  have up := fun M => raise_cst ha.up hb.up n1 l1 n2 l2 Λ M
  have dn := fun M => lower_cst ha.dn hb.dn n1 l1 n2 l2 Λ M
  have up' := fun M => raise_cst ha'.up hb'.up n1' l1' n2' l2' Λ' M
  have dn' := fun M => lower_cst ha'.dn hb'.dn n1' l1' n2' l2' Λ' M
  have h1 : fock (raising (lowering (cst a b n1 l1 n2 l2 Λ M))) (cst a' b' n1' l1' n2' l2' Λ' M') =
      fock (cst a b n1 l1 n2 l2 Λ M) (raising (lowering (cst a' b' n1' l1' n2' l2' Λ' M'))) := by
    rw [raising_adjoint, lowering_adjoint]
  have h2 : fock (lowering (raising (cst a b n1 l1 n2 l2 Λ M))) (cst a' b' n1' l1' n2' l2' Λ' M') =
      fock (cst a b n1 l1 n2 l2 Λ M) (lowering (raising (cst a' b' n1' l1' n2' l2' Λ' M'))) := by
    rw [lowering_adjoint, raising_adjoint]
  rw [dn, dn', Derivation.map_smul, Derivation.map_smul, up, up', sub_add_cancel, sub_add_cancel] at h1
  rw [up, up', Derivation.map_smul, Derivation.map_smul, dn, dn', add_sub_cancel_right, add_sub_cancel_right] at h2
  simp only [fock_smul_left, fock_smul_right] at h1 h2
  push_cast at h1 h2
  generalize fock (cst a b n1 l1 n2 l2 Λ M) (cst a' b' n1' l1' n2' l2' Λ' M') = G at h1 h2 ⊢
  by_cases hM : M = M'
  · subst hM
    have hΛ : Λ ≠ Λ' := by tauto
    have e : (((Λ : ℝ) - Λ') * (Λ + Λ' + 1)) * G = 0 := by linear_combination h1
    rcases mul_eq_zero.mp e with e | e
    · rcases mul_eq_zero.mp e with e | e
      · exact absurd (by exact_mod_cast sub_eq_zero.mp e) hΛ
      · exfalso
        have : (0 : ℝ) ≤ Λ := Nat.cast_nonneg Λ
        have : (0 : ℝ) ≤ Λ' := Nat.cast_nonneg Λ'
        linarith
    · exact e
  · have e : ((M : ℝ) - M') * G = 0 := by linear_combination (1 / 2) * h1 - (1 / 2) * h2
    rcases mul_eq_zero.mp e with e | e
    · exact absurd (by exact_mod_cast sub_eq_zero.mp e) hM
    · exact e

theorem coupled_ortho {a b a' b' : Fin 3 → Two} (ha : Rotates a) (hb : Rotates b) (ha' : Rotates a') (hb' : Rotates b')
    {n1 l1 n2 l2 Λ n1' l1' n2' l2' Λ' : ℕ} {M M' : ℤ} (h : Λ ≠ Λ' ∨ M ≠ M') :
    fock (coupledState cg a b n1 l1 n2 l2 Λ M) (coupledState cg a' b' n1' l1' n2' l2' Λ' M') = 0 := by
  rw [coupled_cst, coupled_cst, fock_smul_left, fock_smul_right, cst_ortho ha hb ha' hb' h, mul_zero, mul_zero]

theorem rotates_first : Rotates first := ⟨raises_first, lowers_first⟩
theorem rotates_second : Rotates second := ⟨raises_second, lowers_second⟩
theorem rotates_relative : Rotates relative := ⟨raises_relative, lowers_relative⟩
theorem rotates_centre : Rotates centre := ⟨raises_centre, lowers_centre⟩

end Verif.Moshinsky.Osc
