import Verif.Moshinsky.BracketProps
import Mathlib.RingTheory.Derivation.Basic
import Mathlib.Algebra.Algebra.Basic
import Mathlib.Data.Nat.Factorial.DoubleFactorial

/-!
# Solid harmonics as polynomials

The harmonic polynomials of three variables in spherical components `p = x_{+1}`, `z = x_0`, `q = x_{-1}` and the states of
the three-dimensional oscillator built from them, in any commutative algebra.  They are used with the creation operators in
place of the variables (`Overlap.lean`).
-/

namespace Verif.Moshinsky.Osc

section
variable {R : Type*} [CommRing R] [Algebra ℝ R]

/-- Divided power `x^i/i!`, zero for a negative exponent. -/
noncomputable def dp (x : R) (i : ℤ) : R := if i < 0 then 0 else (1 / ff i) • x ^ i.toNat

theorem dp_neg {x : R} {i : ℤ} (h : i < 0) : dp x i = 0 := if_pos h

theorem ff_pos (n : ℤ) : 0 < ff n := by
  unfold ff
  exact_mod_cast Nat.factorial_pos _

theorem ff_succ {i : ℤ} (h : 0 ≤ i) : ff (i + 1) = (i + 1) * ff i := by
  obtain ⟨n, rfl⟩ := Int.eq_ofNat_of_zero_le h
  unfold ff
  rw [show ((n : ℤ) + 1).toNat = n + 1 by omega, Int.toNat_natCast, Nat.factorial_succ]
  push_cast
  ring

theorem mul_dp (x : R) (i : ℤ) : x * dp x i = ((i : ℝ) + 1) • dp x (i + 1) := by
  rcases lt_trichotomy i (-1) with h | rfl | h
  · rw [dp_neg (by omega), dp_neg (by omega), mul_zero, smul_zero]
  · rw [dp_neg (by omega)]
    simp
  · have h0 : 0 ≤ i := by omega
    have hf := (ff_pos i).ne'
    have h1 : (i : ℝ) + 1 ≠ 0 := by
      have : (0 : ℝ) ≤ i := by exact_mod_cast h0
      positivity
    rw [dp, dp, if_neg (by omega), if_neg (by omega), ff_succ h0, mul_smul_comm, smul_smul,
      show (i + 1).toNat = i.toNat + 1 by omega, pow_succ']
    congr 1
    field_simp

theorem D_dp {D : Derivation ℝ R R} {x : R} (hx : D x = 1) (i : ℤ) : D (dp x i) = dp x (i - 1) := by
  rcases lt_trichotomy i 0 with h | rfl | h
  · rw [dp_neg h, dp_neg (by omega), map_zero]
  · rw [dp_neg (show (0 : ℤ) - 1 < 0 by omega), dp, if_neg (by omega)]
    simp
  · obtain ⟨n, rfl⟩ : ∃ n : ℕ, i = (n : ℤ) + 1 := ⟨(i - 1).toNat, by omega⟩
    have hf := (ff_pos (n : ℤ)).ne'
    have h1 : ((n : ℤ) : ℝ) + 1 ≠ 0 := by
      have : (0 : ℝ) ≤ (n : ℤ) := by exact_mod_cast Int.natCast_nonneg n
      positivity
    rw [dp, dp, if_neg (by omega), if_neg (by omega), ff_succ (by omega), add_sub_cancel_right, D.map_smul, D.leibniz_pow, hx,
      show ((n : ℤ) + 1).toNat = n + 1 by omega, Nat.add_sub_cancel, smul_eq_mul, mul_one, Int.toNat_natCast,
      ← Nat.cast_smul_eq_nsmul ℝ, smul_smul]
    congr 1
    push_cast at h1 ⊢
    field_simp

theorem D_dp_zero {D : Derivation ℝ R R} {x : R} (hx : D x = 0) (i : ℤ) : D (dp x i) = 0 := by
  unfold dp
  split_ifs
  · exact map_zero _
  · rw [D.map_smul, D.leibniz_pow, hx]
    simp

/-- A term of the harmonic polynomial. -/
noncomputable def solidTerm (l m : ℤ) (p z q : R) (k : ℤ) : R :=
  ((2 : ℝ) ^ (-k)) • (dp p (k + m) * dp z (l - m - 2 * k) * dp q k)

/-- The harmonic polynomial of degree `l` and projection `m`, up to a factor. -/
noncomputable def solid (l m : ℤ) (p z q : R) : R := ∑ k ∈ Finset.Icc 0 l, solidTerm l m p z q k

theorem solidTerm_zero {l m k : ℤ} {p z q : R} (h : k ∉ Finset.Icc 0 l) : solidTerm l m p z q k = 0 := by
  rw [Finset.mem_Icc, not_and_or] at h
  unfold solidTerm
  by_cases hk : k < 0
  · rw [dp_neg hk, mul_zero, smul_zero]
  · by_cases hm : k + m < 0
    · rw [dp_neg hm, zero_mul, zero_mul, smul_zero]
    · rw [dp_neg (show l - m - 2 * k < 0 by omega), mul_zero, zero_mul, smul_zero]

theorem solid_eq {l m : ℤ} {p z q : R} {S : Finset ℤ} (h : Finset.Icc 0 l ⊆ S) : solid l m p z q = ∑ k ∈ S, solidTerm l m p z q k :=
  Finset.sum_subset h fun _ _ hx => solidTerm_zero hx

/-- Sums over a shifted index. -/
theorem sum_shift {M : Type*} [AddCommMonoid M] (f : ℤ → M) {a b : ℤ} (h0 : ∀ k, k < a → f k = 0) (h1 : ∀ k, b < k → f k = 0) (d : ℤ)
    {S : Finset ℤ} (hS : Finset.Icc (a - d) (b - d) ⊆ S) : ∑ k ∈ S, f (k + d) = ∑ k ∈ Finset.Icc a b, f k := by
  rw [← Finset.sum_subset hS fun k _ hk => by
    rw [Finset.mem_Icc, not_and_or] at hk
    rcases hk with hk | hk
    · exact h0 _ (by omega)
    · exact h1 _ (by omega)]
  refine Finset.sum_bij (fun k _ => k + d) ?_ ?_ ?_ ?_
  · intro k hk
    rw [Finset.mem_Icc] at hk ⊢
    omega
  · intro k _ k' _ h
    omega
  · intro k hk
    rw [Finset.mem_Icc] at hk
    exact ⟨k - d, by rw [Finset.mem_Icc]; omega, by omega⟩
  · intro k _
    rfl

theorem solid_shift {l m : ℤ} {p z q : R} (d : ℤ) {S : Finset ℤ} (hS : Finset.Icc (0 - d) (l - d) ⊆ S) :
    ∑ k ∈ S, solidTerm l m p z q (k + d) = solid l m p z q :=
  sum_shift (solidTerm l m p z q) (a := 0) (b := l) (fun k hk => solidTerm_zero (by rw [Finset.mem_Icc]; omega))
    (fun k hk => solidTerm_zero (by rw [Finset.mem_Icc]; omega)) d hS

/-- A large set of indices. -/
noncomputable def wide (l : ℤ) : Finset ℤ := Finset.Icc (-3) (l + 3)

theorem sub_wide {l a b : ℤ} (h : -3 ≤ a) (h' : b ≤ l + 3) : Finset.Icc a b ⊆ wide l := by
  intro k hk
  rw [Finset.mem_Icc] at hk
  rw [wide, Finset.mem_Icc]
  omega

theorem solid_out {l m : ℤ} (h : l < |m|) (p z q : R) : solid l m p z q = 0 := by
  refine Finset.sum_eq_zero fun k hk => ?_
  rw [Finset.mem_Icc] at hk
  unfold solidTerm
  by_cases hm : k + m < 0
  · rw [dp_neg hm, zero_mul, zero_mul, smul_zero]
  · have : l - m - 2 * k < 0 := by
      rcases lt_abs.mp h with h | h <;> omega
    rw [dp_neg this, mul_zero, zero_mul, smul_zero]

/-! ## Derivatives -/

section
variable {D : Derivation ℝ R R} {p z q : R}

theorem D_solid_p (hp : D p = 1) (hz : D z = 0) (hq : D q = 0) (l m : ℤ) : D (solid l m p z q) = solid (l - 1) (m - 1) p z q := by
  rw [solid_eq (S := Finset.Icc 0 l) (l := l - 1) (Finset.Icc_subset_Icc le_rfl (by omega)), solid, map_sum]
  refine Finset.sum_congr rfl fun k _ => ?_
  rw [solidTerm, solidTerm, D.map_smul, D.leibniz, D.leibniz, D_dp hp, D_dp_zero hz, D_dp_zero hq,
    show l - 1 - (m - 1) - 2 * k = l - m - 2 * k by ring, show k + (m - 1) = k + m - 1 by ring]
  simp only [smul_eq_mul, mul_zero, zero_add]
  congr 1
  ring

theorem D_solid_z (hp : D p = 0) (hz : D z = 1) (hq : D q = 0) (l m : ℤ) : D (solid l m p z q) = solid (l - 1) m p z q := by
  rw [solid_eq (S := Finset.Icc 0 l) (l := l - 1) (Finset.Icc_subset_Icc le_rfl (by omega)), solid, map_sum]
  refine Finset.sum_congr rfl fun k _ => ?_
  rw [solidTerm, solidTerm, D.map_smul, D.leibniz, D.leibniz, D_dp_zero hp, D_dp hz, D_dp_zero hq,
    show l - 1 - m - 2 * k = l - m - 2 * k - 1 by ring]
  simp only [smul_eq_mul, mul_zero, zero_add, add_zero]
  congr 1
  ring

theorem D_solid_q (hp : D p = 0) (hz : D z = 0) (hq : D q = 1) (l m : ℤ) :
    D (solid l m p z q) = (1 / 2 : ℝ) • solid (l - 1) (m + 1) p z q := by
  rw [← solid_shift (l := l - 1) (m := m + 1) (-1) (S := wide l) (sub_wide (by omega) (by omega)),
    solid_eq (l := l) (S := wide l) (sub_wide (by omega) (by omega)), map_sum, Finset.smul_sum]
  refine Finset.sum_congr rfl fun k _ => ?_
  rw [solidTerm, solidTerm, D.map_smul, D.leibniz, D.leibniz, D_dp_zero hp, D_dp_zero hz, D_dp hq,
    show l - 1 - (m + 1) - 2 * (k + -1) = l - m - 2 * k by ring, show k + -1 + (m + 1) = k + m by ring,
    show -(k + -1) = -k + 1 by ring, zpow_add₀ (by norm_num), smul_smul, show k + -1 = k - 1 by ring]
  simp only [smul_eq_mul, mul_zero, add_zero]
  congr 1
  rw [zpow_one]
  ring

end

/-! ## Products -/

/-- `x·x`. -/
def rr (p z q : R) : R := z * z - 2 * (p * q)

theorem z_term (l m k : ℤ) (p z q : R) : z * solidTerm l m p z q k = ((l : ℝ) - m - 2 * k + 1) • solidTerm (l + 1) m p z q k := by
  rw [solidTerm, solidTerm, mul_smul_comm, smul_comm,
    show z * (dp p (k + m) * dp z (l - m - 2 * k) * dp q k) = dp p (k + m) * (z * dp z (l - m - 2 * k)) * dp q k by ring, mul_dp,
    mul_smul_comm, smul_mul_assoc, show l + 1 - m - 2 * k = l - m - 2 * k + 1 by ring]
  push_cast
  rfl

theorem p_term (l m k : ℤ) (p z q : R) : p * solidTerm l m p z q k = ((k : ℝ) + m + 1) • solidTerm (l + 1) (m + 1) p z q k := by
  rw [solidTerm, solidTerm, mul_smul_comm, smul_comm,
    show p * (dp p (k + m) * dp z (l - m - 2 * k) * dp q k) = (p * dp p (k + m)) * dp z (l - m - 2 * k) * dp q k by ring, mul_dp,
    smul_mul_assoc, smul_mul_assoc, show l + 1 - (m + 1) - 2 * k = l - m - 2 * k by ring, show k + (m + 1) = k + m + 1 by ring]
  push_cast
  rfl

theorem q_term (l m k : ℤ) (p z q : R) : q * solidTerm l m p z q (k - 1) = (2 * (k : ℝ)) • solidTerm (l + 1) (m - 1) p z q k := by
  rw [solidTerm, solidTerm, mul_smul_comm,
    show q * (dp p (k - 1 + m) * dp z (l - m - 2 * (k - 1)) * dp q (k - 1)) =
      dp p (k - 1 + m) * dp z (l - m - 2 * (k - 1)) * (q * dp q (k - 1)) by ring, mul_dp, mul_smul_comm, smul_smul, smul_smul,
    show l + 1 - (m - 1) - 2 * k = l - m - 2 * (k - 1) by ring, show k + (m - 1) = k - 1 + m by ring, sub_add_cancel,
    show -(k - 1) = -k + 1 by ring, zpow_add₀ (by norm_num), zpow_one]
  congr 1
  push_cast
  ring

theorem zz_term (l m k : ℤ) (p z q : R) : z * z * solidTerm l m p z q k =
    (((l : ℝ) - m - 2 * k + 2) * ((l : ℝ) - m - 2 * k + 1)) • solidTerm (l + 2) m p z q k := by
  rw [mul_assoc, z_term, mul_smul_comm, z_term, smul_smul, show l + 1 + 1 = l + 2 by ring]
  congr 1
  push_cast
  ring

theorem pq_term (l m k : ℤ) (p z q : R) : p * q * solidTerm l m p z q (k - 1) =
    (2 * (k : ℝ) * ((k : ℝ) + m)) • solidTerm (l + 2) m p z q k := by
  rw [mul_assoc, q_term, mul_smul_comm, p_term, smul_smul, show l + 1 + 1 = l + 2 by ring, show m - 1 + 1 = m by ring]
  congr 1
  push_cast
  ring

/-- `x·x` times a harmonic polynomial, term by term. -/
theorem rr_solid (l m : ℤ) (p z q : R) : rr p z q * solid l m p z q = ∑ k ∈ wide l,
    (((l : ℝ) - m + 2) * (l - m + 1) - 2 * k * (2 * l + 3)) • solidTerm (l + 2) m p z q k := by
  have h1 : z * z * solid l m p z q = ∑ k ∈ wide l, (((l : ℝ) - m - 2 * k + 2) * ((l : ℝ) - m - 2 * k + 1)) •
      solidTerm (l + 2) m p z q k := by
    rw [solid_eq (S := wide l) (sub_wide (by omega) (by omega)), Finset.mul_sum]
    exact Finset.sum_congr rfl fun k _ => zz_term l m k p z q
  have h2 : p * q * solid l m p z q = ∑ k ∈ wide l, (2 * (k : ℝ) * ((k : ℝ) + m)) • solidTerm (l + 2) m p z q k := by
    rw [← solid_shift (l := l) (m := m) (-1) (S := wide l) (sub_wide (by omega) (by omega)), Finset.mul_sum]
    exact Finset.sum_congr rfl fun k _ => pq_term l m k p z q
  rw [rr, sub_mul, h1, mul_assoc, h2, two_mul, ← Finset.sum_add_distrib, ← Finset.sum_sub_distrib]
  refine Finset.sum_congr rfl fun k _ => ?_
  rw [← add_smul, ← sub_smul]
  congr 1
  ring

theorem wide_eq (l m : ℤ) (p z q : R) : solid (l + 1) m p z q = ∑ k ∈ wide (l - 1), solidTerm (l + 1) m p z q k :=
  solid_eq (sub_wide (by omega) (by omega))

/-- `x_0` times a harmonic polynomial. -/
theorem z_solid (l m : ℤ) (hl : (2 * (l : ℝ) + 1) ≠ 0) (p z q : R) : z * solid l m p z q =
    (((l : ℝ) - m + 1) * (l + m + 1) / (2 * l + 1)) • solid (l + 1) m p z q +
      (1 / (2 * (l : ℝ) + 1)) • (rr p z q * solid (l - 1) m p z q) := by
  rw [rr_solid, show l - 1 + 2 = l + 1 by ring, wide_eq, Finset.smul_sum, Finset.smul_sum, ← Finset.sum_add_distrib,
    solid_eq (l := l) (S := wide (l - 1)) (sub_wide (by omega) (by omega)), Finset.mul_sum]
  refine Finset.sum_congr rfl fun k _ => ?_
  rw [z_term, smul_smul, ← add_smul]
  congr 1
  push_cast
  generalize (l : ℝ) = L at hl ⊢
  obtain ⟨d, rfl⟩ : ∃ d, L = (d - 1) / 2 := ⟨2 * L + 1, by ring⟩
  have hd : d ≠ 0 := fun h => hl (by rw [h]; norm_num)
  have he : 2 * ((d - 1) / 2) + 1 = d := by ring
  rw [he]
  field_simp
  ring

/-- `x_{+1}` times a harmonic polynomial. -/
theorem p_solid (l m : ℤ) (hl : (2 * (l : ℝ) + 1) ≠ 0) (p z q : R) : p * solid l m p z q =
    (((l : ℝ) + m + 1) * (l + m + 2) / (2 * (2 * l + 1))) • solid (l + 1) (m + 1) p z q -
      (1 / (2 * (2 * (l : ℝ) + 1))) • (rr p z q * solid (l - 1) (m + 1) p z q) := by
  rw [rr_solid, show l - 1 + 2 = l + 1 by ring, wide_eq, Finset.smul_sum, Finset.smul_sum, ← Finset.sum_sub_distrib,
    solid_eq (l := l) (S := wide (l - 1)) (sub_wide (by omega) (by omega)), Finset.mul_sum]
  refine Finset.sum_congr rfl fun k _ => ?_
  rw [p_term, smul_smul, ← sub_smul]
  congr 1
  push_cast
  generalize (l : ℝ) = L at hl ⊢
  obtain ⟨d, rfl⟩ : ∃ d, L = (d - 1) / 2 := ⟨2 * L + 1, by ring⟩
  have hd : d ≠ 0 := fun h => hl (by rw [h]; norm_num)
  have he : 2 * ((d - 1) / 2) + 1 = d := by ring
  rw [he]
  field_simp
  ring

/-- `x_{-1}` times a harmonic polynomial. -/
theorem q_solid (l m : ℤ) (hl : (2 * (l : ℝ) + 1) ≠ 0) (p z q : R) : q * solid l m p z q =
    (((l : ℝ) - m + 1) * (l - m + 2) / (2 * l + 1)) • solid (l + 1) (m - 1) p z q -
      (1 / (2 * (l : ℝ) + 1)) • (rr p z q * solid (l - 1) (m - 1) p z q) := by
  rw [rr_solid, show l - 1 + 2 = l + 1 by ring, wide_eq, Finset.smul_sum, Finset.smul_sum, ← Finset.sum_sub_distrib,
    ← solid_shift (l := l) (m := m) (-1) (S := wide (l - 1)) (sub_wide (by omega) (by omega)), Finset.mul_sum]
  refine Finset.sum_congr rfl fun k _ => ?_
  rw [show k + -1 = k - 1 by ring, q_term, smul_smul, ← sub_smul]
  congr 1
  push_cast
  generalize (l : ℝ) = L at hl ⊢
  obtain ⟨d, rfl⟩ : ∃ d, L = (d - 1) / 2 := ⟨2 * L + 1, by ring⟩
  have hd : d ≠ 0 := fun h => hl (by rw [h]; norm_num)
  have he : 2 * ((d - 1) / 2) + 1 = d := by ring
  rw [he]
  field_simp
  ring

end

end Verif.Moshinsky.Osc
