import Verif.Moshinsky.CouplingNorm
import Mathlib.Algebra.Polynomial.AlgebraMap

/-!
# Divided powers of brackets of spinors
-/

namespace Verif.Moshinsky.Osc

section
variable {R : Type*} [CommRing R] [Algebra ℝ R]

theorem dp_zero (x : R) : dp x 0 = 1 := by
  rw [dp, if_neg (by omega)]
  simp [ff]

theorem dp_eq_rf (x : R) (i : ℤ) : dp x i = rf i • x ^ i.toNat := by
  unfold dp rf
  split_ifs
  · rw [zero_smul]
  · rfl

theorem pow_eq_dp (x : R) (n : ℕ) : x ^ n = ff n • dp x n := by
  rw [dp_eq_rf, smul_smul, ff_rf (by omega), one_smul, Int.toNat_natCast]

theorem dp_smul (c : ℝ) (x : R) (n : ℤ) : dp (c • x) n = c ^ n.toNat • dp x n := by
  rw [dp_eq_rf, dp_eq_rf, smul_pow, smul_smul, smul_smul, mul_comm]

theorem dp_neg_sgn (x : R) (n : ℤ) : dp (-x) n = sgn n • dp x n := by
  rcases lt_or_ge n 0 with h | h
  · rw [dp_neg h, dp_neg h, smul_zero]
  · rw [show -x = (-1 : ℝ) • x by rw [neg_smul, one_smul], dp_smul, neg_one_pow_sgn, show ((n.toNat : ℕ) : ℤ) = n by omega]

theorem dp_mul (x y : R) (n : ℤ) : dp (x * y) n = ff n • (dp x n * dp y n) := by
  rcases lt_or_ge n 0 with h | h
  · rw [dp_neg h, dp_neg h, zero_mul, smul_zero]
  · rw [dp_eq_rf, dp_eq_rf, dp_eq_rf, mul_pow, smul_mul_smul_comm, smul_smul, ← mul_assoc, ff_rf h, one_mul]

theorem dp_add_nat (x y : R) (n : ℕ) {S : Finset ℤ} (hS : Finset.Icc 0 (n : ℤ) ⊆ S) :
    dp (x + y) n = ∑ i ∈ S, dp x i * dp y (n - i) := by
  have hz : ∀ (n : ℕ) (i : ℤ), i < 0 ∨ (n : ℤ) < i → dp x i * dp y (n - i) = 0 := by
    intro n i h
    rcases h with h | h
    · rw [dp_neg h, zero_mul]
    · rw [dp_neg (show (n : ℤ) - i < 0 by omega), mul_zero]
  have hn : ∀ (n : ℕ) (S : Finset ℤ), Finset.Icc 0 (n : ℤ) ⊆ S →
      ∑ i ∈ S, dp x i * dp y (n - i) = ∑ i ∈ Finset.Icc 0 (n : ℤ), dp x i * dp y (n - i) := by
    intro n S hS
    exact (Finset.sum_subset hS fun i _ hi => hz n i (by rw [Finset.mem_Icc] at hi; omega)).symm
  rw [hn n S hS]
  clear hS S
  induction n with
  | zero => rw [Nat.cast_zero, Finset.Icc_self, Finset.sum_singleton, sub_zero, dp_zero, dp_zero, dp_zero, one_mul]
  | succ n ih =>
    have h1 : ((n : ℝ) + 1) ≠ 0 := by positivity
    have h2 := mul_dp (x + y) (n : ℤ)
    rw [ih] at h2
    have e1 : (x + y) * ∑ i ∈ Finset.Icc 0 (n : ℤ), dp x i * dp y (n - i) =
        ∑ i ∈ wide n, (((i : ℝ) + 1) • dp x (i + 1)) * dp y (n - i) + ∑ i ∈ wide n, dp x i * (((n : ℝ) - i + 1) • dp y (n - i + 1)) := by
      rw [← hn n (wide n) (sub_wide (by omega) (by omega)), add_mul, Finset.mul_sum, Finset.mul_sum]
      congr 1
      · refine Finset.sum_congr rfl fun i _ => ?_
        rw [← mul_dp, mul_assoc]
      · refine Finset.sum_congr rfl fun i _ => ?_
        have := mul_dp y (n - i)
        push_cast at this
        rw [← this]
        ring
    have e2 : ∑ i ∈ wide n, (((i : ℝ) + 1) • dp x (i + 1)) * dp y (n - i) = ∑ i ∈ wide n, (i : ℝ) • (dp x i * dp y (n + 1 - i)) := by
      let f : ℤ → R := fun i => (i : ℝ) • (dp x i * dp y (n + 1 - i))
      have hf0 : ∀ k : ℤ, k < 0 → f k = 0 := fun k hk => by simp only [f, dp_neg hk, zero_mul, smul_zero]
      have hf1 : ∀ k : ℤ, (n : ℤ) + 1 < k → f k = 0 := fun k hk => by
        simp only [f, dp_neg (show (n : ℤ) + 1 - k < 0 by omega), mul_zero, smul_zero]
      have := sum_shift f hf0 hf1 1 (S := wide n) (sub_wide (by omega) (by omega))
      have h3 := sum_shift f hf0 hf1 0 (S := wide n) (sub_wide (by omega) (by omega))
      simp only [add_zero] at h3
      rw [← h3] at this
      rw [← this]
      refine Finset.sum_congr rfl fun i _ => ?_
      simp only [f]
      rw [show (n : ℤ) + 1 - (i + 1) = n - i by ring, smul_mul_assoc]
      push_cast
      rfl
    rw [e1, e2, ← Finset.sum_add_distrib] at h2
    have h3 : ∑ i ∈ wide n, ((i : ℝ) • (dp x i * dp y (n + 1 - i)) + dp x i * (((n : ℝ) - i + 1) • dp y (n - i + 1))) =
        ((n : ℝ) + 1) • ∑ i ∈ wide n, dp x i * dp y (n + 1 - i) := by
      rw [Finset.smul_sum]
      refine Finset.sum_congr rfl fun i _ => ?_
      rw [show (n : ℤ) - i + 1 = n + 1 - i by ring, mul_smul_comm, ← add_smul]
      congr 1
      ring
    rw [h3] at h2
    have h4 := smul_right_injective R h1 (by simpa using h2)
    rw [Nat.cast_succ, ← h4]
    have := hn (n + 1) (wide n) (sub_wide (by omega) (by push_cast; omega))
    rw [Nat.cast_succ] at this
    exact this

theorem dp_add (x y : R) (n : ℤ) {S : Finset ℤ} (hS : Finset.Icc 0 n ⊆ S) : dp (x + y) n = ∑ i ∈ S, dp x i * dp y (n - i) := by
  rcases lt_or_ge n 0 with h | h
  · rw [dp_neg h]
    refine (Finset.sum_eq_zero fun i _ => ?_).symm
    rcases lt_or_ge i 0 with hi | hi
    · rw [dp_neg hi, zero_mul]
    · rw [dp_neg (show n - i < 0 by omega), mul_zero]
  · obtain ⟨k, rfl⟩ := Int.eq_ofNat_of_zero_le h
    exact dp_add_nat x y k hS

/-! ## Coupled products of four brackets -/

/-- A term of the coupled product. -/
noncomputable def wTerm (A B C D : R) (a b γ j : ℤ) : R := dp A j * dp B (a - j) * dp C (b - j) * dp D (γ + j)

/-- The coupled product. -/
noncomputable def wSum (A B C D : R) (a b γ : ℤ) : R := ∑ j ∈ Finset.Icc 0 a, wTerm A B C D a b γ j

variable {A B C D : R}

theorem wTerm_zero {a b γ j : ℤ} (h : j < 0 ∨ a < j ∨ b < j ∨ γ + j < 0) : wTerm A B C D a b γ j = 0 := by
  unfold wTerm
  rcases h with h | h | h | h
  · rw [dp_neg h]
    ring
  · rw [dp_neg (show a - j < 0 by omega)]
    ring
  · rw [dp_neg (show b - j < 0 by omega)]
    ring
  · rw [dp_neg h]
    ring

theorem wSum_wide {a b γ : ℤ} {S : Finset ℤ} (h : Finset.Icc 0 a ⊆ S) : wSum A B C D a b γ = ∑ j ∈ S, wTerm A B C D a b γ j :=
  Finset.sum_subset h fun j _ hj => wTerm_zero (by rw [Finset.mem_Icc] at hj; omega)

theorem wSum_shift {a b γ : ℤ} (d : ℤ) {S : Finset ℤ} (hS : Finset.Icc (0 - d) (a - d) ⊆ S) :
    ∑ j ∈ S, wTerm A B C D a b γ (j + d) = wSum A B C D a b γ :=
  sum_shift (wTerm A B C D a b γ) (a := 0) (b := a) (fun _ hk => wTerm_zero (Or.inl hk)) (fun _ hk => wTerm_zero (Or.inr (Or.inl hk))) d hS

theorem wSum_zero {a b γ : ℤ} (h : a < 0 ∨ b < 0 ∨ γ + a < 0 ∨ γ + b < 0) : wSum A B C D a b γ = 0 := by
  refine Finset.sum_eq_zero fun j hj => wTerm_zero ?_
  rw [Finset.mem_Icc] at hj
  omega

/-- Multiplication by the second bracket. -/
theorem wSum_mul (a b γ : ℤ) : ((a : ℝ) + b + γ + 1) • (B * wSum A B C D a b γ) =
    (((a : ℝ) + 1) * (a + γ + 1)) • wSum A B C D (a + 1) b γ - (A * D - B * C) * wSum A B C D a (b - 1) γ := by
  have e1 : A * D * wSum A B C D a (b - 1) γ = ∑ j ∈ wide a, ((j : ℝ) * (γ + j)) • wTerm A B C D (a + 1) b γ j := by
    rw [← wSum_shift (a := a) (b := b - 1) (-1) (S := wide a) (sub_wide (by omega) (by omega)), Finset.mul_sum]
    refine Finset.sum_congr rfl fun j _ => ?_
    unfold wTerm
    have h1 := mul_dp A (j + -1)
    have h2 := mul_dp D (γ + (j + -1))
    rw [show j + -1 + 1 = j by ring] at h1
    rw [show γ + (j + -1) + 1 = γ + j by ring] at h2
    push_cast at h1 h2
    rw [show a - (j + -1) = a + 1 - j by ring, show b - 1 - (j + -1) = b - j by ring,
      show ∀ p q r s : R, A * D * (p * q * r * s) = (A * p) * q * r * (D * s) from by intros; ring, h1, h2]
    simp only [smul_mul_assoc, mul_smul_comm, smul_smul]
    congr 1
    ring
  have e2 : B * C * wSum A B C D a (b - 1) γ = ∑ j ∈ wide a, (((a : ℝ) + 1 - j) * (b - j)) • wTerm A B C D (a + 1) b γ j := by
    rw [wSum_wide (S := wide a) (sub_wide (by omega) (by omega)), Finset.mul_sum]
    refine Finset.sum_congr rfl fun j _ => ?_
    unfold wTerm
    have h1 := mul_dp B (a - j)
    have h2 := mul_dp C (b - 1 - j)
    rw [show a - j + 1 = a + 1 - j by ring] at h1
    rw [show b - 1 - j + 1 = b - j by ring] at h2
    push_cast at h1 h2
    rw [show ∀ p q r s : R, B * C * (p * q * r * s) = p * (B * q) * (C * r) * s from by intros; ring, h1, h2]
    simp only [smul_mul_assoc, mul_smul_comm, smul_smul]
    congr 1
    ring
  have e3 : B * wSum A B C D a b γ = ∑ j ∈ wide a, ((a : ℝ) + 1 - j) • wTerm A B C D (a + 1) b γ j := by
    rw [wSum_wide (S := wide a) (sub_wide (by omega) (by omega)), Finset.mul_sum]
    refine Finset.sum_congr rfl fun j _ => ?_
    unfold wTerm
    have h1 := mul_dp B (a - j)
    rw [show a - j + 1 = a + 1 - j by ring] at h1
    push_cast at h1
    rw [show ∀ p q r s : R, B * (p * q * r * s) = p * (B * q) * r * s from by intros; ring, h1]
    simp only [smul_mul_assoc, mul_smul_comm]
    congr 1
    ring
  rw [sub_mul, e1, e2, e3, wSum_wide (a := a + 1) (S := wide a) (sub_wide (by omega) (by omega)), Finset.smul_sum, Finset.smul_sum,
    ← Finset.sum_sub_distrib, ← Finset.sum_sub_distrib]
  refine Finset.sum_congr rfl fun j _ => ?_
  simp only [smul_smul, ← sub_smul]
  congr 1
  ring

/-- A coefficient of the expansion in coupled products. -/
noncomputable def gc (a b γ n : ℤ) : ℝ := sgn n * ff a * ff b * ff (γ + a - n) * ff (γ + b - n) / ff (a + b + γ - n + 1)

theorem gc_step {a b γ n : ℤ} (ha : 0 ≤ a) (hγ : 0 ≤ γ) (hn : n ≤ b) (hn' : n ≤ a + 1) :
    ((a : ℝ) + 1 + b + γ - 2 * n + 1) * gc (a + 1) b γ n = ((a : ℝ) + 1 - n) * (a + 1 - n + γ) * gc a b γ n - n * gc a b γ (n - 1) := by
  unfold gc
  have hs : sgn (n - 1) = -sgn n := by
    have := sgn_add_one (n - 1)
    rw [sub_add_cancel] at this
    rw [this, neg_neg]
  have h1 : ff (a + 1 + b + γ - n + 1) = ((a : ℝ) + b + γ - n + 2) * ff (a + b + γ - n + 1) := by
    rw [show a + 1 + b + γ - n + 1 = a + b + γ - n + 1 + 1 by ring, ff_succ (by omega)]
    push_cast
    ring
  have h2 : ff (γ + b - (n - 1)) = ((γ : ℝ) + b - n + 1) * ff (γ + b - n) := by
    rw [show γ + b - (n - 1) = γ + b - n + 1 by ring, ff_succ (by omega)]
    push_cast
    ring
  have g1 := (ff_pos (a + b + γ - n + 1)).ne'
  have g2 : (a : ℝ) + b + γ - n + 2 ≠ 0 := by
    have : (0 : ℝ) < ((a + b + γ - n + 2 : ℤ) : ℝ) := by exact_mod_cast (by omega)
    push_cast at this
    exact this.ne'
  rw [hs, show a + b + γ - (n - 1) + 1 = a + 1 + b + γ - n + 1 by ring, h1, h2, show γ + a - (n - 1) = γ + (a + 1) - n by ring,
    ff_succ ha]
  rcases hn'.lt_or_eq with h | rfl
  · have h3 : ff (γ + (a + 1) - n) = ((γ : ℝ) + a - n + 1) * ff (γ + a - n) := by
      rw [show γ + (a + 1) - n = γ + a - n + 1 by ring, ff_succ (by omega)]
      push_cast
      ring
    rw [h3]
    field_simp
    ring
  · push_cast at g2 ⊢
    field_simp
    ring

/-- Expansion of a product of powers of three brackets in coupled products. -/
theorem gordan (a b γ : ℕ) : B ^ a * C ^ b * D ^ γ = ∑ n ∈ Finset.Icc 0 (a : ℤ),
    (((a : ℝ) + b + γ - 2 * n + 1) * gc a b γ n) • (dp (A * D - B * C) n * wSum A B C D (a - n) (b - n) γ) := by
  induction a with
  | zero =>
    rw [Nat.cast_zero, Finset.Icc_self, Finset.sum_singleton, dp_zero, one_mul, wSum, sub_zero, sub_zero, Finset.Icc_self,
      Finset.sum_singleton, wTerm, sub_zero, sub_zero, add_zero, dp_zero, dp_zero, pow_zero, one_mul, one_mul, one_mul, gc,
      pow_eq_dp C b, pow_eq_dp D γ, smul_mul_smul_comm, show sgn 0 = 1 by simp [sgn], show ff 0 = 1 by simp [ff]]
    congr 1
    rw [sub_zero, sub_zero, sub_zero, add_zero, zero_add, ff_succ (by omega), add_comm (γ : ℤ) b]
    have g1 := (ff_pos ((b : ℤ) + γ)).ne'
    have g2 : (b : ℝ) + γ + 1 ≠ 0 := by positivity
    push_cast
    field_simp
    ring
  | succ a ih =>
    rw [pow_succ', mul_assoc, mul_assoc, ← mul_assoc (B ^ a), ih, Finset.mul_sum]
    -- the step, in the two parts
    have e1 : ∀ n ∈ Finset.Icc 0 (a : ℤ), B * ((((a : ℝ) + b + γ - 2 * n + 1) * gc a b γ n) • (dp (A * D - B * C) n * wSum A B C D (a - n) (b - n) γ)) =
        (((a : ℝ) + 1 - n) * (a + 1 - n + γ) * gc a b γ n) • (dp (A * D - B * C) n * wSum A B C D (a + 1 - n) (b - n) γ) -
          (((n : ℝ) + 1) * gc a b γ n) • (dp (A * D - B * C) (n + 1) * wSum A B C D (a - n) (b - n - 1) γ) := by
      intro n _
      have h1 := wSum_mul (A := A) (B := B) (C := C) (D := D) (a - n) (b - n) γ
      have h2 := mul_dp (A * D - B * C) n
      have h3 : B * ((((a : ℝ) + b + γ - 2 * n + 1) * gc a b γ n) • (dp (A * D - B * C) n * wSum A B C D (a - n) (b - n) γ)) =
          gc a b γ n • (dp (A * D - B * C) n * (((((a : ℤ) - n : ℤ) : ℝ) + ((b - n : ℤ) : ℝ) + ((γ : ℤ) : ℝ) + 1) • (B * wSum A B C D (a - n) (b - n) γ))) := by
        rw [mul_smul_comm, mul_smul_comm, smul_smul, mul_left_comm]
        congr 1
        push_cast
        ring
      rw [h3, h1, mul_sub, smul_sub, mul_smul_comm, smul_smul, show (a : ℤ) - n + 1 = a + 1 - n by ring]
      congr 1
      · congr 1
        push_cast
        ring
      · rw [← mul_assoc, mul_comm (dp (A * D - B * C) n), h2, smul_mul_assoc, smul_smul]
        congr 1
        ring
    rw [Finset.sum_congr rfl e1, Finset.sum_sub_distrib]
    have e2 : ∑ n ∈ Finset.Icc 0 (a : ℤ), (((n : ℝ) + 1) * gc a b γ n) • (dp (A * D - B * C) (n + 1) * wSum A B C D (a - n) (b - n - 1) γ) =
        ∑ n ∈ Finset.Icc 0 ((a : ℤ) + 1), ((n : ℝ) * gc a b γ (n - 1)) • (dp (A * D - B * C) n * wSum A B C D (a + 1 - n) (b - n) γ) := by
      let f : ℤ → R := fun n => ((n : ℝ) * gc a b γ (n - 1)) • (dp (A * D - B * C) n * wSum A B C D (a + 1 - n) (b - n) γ)
      have hf0 : ∀ k : ℤ, k < 1 → f k = 0 := by
        intro k hk
        rcases (show k = 0 ∨ k < 0 by omega) with rfl | h
        · simp [f]
        · simp only [f, dp_neg h, zero_mul, smul_zero]
      have hf1 : ∀ k : ℤ, (a : ℤ) + 1 < k → f k = 0 := fun k hk => by
        simp only [f]
        rw [wSum_zero (by omega), mul_zero, smul_zero]
      have := sum_shift f hf0 hf1 1 (S := Finset.Icc 0 (a : ℤ)) (by rw [sub_self, add_sub_cancel_right])
      rw [Finset.sum_subset (s₂ := Finset.Icc 0 ((a : ℤ) + 1)) (Finset.Icc_subset_Icc (by omega) le_rfl) (fun k _ hk => hf0 k (by
        rw [Finset.mem_Icc] at *; omega))] at this
      rw [← this]
      refine Finset.sum_congr rfl fun n _ => ?_
      simp only [f]
      rw [add_sub_cancel_right, show (a : ℤ) + 1 - (n + 1) = a - n by ring, show (b : ℤ) - (n + 1) = b - n - 1 by ring]
      push_cast
      rfl
    have e3 : ∑ n ∈ Finset.Icc 0 (a : ℤ), (((a : ℝ) + 1 - n) * (a + 1 - n + γ) * gc a b γ n) • (dp (A * D - B * C) n * wSum A B C D (a + 1 - n) (b - n) γ) =
        ∑ n ∈ Finset.Icc 0 ((a : ℤ) + 1), (((a : ℝ) + 1 - n) * (a + 1 - n + γ) * gc a b γ n) • (dp (A * D - B * C) n * wSum A B C D (a + 1 - n) (b - n) γ) :=
      Finset.sum_subset (Finset.Icc_subset_Icc le_rfl (by omega)) fun n hn hn' => by
        rw [Finset.mem_Icc] at hn hn'
        obtain rfl : n = (a : ℤ) + 1 := by omega
        push_cast
        rw [sub_self, zero_mul, zero_mul, zero_smul]
    rw [e2, e3, ← Finset.sum_sub_distrib, Nat.cast_succ]
    refine Finset.sum_congr rfl fun n hn => ?_
    rw [Finset.mem_Icc] at hn
    rw [← sub_smul]
    by_cases hb : n ≤ b
    · congr 1
      have := gc_step (a := a) (b := b) (γ := γ) (n := n) (by omega) (by omega) hb hn.2
      push_cast at this ⊢
      exact this.symm
    · rw [wSum_zero (by omega), mul_zero, smul_zero, smul_zero]

end

end Verif.Moshinsky.Osc
