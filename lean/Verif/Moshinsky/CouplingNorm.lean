import Verif.Moshinsky.Coupling

/-!
# Normalisation of the coupling coefficients
-/

namespace Verif.Moshinsky.Osc

theorem ff_rf {i : ℤ} (h : 0 ≤ i) : ff i * rf i = 1 := by
  rw [rf_of_nonneg h]
  exact mul_one_div_cancel (ff_pos i).ne'

theorem rf_zero : rf 0 = 1 := by
  rw [rf_of_nonneg le_rfl]
  simp [ff]

/-- A summand of the convolution of binomial coefficients. -/
noncomputable def vdmTerm (b c δ β : ℤ) : ℝ := rf β * rf (b - β) * rf (β + δ) * rf (c - δ - β)

theorem vdmTerm_zero {b c δ β : ℤ} (h : β < 0 ∨ b < β) : vdmTerm b c δ β = 0 := by
  unfold vdmTerm
  rcases h with h | h
  · rw [rf_neg h]
    ring
  · rw [rf_neg (show b - β < 0 by omega)]
    ring

theorem vandermonde (b : ℕ) {c : ℤ} (hc : 0 ≤ c) (δ : ℤ) :
    ∑ β ∈ Finset.Icc 0 (b : ℤ), vdmTerm b c δ β = ff (b + c) * rf b * rf c * rf (b + δ) * rf (c - δ) := by
  induction b generalizing δ with
  | zero =>
    rw [Nat.cast_zero, Finset.Icc_self, Finset.sum_singleton, vdmTerm, sub_zero, zero_add, zero_add, sub_zero, rf_zero]
    have := ff_rf hc
    linear_combination (-(rf δ * rf (c - δ))) * this
  | succ b ih =>
    have hb : ((b : ℝ) + 1) ≠ 0 := by positivity
    apply mul_left_cancel₀ hb
    have h1 : ∑ β ∈ Finset.Icc 0 ((b + 1 : ℕ) : ℤ), vdmTerm ((b + 1 : ℕ) : ℤ) c δ β = ∑ β ∈ wide b, vdmTerm ((b + 1 : ℕ) : ℤ) c δ β :=
      Finset.sum_subset (sub_wide (by omega) (by push_cast; omega)) fun β _ hβ => vdmTerm_zero (by rw [Finset.mem_Icc] at hβ; omega)
    have h2 : ∑ β ∈ Finset.Icc 0 (b : ℤ), vdmTerm b c δ β = ∑ β ∈ wide b, vdmTerm b c δ β :=
      Finset.sum_subset (sub_wide (by omega) (by omega)) fun β _ hβ => vdmTerm_zero (by rw [Finset.mem_Icc] at hβ; omega)
    have h3 : ∑ β ∈ Finset.Icc 0 (b : ℤ), vdmTerm b c (δ + 1) β = ∑ β ∈ wide b, vdmTerm b c (δ + 1) (β + -1) :=
      (sum_shift (vdmTerm b c (δ + 1)) (a := 0) (b := b) (fun _ h => vdmTerm_zero (Or.inl h)) (fun _ h => vdmTerm_zero (Or.inr h)) (-1)
        (sub_wide (by omega) (by omega))).symm
    have h4 : ((b : ℝ) + 1) * ∑ β ∈ wide b, vdmTerm ((b + 1 : ℕ) : ℤ) c δ β =
        ∑ β ∈ wide b, vdmTerm b c (δ + 1) (β + -1) + ∑ β ∈ wide b, vdmTerm b c δ β := by
      rw [Finset.mul_sum, ← Finset.sum_add_distrib]
      refine Finset.sum_congr rfl fun β _ => ?_
      unfold vdmTerm
      rw [show (b : ℤ) - (β + -1) = b + 1 - β by ring, show β + -1 + (δ + 1) = β + δ by ring,
        show c - (δ + 1) - (β + -1) = c - δ - β by ring, show β + -1 = β - 1 by ring, rf_pred β,
        show (b : ℤ) - β = b + 1 - β - 1 by ring, rf_pred ((b : ℤ) + 1 - β)]
      push_cast
      ring
    rw [h1, h4, ← h3, ← h2, ih δ, ih (δ + 1)]
    have hbc : (0 : ℤ) ≤ b + c := by omega
    rw [show (((b + 1 : ℕ) : ℤ) + c) = b + c + 1 by push_cast; ring, ff_succ hbc, Nat.cast_succ, rf_succ (b : ℤ),
      show (b : ℤ) + 1 + δ = b + δ + 1 by ring, rf_succ ((b : ℤ) + δ), show (b : ℤ) + (δ + 1) = b + δ + 1 by ring,
      show c - (δ + 1) = c - δ - 1 by ring, rf_pred (c - δ)]
    push_cast
    ring

/-- The weight of a pair of projections. -/
noncomputable def wt (a b c β α : ℤ) : ℝ := ff β * ff (a + b - β) * ff α * ff (a + c - α)

theorem wt_up {a b c β α : ℤ} (h : tSum a b c β α ≠ 0) :
    wt (a + 1) b c β α = ((a : ℝ) + 1 + b - β) * ((a : ℝ) + 1 + c - α) * wt a b c β α ∧
      wt (a + 1) b c (β + 1) (α + 1) = ((β : ℝ) + 1) * ((α : ℝ) + 1) * wt a b c β α := by
  have hr : 0 ≤ β ∧ β ≤ a + b ∧ 0 ≤ α ∧ α ≤ a + c := by
    by_contra hc
    exact h (tSum_zero (by omega))
  unfold wt
  constructor
  · rw [show a + 1 + b - β = a + b - β + 1 by ring, show a + 1 + c - α = a + c - α + 1 by ring, ff_succ (by omega), ff_succ (by omega)]
    push_cast
    ring
  · rw [show a + 1 + b - (β + 1) = a + b - β by ring, show a + 1 + c - (α + 1) = a + c - α by ring, ff_succ (by omega),
      ff_succ (by omega)]
    ring

theorem wide_sum (a b : ℕ) (f : ℤ → ℝ) (h : ∀ β : ℤ, β < 0 ∨ (a : ℤ) + b < β → f β = 0) :
    ∑ β ∈ Finset.Icc 0 ((a : ℤ) + b), f β = ∑ β ∈ wide (a + b), f β :=
  Finset.sum_subset (sub_wide (by omega) (by omega)) fun β _ hβ => h β (by rw [Finset.mem_Icc] at hβ; omega)

/-- The sum of the squares of the alternating sums. -/
theorem tSum_norm (a b c : ℕ) {δ : ℤ} (h1 : 0 ≤ b + δ) (h2 : 0 ≤ c - δ) :
    ∑ β ∈ Finset.Icc 0 ((a : ℤ) + b), wt a b c β (β + δ) * tSum a b c β (β + δ) ^ 2 =
      ff (a + b + c + 1) / (ff a * ff b * ff c * ((b : ℝ) + c + 1) * (ff (b + δ) * ff (c - δ))) := by
  induction a with
  | zero =>
    have e1 : ∀ β ∈ Finset.Icc 0 (((0 : ℕ) : ℤ) + b), wt ((0 : ℕ) : ℤ) b c β (β + δ) * tSum ((0 : ℕ) : ℤ) b c β (β + δ) ^ 2 = vdmTerm b c δ β := by
      intro β hβ
      rw [Finset.mem_Icc, Nat.cast_zero, zero_add] at hβ
      rw [Nat.cast_zero, tSum, Finset.Icc_self, Finset.sum_singleton, tTerm, wt, vdmTerm]
      have hs : sgn 0 = 1 := by simp [sgn]
      rw [hs, zero_add, zero_add, sub_zero, sub_zero, add_zero, sub_zero, add_zero, rf_zero, show (c : ℤ) - (β + δ) = c - δ - β by ring]
      by_cases h3 : β + δ < 0
      · rw [rf_neg h3]
        ring
      by_cases h4 : (c : ℤ) - δ - β < 0
      · rw [rf_neg h4]
        ring
      rw [show ∀ x1 x2 x3 x4 y1 y2 y3 y4 : ℝ, x1 * x2 * x3 * x4 * (1 * (1 * 1 * y1 * y2 * y3 * y4)) ^ 2 =
        (x1 * y1) * (x2 * y2) * (x3 * y3) * (x4 * y4) * (y1 * y2 * y3 * y4) from by intros; ring, ff_rf (by omega), ff_rf (by omega),
        ff_rf (by omega), ff_rf (by omega)]
      ring
    rw [Finset.sum_congr rfl e1, Nat.cast_zero, zero_add, vandermonde b (by omega), rf_of_nonneg (by omega), rf_of_nonneg (by omega),
      rf_of_nonneg h1, rf_of_nonneg h2, ff_succ (by omega)]
    have g1 := (ff_pos b).ne'
    have g2 := (ff_pos c).ne'
    have g3 := (ff_pos (b + δ)).ne'
    have g4 := (ff_pos (c - δ)).ne'
    have g5 : (b : ℝ) + c + 1 ≠ 0 := by positivity
    have g6 : ff 0 = 1 := by simp [ff]
    rw [g6]
    push_cast
    field_simp
  | succ a ih =>
    have ha : ((a : ℝ) + 1) ≠ 0 := by positivity
    apply mul_left_cancel₀ ha
    let g : ℤ → ℝ := fun β => wt ((a : ℤ) + 1) b c (β + 1) (β + δ + 1) * tSum ((a : ℤ) + 1) b c (β + 1) (β + δ + 1) * tSum a b c β (β + δ)
    have hg : ∑ β ∈ wide (a + b), g (β + -1) = ∑ β ∈ wide (a + b), g β := by
      have hz : ∀ β : ℤ, β < 0 ∨ (a : ℤ) + b < β → g β = 0 := by
        intro β hβ
        simp only [g]
        rw [tSum_zero (a := a) (β := β) (by omega), mul_zero]
      rw [sum_shift g (a := 0) (b := (a : ℤ) + b) (fun _ h => hz _ (Or.inl h)) (fun _ h => hz _ (Or.inr h)) (-1) (S := wide (a + b))
        (sub_wide (by omega) (by omega)), wide_sum a b g hz]
    rw [Nat.cast_succ]
    have e1 : ∑ β ∈ Finset.Icc 0 ((a : ℤ) + 1 + b), wt ((a : ℤ) + 1) b c β (β + δ) * tSum ((a : ℤ) + 1) b c β (β + δ) ^ 2 =
        ∑ β ∈ wide (a + b), wt ((a : ℤ) + 1) b c β (β + δ) * tSum ((a : ℤ) + 1) b c β (β + δ) ^ 2 :=
      Finset.sum_subset (sub_wide (by omega) (by omega)) fun β _ hβ => by
        rw [Finset.mem_Icc] at hβ
        rw [tSum_zero (by omega)]
        ring
    have e2 : ((a : ℝ) + 1) * ∑ β ∈ wide (a + b), wt ((a : ℤ) + 1) b c β (β + δ) * tSum ((a : ℤ) + 1) b c β (β + δ) ^ 2 =
        ∑ β ∈ wide (a + b), wt ((a : ℤ) + 1) b c β (β + δ) * tSum ((a : ℤ) + 1) b c β (β + δ) * tSum a b c β (β + δ) -
          ∑ β ∈ wide (a + b), g (β + -1) := by
      rw [Finset.mul_sum, ← Finset.sum_sub_distrib]
      refine Finset.sum_congr rfl fun β _ => ?_
      have := tSum_mul ((a : ℤ) + 1) b c β (β + δ)
      rw [add_sub_cancel_right] at this
      push_cast at this
      simp only [g]
      rw [show β + -1 + 1 = β by ring, show β + -1 + δ + 1 = β + δ by ring, show β + -1 + δ = β + δ - 1 by ring,
        show β + -1 = β - 1 by ring]
      linear_combination (wt ((a : ℤ) + 1) b c β (β + δ) * tSum ((a : ℤ) + 1) b c β (β + δ)) * this
    have e3 : ∑ β ∈ wide (a + b), wt ((a : ℤ) + 1) b c β (β + δ) * tSum ((a : ℤ) + 1) b c β (β + δ) * tSum a b c β (β + δ) -
        ∑ β ∈ wide (a + b), g β = ((a : ℝ) + b + c + 2) * ∑ β ∈ wide (a + b), wt a b c β (β + δ) * tSum a b c β (β + δ) ^ 2 := by
      rw [← Finset.sum_sub_distrib, Finset.mul_sum]
      refine Finset.sum_congr rfl fun β _ => ?_
      simp only [g]
      by_cases h0 : tSum a b c β (β + δ) = 0
      · rw [h0]
        ring
      · obtain ⟨w1, w2⟩ := wt_up h0
        have := tSum_omega a b c β (β + δ)
        push_cast at this w1 w2
        rw [w1, w2]
        linear_combination (-wt a b c β (β + δ) * tSum a b c β (β + δ)) * this
    rw [e1, e2, hg, e3, ← wide_sum a b _ (fun β hβ => by rw [tSum_zero (by omega)]; ring), ih,
      show (a : ℤ) + 1 + b + c + 1 = a + b + c + 1 + 1 by ring, ff_succ (show (0 : ℤ) ≤ a + b + c + 1 by omega),
      ff_succ (show (0 : ℤ) ≤ a by omega)]
    have g0 := (ff_pos a).ne'
    have g1 := (ff_pos b).ne'
    have g2 := (ff_pos c).ne'
    have g3 := (ff_pos (b + δ)).ne'
    have g4 := (ff_pos (c - δ)).ne'
    have g5 : (b : ℝ) + c + 1 ≠ 0 := by positivity
    push_cast
    field_simp
    ring

/-- The coupling coefficients are normalised. -/
theorem cg_norm {l1 l2 Λ : ℕ} {M : ℤ} (ht : |(l1 : ℤ) - l2| ≤ Λ ∧ (Λ : ℤ) ≤ l1 + l2) (hM : |M| ≤ Λ) :
    ∑ m1 ∈ Finset.Icc (-(l1 : ℤ)) l1, ∑ m2 ∈ Finset.Icc (-(l2 : ℤ)) l2, cg l1 m1 l2 m2 Λ M ^ 2 = 1 := by
  obtain ⟨a, ha⟩ : ∃ a : ℕ, (a : ℤ) = l1 + l2 - Λ := ⟨((l1 : ℤ) + l2 - Λ).toNat, by omega⟩
  have ht' := abs_le.mp ht.1
  have hM' := abs_le.mp hM
  obtain ⟨b, hb⟩ : ∃ b : ℕ, (b : ℤ) = Λ + l1 - l2 := ⟨((Λ : ℤ) + l1 - l2).toNat, by omega⟩
  obtain ⟨c, hc⟩ : ∃ c : ℕ, (c : ℤ) = Λ + l2 - l1 := ⟨((Λ : ℤ) + l2 - l1).toNat, by omega⟩
  obtain ⟨δ, hδ⟩ : ∃ δ : ℤ, δ = l2 - l1 + M := ⟨_, rfl⟩
  have key := tSum_norm a b c (δ := δ) (by omega) (by omega)
  have e1 : ∀ m1 ∈ Finset.Icc (-(l1 : ℤ)) l1, ∑ m2 ∈ Finset.Icc (-(l2 : ℤ)) l2, cg l1 m1 l2 m2 Λ M ^ 2 =
      (tri3 l1 l2 Λ * pr Λ M) ^ 2 * (wt a b c (l1 - m1) (l1 - m1 + δ) * tSum a b c (l1 - m1) (l1 - m1 + δ) ^ 2) := by
    intro m1 _
    have hw : ∀ m2 : ℤ, m1 + m2 = M → cg l1 m1 l2 m2 Λ M ^ 2 =
        (tri3 l1 l2 Λ * pr Λ M) ^ 2 * (wt a b c (l1 - m1) (l1 - m1 + δ) * tSum a b c (l1 - m1) (l1 - m1 + δ) ^ 2) := by
      intro m2 hm
      unfold cg wt
      rw [if_pos hm, ha, hb, hc, show (l1 : ℤ) - m1 + δ = l2 + m2 by omega,
        show (l1 : ℤ) + l2 - Λ + (Λ + l1 - l2) - (l1 - m1) = l1 + m1 by ring,
        show (l1 : ℤ) + l2 - Λ + (Λ + l2 - l1) - (l2 + m2) = l2 - m2 by ring]
      have p1 := pr_mul_self l1 m1
      have p2 := pr_mul_self l2 m2
      rw [show ∀ x y z t s : ℝ, (x * y * z * t * s) ^ 2 = (x * t) ^ 2 * ((y * y) * (z * z) * s ^ 2) from by intros; ring, p1, p2]
      ring
    by_cases hm : |M - m1| ≤ l2
    · rw [Finset.sum_eq_single (M - m1)]
      · exact hw _ (by ring)
      · intro m2 _ hne
        rw [cg_of_ne (by omega)]
        ring
      · intro hn
        rw [Finset.mem_Icc] at hn
        exact absurd (abs_le.mp hm) hn
    · rw [← hw (M - m1) (by ring), cg_range (Or.inr (not_le.mp hm)), zero_pow two_ne_zero]
      refine Finset.sum_eq_zero fun m2 hm2 => ?_
      rw [Finset.mem_Icc] at hm2
      rw [abs_le] at hm
      rw [cg_of_ne (by omega)]
      ring
  rw [Finset.sum_congr rfl e1, ← Finset.mul_sum]
  have e2 : ∑ m1 ∈ Finset.Icc (-(l1 : ℤ)) l1, wt a b c (l1 - m1) (l1 - m1 + δ) * tSum a b c (l1 - m1) (l1 - m1 + δ) ^ 2 =
      ∑ β ∈ Finset.Icc 0 ((a : ℤ) + b), wt a b c β (β + δ) * tSum a b c β (β + δ) ^ 2 := by
    refine Finset.sum_bij (fun m _ => (l1 : ℤ) - m) ?_ ?_ ?_ ?_
    · intro m hm
      rw [Finset.mem_Icc] at hm ⊢
      omega
    · intro m _ m' _ h
      omega
    · intro β hβ
      rw [Finset.mem_Icc] at hβ
      exact ⟨l1 - β, by rw [Finset.mem_Icc]; omega, by omega⟩
    · intro m _
      rfl
  rw [e2, key, mul_pow, sq (pr Λ M), pr_mul_self, tri3, Real.sq_sqrt, ← ha, ← hb, ← hc, show (b : ℤ) + δ = Λ + M by omega,
    show (c : ℤ) - δ = Λ - M by omega, show (l1 : ℤ) + l2 + Λ + 1 = a + b + c + 1 by omega]
  · have g0 := (ff_pos a).ne'
    have g1 := (ff_pos b).ne'
    have g2 := (ff_pos c).ne'
    have g3 := (ff_pos (Λ + M)).ne'
    have g4 := (ff_pos (Λ - M)).ne'
    have g6 := (ff_pos ((a : ℤ) + b + c + 1)).ne'
    have g7 : (b : ℝ) + c = 2 * Λ := by exact_mod_cast (show (b : ℤ) + c = 2 * Λ by omega)
    have g5 : 2 * (Λ : ℝ) + 1 ≠ 0 := by positivity
    rw [g7]
    push_cast
    field_simp
  · have h1 := ff_pos ((l1 : ℤ) + l2 - Λ)
    have h2 := ff_pos ((Λ : ℤ) + l1 - l2)
    have h3 := ff_pos ((Λ : ℤ) + l2 - l1)
    have h4 := ff_pos ((l1 : ℤ) + l2 + Λ + 1)
    positivity

end Verif.Moshinsky.Osc
