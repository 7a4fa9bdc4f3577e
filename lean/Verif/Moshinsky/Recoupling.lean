import Verif.Moshinsky.CouplingNorm

/-!
# Six-j symbols as recoupling coefficients
-/

namespace Verif.Moshinsky.Osc

theorem sqrt_eq_of {x y : ℝ} (hx : 0 ≤ x) (h : x * x = y) : √y = x := by
  rw [← h, Real.sqrt_mul_self hx]

/-- The coupling coefficient with a vector. -/
theorem cg_up (l : ℕ) (m μ : ℤ) (hm : |m| ≤ l) (hμ : |μ| ≤ 1) : cg l m 1 μ (l + 1) (m + μ) =
    √(ff (l + 1 + (m + μ)) * ff (l + 1 - (m + μ)) / (ff (l + m) * ff (l - m)) *
      (2 / (ff (1 + μ) * ff (1 - μ))) / ((2 * l + 1) * (2 * l + 2))) := by
  have h1 := abs_le.mp hm
  have h2 := abs_le.mp hμ
  symm
  unfold cg
  rw [if_pos rfl]
  push_cast
  rw [show (l : ℤ) + 1 - (l + 1) = 0 by ring, show (l : ℤ) + 1 + l - 1 = 2 * l by ring, show (l : ℤ) + 1 + 1 - l = 2 by ring]
  have ht : tSum 0 (2 * l) 2 (l - m) (1 + μ) = rf (l - m) * rf (l + m) * rf (1 + μ) * rf (1 - μ) := by
    rw [tSum, Finset.Icc_self, Finset.sum_singleton, tTerm, show sgn 0 = 1 by simp [sgn], sub_zero, sub_zero, sub_zero, add_zero,
      add_zero, rf_zero, show 2 * (l : ℤ) - (l - m) = l + m by ring, show 2 - (1 + μ) = 1 - μ by ring]
    ring
  have q1 := rf_pos (show (0 : ℤ) ≤ l - m by omega)
  have q2 := rf_pos (show (0 : ℤ) ≤ l + m by omega)
  have q3 := rf_pos (show (0 : ℤ) ≤ 1 + μ by omega)
  have q4 := rf_pos (show (0 : ℤ) ≤ 1 - μ by omega)
  have p1 := pr_pos l m
  have p2 := pr_pos 1 μ
  have p3 := pr_pos (l + 1) (m + μ)
  have p4 := tri3_pos l 1 (Λ := (l : ℤ) + 1) (by omega)
  rw [ht]
  refine sqrt_eq_of (by positivity) ?_
  rw [show ∀ t x y z a : ℝ, t * x * y * z * a * (t * x * y * z * a) = t * t * (x * x) * (y * y) * (z * z) * (a * a) from by intros; ring,
    pr_mul_self, pr_mul_self, pr_mul_self, tri3, Real.mul_self_sqrt]
  · rw [show (l : ℤ) + 1 - (l + 1) = 0 by ring, show (l : ℤ) + 1 + l - 1 = 2 * l by ring, show (l : ℤ) + 1 + 1 - l = 2 by ring,
      show (l : ℤ) + 1 + (l + 1) + 1 = 2 * l + 1 + 1 + 1 by ring, ff_succ (by omega), ff_succ (by omega), ff_succ (by omega),
      show ff 0 = 1 by simp [ff], show ff 2 = 2 by simp [ff], rf_of_nonneg (by omega), rf_of_nonneg (by omega), rf_of_nonneg (by omega),
      rf_of_nonneg (by omega)]
    have g1 := (ff_pos (l - m)).ne'
    have g2 := (ff_pos (l + m)).ne'
    have g3 := (ff_pos (1 + μ)).ne'
    have g4 := (ff_pos (1 - μ)).ne'
    have g5 := (ff_pos (2 * l)).ne'
    have g6 : 2 * (l : ℝ) + 1 ≠ 0 := by positivity
    have g7 : 2 * (l : ℝ) + 2 ≠ 0 := by positivity
    have g8 : 2 * (l : ℝ) + 3 ≠ 0 := by positivity
    push_cast
    rw [show 2 * (l : ℝ) + 1 + 1 + 1 = 2 * l + 3 by ring, show 2 * (l : ℝ) + 1 + 1 = 2 * l + 2 by ring,
      show 2 * ((l : ℝ) + 1) + 1 = 2 * l + 3 by ring]
    field_simp
  · have h1 := ff_pos ((l : ℤ) + 1 - (l + 1))
    have h2 := ff_pos ((l : ℤ) + 1 + l - 1)
    have h3 := ff_pos ((l : ℤ) + 1 + 1 - l)
    have h4 := ff_pos ((l : ℤ) + 1 + (l + 1) + 1)
    positivity

theorem cg_down (l : ℕ) (m μ : ℤ) (hm : |m| ≤ l + 1) (hμ : |μ| ≤ 1) (hm' : |m + μ| ≤ l) : cg (l + 1) m 1 μ l (m + μ) =
    sgn (1 + μ) * √(ff (l + 1 + m) * ff (l + 1 - m) / (ff (l + (m + μ)) * ff (l - (m + μ))) *
      (2 / (ff (1 + μ) * ff (1 - μ))) / ((2 * l + 2) * (2 * l + 3))) := by
  have h1 := abs_le.mp hm
  have h2 := abs_le.mp hμ
  have h3 := abs_le.mp hm'
  symm
  unfold cg
  rw [if_pos rfl]
  push_cast
  rw [show (l : ℤ) + 1 + 1 - l = 2 by ring, show (l : ℤ) + (l + 1) - 1 = 2 * l by ring, show (l : ℤ) + 1 - (l + 1) = 0 by ring]
  have ht : tSum 2 (2 * l) 0 (l + 1 - m) (1 + μ) = sgn (1 + μ) * (rf (l - (m + μ)) * rf (l + (m + μ)) * rf (1 + μ) * rf (1 - μ)) := by
    rw [tSum, Finset.sum_eq_single (1 + μ)]
    · rw [tTerm, sub_self, show (0 : ℤ) - (1 + μ) + (1 + μ) = 0 by ring, rf_zero, show 2 - (1 + μ) = 1 - μ by ring,
        show (l : ℤ) + 1 - m - (1 + μ) = l - (m + μ) by ring, show 2 * (l : ℤ) - (l + 1 - m) + (1 + μ) = l + (m + μ) by ring]
      ring
    · intro k _ hk
      unfold tTerm
      rcases lt_or_gt_of_ne hk with h | h
      · rw [rf_neg (show 0 - (1 + μ) + k < 0 by omega)]
        ring
      · rw [rf_neg (show 1 + μ - k < 0 by omega)]
        ring
    · intro h
      rw [Finset.mem_Icc] at h
      omega
  have q1 := rf_pos (show (0 : ℤ) ≤ l - (m + μ) by omega)
  have q2 := rf_pos (show (0 : ℤ) ≤ l + (m + μ) by omega)
  have q3 := rf_pos (show (0 : ℤ) ≤ 1 + μ by omega)
  have q4 := rf_pos (show (0 : ℤ) ≤ 1 - μ by omega)
  have p1 := pr_pos (l + 1) m
  have p2 := pr_pos 1 μ
  have p3 := pr_pos l (m + μ)
  have p4 := tri3_pos (l + 1) 1 (Λ := (l : ℤ)) (by omega)
  rw [ht, show ∀ x s y : ℝ, x * (s * y) = s * (x * y) from by intros; ring]
  congr 1
  refine sqrt_eq_of (by positivity) ?_
  rw [show ∀ t x y z a : ℝ, t * x * y * z * a * (t * x * y * z * a) = t * t * (x * x) * (y * y) * (z * z) * (a * a) from by intros; ring,
    pr_mul_self, pr_mul_self, pr_mul_self, tri3, Real.mul_self_sqrt]
  · rw [show (l : ℤ) + 1 + 1 - l = 2 by ring, show (l : ℤ) + (l + 1) - 1 = 2 * l by ring, show (l : ℤ) + 1 - (l + 1) = 0 by ring,
      show (l : ℤ) + 1 + 1 + l + 1 = 2 * l + 1 + 1 + 1 by ring, ff_succ (by omega), ff_succ (by omega), ff_succ (by omega),
      show ff 0 = 1 by simp [ff], show ff 2 = 2 by simp [ff], rf_of_nonneg (by omega), rf_of_nonneg (by omega), rf_of_nonneg (by omega),
      rf_of_nonneg (by omega)]
    have g1 := (ff_pos (l - (m + μ))).ne'
    have g2 := (ff_pos (l + (m + μ))).ne'
    have g3 := (ff_pos (1 + μ)).ne'
    have g4 := (ff_pos (1 - μ)).ne'
    have g5 := (ff_pos (2 * l)).ne'
    have g6 : 2 * (l : ℝ) + 1 ≠ 0 := by positivity
    have g7 : 2 * (l : ℝ) + 2 ≠ 0 := by positivity
    have g8 : 2 * (l : ℝ) + 3 ≠ 0 := by positivity
    push_cast
    rw [show 2 * (l : ℝ) + 1 + 1 + 1 = 2 * l + 3 by ring, show 2 * (l : ℝ) + 1 + 1 = 2 * l + 2 by ring]
    field_simp
  · have h1 := ff_pos ((l : ℤ) + 1 + 1 - l)
    have h2 := ff_pos ((l : ℤ) + (l + 1) - 1)
    have h3 := ff_pos ((l : ℤ) + 1 - (l + 1))
    have h4 := ff_pos ((l : ℤ) + 1 + 1 + l + 1)
    positivity

/-- The coefficients for coupling with a vector agree. -/
theorem cg1_eq {l l' : ℕ} (h : Adjacent l l') (m : ℤ) {μ : ℤ} (hμ : μ ∈ ({1, 0, -1} : Finset ℤ)) :
    cg1 l m μ l' = cg l m 1 μ l' (m + μ) := by
  by_cases h0 : (l : ℤ) < |m| ∨ (l' : ℤ) < |m + μ|
  · rw [cg1, if_pos h0]
    rcases h0 with h0 | h0
    · rw [cg_range (Or.inl h0)]
    · rw [cg_range' h0]
  · rw [not_or, not_lt, not_lt] at h0
    have a1 := abs_le.mp h0.1
    have a2 := abs_le.mp h0.2
    have hμ1 : |μ| ≤ 1 := by
      simp only [Finset.mem_insert, Finset.mem_singleton] at hμ
      rw [abs_le]
      omega
    have f0 : ff 0 = 1 := by simp [ff]
    have f1 : ff 1 = 1 := by simp [ff]
    have f2 : ff 2 = 2 := by simp [ff]
    have g1 := (ff_pos (l + m)).ne'
    have g2 := (ff_pos (l - m)).ne'
    rw [cg1, if_neg (by omega)]
    rcases h with rfl | rfl
    · rw [if_pos rfl, cg_up l m μ h0.1 hμ1]
      have g6 : 2 * (l : ℝ) + 1 ≠ 0 := by positivity
      have g7 : (l : ℝ) + 1 ≠ 0 := by positivity
      simp only [Finset.mem_insert, Finset.mem_singleton] at hμ
      rcases hμ with rfl | rfl | rfl
      · rw [if_pos rfl]
        congr 1
        rw [show (l : ℤ) + 1 + (m + 1) = l + m + 1 + 1 by ring, ff_succ (by omega), ff_succ (by omega),
          show (l : ℤ) + 1 - (m + 1) = l - m by ring, show (1 : ℤ) + 1 = 2 by ring, sub_self, f0, f2]
        push_cast
        rw [show 2 * (l : ℝ) + 2 = 2 * (l + 1) by ring]
        field_simp
        ring
      · rw [if_neg (by omega), if_pos rfl]
        congr 1
        rw [show (l : ℤ) + 1 + (m + 0) = l + m + 1 by ring, ff_succ (by omega), show (l : ℤ) + 1 - (m + 0) = l - m + 1 by ring,
          ff_succ (by omega), add_zero, sub_zero, f1]
        push_cast
        rw [show 2 * (l : ℝ) + 2 = 2 * (l + 1) by ring]
        field_simp
      · rw [if_neg (by omega), if_neg (by omega), if_pos rfl]
        congr 1
        rw [show (l : ℤ) + 1 - (m + -1) = l - m + 1 + 1 by ring, ff_succ (by omega), ff_succ (by omega),
          show (l : ℤ) + 1 + (m + -1) = l + m by ring, show (1 : ℤ) - -1 = 2 by ring, show (1 : ℤ) + -1 = 0 by ring, f0, f2]
        push_cast
        rw [show 2 * (l : ℝ) + 2 = 2 * (l + 1) by ring]
        field_simp
        ring
    · rw [if_neg (by omega), if_pos rfl, cg_down l' m μ (by exact_mod_cast h0.1) hμ1 h0.2]
      have g6 : 2 * (l' : ℝ) + 3 ≠ 0 := by positivity
      have g7 : (l' : ℝ) + 1 ≠ 0 := by positivity
      simp only [Finset.mem_insert, Finset.mem_singleton] at hμ
      have hl : 2 * ((l' : ℝ) + 1) + 1 = 2 * l' + 3 := by ring
      have hl2 : 2 * (l' : ℝ) + 2 = 2 * (l' + 1) := by ring
      push_cast at a1 ⊢
      rw [hl, hl2]
      rcases hμ with rfl | rfl | rfl
      · rw [if_pos rfl, show sgn (1 + 1) = 1 by simp [sgn], one_mul]
        congr 1
        have k1 := (ff_pos (l' + (m + 1))).ne'
        have k2 := (ff_pos (l' - (m + 1))).ne'
        rw [show (l' : ℤ) + 1 + m = l' + (m + 1) by ring, show (l' : ℤ) + 1 - m = l' - (m + 1) + 1 + 1 by ring, ff_succ (by omega),
          ff_succ (by omega), show (1 : ℤ) + 1 = 2 by ring, sub_self, f0, f2]
        push_cast
        field_simp
        ring
      · rw [if_neg (by omega), if_pos rfl, show sgn (1 + 0) = -1 by simp [sgn], neg_one_mul]
        congr 2
        have k1 := (ff_pos (l' + m)).ne'
        have k2 := (ff_pos (l' - m)).ne'
        rw [add_zero, show (l' : ℤ) + 1 + m = l' + m + 1 by ring, show (l' : ℤ) + 1 - m = l' - m + 1 by ring, ff_succ (by omega),
          ff_succ (by omega), add_zero, sub_zero, f1]
        push_cast
        field_simp
        ring
      · rw [if_neg (by omega), if_neg (by omega), if_pos rfl, show sgn (1 + -1) = 1 by simp [sgn], one_mul]
        congr 1
        have k1 := (ff_pos (l' + (m + -1))).ne'
        have k2 := (ff_pos (l' - (m + -1))).ne'
        rw [show (l' : ℤ) + 1 - m = l' - (m + -1) by ring, show (l' : ℤ) + 1 + m = l' + (m + -1) + 1 + 1 by ring, ff_succ (by omega),
          ff_succ (by omega), show (1 : ℤ) - -1 = 2 by ring, show (1 : ℤ) + -1 = 0 by ring, f0, f2]
        push_cast
        field_simp
        ring

/-- The defining property of six-j symbols: the coupling of the two factors of a scalar product of tensors of rank `κ` with
`l₁'` and `l₂'` to `l₁` and `l₂`, these two coupled to `Λ`, is a multiple of the coupling of `l₁'` and `l₂'` to `Λ`. -/
def SixJ (sixj : Int → Int → Int → Int → Int → Int → ℝ) : Prop :=
  ∀ (l1 l1' κ l2' l2 Λ : ℕ) (m1 m2 M : ℤ),
    ∑ μ ∈ Finset.Icc (-(κ : ℤ)) κ, sgn μ * cg l1' m1 κ μ l1 (m1 + μ) * cg l2' m2 κ (-μ) l2 (m2 - μ) * cg l1 (m1 + μ) l2 (m2 - μ) Λ M =
      sgn (l1' + l2 + Λ) * √((2 * l1 + 1) * (2 * l2 + 1)) * sixj l1 l1' κ l2' l2 Λ * cg l1' m1 l2' m2 Λ M

/-- The coupling coefficients satisfy the laws that the recursion rests on. -/
theorem cg_recouples {sixj : Int → Int → Int → Int → Int → Int → ℝ} (h : SixJ sixj) (Λ : ℕ) (M : ℤ) : Recouples cg sixj Λ M where
  range := fun _ _ _ _ => cg_range
  triangle := fun _ _ _ _ => cg_triangle
  exchange := fun l1 m1 l2 m2 => cg_exchange l1 m1 l2 m2 Λ M
  recouple := by
    intro l1 l1' l2 l2' m1 m2 a1 a2
    have := h l1 l1' 1 l2' l2 Λ m1 m2 M
    rw [Nat.cast_one] at this
    rw [← this]
    have hset : Finset.Icc (-1 : ℤ) 1 = {1, 0, -1} := by decide
    rw [hset]
    refine Finset.sum_congr rfl fun μ hμ => ?_
    rw [cg1_eq a1.symm m1 hμ, cg1_eq a2.symm m2 (μ := -μ) (by
      simp only [Finset.mem_insert, Finset.mem_singleton] at hμ ⊢
      omega), ← sub_eq_add_neg]

end Verif.Moshinsky.Osc
