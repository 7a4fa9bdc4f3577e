import Verif.Osc.SquareIntegral

/-! # Property C64, squared momentum -/

namespace Verif.Osc
open Verif Verif.H2 MeasureTheory Set

/-- Radial part of the gradient towards `l + 1`, acting on `r` times the radial function. -/
noncomputable def gradUp (l : ℕ) (f : ℝ → ℝ) (x : ℝ) : ℝ := deriv f x - (l + 1) / x * f x

/-- Radial part of the gradient towards `l - 1`. -/
noncomputable def gradDown (l : ℕ) (f : ℝ → ℝ) (x : ℝ) : ℝ := deriv f x + l / x * f x

/-- The gradient twice, from `l` to `l'` (`l' = l`, `l + 2` or `l - 2`). -/
noncomputable def gradSqr (l' l : ℕ) (f : ℝ → ℝ) : ℝ → ℝ :=
  if l' = l + 2 then gradUp (l + 1) (gradUp l f)
  else if l = l' + 2 then gradDown (l - 1) (gradDown l f)
  else gradDown (l + 1) (gradUp l f)

theorem differentiable_oscFn (n l : ℕ) (x : ℝ) : DifferentiableAt ℝ (oscFn n l 1) x := by
  rcases n with _ | n
  · have hL : HasDerivAt (fun y => laguerre 0 ((l : ℝ) + 1 / 2) y) 0 (x ^ 2) := by
      have : (fun y => laguerre 0 ((l : ℝ) + 1 / 2) y) = fun _ => 1 := funext fun y => laguerre_zero _ _
      rw [this]; exact hasDerivAt_const _ _
    exact (hasDerivAt_oscFn 0 l x hL).differentiableAt
  · exact (hasDerivAt_oscFn (n + 1) l x (hasDerivAt_laguerre n _ _)).differentiableAt

/-- Within one `l` the gradient twice is the second derivative with the centrifugal term. -/
theorem gradSqr_same (l : ℕ) {f : ℝ → ℝ} {x : ℝ} (hx : 0 < x) (h1 : ∀ᶠ y in nhds x, DifferentiableAt ℝ f y)
    (h2 : DifferentiableAt ℝ (deriv f) x) :
    gradSqr l l f x = deriv (deriv f) x - l * (l + 1) / x ^ 2 * f x := by
  have hx0 := hx.ne'
  unfold gradSqr
  rw [if_neg (by omega), if_neg (by omega)]
  have hd : deriv (gradUp l f) x = deriv (deriv f) x - (-(l + 1) / x ^ 2 * f x + (l + 1) / x * deriv f x) := by
    have hf := h1.self_of_nhds.hasDerivAt
    have hi : HasDerivAt (fun y : ℝ => ((l : ℝ) + 1) / y) (-(l + 1) / x ^ 2) x := by
      have := (hasDerivAt_inv hx0).const_mul ((l : ℝ) + 1)
      refine (this.congr_deriv ?_)
      ring
    exact (h2.hasDerivAt.sub (hi.mul hf)).deriv
  unfold gradDown
  rw [hd]
  unfold gradUp
  push_cast
  field_simp
  ring

/-- Both gradients depend only on the function near the point, and are linear. -/
theorem gradUp_combination (l : ℕ) {f g h : ℝ → ℝ} (a b : ℝ) {x : ℝ} (hx : 0 < x) (e : ∀ y, 0 < y → f y = a * g y + b * h y)
    (hg : DifferentiableAt ℝ g x) (hh : DifferentiableAt ℝ h x) : gradUp l f x = a * gradUp l g x + b * gradUp l h x := by
  have he : f =ᶠ[nhds x] fun y => a * g y + b * h y := by
    filter_upwards [Ioi_mem_nhds hx] with y hy using e y hy
  unfold gradUp
  rw [he.deriv_eq, e x hx]
  rw [((hg.hasDerivAt.const_mul a).fun_add (hh.hasDerivAt.const_mul b)).deriv]
  ring

theorem gradDown_combination (l : ℕ) {f g h : ℝ → ℝ} (a b : ℝ) {x : ℝ} (hx : 0 < x) (e : ∀ y, 0 < y → f y = a * g y + b * h y)
    (hg : DifferentiableAt ℝ g x) (hh : DifferentiableAt ℝ h x) : gradDown l f x = a * gradDown l g x + b * gradDown l h x := by
  have he : f =ᶠ[nhds x] fun y => a * g y + b * h y := by
    filter_upwards [Ioi_mem_nhds hx] with y hy using e y hy
  unfold gradDown
  rw [he.deriv_eq, e x hx]
  rw [((hg.hasDerivAt.const_mul a).fun_add (hh.hasDerivAt.const_mul b)).deriv]
  ring

/-- The gradient towards `l + 1`, for all `n` at once. -/
theorem gradUp_osc (n l : ℕ) {x : ℝ} (hx : 0 < x) :
    gradUp l (oscFn n l 1) x = -Real.sqrt (n + l + 3 / 2) * oscFn n (l + 1) 1 x + -Real.sqrt n * oscFn (n - 1) (l + 1) 1 x := by
  unfold gradUp
  rcases n with _ | n
  · rw [momentum_up_zero l hx.ne']
    simp
  · rw [momentum_up_succ n l hx.ne']
    simp only [Nat.add_sub_cancel]
    push_cast
    ring

theorem gradDown_osc (n l : ℕ) {x : ℝ} (hx : 0 < x) :
    gradDown (l + 1) (oscFn n (l + 1) 1) x = Real.sqrt (n + l + 3 / 2) * oscFn n l 1 x + Real.sqrt (n + 1) * oscFn (n + 1) l 1 x := by
  have := momentum_down n l hx.ne'
  unfold gradDown
  push_cast
  exact this

/-- `(ik)²` within one `l`. -/
theorem ksqr_integral_same (n' n l : ℕ) :
    coordinateSqr ((2 * n' + l : ℕ) : Int) (l : Int) ((2 * n + l : ℕ) : Int) (l : Int) (-1)
      = .ok (∫ x in Ioi (0 : ℝ), oscFn n' l 1 x * gradSqr l l (oscFn n l 1) x) := by
  rw [sqr_value ⟨by omega, by omega, by omega⟩ ⟨by omega, by omega, by omega⟩]
  have q2 : Real.sqrt 2 * Real.sqrt 2 = 2 := Real.mul_self_sqrt (by norm_num)
  have hint : ∫ x in Ioi (0 : ℝ), oscFn n' l 1 x * gradSqr l l (oscFn n l 1) x
      = (-(2 * n + l + 3 / 2)) * (if n' = n then 1 else 0)
        + (-(Real.sqrt (n + l + 3 / 2) * Real.sqrt (n + 1))) * (if n' = n + 1 then 1 else 0)
        + (-(Real.sqrt n * Real.sqrt (n + l + 1 / 2))) * (if n' + 1 = n then 1 else 0) := by
    have hg : ∀ x : ℝ, 0 < x → gradSqr l l (oscFn n l 1) x
        = -Real.sqrt (n + l + 3 / 2) * gradDown (l + 1) (oscFn n (l + 1) 1) x
          + -Real.sqrt n * gradDown (l + 1) (oscFn (n - 1) (l + 1) 1) x := by
      intro x hx
      unfold gradSqr
      rw [if_neg (by omega), if_neg (by omega)]
      exact gradDown_combination _ _ _ hx (fun y hy => gradUp_osc n l hy) (differentiable_oscFn _ _ _) (differentiable_oscFn _ _ _)
    have q1 : Real.sqrt ((n : ℝ) + l + 3 / 2) * Real.sqrt ((n : ℝ) + l + 3 / 2) = n + l + 3 / 2 :=
      Real.mul_self_sqrt (by positivity)
    rcases n with _ | m
    · rw [integral_expand3 n' l 0 1 0 (-(l + 3 / 2)) (-(Real.sqrt (l + 3 / 2))) 0]
      · simp
      · intro x hx
        rw [hg x hx, gradDown_osc 0 l hx]
        simp only [Nat.cast_zero, zero_add, Real.sqrt_one, one_mul, Real.sqrt_zero, neg_zero, zero_mul, add_zero] at q1 ⊢
        linear_combination (-oscFn 0 l 1 x) * q1
    · have q3 : Real.sqrt ((m : ℝ) + 1) * Real.sqrt ((m : ℝ) + 1) = m + 1 := Real.mul_self_sqrt (by positivity)
      rw [integral_expand3 n' l (m + 1) (m + 1 + 1) m (-(2 * (m + 1) + l + 3 / 2))
        (-(Real.sqrt (m + 1 + l + 3 / 2) * Real.sqrt (m + 1 + 1))) (-(Real.sqrt (m + 1) * Real.sqrt (m + l + 3 / 2)))]
      · have e : (m : ℝ) + 1 + l + 1 / 2 = m + l + 3 / 2 := by ring
        push_cast
        rw [e]
      · intro x hx
        rw [hg x hx, gradDown_osc _ l hx, Nat.add_sub_cancel, gradDown_osc _ l hx]
        push_cast at q1 ⊢
        linear_combination (-oscFn (m + 1) l 1 x) * (q1 + q3)
  rw [hint]
  congr 1
  have d : (l : Int) - (l : Int) = 0 := by omega
  have n2 : ¬ ((0 : Int) = 2) := by omega
  simp only [sqrR, d, if_neg n2, if_true]
  have s1 := sqrt_two_mul (y := n + l + 3 / 2) (((2 * n + l : ℕ) : Int) + ((l : Int) : ℝ) + 3) (by push_cast; ring)
  have s2 := sqrt_two_mul (y := n + 1) (((2 * n + l : ℕ) : Int) - ((l : Int) : ℝ) + 2) (by push_cast; ring)
  have s3 := sqrt_two_mul (y := n) (((2 * n + l : ℕ) : Int) - ((l : Int) : ℝ)) (by push_cast; ring)
  have s4 := sqrt_two_mul (y := n + l + 1 / 2) (((2 * n + l : ℕ) : Int) + ((l : Int) : ℝ) + 1) (by push_cast; ring)
  rw [s1, s2, s3, s4]
  by_cases h1 : n' = n
  · rw [if_neg (by omega), if_pos (by omega), if_pos h1, if_neg (by omega), if_neg (by omega)]
    push_cast; ring
  · by_cases h2 : n' = n + 1
    · rw [if_pos (by omega), if_neg h1, if_pos h2, if_neg (by omega)]
      linear_combination (-1 / 2 * Real.sqrt (n + l + 3 / 2) * Real.sqrt (n + 1)) * q2
    · by_cases h3 : n' + 1 = n
      · rw [if_neg (by omega), if_neg (by omega), if_pos (by omega), if_neg h1, if_neg h2, if_pos h3]
        linear_combination (-1 / 2 * Real.sqrt n * Real.sqrt (n + l + 1 / 2)) * q2
      · rw [if_neg (by omega), if_neg (by omega), if_neg (by omega), if_neg h1, if_neg h2, if_neg h3]
        ring

/-- `(ik)²` from `l` to `l + 2`. -/
theorem ksqr_integral_up (n' n l : ℕ) :
    coordinateSqr ((2 * n' + (l + 2) : ℕ) : Int) ((l + 2 : ℕ) : Int) ((2 * n + l : ℕ) : Int) (l : Int) (-1)
      = .ok (∫ x in Ioi (0 : ℝ), oscFn n' (l + 2) 1 x * gradSqr (l + 2) l (oscFn n l 1) x) := by
  rw [sqr_value ⟨by omega, by omega, by omega⟩ ⟨by omega, by omega, by omega⟩]
  have q2 : Real.sqrt 2 * Real.sqrt 2 = 2 := Real.mul_self_sqrt (by norm_num)
  have hint : ∫ x in Ioi (0 : ℝ), oscFn n' (l + 2) 1 x * gradSqr (l + 2) l (oscFn n l 1) x
      = (Real.sqrt (n + l + 3 / 2) * Real.sqrt (n + l + 5 / 2)) * (if n' = n then 1 else 0)
        + (2 * (Real.sqrt n * Real.sqrt (n + l + 3 / 2))) * (if n' + 1 = n then 1 else 0)
        + (Real.sqrt n * Real.sqrt (n - 1)) * (if n' + 2 = n then 1 else 0) := by
    have hg : ∀ x : ℝ, 0 < x → gradSqr (l + 2) l (oscFn n l 1) x
        = -Real.sqrt (n + l + 3 / 2) * gradUp (l + 1) (oscFn n (l + 1) 1) x
          + -Real.sqrt n * gradUp (l + 1) (oscFn (n - 1) (l + 1) 1) x := by
      intro x hx
      unfold gradSqr
      rw [if_pos rfl]
      exact gradUp_combination _ _ _ hx (fun y hy => gradUp_osc n l hy) (differentiable_oscFn _ _ _) (differentiable_oscFn _ _ _)
    rcases n with _ | _ | m
    · rw [integral_expand3 n' (l + 2) 0 0 0 (Real.sqrt (l + 3 / 2) * Real.sqrt (l + 5 / 2)) 0 0]
      · simp
      · intro x hx
        rw [hg x hx, gradUp_osc _ _ hx]
        have e : ((0 : ℕ) : ℝ) + ((l + 1 : ℕ) : ℝ) + 3 / 2 = l + 5 / 2 := by push_cast; ring
        rw [e]
        simp only [Nat.cast_zero, zero_add, Real.sqrt_zero]
        ring
    · rw [integral_expand3 n' (l + 2) 1 0 0 (Real.sqrt (1 + l + 3 / 2) * Real.sqrt (1 + l + 5 / 2))
        (2 * Real.sqrt (1 + l + 3 / 2)) 0]
      · simp
      · intro x hx
        rw [hg x hx, gradUp_osc _ _ hx, gradUp_osc _ _ hx]
        have e2 : ((0 + 1 : ℕ) : ℝ) + ((l + 1 : ℕ) : ℝ) + 3 / 2 = 1 + l + 5 / 2 := by push_cast; ring
        have e3 : ((0 + 1 - 1 : ℕ) : ℝ) + ((l + 1 : ℕ) : ℝ) + 3 / 2 = 1 + l + 3 / 2 := by push_cast; ring
        rw [e2, e3]
        simp only [Nat.zero_add, Nat.cast_one, Nat.sub_self, Nat.cast_zero, Real.sqrt_one, Real.sqrt_zero]
        ring
    · rw [integral_expand3 n' (l + 2) (m + 1 + 1) (m + 1) m
        (Real.sqrt (m + 1 + 1 + l + 3 / 2) * Real.sqrt (m + 1 + 1 + l + 5 / 2))
        (2 * (Real.sqrt (m + 1 + 1) * Real.sqrt (m + 1 + 1 + l + 3 / 2)))
        (Real.sqrt (m + 1 + 1) * Real.sqrt (m + 1))]
      · have e : (m : ℝ) + 1 + 1 - 1 = m + 1 := by ring
        push_cast
        rw [e]
      · intro x hx
        rw [hg x hx, gradUp_osc _ _ hx, Nat.add_sub_cancel, gradUp_osc _ _ hx, Nat.add_sub_cancel]
        have e : ((m + 1 : ℕ) : ℝ) + ((l + 1 : ℕ) : ℝ) + 3 / 2 = m + 1 + 1 + l + 3 / 2 := by push_cast; ring
        have e2 : ((m + 1 + 1 : ℕ) : ℝ) + ((l + 1 : ℕ) : ℝ) + 3 / 2 = m + 1 + 1 + l + 5 / 2 := by push_cast; ring
        rw [e2, e]
        push_cast
        ring
  rw [hint]
  congr 1
  have d : ((l + 2 : ℕ) : Int) - (l : Int) = 2 := by omega
  simp only [sqrR, d, if_true]
  have s1 := sqrt_two_mul (y := n + l + 3 / 2) (((2 * n + l : ℕ) : Int) + ((l : Int) : ℝ) + 3) (by push_cast; ring)
  have s2 := sqrt_two_mul (y := n + l + 5 / 2) (((2 * n + l : ℕ) : Int) + ((l : Int) : ℝ) + 5) (by push_cast; ring)
  have s3 := sqrt_two_mul (y := n) (((2 * n + l : ℕ) : Int) - ((l : Int) : ℝ)) (by push_cast; ring)
  have s4 := sqrt_two_mul (y := n - 1) (((2 * n + l : ℕ) : Int) - ((l : Int) : ℝ) - 2) (by push_cast; ring)
  rw [s1, s2, s3, s4]
  by_cases h1 : n' = n
  · rw [if_pos (by omega), if_pos h1, if_neg (by omega), if_neg (by omega)]
    linear_combination (1 / 2 * Real.sqrt (n + l + 3 / 2) * Real.sqrt (n + l + 5 / 2)) * q2
  · by_cases h2 : n' + 1 = n
    · rw [if_neg (by omega), if_pos (by omega), if_neg h1, if_pos h2, if_neg (by omega)]
      push_cast
      linear_combination (Real.sqrt n * Real.sqrt (n + l + 3 / 2)) * q2
    · by_cases h3 : n' + 2 = n
      · rw [if_neg (by omega), if_neg (by omega), if_pos (by omega), if_neg h1, if_neg h2, if_pos h3]
        linear_combination (1 / 2 * Real.sqrt n * Real.sqrt (n - 1)) * q2
      · rw [if_neg (by omega), if_neg (by omega), if_neg (by omega), if_neg h1, if_neg h2, if_neg h3]
        ring

/-- `(ik)²` from `l + 2` to `l`. -/
theorem ksqr_integral_down (n' n l : ℕ) :
    coordinateSqr ((2 * n' + l : ℕ) : Int) (l : Int) ((2 * n + (l + 2) : ℕ) : Int) ((l + 2 : ℕ) : Int) (-1)
      = .ok (∫ x in Ioi (0 : ℝ), oscFn n' l 1 x * gradSqr l (l + 2) (oscFn n (l + 2) 1) x) := by
  rw [sqr_value ⟨by omega, by omega, by omega⟩ ⟨by omega, by omega, by omega⟩]
  have q2 : Real.sqrt 2 * Real.sqrt 2 = 2 := Real.mul_self_sqrt (by norm_num)
  have hint : ∫ x in Ioi (0 : ℝ), oscFn n' l 1 x * gradSqr l (l + 2) (oscFn n (l + 2) 1) x
      = (Real.sqrt (n + l + 3 / 2) * Real.sqrt (n + l + 5 / 2)) * (if n' = n then 1 else 0)
        + (2 * (Real.sqrt (n + 1) * Real.sqrt (n + l + 5 / 2))) * (if n' = n + 1 then 1 else 0)
        + (Real.sqrt (n + 1) * Real.sqrt (n + 2)) * (if n' = n + 2 then 1 else 0) := by
    have hg : ∀ x : ℝ, 0 < x → gradSqr l (l + 2) (oscFn n (l + 2) 1) x
        = Real.sqrt (n + l + 5 / 2) * gradDown (l + 1) (oscFn n (l + 1) 1) x
          + Real.sqrt (n + 1) * gradDown (l + 1) (oscFn (n + 1) (l + 1) 1) x := by
      intro x hx
      unfold gradSqr
      rw [if_neg (by omega), if_pos rfl]
      have e : (n : ℝ) + ((l + 1 : ℕ) : ℝ) + 3 / 2 = n + l + 5 / 2 := by push_cast; ring
      refine gradDown_combination _ _ _ hx (fun y hy => ?_) (differentiable_oscFn _ _ _) (differentiable_oscFn _ _ _)
      rw [show l + 2 = l + 1 + 1 from rfl, gradDown_osc n (l + 1) hy, e]
    rw [integral_expand3 n' l n (n + 1) (n + 2) (Real.sqrt (n + l + 3 / 2) * Real.sqrt (n + l + 5 / 2))
        (2 * (Real.sqrt (n + 1) * Real.sqrt (n + l + 5 / 2))) (Real.sqrt (n + 1) * Real.sqrt (n + 2))]
    intro x hx
    rw [hg x hx, gradDown_osc _ _ hx, gradDown_osc _ _ hx]
    have e : ((n + 1 : ℕ) : ℝ) + l + 3 / 2 = n + l + 5 / 2 := by push_cast; ring
    have e2 : ((n + 1 : ℕ) : ℝ) + 1 = n + 2 := by push_cast; ring
    rw [e, e2]
    ring
  rw [hint]
  congr 1
  have d : (l : Int) - ((l + 2 : ℕ) : Int) = -2 := by omega
  have n2 : ¬ ((-2 : Int) = 2) := by omega
  have n0 : ¬ ((-2 : Int) = 0) := by omega
  simp only [sqrR, d, if_true, if_neg n2, if_neg n0]
  have s1 := sqrt_two_mul (y := n + 1) (((2 * n + (l + 2) : ℕ) : Int) - (((l + 2 : ℕ) : Int) : ℝ) + 2) (by push_cast; ring)
  have s2 := sqrt_two_mul (y := n + 2) (((2 * n + (l + 2) : ℕ) : Int) - (((l + 2 : ℕ) : Int) : ℝ) + 4) (by push_cast; ring)
  have s3 := sqrt_two_mul (y := n + l + 5 / 2) (((2 * n + (l + 2) : ℕ) : Int) + (((l + 2 : ℕ) : Int) : ℝ) + 1) (by push_cast; ring)
  have s4 := sqrt_two_mul (y := n + l + 3 / 2) (((2 * n + (l + 2) : ℕ) : Int) + (((l + 2 : ℕ) : Int) : ℝ) - 1) (by push_cast; ring)
  rw [s1, s2, s3, s4]
  by_cases h1 : n' = n
  · rw [if_neg (by omega), if_neg (by omega), if_pos (by omega), if_pos h1, if_neg (by omega), if_neg (by omega)]
    linear_combination (1 / 2 * Real.sqrt (n + l + 3 / 2) * Real.sqrt (n + l + 5 / 2)) * q2
  · by_cases h2 : n' = n + 1
    · rw [if_neg (by omega), if_pos (by omega), if_neg h1, if_pos h2, if_neg (by omega)]
      push_cast
      linear_combination (Real.sqrt (n + 1) * Real.sqrt (n + l + 5 / 2)) * q2
    · by_cases h3 : n' = n + 2
      · rw [if_pos (by omega), if_neg h1, if_neg h2, if_pos h3]
        linear_combination (1 / 2 * Real.sqrt (n + 1) * Real.sqrt (n + 2)) * q2
      · rw [if_neg (by omega), if_neg (by omega), if_neg (by omega), if_neg h1, if_neg h2, if_neg h3]
        ring

/-- **C64.** The analytic `(ik)²` element between any two oscillator orbitals with `δl` 0 or ±2 is the integral of the gradient applied
twice, exactly. -/
theorem momentumSqr_is_integral (n' l' n l : ℕ) (hl : l' = l ∨ l' = l + 2 ∨ l = l' + 2) :
    coordinateSqr ((2 * n' + l' : ℕ) : Int) (l' : Int) ((2 * n + l : ℕ) : Int) (l : Int) (-1)
      = .ok (∫ x in Ioi (0 : ℝ), oscFn n' l' 1 x * gradSqr l' l (oscFn n l 1) x) := by
  rcases hl with rfl | rfl | rfl
  · exact ksqr_integral_same n' n l'
  · exact ksqr_integral_up n' n l
  · exact ksqr_integral_down n' n l'

/-- **C64.** Within one `l` this is the second derivative with the centrifugal term: `-k²`, the Laplacian on reduced radial functions. -/
theorem laplacian_is_integral (n' n l : ℕ) :
    coordinateSqr ((2 * n' + l : ℕ) : Int) (l : Int) ((2 * n + l : ℕ) : Int) (l : Int) (-1)
      = .ok (∫ x in Ioi (0 : ℝ), oscFn n' l 1 x *
          (deriv (deriv (oscFn n l 1)) x - l * (l + 1) / x ^ 2 * oscFn n l 1 x)) := by
  rw [ksqr_integral_same]
  congr 1
  refine setIntegral_congr_fun measurableSet_Ioi ?_
  intro x hx
  have hx : (0 : ℝ) < x := hx
  simp only
  rw [gradSqr_same l hx (Filter.Eventually.of_forall fun y => differentiable_oscFn n l y) ?_]
  have he : deriv (oscFn n l 1) =ᶠ[nhds x] fun y => (-Real.sqrt (n + l + 3 / 2) * oscFn n (l + 1) 1 y
      + -Real.sqrt n * oscFn (n - 1) (l + 1) 1 y) + (l + 1) / y * oscFn n l 1 y := by
    filter_upwards [Ioi_mem_nhds hx] with y hy
    have := gradUp_osc n l (x := y) hy
    unfold gradUp at this
    linear_combination this
  refine DifferentiableAt.congr_of_eventuallyEq ?_ he
  have hi : DifferentiableAt ℝ (fun y : ℝ => ((l : ℝ) + 1) / y) x := by
    have := ((hasDerivAt_inv hx.ne').const_mul ((l : ℝ) + 1)).differentiableAt
    simpa [div_eq_mul_inv] using this
  exact (((differentiable_oscFn n (l + 1) x).const_mul _).fun_add ((differentiable_oscFn (n - 1) (l + 1) x).const_mul _)).fun_add
    (hi.fun_mul (differentiable_oscFn n l x))

/-- **C64, sample.** The kinetic energy of the lowest function: the integral of its Laplacian is `-3/2`. -/
example : (∫ x in Ioi (0 : ℝ), oscFn 0 0 1 x * (deriv (deriv (oscFn 0 0 1)) x - (0 : ℕ) * ((0 : ℕ) + 1) / x ^ 2 * oscFn 0 0 1 x)) = -3 / 2 := by
  have h := laplacian_is_integral 0 0 0
  have e : coordinateSqr ((2 * 0 + 0 : ℕ) : Int) ((0 : ℕ) : Int) ((2 * 0 + 0 : ℕ) : Int) ((0 : ℕ) : Int) (-1) = .ok (-3 / 2) := by
    simp [coordinateSqr, sqrR]
    try norm_num
  rw [e] at h
  exact (Except.ok.inj h).symm

end Verif.Osc
