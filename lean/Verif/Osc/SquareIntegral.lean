import Verif.Osc.IntegralProps

/-! # Property C64, squared coordinate -/

namespace Verif.Osc
open Verif Verif.H2 MeasureTheory Set

/-- `x ψ_{n,l+1}` in the functions of `l`. -/
theorem expand_down (n l : ℕ) (x : ℝ) :
    x * oscFn n (l + 1) 1 x
      = Real.sqrt (n + l + 3 / 2) * oscFn n l 1 x - Real.sqrt (n + 1) * oscFn (n + 1) l 1 x := by
  have h1 := nrm_same l n
  have h2 := nrm_lower l n
  have s1 : Real.sqrt ((n : ℝ) + l + 3 / 2) * Real.sqrt ((n : ℝ) + l + 3 / 2) = n + l + 3 / 2 :=
    Real.mul_self_sqrt (by positivity)
  have s2 : Real.sqrt ((n : ℝ) + 1) * Real.sqrt ((n : ℝ) + 1) = n + 1 := Real.mul_self_sqrt (by positivity)
  have hR := laguerre_raise n ((l : ℝ) + 1 / 2) (x ^ 2)
  have e : ((l + 1 : ℕ) : ℝ) + 1 / 2 = l + 1 / 2 + 1 := by push_cast; ring
  rw [oscFn_one, oscFn_one, oscFn_one, e, h2]
  rw [show nrm l n = _ from h1]
  set A := laguerre n ((l : ℝ) + 1 / 2 + 1) (x ^ 2)
  set P := laguerre n ((l : ℝ) + 1 / 2) (x ^ 2)
  set Q := laguerre (n + 1) ((l : ℝ) + 1 / 2) (x ^ 2)
  linear_combination (nrm (l + 1) n * x ^ (l + 1) * Real.exp (-x ^ 2 / 2)) * hR
    - (nrm (l + 1) n * x ^ (l + 1) * Real.exp (-x ^ 2 / 2) * P) * s1
    + (nrm (l + 1) n * x ^ (l + 1) * Real.exp (-x ^ 2 / 2) * Q) * s2

theorem integral_expand3 (n' l' p q r : ℕ) (a c d : ℝ) {F : ℝ → ℝ}
    (h : ∀ x, 0 < x → F x = a * oscFn p l' 1 x + c * oscFn q l' 1 x + d * oscFn r l' 1 x) :
    ∫ x in Ioi (0 : ℝ), oscFn n' l' 1 x * F x
      = a * (if n' = p then 1 else 0) + c * (if n' = q then 1 else 0) + d * (if n' = r then 1 else 0) := by
  have e : ∫ x in Ioi (0 : ℝ), oscFn n' l' 1 x * F x
      = ∫ x in Ioi (0 : ℝ), (oscFn n' l' 1 x * (a * oscFn p l' 1 x + c * oscFn q l' 1 x)
          + d * (oscFn n' l' 1 x * oscFn r l' 1 x)) := by
    refine setIntegral_congr_fun measurableSet_Ioi ?_
    intro x hx
    simp only
    rw [h x hx]; ring
  have i1 : IntegrableOn (fun x => oscFn n' l' 1 x * (a * oscFn p l' 1 x + c * oscFn q l' 1 x)) (Ioi 0) := by
    have h2 : IntegrableOn (fun x => a * (oscFn n' l' 1 x * oscFn p l' 1 x)
        + c * (oscFn n' l' 1 x * oscFn q l' 1 x)) (Ioi 0) :=
      ((integrable_oscFn_mul n' p l').const_mul a).add ((integrable_oscFn_mul n' q l').const_mul c)
    refine h2.congr_fun ?_ measurableSet_Ioi
    intro x _
    simp only; ring
  rw [e, integral_add i1 ((integrable_oscFn_mul n' r l').const_mul d), integral_expand n' l' p q a c (fun _ _ => rfl),
    integral_const_mul, oscFn_orthonormal_unit]

/-- `r²` within one `l`. -/
theorem sqr_integral_same (n' n l : ℕ) :
    coordinateSqr ((2 * n' + l : ℕ) : Int) (l : Int) ((2 * n + l : ℕ) : Int) (l : Int) 1
      = .ok (∫ x in Ioi (0 : ℝ), oscFn n' l 1 x * (x ^ 2 * oscFn n l 1 x)) := by
  rw [sqr_value ⟨by omega, by omega, by omega⟩ ⟨by omega, by omega, by omega⟩]
  have q1 : Real.sqrt ((n : ℝ) + l + 3 / 2) * Real.sqrt ((n : ℝ) + l + 3 / 2) = n + l + 3 / 2 :=
    Real.mul_self_sqrt (by positivity)
  have q2 : Real.sqrt 2 * Real.sqrt 2 = 2 := Real.mul_self_sqrt (by norm_num)
  have hint : ∫ x in Ioi (0 : ℝ), oscFn n' l 1 x * (x ^ 2 * oscFn n l 1 x)
      = (2 * n + l + 3 / 2) * (if n' = n then 1 else 0)
        + (-(Real.sqrt (n + l + 3 / 2) * Real.sqrt (n + 1))) * (if n' = n + 1 then 1 else 0)
        + (-(Real.sqrt n * Real.sqrt (n + l + 1 / 2))) * (if n' + 1 = n then 1 else 0) := by
    rcases n with _ | m
    · rw [integral_expand3 n' l 0 1 0 (l + 3 / 2) (-(Real.sqrt (l + 3 / 2))) 0]
      · simp
      · intro x _
        rw [pow_two, mul_assoc, expand_up_zero, mul_left_comm, expand_down]
        simp only [Nat.cast_zero, zero_add, Real.sqrt_one, one_mul] at q1 ⊢
        linear_combination (oscFn 0 l 1 x) * q1
    · have q3 : Real.sqrt ((m : ℝ) + 1) * Real.sqrt ((m : ℝ) + 1) = m + 1 := Real.mul_self_sqrt (by positivity)
      rw [integral_expand3 n' l (m + 1) (m + 1 + 1) m (2 * (m + 1) + l + 3 / 2)
        (-(Real.sqrt (m + 1 + l + 3 / 2) * Real.sqrt (m + 1 + 1))) (-(Real.sqrt (m + 1) * Real.sqrt (m + l + 3 / 2)))]
      · have e : (m : ℝ) + 1 + l + 1 / 2 = m + l + 3 / 2 := by ring
        push_cast
        rw [e]
      · intro x _
        rw [pow_two, mul_assoc, expand_up_succ, mul_sub, mul_left_comm, mul_left_comm x, expand_down, expand_down]
        push_cast at q1 ⊢
        linear_combination (oscFn (m + 1) l 1 x) * (q1 + q3)
  rw [hint]
  congr 1
  have d : (l : Int) - (l : Int) = 0 := by omega
  have n2 : ¬ ((0 : Int) = 2) := by omega
  simp only [sqrR, d, if_neg n2, if_true]
  have s1 := sqrt_two_mul (y := n + l + 3 / 2) (((2 * n + l : ℕ) : Int) + ((l : Int) : ℝ) + 3) (by push_cast; ring)
  have s2 := sqrt_two_mul (y := n + 1) (((2 * n + l : ℕ) : Int) - ((l : Int) : ℝ) + 2) (by push_cast; ring)
  have s3 := sqrt_two_mul (y := n) (((2 * n + l : ℕ) : Int) - ((l : Int) : ℝ)) (by push_cast; ring)
  have s4 := sqrt_two_mul (y := n + l + 1 / 2) (((2 * n + l : ℕ) : Int) + ((l : Int) : ℝ) + 1) (by push_cast; ring)
  rw [s1, s2, s3, s4]
  by_cases h1 : n' = n
  · rw [if_neg (by omega), if_pos (by omega), if_pos h1, if_neg (by omega), if_neg (by omega)]
    push_cast; ring
  · by_cases h2 : n' = n + 1
    · rw [if_pos (by omega), if_neg h1, if_pos h2, if_neg (by omega)]
      linear_combination (-1 / 2 * Real.sqrt (n + l + 3 / 2) * Real.sqrt (n + 1)) * q2
    · by_cases h3 : n' + 1 = n
      · rw [if_neg (by omega), if_neg (by omega), if_pos (by omega), if_neg h1, if_neg h2, if_pos h3]
        linear_combination (-1 / 2 * Real.sqrt n * Real.sqrt (n + l + 1 / 2)) * q2
      · rw [if_neg (by omega), if_neg (by omega), if_neg (by omega), if_neg h1, if_neg h2, if_neg h3]
        ring

/-- `r²` from `l` to `l + 2`. -/
theorem sqr_integral_up (n' n l : ℕ) :
    coordinateSqr ((2 * n' + (l + 2) : ℕ) : Int) ((l + 2 : ℕ) : Int) ((2 * n + l : ℕ) : Int) (l : Int) 1
      = .ok (∫ x in Ioi (0 : ℝ), oscFn n' (l + 2) 1 x * (x ^ 2 * oscFn n l 1 x)) := by
  rw [sqr_value ⟨by omega, by omega, by omega⟩ ⟨by omega, by omega, by omega⟩]
  have q2 : Real.sqrt 2 * Real.sqrt 2 = 2 := Real.mul_self_sqrt (by norm_num)
  have hint : ∫ x in Ioi (0 : ℝ), oscFn n' (l + 2) 1 x * (x ^ 2 * oscFn n l 1 x)
      = (Real.sqrt (n + l + 3 / 2) * Real.sqrt (n + l + 5 / 2)) * (if n' = n then 1 else 0)
        + (-2 * (Real.sqrt n * Real.sqrt (n + l + 3 / 2))) * (if n' + 1 = n then 1 else 0)
        + (Real.sqrt n * Real.sqrt (n - 1)) * (if n' + 2 = n then 1 else 0) := by
    rcases n with _ | _ | m
    · rw [integral_expand3 n' (l + 2) 0 0 0 (Real.sqrt (l + 3 / 2) * Real.sqrt (l + 5 / 2)) 0 0]
      · simp
      · intro x _
        rw [pow_two, mul_assoc, expand_up_zero, mul_left_comm, expand_up_zero]
        have e : ((l + 1 : ℕ) : ℝ) + 3 / 2 = l + 5 / 2 := by push_cast; ring
        rw [e]; ring
    · rw [integral_expand3 n' (l + 2) 1 0 0 (Real.sqrt (1 + l + 3 / 2) * Real.sqrt (1 + l + 5 / 2))
        (-2 * Real.sqrt (1 + l + 3 / 2)) 0]
      · simp
      · intro x _
        rw [pow_two, mul_assoc, expand_up_succ, mul_sub, mul_left_comm, mul_left_comm x, expand_up_zero,
          expand_up_succ]
        have e : ((l + 1 : ℕ) : ℝ) + 3 / 2 = 1 + l + 3 / 2 := by push_cast; ring
        have e2 : ((0 : ℕ) : ℝ) + 1 + ((l + 1 : ℕ) : ℝ) + 3 / 2 = 1 + l + 5 / 2 := by push_cast; ring
        rw [e2, e]
        simp only [Nat.cast_zero, zero_add, Real.sqrt_one]
        ring
    · rw [integral_expand3 n' (l + 2) (m + 1 + 1) (m + 1) m
        (Real.sqrt (m + 1 + 1 + l + 3 / 2) * Real.sqrt (m + 1 + 1 + l + 5 / 2))
        (-2 * (Real.sqrt (m + 1 + 1) * Real.sqrt (m + 1 + 1 + l + 3 / 2)))
        (Real.sqrt (m + 1 + 1) * Real.sqrt (m + 1))]
      · have e : (m : ℝ) + 1 + 1 - 1 = m + 1 := by ring
        push_cast
        rw [e]
      · intro x _
        rw [pow_two, mul_assoc, expand_up_succ, mul_sub, mul_left_comm, mul_left_comm x, expand_up_succ,
          expand_up_succ]
        have e : (m : ℝ) + 1 + ((l + 1 : ℕ) : ℝ) + 3 / 2 = m + 1 + 1 + l + 3 / 2 := by push_cast; ring
        have e2 : ((m + 1 : ℕ) : ℝ) + 1 + ((l + 1 : ℕ) : ℝ) + 3 / 2 = m + 1 + 1 + l + 5 / 2 := by push_cast; ring
        rw [e2, e]
        push_cast
        ring
  rw [hint]
  congr 1
  have d : ((l + 2 : ℕ) : Int) - (l : Int) = 2 := by omega
  simp only [sqrR, d, if_true]
  have s1 := sqrt_two_mul (y := n + l + 3 / 2) (((2 * n + l : ℕ) : Int) + ((l : Int) : ℝ) + 3) (by push_cast; ring)
  have s2 := sqrt_two_mul (y := n + l + 5 / 2) (((2 * n + l : ℕ) : Int) + ((l : Int) : ℝ) + 5) (by push_cast; ring)
  have s3 := sqrt_two_mul (y := n) (((2 * n + l : ℕ) : Int) - ((l : Int) : ℝ)) (by push_cast; ring)
  have s4 := sqrt_two_mul (y := n - 1) (((2 * n + l : ℕ) : Int) - ((l : Int) : ℝ) - 2) (by push_cast; ring)
  rw [s1, s2, s3, s4]
  by_cases h1 : n' = n
  · rw [if_pos (by omega), if_pos h1, if_neg (by omega), if_neg (by omega)]
    linear_combination (1 / 2 * Real.sqrt (n + l + 3 / 2) * Real.sqrt (n + l + 5 / 2)) * q2
  · by_cases h2 : n' + 1 = n
    · rw [if_neg (by omega), if_pos (by omega), if_neg h1, if_pos h2, if_neg (by omega)]
      push_cast
      linear_combination (-(Real.sqrt n * Real.sqrt (n + l + 3 / 2))) * q2
    · by_cases h3 : n' + 2 = n
      · rw [if_neg (by omega), if_neg (by omega), if_pos (by omega), if_neg h1, if_neg h2, if_pos h3]
        linear_combination (1 / 2 * Real.sqrt n * Real.sqrt (n - 1)) * q2
      · rw [if_neg (by omega), if_neg (by omega), if_neg (by omega), if_neg h1, if_neg h2, if_neg h3]
        ring

/-- **C64.** The analytic `r²` element between any two oscillator orbitals with `δl` 0 or ±2 is the
integral of the squared coordinate between the wave functions, exactly. -/
theorem coordinateSqr_is_integral (n' l' n l : ℕ) (hl : l' = l ∨ l' = l + 2 ∨ l = l' + 2) :
    coordinateSqr ((2 * n' + l' : ℕ) : Int) (l' : Int) ((2 * n + l : ℕ) : Int) (l : Int) 1
      = .ok (∫ x in Ioi (0 : ℝ), oscFn n' l' 1 x * (x ^ 2 * oscFn n l 1 x)) := by
  rcases hl with rfl | rfl | rfl
  · exact sqr_integral_same n' n l'
  · exact sqr_integral_up n' n l
  · rw [square_symmetric, sqr_integral_up]
    congr 2
    funext x
    ring

end Verif.Osc
