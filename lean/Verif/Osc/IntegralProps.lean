import Verif.Osc.Integral
import Verif.Osc.Positive
import Mathlib.Analysis.SpecialFunctions.ExpDeriv

/-! # Property C64: analytic matrix elements are integrals of the generated wave functions -/

namespace Verif.Osc
open Verif Verif.H2 MeasureTheory Set

/-- Normalisation constant, unit length. -/
noncomputable def nrm (l n : ℕ) : ℝ := Real.sqrt (2 * n.factorial / (1 * Real.Gamma (n + l + 3 / 2)))

theorem oscFn_one (n l : ℕ) (x : ℝ) :
    oscFn n l 1 x = nrm l n * (x ^ (l + 1) * Real.exp (-x ^ 2 / 2) * laguerre n (l + 1 / 2) (x ^ 2)) := by
  unfold oscFn nrm
  simp only [div_one]
  ring

theorem nrm_same (l n : ℕ) : nrm l n = Real.sqrt (n + l + 3 / 2) * nrm (l + 1) n := by
  have hg : (0 : ℝ) < Real.Gamma (n + l + 3 / 2) := Real.Gamma_pos_of_pos (by positivity)
  have hG : Real.Gamma ((n : ℝ) + ((l + 1 : ℕ) : ℝ) + 3 / 2) = (n + l + 3 / 2) * Real.Gamma (n + l + 3 / 2) := by
    rw [← Real.Gamma_add_one (by positivity)]
    congr 1; push_cast; ring
  unfold nrm
  rw [hG, ← Real.sqrt_mul (by positivity)]
  congr 1
  have : (n : ℝ) + l + 3 / 2 ≠ 0 := by positivity
  field_simp

theorem nrm_lower (l n : ℕ) : nrm l (n + 1) = Real.sqrt (n + 1) * nrm (l + 1) n := by
  have hg : (0 : ℝ) < Real.Gamma (n + l + 1 + 3 / 2) := Real.Gamma_pos_of_pos (by positivity)
  have e1 : ((n + 1 : ℕ) : ℝ) + l + 3 / 2 = n + l + 1 + 3 / 2 := by push_cast; ring
  have e2 : (n : ℝ) + ((l + 1 : ℕ) : ℝ) + 3 / 2 = n + l + 1 + 3 / 2 := by push_cast; ring
  unfold nrm
  rw [e1, e2, ← Real.sqrt_mul (by positivity), Nat.factorial_succ]
  congr 1
  push_cast
  ring

/-- `x ψ_{0,l}` in the functions of `l + 1`. -/
theorem expand_up_zero (l : ℕ) (x : ℝ) :
    x * oscFn 0 l 1 x = Real.sqrt (l + 3 / 2) * oscFn 0 (l + 1) 1 x := by
  have h := nrm_same l 0
  simp only [Nat.cast_zero, zero_add] at h
  rw [oscFn_one, oscFn_one, laguerre_zero, laguerre_zero, h]
  ring

/-- `x ψ_{n+1,l}` in the functions of `l + 1`. -/
theorem expand_up_succ (n l : ℕ) (x : ℝ) :
    x * oscFn (n + 1) l 1 x
      = Real.sqrt (n + 1 + l + 3 / 2) * oscFn (n + 1) (l + 1) 1 x - Real.sqrt (n + 1) * oscFn n (l + 1) 1 x := by
  have h1 := nrm_same l (n + 1)
  have h2 := nrm_lower l n
  have hL := laguerre_lower n ((l : ℝ) + 1 / 2) (x ^ 2)
  have e : ((l + 1 : ℕ) : ℝ) + 1 / 2 = l + 1 / 2 + 1 := by push_cast; ring
  rw [oscFn_one, oscFn_one, oscFn_one, e, hL]
  push_cast at h1
  set A := laguerre (n + 1) ((l : ℝ) + 1 / 2 + 1) (x ^ 2)
  set B := laguerre n ((l : ℝ) + 1 / 2 + 1) (x ^ 2)
  linear_combination (x * x ^ (l + 1) * Real.exp (-x ^ 2 / 2) * A) * h1
    - (x * x ^ (l + 1) * Real.exp (-x ^ 2 / 2) * B) * h2

/-- Derivative of a radial function. -/
theorem hasDerivAt_oscFn (n l : ℕ) (x : ℝ) {L' : ℝ}
    (hL : HasDerivAt (fun y => laguerre n ((l : ℝ) + 1 / 2) y) L' (x ^ 2)) :
    HasDerivAt (oscFn n l 1)
      (nrm l n * (((l + 1) * x ^ l * Real.exp (-x ^ 2 / 2) - x ^ (l + 1) * x * Real.exp (-x ^ 2 / 2))
          * laguerre n (l + 1 / 2) (x ^ 2)
        + x ^ (l + 1) * Real.exp (-x ^ 2 / 2) * (2 * x * L'))) x := by
  have hf : oscFn n l 1 = fun x => nrm l n *
      (x ^ (l + 1) * Real.exp (-x ^ 2 / 2) * laguerre n (l + 1 / 2) (x ^ 2)) := funext (oscFn_one n l)
  rw [hf]
  have h2 : HasDerivAt (fun y : ℝ => y ^ 2) (2 * x) x := by simpa using hasDerivAt_pow 2 x
  have hp : HasDerivAt (fun y : ℝ => y ^ (l + 1)) ((l + 1) * x ^ l) x := by
    simpa using hasDerivAt_pow (l + 1) x
  have he : HasDerivAt (fun y : ℝ => Real.exp (-y ^ 2 / 2)) (Real.exp (-x ^ 2 / 2) * (-(2 * x) / 2)) x :=
    ((h2.fun_neg).div_const 2).exp
  have hl : HasDerivAt (fun y : ℝ => laguerre n ((l : ℝ) + 1 / 2) (y ^ 2)) (L' * (2 * x)) x :=
    HasDerivAt.comp (h₂ := fun y => laguerre n ((l : ℝ) + 1 / 2) y) (h := fun y : ℝ => y ^ 2) x hL h2
  refine (((hp.fun_mul he).fun_mul hl).const_mul (nrm l n)).congr_deriv ?_
  ring

/-- `(d/dx - (l+1)/x) ψ_{n,l}` in the functions of `l + 1`. -/
theorem momentum_up_zero (l : ℕ) {x : ℝ} (hx : x ≠ 0) :
    deriv (oscFn 0 l 1) x - (l + 1) / x * oscFn 0 l 1 x = -Real.sqrt (l + 3 / 2) * oscFn 0 (l + 1) 1 x := by
  have hL : HasDerivAt (fun y => laguerre 0 ((l : ℝ) + 1 / 2) y) 0 (x ^ 2) := by
    have : (fun y => laguerre 0 ((l : ℝ) + 1 / 2) y) = fun _ => 1 := funext fun y => laguerre_zero _ _
    rw [this]; exact hasDerivAt_const _ _
  rw [(hasDerivAt_oscFn 0 l x hL).deriv]
  have h := nrm_same l 0
  simp only [Nat.cast_zero, zero_add] at h
  rw [oscFn_one, oscFn_one, laguerre_zero, laguerre_zero, h]
  field_simp
  ring

theorem momentum_up_succ (n l : ℕ) {x : ℝ} (hx : x ≠ 0) :
    deriv (oscFn (n + 1) l 1) x - (l + 1) / x * oscFn (n + 1) l 1 x
      = -Real.sqrt (n + 1 + l + 3 / 2) * oscFn (n + 1) (l + 1) 1 x
        - Real.sqrt (n + 1) * oscFn n (l + 1) 1 x := by
  rw [(hasDerivAt_oscFn (n + 1) l x (hasDerivAt_laguerre n _ _)).deriv]
  have h1 := nrm_same l (n + 1)
  have h2 := nrm_lower l n
  have hL := laguerre_lower n ((l : ℝ) + 1 / 2) (x ^ 2)
  have e : ((l + 1 : ℕ) : ℝ) + 1 / 2 = l + 1 / 2 + 1 := by push_cast; ring
  rw [oscFn_one, oscFn_one, oscFn_one, e, hL]
  push_cast at h1
  set A := laguerre (n + 1) ((l : ℝ) + 1 / 2 + 1) (x ^ 2)
  set B := laguerre n ((l : ℝ) + 1 / 2 + 1) (x ^ 2)
  have ed : ((l : ℝ) + 1) / x * (nrm l (n + 1) * (x ^ (l + 1) * Real.exp (-x ^ 2 / 2) * (A - B)))
      = (l + 1) * (nrm l (n + 1) * (x ^ l * Real.exp (-x ^ 2 / 2) * (A - B))) := by
    field_simp
    ring
  rw [ed]
  linear_combination (-(x * x ^ (l + 1) * Real.exp (-x ^ 2 / 2) * A)) * h1
    - (x * x ^ (l + 1) * Real.exp (-x ^ 2 / 2) * B) * h2

/-- `(d/dx + (l+1)/x) ψ_{n,l+1}` in the functions of `l`. -/
theorem momentum_down (n l : ℕ) {x : ℝ} (hx : x ≠ 0) :
    deriv (oscFn n (l + 1) 1) x + (l + 1) / x * oscFn n (l + 1) 1 x
      = Real.sqrt (n + l + 3 / 2) * oscFn n l 1 x + Real.sqrt (n + 1) * oscFn (n + 1) l 1 x := by
  have h1 := nrm_same l n
  have h2 := nrm_lower l n
  have e : ((l + 1 : ℕ) : ℝ) + 1 / 2 = l + 1 / 2 + 1 := by push_cast; ring
  have s1 : Real.sqrt ((n : ℝ) + l + 3 / 2) * Real.sqrt ((n : ℝ) + l + 3 / 2) = n + l + 3 / 2 :=
    Real.mul_self_sqrt (by positivity)
  have s2 : Real.sqrt ((n : ℝ) + 1) * Real.sqrt ((n : ℝ) + 1) = n + 1 := Real.mul_self_sqrt (by positivity)
  have hR := laguerre_raise n ((l : ℝ) + 1 / 2) (x ^ 2)
  -- derivative of the polynomial
  have key : ∃ L', HasDerivAt (fun y => laguerre n (((l + 1 : ℕ) : ℝ) + 1 / 2) y) L' (x ^ 2) ∧
      (l + 1 / 2 + 1) * laguerre n ((l : ℝ) + 1 / 2 + 1) (x ^ 2) + x ^ 2 * L'
        = (n + (l + 1 / 2) + 1) * laguerre n ((l : ℝ) + 1 / 2) (x ^ 2) := by
    rcases n with _ | n
    · refine ⟨0, ?_, ?_⟩
      · have : (fun y => laguerre 0 (((l + 1 : ℕ) : ℝ) + 1 / 2) y) = fun _ => 1 :=
          funext fun y => laguerre_zero _ _
        rw [this]; exact hasDerivAt_const _ _
      · rw [laguerre_zero, laguerre_zero]; push_cast; ring
    · refine ⟨_, hasDerivAt_laguerre n _ _, ?_⟩
      rw [e]
      have r := laguerre_raise n ((l : ℝ) + 1 / 2 + 1) (x ^ 2)
      have lo := laguerre_lower n ((l : ℝ) + 1 / 2) (x ^ 2)
      push_cast
      linear_combination -r - (n + 1 + (l + 1 / 2) + 1) * lo
  obtain ⟨L', hL', hk⟩ := key
  rw [(hasDerivAt_oscFn n (l + 1) x hL').deriv, oscFn_one, oscFn_one, oscFn_one, h2, e]
  rw [show nrm l n = _ from h1]
  set A := laguerre n ((l : ℝ) + 1 / 2 + 1) (x ^ 2)
  set P := laguerre n ((l : ℝ) + 1 / 2) (x ^ 2)
  set Q := laguerre (n + 1) ((l : ℝ) + 1 / 2) (x ^ 2)
  have ed : ((l : ℝ) + 1) / x * (nrm (l + 1) n * (x ^ (l + 1 + 1) * Real.exp (-x ^ 2 / 2) * A))
      = (l + 1) * (nrm (l + 1) n * (x ^ (l + 1) * Real.exp (-x ^ 2 / 2) * A)) := by
    field_simp
    ring
  rw [ed]
  push_cast
  linear_combination (2 * nrm (l + 1) n * x ^ (l + 1) * Real.exp (-x ^ 2 / 2)) * hk
    - (nrm (l + 1) n * x ^ (l + 1) * Real.exp (-x ^ 2 / 2)) * hR
    - (nrm (l + 1) n * x ^ (l + 1) * Real.exp (-x ^ 2 / 2) * P) * s1
    - (nrm (l + 1) n * x ^ (l + 1) * Real.exp (-x ^ 2 / 2) * Q) * s2

/-- Integral of a function against a combination of two basis functions. -/
theorem integral_expand (n' l' p q : ℕ) (a c : ℝ) {F : ℝ → ℝ}
    (h : ∀ x, 0 < x → F x = a * oscFn p l' 1 x + c * oscFn q l' 1 x) :
    ∫ x in Ioi (0 : ℝ), oscFn n' l' 1 x * F x
      = a * (if n' = p then 1 else 0) + c * (if n' = q then 1 else 0) := by
  have e : ∫ x in Ioi (0 : ℝ), oscFn n' l' 1 x * F x
      = ∫ x in Ioi (0 : ℝ), (a * (oscFn n' l' 1 x * oscFn p l' 1 x)
          + c * (oscFn n' l' 1 x * oscFn q l' 1 x)) := by
    refine setIntegral_congr_fun measurableSet_Ioi ?_
    intro x hx
    simp only
    rw [h x hx]; ring
  rw [e, integral_add ((integrable_oscFn_mul n' p l').const_mul a) ((integrable_oscFn_mul n' q l').const_mul c),
    integral_const_mul, integral_const_mul, oscFn_orthonormal_unit, oscFn_orthonormal_unit]

theorem sqrt_two_mul {y : ℝ} (z : ℝ) (h : z = 2 * y) : Real.sqrt z = Real.sqrt 2 * Real.sqrt y := by
  rw [h, Real.sqrt_mul (by norm_num)]

/-- Element from `(n, l)` to `(n', l+1)` in terms of radial quantum numbers. -/
theorem coordinate_up (n' n l : ℕ) (s : Int) :
    coordinate ((2 * n' + (l + 1) : ℕ) : Int) ((l + 1 : ℕ) : Int) ((2 * n + l : ℕ) : Int) (l : Int) s
      = .ok (Real.sqrt 2 / kSqrt2 * ((s : ℝ) * Real.sqrt (n + l + 3 / 2) * (if n' = n then 1 else 0)
          - Real.sqrt n * (if n' + 1 = n then 1 else 0))) := by
  rw [coordinate_value ⟨by omega, by omega, by omega⟩ (by omega)]
  have d : ((l + 1 : ℕ) : Int) - (l : Int) = 1 := by omega
  have s1 := sqrt_two_mul (y := n + l + 3 / 2) (((2 * n + l : ℕ) : Int) + ((l : Int) : ℝ) + 3) (by push_cast; ring)
  have s2 := sqrt_two_mul (y := n) (((2 * n + l : ℕ) : Int) - ((l : Int) : ℝ)) (by push_cast; ring)
  simp only [upR, downR, if_pos d, s1, s2]
  congr 1
  by_cases h1 : n' = n
  · rw [if_pos (by omega), if_neg (by omega), if_pos h1, if_neg (by omega)]; ring
  · by_cases h2 : n' + 1 = n
    · rw [if_neg (by omega), if_pos (by omega), if_neg h1, if_pos h2]; ring
    · rw [if_neg (by omega), if_neg (by omega), if_neg h1, if_neg h2]; ring

/-- **C64.** The analytic `r` element between any two oscillator orbitals with `|δl| = 1` is the
integral of the coordinate between the closed-form wave functions which `oscillator_wf.h`
generates (up to the decimal literal for the square root of two, `kSqrt2_factor`): same values, same
phase convention. -/
theorem coordinate_is_integral (n' l' n l : ℕ) (hl : l' = l + 1 ∨ l = l' + 1) :
    coordinate ((2 * n' + l' : ℕ) : Int) (l' : Int) ((2 * n + l : ℕ) : Int) (l : Int) 1
      = .ok (Real.sqrt 2 / kSqrt2 * ∫ x in Ioi (0 : ℝ), oscFn n' l' 1 x * (x * oscFn n l 1 x)) := by
  -- the case `l' = l + 1`
  have up : ∀ n' n l : ℕ, ∫ x in Ioi (0 : ℝ), oscFn n' (l + 1) 1 x * (x * oscFn n l 1 x)
      = Real.sqrt (n + l + 3 / 2) * (if n' = n then 1 else 0) - Real.sqrt n * (if n' + 1 = n then 1 else 0) := by
    intro n' n l
    rcases n with _ | n
    · rw [integral_expand n' (l + 1) 0 0 (Real.sqrt (l + 3 / 2)) 0
        (fun x _ => by rw [expand_up_zero]; ring)]
      simp
    · rw [integral_expand n' (l + 1) (n + 1) n (Real.sqrt (n + 1 + l + 3 / 2)) (-Real.sqrt (n + 1))
        (fun x _ => by rw [expand_up_succ]; ring)]
      push_cast
      ring
  rcases hl with rfl | rfl
  · rw [coordinate_up, up]
    push_cast
    simp only [one_mul]
  · rw [coordinate_symmetric, coordinate_up]
    have : ∀ x : ℝ, oscFn n' l' 1 x * (x * oscFn n (l' + 1) 1 x) = oscFn n (l' + 1) 1 x * (x * oscFn n' l' 1 x) := by
      intro x; ring
    simp only [this]
    rw [up]
    push_cast
    simp only [one_mul]

/-- **C64.** The analytic `ik` element is the integral of the radial derivative operator:
`d/dr - (l+1)/r` towards `l + 1`. -/
theorem momentum_up_is_integral (n' n l : ℕ) :
    coordinate ((2 * n' + (l + 1) : ℕ) : Int) ((l + 1 : ℕ) : Int) ((2 * n + l : ℕ) : Int) (l : Int) (-1)
      = .ok (Real.sqrt 2 / kSqrt2 * ∫ x in Ioi (0 : ℝ), oscFn n' (l + 1) 1 x
          * (deriv (oscFn n l 1) x - (l + 1) / x * oscFn n l 1 x)) := by
  rw [coordinate_up]
  rcases n with _ | n
  · rw [integral_expand n' (l + 1) 0 0 (-Real.sqrt (l + 3 / 2)) 0
      (fun x hx => by rw [momentum_up_zero l (ne_of_gt hx)]; ring)]
    simp
  · rw [integral_expand n' (l + 1) (n + 1) n (-Real.sqrt (n + 1 + l + 3 / 2)) (-Real.sqrt (n + 1))
      (fun x hx => by rw [momentum_up_succ n l (ne_of_gt hx)]; ring)]
    push_cast
    congr 2
    ring

/-- **C64.** The analytic `ik` element towards `l - 1` is the integral of `d/dr + l/r`. -/
theorem momentum_down_is_integral (n' n l : ℕ) :
    coordinate ((2 * n' + l : ℕ) : Int) (l : Int) ((2 * n + (l + 1) : ℕ) : Int) ((l + 1 : ℕ) : Int) (-1)
      = .ok (Real.sqrt 2 / kSqrt2 * ∫ x in Ioi (0 : ℝ), oscFn n' l 1 x
          * (deriv (oscFn n (l + 1) 1) x + (l + 1) / x * oscFn n (l + 1) 1 x)) := by
  rw [momentum_antisymmetric, coordinate_up]
  rw [integral_expand n' l n (n + 1) (Real.sqrt (n + l + 3 / 2)) (Real.sqrt (n + 1))
    (fun x hx => by rw [momentum_down n l (ne_of_gt hx)])]
  simp only [Except.map]
  congr 1
  by_cases h1 : n' = n
  · subst h1
    simp
  · by_cases h2 : n' = n + 1
    · subst h2
      simp
    · have h3 : ¬ (n = n') := fun h => h1 h.symm
      have h4 : ¬ (n + 1 = n') := fun h => h2 h.symm
      simp [h1, h2, h3, h4]

/-! ## Examples -/

/-- Non-trivial elements: `r` between `0s` and `0p`, and the derivative. -/
example : coordinate 1 1 0 0 1 = .ok (Real.sqrt 2 / kSqrt2 * ∫ x in Ioi (0 : ℝ), oscFn 0 1 1 x * (x * oscFn 0 0 1 x)) ∧
    coordinate 1 1 0 0 1 = .ok (Real.sqrt 2 / kSqrt2 * Real.sqrt (3 / 2)) := by
  refine ⟨coordinate_is_integral 0 1 0 0 (Or.inl rfl), ?_⟩
  have := coordinate_up 0 0 0 1
  norm_num at this ⊢
  exact this

end Verif.Osc
