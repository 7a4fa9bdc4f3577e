import Verif.Osc.WaveProps
import Mathlib.MeasureTheory.Integral.IntegralEqImproper

/-! # Integrals of Laguerre polynomials and oscillator functions -/

namespace Verif.Osc
open Verif MeasureTheory Set

/-- `∫ e^{-x} x^β` times a power. -/
theorem integrable_weight {β : ℝ} (hβ : -1 < β) (k : ℕ) :
    IntegrableOn (fun x : ℝ => Real.exp (-x) * x ^ β * x ^ k) (Ioi 0) := by
  have h := Real.GammaIntegral_convergent (s := β + k + 1) (by have : (0 : ℝ) ≤ k := by positivity
                                                               linarith)
  refine h.congr_fun ?_ measurableSet_Ioi
  intro x hx
  simp only
  rw [mul_assoc, ← Real.rpow_natCast x k, ← Real.rpow_add hx]
  congr 2
  ring

theorem integrable_laguerre {β : ℝ} (hβ : -1 < β) (n k : ℕ) (α : ℝ) :
    IntegrableOn (fun x : ℝ => Real.exp (-x) * x ^ β * (x ^ k * laguerre n α x)) (Ioi 0) := by
  have : (fun x : ℝ => Real.exp (-x) * x ^ β * (x ^ k * laguerre n α x))
      = fun x => ∑ j ∈ Finset.range (n + 1), lagCoef α n j * (Real.exp (-x) * x ^ β * x ^ (k + j)) := by
    funext x
    rw [laguerre, Finset.mul_sum, Finset.mul_sum]
    apply Finset.sum_congr rfl
    intro j _
    rw [pow_add]; ring
  rw [this]
  exact integrable_finsetSum _ fun j _ => (integrable_weight hβ (k + j)).const_mul _

theorem integral_weight {β : ℝ} (hβ : -1 < β) :
    ∫ x in Ioi (0 : ℝ), Real.exp (-x) * x ^ β = Real.Gamma (β + 1) := by
  rw [Real.Gamma_eq_integral (by linarith)]
  simp

/-- All moments of a Laguerre polynomial. -/
theorem integral_laguerre (n : ℕ) : ∀ {α β : ℝ}, -1 < β →
    ∫ x in Ioi (0 : ℝ), Real.exp (-x) * x ^ β * laguerre n α x = Real.Gamma (β + 1) * rising (α - β) n := by
  induction n with
  | zero =>
    intro α β hβ
    simp only [laguerre_zero, rising_zero, mul_one]
    exact integral_weight hβ
  | succ n ih =>
    intro α β hβ
    have i1 : IntegrableOn (fun x : ℝ => Real.exp (-x) * x ^ β * laguerre n α x) (Ioi 0) := by
      simpa using integrable_laguerre hβ n 0 α
    have i2 : IntegrableOn (fun x : ℝ => Real.exp (-x) * x ^ (β + 1) * laguerre n (α + 1) x) (Ioi 0) := by
      simpa using integrable_laguerre (show -1 < β + 1 by linarith) n 0 (α + 1)
    have h1 := ih (α := α) hβ
    have h2 := ih (α := α + 1) (show -1 < β + 1 by linarith)
    have key : ∫ x in Ioi (0 : ℝ), Real.exp (-x) * x ^ β * laguerre (n + 1) α x
        = ∫ x in Ioi (0 : ℝ), ((n + α + 1) / (n + 1) * (Real.exp (-x) * x ^ β * laguerre n α x)
            - 1 / (n + 1) * (Real.exp (-x) * x ^ (β + 1) * laguerre n (α + 1) x)) := by
      refine setIntegral_congr_fun measurableSet_Ioi ?_
      intro x hx
      have hr := laguerre_raise n α x
      have hn : (n : ℝ) + 1 ≠ 0 := by positivity
      simp only
      rw [Real.rpow_add hx, Real.rpow_one]
      field_simp
      linear_combination (x ^ β) * hr
    rw [key, integral_sub (i1.const_mul _) (i2.const_mul _), integral_const_mul, integral_const_mul, h1, h2]
    have hs := rising_succ (α - β) n
    have hG : Real.Gamma (β + 1 + 1) = (β + 1) * Real.Gamma (β + 1) := Real.Gamma_add_one (by linarith)
    have e : α + 1 - (β + 1) = α - β := by ring
    rw [hG, e]
    have hn : (n : ℝ) + 1 ≠ 0 := by positivity
    field_simp
    linear_combination -Real.Gamma (β + 1) * hs

theorem rising_neg_nat {k n : ℕ} (h : k < n) : rising (-(k : ℝ)) n = 0 := by
  unfold rising
  rw [Finset.prod_eq_zero (Finset.mem_range.mpr h) (by ring)]
  simp

theorem rising_neg_self (n : ℕ) : rising (-(n : ℝ)) n = (-1) ^ n := by
  induction n with
  | zero => simp [rising_zero]
  | succ n ih =>
    have h := rising_shift (-((n + 1 : ℕ) : ℝ)) n
    have e : -((n + 1 : ℕ) : ℝ) + 1 = -(n : ℝ) := by push_cast; ring
    rw [e, ih] at h
    have hn : (n : ℝ) + 1 ≠ 0 := by positivity
    apply mul_left_cancel₀ hn
    rw [h]
    push_cast
    ring

/-- Orthogonality, ordered indices. -/
theorem laguerre_orthogonal_le {m n : ℕ} (h : m ≤ n) {α : ℝ} (hα : -1 < α) :
    ∫ x in Ioi (0 : ℝ), Real.exp (-x) * x ^ α * (laguerre m α x * laguerre n α x)
      = if m = n then Real.Gamma (n + α + 1) / n.factorial else 0 := by
  have e1 : ∫ x in Ioi (0 : ℝ), Real.exp (-x) * x ^ α * (laguerre m α x * laguerre n α x)
      = ∫ x in Ioi (0 : ℝ), ∑ k ∈ Finset.range (m + 1),
          lagCoef α m k * (Real.exp (-x) * x ^ α * (x ^ k * laguerre n α x)) := by
    congr 1
    funext x
    rw [show laguerre m α x = ∑ k ∈ Finset.range (m + 1), lagCoef α m k * x ^ k from rfl,
      Finset.sum_mul, Finset.mul_sum]
    apply Finset.sum_congr rfl
    intro k _; ring
  have e2 : ∀ k ∈ Finset.range (m + 1),
      ∫ x in Ioi (0 : ℝ), lagCoef α m k * (Real.exp (-x) * x ^ α * (x ^ k * laguerre n α x))
        = if k = n then lagCoef α m k * (Real.Gamma (α + n + 1) * (-1) ^ n) else 0 := by
    intro k hk
    rw [integral_const_mul]
    have : ∫ x in Ioi (0 : ℝ), Real.exp (-x) * x ^ α * (x ^ k * laguerre n α x)
        = ∫ x in Ioi (0 : ℝ), Real.exp (-x) * x ^ (α + k) * laguerre n α x := by
      refine setIntegral_congr_fun measurableSet_Ioi ?_
      intro x hx
      simp only
      rw [Real.rpow_add hx, Real.rpow_natCast]; ring
    have hk0 : (0 : ℝ) ≤ k := by positivity
    rw [this, integral_laguerre n (by linarith)]
    have e : α - (α + k) = -(k : ℝ) := by ring
    rw [e]
    by_cases hkn : k = n
    · subst hkn
      rw [if_pos rfl, rising_neg_self]
    · have := Finset.mem_range.mp hk
      rw [if_neg hkn, rising_neg_nat (by omega)]
      ring
  rw [e1, integral_finsetSum _ fun k _ => (integrable_laguerre hα n k α).const_mul _,
    Finset.sum_congr rfl e2, Finset.sum_ite_eq']
  by_cases hmn : m = n
  · subst hmn
    rw [if_pos (by simp), if_pos rfl]
    simp only [lagCoef, Nat.sub_self, rising_zero, mul_one]
    have e : α + (m : ℝ) + 1 = m + α + 1 := by ring
    have hsq : ((-1 : ℝ) ^ m) * (-1) ^ m = 1 := by rw [← mul_pow]; norm_num
    rw [e]
    linear_combination (Real.Gamma (m + α + 1) / m.factorial) * hsq
  · rw [if_neg hmn, if_neg]
    simp only [Finset.mem_range]
    omega

theorem laguerre_orthogonal (m n : ℕ) {α : ℝ} (hα : -1 < α) :
    ∫ x in Ioi (0 : ℝ), Real.exp (-x) * x ^ α * (laguerre m α x * laguerre n α x)
      = if m = n then Real.Gamma (n + α + 1) / n.factorial else 0 := by
  rcases le_total m n with h | h
  · exact laguerre_orthogonal_le h hα
  · have := laguerre_orthogonal_le h hα
    simp only [mul_comm (laguerre n α _)] at this
    rw [this]
    by_cases hmn : m = n
    · subst hmn; rfl
    · rw [if_neg hmn, if_neg (fun h => hmn h.symm)]

theorem integrable_laguerre_mul (m n : ℕ) {α β : ℝ} (hβ : -1 < β) :
    IntegrableOn (fun x : ℝ => Real.exp (-x) * x ^ β * (laguerre m α x * laguerre n α x)) (Ioi 0) := by
  have : (fun x : ℝ => Real.exp (-x) * x ^ β * (laguerre m α x * laguerre n α x))
      = fun x => ∑ k ∈ Finset.range (m + 1),
          lagCoef α m k * (Real.exp (-x) * x ^ β * (x ^ k * laguerre n α x)) := by
    funext x
    rw [show laguerre m α x = ∑ k ∈ Finset.range (m + 1), lagCoef α m k * x ^ k from rfl,
      Finset.sum_mul, Finset.mul_sum]
    apply Finset.sum_congr rfl
    intro k _; ring
  rw [this]
  exact integrable_finsetSum _ fun k _ => (integrable_laguerre hβ n k α).const_mul _

/-- Product of two functions of unit length as a function of `x²`. -/
theorem oscFn_mul (m n l : ℕ) {x : ℝ} (hx : 0 < x) :
    oscFn m l 1 x * oscFn n l 1 x
      = (2 * x ^ ((2 : ℝ) - 1)) * (Real.sqrt (m.factorial / Real.Gamma (m + l + 3 / 2))
          * Real.sqrt (n.factorial / Real.Gamma (n + l + 3 / 2))
          * (Real.exp (-(x ^ (2 : ℝ))) * (x ^ (2 : ℝ)) ^ ((l : ℝ) + 1 / 2)
            * (laguerre m (l + 1 / 2) (x ^ (2 : ℝ)) * laguerre n (l + 1 / 2) (x ^ (2 : ℝ))))) := by
  have e1 : ((2 : ℝ) - 1) = 1 := by norm_num
  have e2 : x ^ (2 : ℝ) = x ^ 2 := by rw [← Real.rpow_natCast]; norm_num
  have e3 : (x ^ 2) ^ ((l : ℝ) + 1 / 2) * x = x ^ (l + 1) * x ^ (l + 1) := by
    have : (x ^ 2) ^ ((l : ℝ) + 1 / 2) * x = (x ^ 2) ^ ((l : ℝ) + 1 / 2) * x ^ (1 : ℝ) := by rw [Real.rpow_one]
    rw [this, ← Real.rpow_natCast_mul hx.le, ← Real.rpow_add hx, ← pow_add, ← Real.rpow_natCast]
    congr 1
    push_cast
    ring
  have e4 : Real.exp (-(x ^ 2)) = Real.exp (-(x / 1) ^ 2 / 2) * Real.exp (-(x / 1) ^ 2 / 2) := by
    rw [← Real.exp_add]; congr 1; ring
  have e5 : ∀ k : ℕ, Real.sqrt (2 * k.factorial / (1 * Real.Gamma (k + l + 3 / 2)))
      = Real.sqrt 2 * Real.sqrt (k.factorial / Real.Gamma (k + l + 3 / 2)) := by
    intro k
    rw [← Real.sqrt_mul (by norm_num)]
    congr 1
    ring
  have e6 : Real.sqrt 2 * Real.sqrt 2 = 2 := Real.mul_self_sqrt (by norm_num)
  rw [e1, e2, Real.rpow_one, e4]
  unfold oscFn
  rw [e5, e5]
  simp only [div_one]
  rw [show ∀ a b c d f g : ℝ, 2 * x * (a * b * (c * c * d * (f * g))) = 2 * a * b * (d * x) * (c * c) * (f * g)
    by intros; ring, e3]
  linear_combination (Real.sqrt (m.factorial / Real.Gamma (m + l + 3 / 2))
          * Real.sqrt (n.factorial / Real.Gamma (n + l + 3 / 2)) * x ^ (l + 1) * x ^ (l + 1)
          * Real.exp (-x ^ 2 / 2) * Real.exp (-x ^ 2 / 2)
          * laguerre m (l + 1 / 2) (x ^ 2) * laguerre n (l + 1 / 2) (x ^ 2)) * e6

theorem integrable_oscFn_mul (m n l : ℕ) : IntegrableOn (fun x => oscFn m l 1 x * oscFn n l 1 x) (Ioi 0) := by
  have hl : (-1 : ℝ) < (l : ℝ) + 1 / 2 := by have : (0 : ℝ) ≤ l := by positivity
                                             linarith
  have h := (integrableOn_Ioi_comp_rpow_iff (fun y : ℝ => Real.sqrt (m.factorial / Real.Gamma (m + l + 3 / 2))
          * Real.sqrt (n.factorial / Real.Gamma (n + l + 3 / 2))
          * (Real.exp (-y) * y ^ ((l : ℝ) + 1 / 2)
            * (laguerre m (l + 1 / 2) y * laguerre n (l + 1 / 2) y))) (two_ne_zero)).mpr
    ((integrable_laguerre_mul m n hl).const_mul _)
  refine h.congr_fun ?_ measurableSet_Ioi
  intro x hx
  simp only [abs_two, smul_eq_mul]
  rw [oscFn_mul m n l hx]

theorem oscFn_orthonormal_unit (m n l : ℕ) :
    ∫ x in Ioi (0 : ℝ), oscFn m l 1 x * oscFn n l 1 x = if m = n then 1 else 0 := by
  have hl : (-1 : ℝ) < (l : ℝ) + 1 / 2 := by have : (0 : ℝ) ≤ l := by positivity
                                             linarith
  have h := integral_comp_rpow_Ioi_of_pos (g := fun y : ℝ =>
      Real.sqrt (m.factorial / Real.Gamma (m + l + 3 / 2))
          * Real.sqrt (n.factorial / Real.Gamma (n + l + 3 / 2))
          * (Real.exp (-y) * y ^ ((l : ℝ) + 1 / 2)
            * (laguerre m (l + 1 / 2) y * laguerre n (l + 1 / 2) y))) (p := 2) two_pos
  rw [integral_const_mul, laguerre_orthogonal m n hl] at h
  simp only [smul_eq_mul] at h
  rw [← setIntegral_congr_fun measurableSet_Ioi
    (g := fun x => oscFn m l 1 x * oscFn n l 1 x) (fun x hx => by
      exact (oscFn_mul m n l hx).symm), h]
  by_cases hmn : m = n
  · subst hmn
    have hg : (0 : ℝ) < Real.Gamma (m + l + 3 / 2) := Real.Gamma_pos_of_pos (by positivity)
    rw [if_pos rfl, if_pos rfl, Real.mul_self_sqrt (by positivity)]
    have e : (m : ℝ) + (l + 1 / 2) + 1 = m + l + 3 / 2 := by ring
    rw [e]
    have : (m.factorial : ℝ) ≠ 0 := by positivity
    field_simp
  · rw [if_neg hmn, if_neg hmn, mul_zero]

/-- Scaling of the length. -/
theorem oscFn_scale (n l : ℕ) {b : ℝ} (hb : 0 < b) (x : ℝ) :
    oscFn n l b x = 1 / Real.sqrt b * oscFn n l 1 (1 / b * x) := by
  unfold oscFn
  have e : Real.sqrt (2 * n.factorial / (b * Real.Gamma (n + l + 3 / 2)))
      = 1 / Real.sqrt b * Real.sqrt (2 * n.factorial / (1 * Real.Gamma (n + l + 3 / 2))) := by
    rw [one_div, ← Real.sqrt_inv, ← Real.sqrt_mul (by positivity)]
    congr 1
    field_simp
  have e2 : 1 / b * x / 1 = x / b := by ring
  rw [e, e2]
  ring

/-- **C63.** The wave functions of one `l` are orthonormal on `(0, ∞)`, for every length. -/
theorem oscFn_orthonormal (m n l : ℕ) {b : ℝ} (hb : 0 < b) :
    ∫ x in Ioi (0 : ℝ), oscFn m l b x * oscFn n l b x = if m = n then 1 else 0 := by
  have h := integral_comp_mul_left_Ioi (fun y => oscFn m l 1 y * oscFn n l 1 y) 0 (b := 1 / b) (by positivity)
  have e : ∀ x, oscFn m l b x * oscFn n l b x = 1 / b * (oscFn m l 1 (1 / b * x) * oscFn n l 1 (1 / b * x)) := by
    intro x
    rw [oscFn_scale m l hb, oscFn_scale n l hb]
    have hs : Real.sqrt b * Real.sqrt b = b := Real.mul_self_sqrt hb.le
    have hs0 : Real.sqrt b ≠ 0 := by positivity
    have : 1 / Real.sqrt b * (1 / Real.sqrt b) = 1 / b := by
      rw [div_mul_div_comm, one_mul, hs]
    linear_combination (oscFn m l 1 (1 / b * x) * oscFn n l 1 (1 / b * x)) * this
  simp only [e]
  rw [integral_const_mul, h, mul_zero, oscFn_orthonormal_unit]
  simp only [smul_eq_mul]
  split_ifs <;> field_simp

/-- **C63**, of the code: the functions `OscillatorWaveFunction<+1>` returns for two radial quantum
numbers are orthonormal. -/
theorem generated_orthonormal (m n l : ℕ) {b : ℝ} (hb : 0 < b) (g1 g2 g3 g4 : ℝ) :
    ∫ x in Ioi (0 : ℝ), waveFunction .position m l b x 0 g1 g2 * waveFunction .position n l b x 0 g3 g4
      = if m = n then 1 else 0 := by
  rw [← oscFn_orthonormal m n l hb]
  refine setIntegral_congr_fun measurableSet_Ioi ?_
  intro x hx
  have h : ∀ (k : ℕ) (g g' : ℝ), waveFunction .position k l b x 0 g g' = oscFn k l b x := by
    intro k g g'
    have h1 := wave_functions_closed_form (le_refl k) l (shift := 0) hb (Or.inl hx)
    rw [single_eq_vector .position (le_refl k) l b x 0 g g'] at h1
    simpa using h1
  simp only
  rw [h, h]

example : ∫ x in Ioi (0 : ℝ), waveFunction .position 2 1 3 x 0 0 0 * waveFunction .position 2 1 3 x 0 0 0 = 1 := by
  have := generated_orthonormal 2 2 1 (b := 3) (by norm_num) 0 0 0 0
  simpa using this

end Verif.Osc
