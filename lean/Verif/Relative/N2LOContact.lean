import Verif.Relative.N2LOProps
import Mathlib.MeasureTheory.Function.JacobianOneDim
import Mathlib.MeasureTheory.Integral.Gamma
import Mathlib.Analysis.SpecialFunctions.Gaussian.GaussianIntegral

/-!
# The contact term and the mesh of the next-to-next-to-leading-order Gamow-Teller operator
-/

namespace Verif.Relative
open Verif Verif.H2 Verif.Osc MeasureTheory Set Axial

/-- **C115, mesh.** The function whose samples are integrated over `(0,1)` has the radial integral as its integral. -/
theorem mesh_integral {b : ℝ} (hb : 0 < b) (f : ℝ → ℝ) :
    ∫ z in Ioo (0 : ℝ) 1, f (b * (z / (1 - z))) * (b / (1 - z) ^ 2) = ∫ r in Ioi (0 : ℝ), f r := by
  have him : (fun z : ℝ => b * (z / (1 - z))) '' Ioo 0 1 = Ioi 0 := by
    ext r
    constructor
    · rintro ⟨z, hz, rfl⟩
      exact mul_pos hb (div_pos hz.1 (by linarith [hz.2]))
    · intro hr
      rw [mem_Ioi] at hr
      refine ⟨r / (r + b), ⟨by positivity, ?_⟩, ?_⟩
      · rw [div_lt_one (by positivity)]
        linarith
      · have : 1 - r / (r + b) = b / (r + b) := by field_simp; ring
        simp only [this]
        field_simp
  have hinj : InjOn (fun z : ℝ => b * (z / (1 - z))) (Ioo 0 1) := by
    intro x hx y hy h
    have h1 : 1 - x ≠ 0 := by linarith [hx.2]
    have h2 : 1 - y ≠ 0 := by linarith [hy.2]
    have h3 := mul_left_cancel₀ hb.ne' h
    rw [div_eq_div_iff h1 h2] at h3
    linarith
  have hder : ∀ z ∈ Ioo (0 : ℝ) 1, HasDerivWithinAt (fun z : ℝ => b * (z / (1 - z))) (b / (1 - z) ^ 2) (Ioo 0 1) z := by
    intro z hz
    have h1 : 1 - z ≠ 0 := by linarith [hz.2]
    have hd : HasDerivAt (fun z : ℝ => 1 - z) (-1) z := by simpa using (hasDerivAt_id z).const_sub 1
    refine ((((hasDerivAt_id z).div hd h1).const_mul b).congr_deriv ?_).hasDerivWithinAt
    simp only [id]
    field_simp
    ring
  rw [← him, integral_image_eq_integral_abs_deriv_smul measurableSet_Ioo hder hinj]
  refine setIntegral_congr_fun measurableSet_Ioo fun z hz => ?_
  simp only [smul_eq_mul]
  rw [abs_of_pos (div_pos hb (pow_pos (by linarith [hz.2]) 2))]
  ring

/-! ## Property C116: the contact term -/

/-- The exact radial integral. -/
noncomputable def exactInt (f : ℝ → ℝ) : ℝ := ∫ r in Ioi (0 : ℝ), f r

theorem gauss_integral {α : ℝ} (hα : 0 < α) (k : ℕ) :
    ∫ r in Ioi (0 : ℝ), r ^ k * Real.exp (-(α * r ^ 2)) = α ^ (-((k : ℝ) + 1) / 2) * (1 / 2) * Real.Gamma (((k : ℝ) + 1) / 2) := by
  have h := integral_rpow_mul_exp_neg_mul_rpow (p := 2) (q := k) (b := α) (by norm_num)
    (by have : (0 : ℝ) ≤ k := Nat.cast_nonneg k; linarith) hα
  rw [← h]
  refine setIntegral_congr_fun measurableSet_Ioi fun r _ => ?_
  simp only [Real.rpow_natCast, Real.rpow_ofNat, neg_mul]

/-- The common exponent of wave function and regulator. -/
noncomputable def expo (b R : ℝ) : ℝ := 1 / (2 * b ^ 2) + 1 / R ^ 2

theorem osc_gauss {b R : ℝ} (hb : 0 < b) (hR : 0 < R) (L : ℕ) (r : ℝ) :
    oscFn 0 L b r * gauss R r =
      Real.sqrt (2 / (b * Real.Gamma (L + 3 / 2))) / b ^ (L + 1) / (Real.sqrt Real.pi * R) ^ 3
        * (r ^ (L + 1) * Real.exp (-(expo b R * r ^ 2))) := by
  have e : Real.exp (-(expo b R * r ^ 2)) = Real.exp (-(r / b) ^ 2 / 2) * Real.exp (-(r / R) ^ 2) := by
    rw [← Real.exp_add, expo]
    congr 1
    field_simp
    ring
  have hl : laguerre 0 (L + 1 / 2) ((r / b) ^ 2) = 1 := by
    simp [laguerre, lagCoef, rising]
  rw [oscFn, gauss, e, hl]
  simp only [Nat.factorial_zero, Nat.cast_one, Nat.cast_zero, mul_one, zero_add, div_pow]
  ring

theorem expo_pos {b R : ℝ} (hb : 0 < b) (hR : 0 < R) : 0 < expo b R := by
  rw [expo]
  positivity

/-- The integral the code uses for the contact term, for the lowest state of any `L`. -/
theorem contact_integral {b R : ℝ} (hb : 0 < b) (hR : 0 < R) (L : ℕ) :
    exactInt (fun r => oscFn 0 L b r * gauss R r) =
      Real.sqrt (2 / (b * Real.Gamma (L + 3 / 2))) / b ^ (L + 1) / (Real.sqrt Real.pi * R) ^ 3
        * (expo b R ^ (-((L : ℝ) + 2) / 2) * (1 / 2) * Real.Gamma (((L : ℝ) + 2) / 2)) := by
  have h := gauss_integral (expo_pos hb hR) (L + 1)
  simp only [exactInt, osc_gauss hb hR, integral_const_mul, h]
  congr 3 <;> (push_cast; ring_nf)

/-- **C116 (negation).** The code's contact term acts between states of every orbital angular momentum, where a
contact operator vanishes: already the lowest state of each `L ≥ 1` has an element. -/
theorem contact_is_wrong {b R D : ℝ} (hb : 0 < b) (hR : 0 < R) (hD : D ≠ 0) {L : ℕ} (hL : L ≠ 0) :
    contactS exactInt b R D 0 L 0 L = 0 ∧ contactAll exactInt b R D 0 L 0 L ≠ 0 := by
  refine ⟨by simp [contactS, hL], ?_⟩
  have hpos : 0 < exactInt (fun r => oscFn 0 L b r * gauss R r) := by
    rw [contact_integral hb hR]
    have h1 := expo_pos hb hR
    have h2 : 0 < Real.Gamma ((L : ℝ) + 3 / 2) := Real.Gamma_pos_of_pos (by positivity)
    have h3 : 0 < Real.Gamma (((L : ℝ) + 2) / 2) := Real.Gamma_pos_of_pos (by positivity)
    have h4 := Real.pi_pos
    positivity
  rw [contactAll]
  exact mul_ne_zero (by simpa using hD) (mul_pos hpos hpos).ne'

/-- **C116 (negation, S waves).** Between S waves the code omits `√(4π) r` in the integrals.  For the lowest state the
value is right for one length only. -/
theorem contact_s_wave {b R D : ℝ} (hb : 0 < b) (hR : 0 < R) (hD : D ≠ 0) :
    contactAll exactInt b R D 0 0 0 0 = contactS exactInt b R D 0 0 0 0 ↔ expo b R = Real.pi ^ 2 := by
  have hα := expo_pos hb hR
  have h1 : exactInt (fun r => oscFn 0 0 b r * gauss R r) =
      Real.sqrt (2 / (b * Real.Gamma (((0 : ℕ) : ℝ) + 3 / 2))) / b ^ (0 + 1) / (Real.sqrt Real.pi * R) ^ 3
        * (1 / (2 * expo b R)) := by
    rw [contact_integral hb hR]
    congr 1
    norm_num [Real.rpow_neg_one]
  have h2 : exactInt (fun r => r * oscFn 0 0 b r * gauss R r) =
      Real.sqrt (2 / (b * Real.Gamma (((0 : ℕ) : ℝ) + 3 / 2))) / b ^ (0 + 1) / (Real.sqrt Real.pi * R) ^ 3
        * (Real.sqrt Real.pi / (4 * (expo b R * Real.sqrt (expo b R)))) := by
    have h := gauss_integral hα 2
    have e : (fun r => r * oscFn 0 0 b r * gauss R r) = fun r =>
        Real.sqrt (2 / (b * Real.Gamma (((0 : ℕ) : ℝ) + 3 / 2))) / b ^ (0 + 1) / (Real.sqrt Real.pi * R) ^ 3
          * (r ^ 2 * Real.exp (-(expo b R * r ^ 2))) := by
      funext r
      rw [mul_assoc, osc_gauss hb hR]
      ring
    rw [exactInt, e, integral_const_mul, h]
    congr 1
    have hg : Real.Gamma ((((2 : ℕ) : ℝ) + 1) / 2) = Real.sqrt Real.pi / 2 := by
      have := Real.Gamma_add_one (s := 1 / 2) (by norm_num)
      rw [Real.Gamma_one_half_eq] at this
      rw [show (((2 : ℕ) : ℝ) + 1) / 2 = 1 / 2 + 1 by norm_num, this]
      ring
    have hr : expo b R ^ (-(((2 : ℕ) : ℝ) + 1) / 2) = 1 / (expo b R * Real.sqrt (expo b R)) := by
      rw [show -(((2 : ℕ) : ℝ) + 1) / 2 = -(1 + 1 / 2) by norm_num, Real.rpow_neg hα.le, Real.rpow_add hα,
        Real.rpow_one, Real.sqrt_eq_rpow]
      exact (one_div _).symm
    rw [hg, hr]
    field_simp
    norm_num
  have hc : Real.sqrt (2 / (b * Real.Gamma (((0 : ℕ) : ℝ) + 3 / 2))) / b ^ (0 + 1) / (Real.sqrt Real.pi * R) ^ 3 ≠ 0 := by
    have h2 : 0 < Real.Gamma (((0 : ℕ) : ℝ) + 3 / 2) := Real.Gamma_pos_of_pos (by positivity)
    have := Real.pi_pos
    positivity
  rw [contactAll, contactS, if_pos ⟨rfl, rfl⟩, h1, h2]
  generalize Real.sqrt (2 / (b * Real.Gamma (((0 : ℕ) : ℝ) + 3 / 2))) / b ^ (0 + 1) / (Real.sqrt Real.pi * R) ^ 3 = c at hc
  have hs : Real.sqrt (expo b R) * Real.sqrt (expo b R) = expo b R := Real.mul_self_sqrt hα.le
  have hp : Real.sqrt Real.pi * Real.sqrt Real.pi = Real.pi := Real.mul_self_sqrt Real.pi_pos.le
  have key : -(D / 4) * (c * (1 / (2 * expo b R)) * (c * (1 / (2 * expo b R)))) = -(D * c ^ 2 / 16) * (expo b R / expo b R ^ 3) := by
    field_simp
    norm_num
  have key2 : -(D / 4) * (4 * Real.pi * (c * (Real.sqrt Real.pi / (4 * (expo b R * Real.sqrt (expo b R))))
      * (c * (Real.sqrt Real.pi / (4 * (expo b R * Real.sqrt (expo b R))))))) =
      -(D * c ^ 2 / 16) * (Real.pi ^ 2 / expo b R ^ 3) := by
    rw [show c * (Real.sqrt Real.pi / (4 * (expo b R * Real.sqrt (expo b R))))
      * (c * (Real.sqrt Real.pi / (4 * (expo b R * Real.sqrt (expo b R))))) =
      c ^ 2 * (Real.sqrt Real.pi * Real.sqrt Real.pi)
        / (16 * expo b R ^ 2 * (Real.sqrt (expo b R) * Real.sqrt (expo b R))) by field_simp; norm_num, hs, hp]
    field_simp
  rw [key, key2]
  have hD' : -(D * c ^ 2 / 16) ≠ 0 := by
    have : c ^ 2 ≠ 0 := pow_ne_zero _ hc
    simp [hD, this]
  rw [mul_right_inj' hD', div_left_inj' (by positivity)]

/-- With a regulator of 1 fm and a relative length of 1 fm the S-wave element is wrong. -/
example : contactAll exactInt 1 1 1 0 0 0 0 ≠ contactS exactInt 1 1 1 0 0 0 0 := by
  rw [ne_eq, contact_s_wave one_pos one_pos one_ne_zero]
  have := Real.two_le_pi
  have e : expo 1 1 = 3 / 2 := by norm_num [expo]
  rw [e]
  intro h
  nlinarith

end Verif.Relative
