import Verif.Osc.KSquare

/-!
# Property C186: the oscillator length

`libraries/tbme/oscillator_parameters.{h,cpp}`.
-/

namespace Verif.Osc
open Verif Verif.H2 MeasureTheory Set

/-- `kMFDn_mc2` (`oscillator_parameters.cpp` 17), in MeV. -/
noncomputable def kMFDnMc2 : ℝ := 938.92

/-- `kMFDn_hc` (`oscillator_parameters.cpp` 18), in MeV fm. -/
noncomputable def kMFDnHc : ℝ := 197.327

/-- `OscillatorLength` (`oscillator_parameters.h` 28-31), in fm.  For `hw ≤ 0` the program has an infinity or no number. -/
noncomputable def oscillatorLength (hw : ℝ) : ℝ := kMFDnHc / Real.sqrt (kMFDnMc2 * hw)

/-! ## Specification -/

/-- `u`, which is `r` times a radial function of angular momentum `l`, solves the Schrödinger equation of a particle of rest energy `mc2` in the
oscillator potential of frequency `hw`, with energy `E`; `hc` is `ħc`.  For a nucleon `mc2` is 938.92 MeV and `hc` 197.327 MeV fm, the values of MFDn. -/
def Solves (mc2 hc hw : ℝ) (l : ℕ) (E : ℝ) (u : ℝ → ℝ) : Prop :=
  ∃ v w : ℝ → ℝ, ∀ r, 0 < r → HasDerivAt u (v r) r ∧ HasDerivAt v (w r) r ∧
    -(hc ^ 2 / (2 * mc2)) * (w r - l * (l + 1) / r ^ 2 * u r) + 1 / 2 * (mc2 * hw ^ 2 / hc ^ 2) * r ^ 2 * u r = E * u r

/-! ## Unit length -/

/-- Three-term recurrence and gradients combined: the equation for unit length. -/
theorem gradSqr_osc (n l : ℕ) {x : ℝ} (hx : 0 < x) :
    gradSqr l l (oscFn n l 1) x = (x ^ 2 - (4 * n + 2 * l + 3)) * oscFn n l 1 x := by
  have hg : gradSqr l l (oscFn n l 1) x = -Real.sqrt (n + l + 3 / 2) * gradDown (l + 1) (oscFn n (l + 1) 1) x
      + -Real.sqrt n * gradDown (l + 1) (oscFn (n - 1) (l + 1) 1) x := by
    unfold gradSqr
    rw [if_neg (by omega), if_neg (by omega)]
    exact gradDown_combination _ _ _ hx (fun y hy => gradUp_osc n l hy) (differentiable_oscFn _ _ _) (differentiable_oscFn _ _ _)
  have q1 : Real.sqrt ((n : ℝ) + l + 3 / 2) * Real.sqrt ((n : ℝ) + l + 3 / 2) = n + l + 3 / 2 := Real.mul_self_sqrt (by positivity)
  rw [hg, sub_mul, pow_two, mul_assoc]
  rcases n with _ | m
  · rw [gradDown_osc 0 l hx, expand_up_zero, mul_left_comm, expand_down]
    simp only [Nat.cast_zero, zero_add, Real.sqrt_one, one_mul, Real.sqrt_zero, neg_zero, zero_mul, add_zero, mul_zero] at q1 ⊢
    linear_combination (-2 * oscFn 0 l 1 x) * q1
  · have q3 : Real.sqrt ((m : ℝ) + 1) * Real.sqrt ((m : ℝ) + 1) = m + 1 := Real.mul_self_sqrt (by positivity)
    rw [gradDown_osc _ l hx, Nat.add_sub_cancel, gradDown_osc _ l hx, expand_up_succ, mul_sub, mul_left_comm, mul_left_comm x, expand_down, expand_down]
    push_cast at q1 ⊢
    linear_combination (-2 * oscFn (m + 1) l 1 x) * (q1 + q3)

/-- The derivative of a radial function. -/
noncomputable def oscD (n l : ℕ) (x : ℝ) : ℝ :=
  (l + 1) / x * oscFn n l 1 x + (-Real.sqrt (n + l + 3 / 2) * oscFn n (l + 1) 1 x + -Real.sqrt n * oscFn (n - 1) (l + 1) 1 x)

theorem oscD_eq (n l : ℕ) {x : ℝ} (hx : 0 < x) : deriv (oscFn n l 1) x = oscD n l x := by
  have h := gradUp_osc n l hx
  unfold gradUp at h
  unfold oscD
  linarith

theorem second_derivative (n l : ℕ) {x : ℝ} (hx : 0 < x) :
    HasDerivAt (oscD n l) ((l * (l + 1) / x ^ 2 + x ^ 2 - (4 * n + 2 * l + 3)) * oscFn n l 1 x) x := by
  have hd : DifferentiableAt ℝ (oscD n l) x := by
    unfold oscD
    exact ((((differentiableAt_const _).div differentiableAt_id hx.ne').mul (differentiable_oscFn _ _ _))).add
      (((differentiable_oscFn _ _ _).const_mul _).add ((differentiable_oscFn _ _ _).const_mul _))
  have he : deriv (oscFn n l 1) =ᶠ[nhds x] oscD n l := by
    filter_upwards [Ioi_mem_nhds hx] with y hy using oscD_eq n l hy
  have h := gradSqr_same l (f := oscFn n l 1) hx (Filter.Eventually.of_forall fun y => differentiable_oscFn n l y) (he.differentiableAt_iff.mpr hd)
  rw [gradSqr_osc n l hx, he.deriv_eq] at h
  refine hd.hasDerivAt.congr_deriv ?_
  linarith

/-! ## The functions of the program -/

theorem generated_eq (n l : ℕ) {b r : ℝ} (hb : 0 < b) (hr : 0 < r) (g1 g2 : ℝ) :
    waveFunction .position n l b r 0 g1 g2 = 1 / Real.sqrt b * oscFn n l 1 (1 / b * r) := by
  have h := single_eq_vector .position (le_refl n) l b r 0 g1 g2
  rw [wave_functions_closed_form (le_refl n) l hb (Or.inl hr), Real.rpow_zero, one_mul] at h
  rw [← oscFn_scale n l hb]
  exact (Option.some.inj h).symm

/-- Both derivatives of a generated function. -/
theorem generated_derivatives (n l : ℕ) {b : ℝ} (hb : 0 < b) (g1 g2 : ℝ) {r : ℝ} (hr : 0 < r) :
    HasDerivAt (fun r => waveFunction .position n l b r 0 g1 g2) (1 / Real.sqrt b * (oscD n l (1 / b * r) * (1 / b))) r ∧
    HasDerivAt (fun r => 1 / Real.sqrt b * (oscD n l (1 / b * r) * (1 / b)))
      ((l * (l + 1) / r ^ 2 + r ^ 2 / b ^ 4 - (4 * n + 2 * l + 3) / b ^ 2) * waveFunction .position n l b r 0 g1 g2) r := by
  have hx : 0 < 1 / b * r := by positivity
  have hs : HasDerivAt (fun r : ℝ => 1 / b * r) (1 / b) r := by simpa using (hasDerivAt_id r).const_mul (1 / b)
  constructor
  · have he : (fun r => waveFunction .position n l b r 0 g1 g2) =ᶠ[nhds r] fun r => 1 / Real.sqrt b * oscFn n l 1 (1 / b * r) := by
      filter_upwards [Ioi_mem_nhds hr] with y hy using generated_eq n l hb hy g1 g2
    have h1 : HasDerivAt (oscFn n l 1) (oscD n l (1 / b * r)) (1 / b * r) := by
      rw [← oscD_eq n l hx]
      exact (differentiable_oscFn _ _ _).hasDerivAt
    exact ((HasDerivAt.comp r h1 hs).const_mul _).congr_of_eventuallyEq he
  · have h2 := ((HasDerivAt.comp r (second_derivative n l hx) hs).mul_const (1 / b)).const_mul (1 / Real.sqrt b)
    refine h2.congr_deriv ?_
    rw [generated_eq n l hb hr]
    field_simp

theorem length_pos {hw : ℝ} (h : 0 < hw) : 0 < oscillatorLength hw := by
  unfold oscillatorLength kMFDnHc kMFDnMc2
  positivity

/-- The length in terms of the constants. -/
theorem length_sq {hw : ℝ} (h : 0 < hw) : oscillatorLength hw ^ 2 = kMFDnHc ^ 2 / (kMFDnMc2 * hw) := by
  unfold oscillatorLength
  rw [div_pow, Real.sq_sqrt (by unfold kMFDnMc2; positivity)]

/-- Any mass: the length with `b² = (ħc)² / (mc² ħω)`. -/
theorem solves_of_length {mc2 hc hw b : ℝ} (hm : 0 < mc2) (hc0 : hc ≠ 0) (h : 0 < hw) (hb : 0 < b) (e : b ^ 2 = hc ^ 2 / (mc2 * hw)) (n l : ℕ) (g1 g2 : ℝ) :
    Solves mc2 hc hw l (hw * (2 * n + l + 3 / 2)) fun r => waveFunction .position n l b r 0 g1 g2 := by
  refine ⟨_, _, fun r hr => ⟨(generated_derivatives n l hb g1 g2 hr).1, (generated_derivatives n l hb g1 g2 hr).2, ?_⟩⟩
  have e4 : b ^ 4 = (hc ^ 2 / (mc2 * hw)) ^ 2 := by
    rw [← e]
    ring
  have hm' := hm.ne'
  rw [e, e4]
  field_simp
  ring

/-- **C186.**  The oscillator functions of length `OscillatorLength(hw)` solve the Schrödinger equation of a nucleon in the oscillator potential of frequency
`hw`, with the energies of the oscillator. -/
theorem length_solves {hw : ℝ} (h : 0 < hw) (n l : ℕ) (g1 g2 : ℝ) :
    Solves 938.92 197.327 hw l (hw * (2 * n + l + 3 / 2)) fun r => waveFunction .position n l (oscillatorLength hw) r 0 g1 g2 :=
  solves_of_length (mc2 := kMFDnMc2) (hc := kMFDnHc) (by norm_num [kMFDnMc2]) (by norm_num [kMFDnHc]) h (length_pos h) (length_sq h) n l g1 g2

/-- The functions of the relative motion that `lenpic_relative_me.cpp` (151) and `lenpic_relcm_me.cpp` (98) integrate, of length `√2 b`: those of the reduced mass in the
oscillator of the same frequency. -/
theorem relative_length_solves {hw : ℝ} (h : 0 < hw) (n l : ℕ) (g1 g2 : ℝ) :
    Solves (938.92 / 2) 197.327 hw l (hw * (2 * n + l + 3 / 2)) fun r => waveFunction .position n l (√2 * oscillatorLength hw) r 0 g1 g2 := by
  have hb := length_pos h
  refine solves_of_length (mc2 := kMFDnMc2 / 2) (hc := kMFDnHc) (by norm_num [kMFDnMc2]) (by norm_num [kMFDnHc]) h (by positivity) ?_ n l g1 g2
  have hm : kMFDnMc2 ≠ 0 := by norm_num [kMFDnMc2]
  rw [mul_pow, length_sq h, Real.sq_sqrt (by norm_num)]
  field_simp

/-- The motion of the centre of mass `(r₁ + r₂)/2` (`lenpic_relcm_me.cpp` 99), of length `b/√2`: twice the mass. -/
theorem centre_length_solves {hw : ℝ} (h : 0 < hw) (n l : ℕ) (g1 g2 : ℝ) :
    Solves (2 * 938.92) 197.327 hw l (hw * (2 * n + l + 3 / 2)) fun r => waveFunction .position n l (oscillatorLength hw / √2) r 0 g1 g2 := by
  have hb := length_pos h
  refine solves_of_length (mc2 := 2 * kMFDnMc2) (hc := kMFDnHc) (by norm_num [kMFDnMc2]) (by norm_num [kMFDnHc]) h (by positivity) ?_ n l g1 g2
  have hm : kMFDnMc2 ≠ 0 := by norm_num [kMFDnMc2]
  rw [div_pow, length_sq h, Real.sq_sqrt (by norm_num)]
  field_simp

/-- No other length will do, for any function and any energy. -/
theorem length_unique {hw : ℝ} (h : 0 < hw) {b : ℝ} (hb : 0 < b) (n l : ℕ) (E g1 g2 : ℝ)
    (hs : Solves 938.92 197.327 hw l E fun r => waveFunction .position n l b r 0 g1 g2) :
    b = oscillatorLength hw ∧ E = hw * (2 * n + l + 3 / 2) := by
  change Solves kMFDnMc2 kMFDnHc _ _ _ _ at hs
  obtain ⟨v, w, hvw⟩ := hs
  have hm : 0 < kMFDnMc2 := by norm_num [kMFDnMc2]
  have hc : 0 < kMFDnHc := by norm_num [kMFDnHc]
  set u : ℝ → ℝ := fun r => waveFunction .position n l b r 0 g1 g2 with hu
  set α : ℝ := 1 / 2 * (kMFDnMc2 * hw ^ 2 / kMFDnHc ^ 2) - kMFDnHc ^ 2 / (2 * kMFDnMc2) / b ^ 4 with hα
  set β : ℝ := E - kMFDnHc ^ 2 / (2 * kMFDnMc2) * ((4 * n + 2 * l + 3) / b ^ 2) with hβ
  have key : ∀ r, 0 < r → (α * r ^ 2 - β) * u r = 0 := by
    intro r hr
    have hv : ∀ y, 0 < y → v y = 1 / Real.sqrt b * (oscD n l (1 / b * y) * (1 / b)) := fun y hy =>
      (hvw y hy).1.unique (generated_derivatives n l hb g1 g2 hy).1
    have hw' := (hvw r hr).2.1.unique ((generated_derivatives n l hb g1 g2 hr).2.congr_of_eventuallyEq
      (by filter_upwards [Ioi_mem_nhds hr] with y hy using hv y hy))
    have e := (hvw r hr).2.2
    rw [hw'] at e
    rw [hα, hβ]
    linear_combination e
  have one := generated_orthonormal n n l hb g1 g2 g1 g2
  rw [if_pos rfl] at one
  have zero : ∀ c : ℝ, (∀ r, 0 < r → r ≠ c → u r = 0) → False := by
    intro c hz
    have : ∫ x in Ioi (0 : ℝ), waveFunction .position n l b x 0 g1 g2 * waveFunction .position n l b x 0 g1 g2 = 0 := by
      refine integral_eq_zero_of_ae ?_
      filter_upwards [ae_restrict_mem measurableSet_Ioi, (Set.countable_singleton c).ae_notMem (volume.restrict (Ioi (0 : ℝ)))] with r hr hne
      have := hz r hr hne
      simp only [hu] at this
      rw [this]
      simp
    rw [this] at one
    exact zero_ne_one one
  have hα0 : α = 0 := by
    by_contra hne
    refine zero (Real.sqrt (β / α)) fun r hr hrc => ?_
    rcases mul_eq_zero.mp (key r hr) with h0 | h0
    · refine absurd ?_ hrc
      rw [show β / α = r ^ 2 by field_simp; linarith, Real.sqrt_sq hr.le]
    · exact h0
  have hβ0 : β = 0 := by
    by_contra hne
    refine zero 0 fun r hr _ => ?_
    rcases mul_eq_zero.mp (key r hr) with h0 | h0
    · rw [hα0] at h0
      exact absurd (by linarith) hne
    · exact h0
  have hb2 : b ^ 2 = kMFDnHc ^ 2 / (kMFDnMc2 * hw) := by
    have h4 : (b ^ 2) ^ 2 = (kMFDnHc ^ 2 / (kMFDnMc2 * hw)) ^ 2 := by
      rw [hα] at hα0
      field_simp at hα0 ⊢
      linarith
    exact (sq_eq_sq₀ (by positivity) (by positivity)).mp h4
  constructor
  · have := hb2.trans (length_sq h).symm
    exact (sq_eq_sq₀ hb.le (length_pos h).le).mp this
  · rw [hβ, hb2] at hβ0
    field_simp at hβ0 ⊢
    linarith

/-- Lengths at two frequencies. -/
theorem length_ratio {hw hw' : ℝ} (h : 0 < hw) (h' : 0 < hw') : oscillatorLength hw' = oscillatorLength hw * Real.sqrt (hw / hw') := by
  have hp : 0 < Real.sqrt (hw / hw') := Real.sqrt_pos.mpr (by positivity)
  refine (sq_eq_sq₀ (length_pos h').le (mul_pos (length_pos h) hp).le).mp ?_
  rw [mul_pow, length_sq h, length_sq h', Real.sq_sqrt (by positivity)]
  field_simp

/-- At 20 MeV the length is between 1.43 and 1.45 fm. -/
example : oscillatorLength 20 ^ 2 = 197.327 ^ 2 / (938.92 * 20) := length_sq (by norm_num)

example : 1.43 < oscillatorLength 20 ∧ oscillatorLength 20 < 1.45 := by
  have e : oscillatorLength 20 ^ 2 = 197.327 ^ 2 / (938.92 * 20) := length_sq (by norm_num)
  have p := length_pos (hw := 20) (by norm_num)
  constructor
  · refine lt_of_pow_lt_pow_left₀ 2 p.le ?_
    rw [e]
    norm_num
  · refine lt_of_pow_lt_pow_left₀ 2 (by norm_num) ?_
    rw [e]
    norm_num

example : Solves 938.92 197.327 20 1 (20 * (2 * (2 : ℕ) + (1 : ℕ) + 3 / 2)) fun r => waveFunction .position 2 1 (oscillatorLength 20) r 0 7 8 :=
  length_solves (by norm_num) 2 1 7 8

end Verif.Osc
