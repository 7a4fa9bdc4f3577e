import Verif.Moshinsky.OverlapRun
import Mathlib.RingTheory.MvPolynomial.EulerIdentity

/-!
# The oscillator states are orthonormal
-/

namespace Verif.Moshinsky.Osc
open MvPolynomial

/-- The states of one particle. -/
abbrev One := MvPolynomial (Fin 3) ℝ

/-! ## One particle -/

/-- The harmonic polynomial in the creation operators. -/
noncomputable def sol (l m : ℤ) : One := solid l m (X 0) (X 1) (X 2)

theorem part_p : IsPartial (pderiv (0 : Fin 3) : Derivation ℝ One One) 1 (X 0) (X 1) (X 2) := by
  constructor <;> simp [pderiv_X]

theorem part_z : IsPartial (pderiv (1 : Fin 3) : Derivation ℝ One One) 0 (X 0) (X 1) (X 2) := by
  constructor <;> simp [pderiv_X]

theorem part_q : IsPartial (pderiv (2 : Fin 3) : Derivation ℝ One One) (-1) (X 0) (X 1) (X 2) := by
  constructor <;> simp [pderiv_X]

theorem fock_one (v : One) : fock 1 v = v.coeff 0 := by
  rw [← C_1, ← monomial_zero', fock_eq (S := {0}) support_monomial_subset]
  simp [dfac]

/-- Two quanta coupled to zero: creation and annihilation. -/
theorem fock_rr_one (u v : One) : fock (rr (X 0) (X 1) (X 2) * u) v =
    fock u (pderiv 1 (pderiv 1 v) - (2 : ℝ) • pderiv 0 (pderiv 2 v)) := by
  have h : rr (X 0 : One) (X 1) (X 2) * u = X 1 * (X 1 * u) + (-2 : ℝ) • (X 2 * (X 0 * u)) := by
    rw [smul_eq_C_mul, show (C (-2 : ℝ) : One) = -2 by rw [map_neg, map_ofNat], rr]
    ring
  rw [h, fock_add_left, fock_smul_left, fock_X_left, fock_X_left, fock_X_left, fock_X_left, sub_eq_add_neg, ← neg_smul, fock_add_right,
    fock_smul_right]

theorem homogeneous_sol (l : ℕ) (m : ℤ) : (sol l m).IsHomogeneous l := by
  have h := homogeneous_smul (homogeneous_osc (isHomogeneous_X ℝ (0 : Fin 3)) (isHomogeneous_X ℝ 1) (isHomogeneous_X ℝ 2) 0 l m)
    (1 / √(rho 0 l m))
  have hr := (Real.sqrt_pos.mpr (rho_pos 0 l m)).ne'
  rw [osc, smul_smul, pow_zero, one_mul, pow_zero, one_mul, one_div, inv_mul_cancel₀ hr, one_smul, mul_zero, zero_add] at h
  exact h

theorem fock_sol_step (l : ℕ) (m m' : ℤ) : (l : ℝ) * fock (sol l m) (sol l m') = fock (sol (l - 1) (m - 1)) (sol (l - 1) (m' - 1)) +
    fock (sol (l - 1) m) (sol (l - 1) m') + 1 / 4 * fock (sol (l - 1) (m + 1)) (sol (l - 1) (m' + 1)) := by
  have he := (homogeneous_sol l m).sum_X_mul_pderiv
  have hp := part_p
  have hz := part_z
  have hq := part_q
  have dp : ∀ m, pderiv 0 (sol l m) = sol (l - 1) (m - 1) := fun m => D_solid_p (by simp [pderiv_X]) (by simp [pderiv_X]) (by simp [pderiv_X]) l m
  have dz : ∀ m, pderiv 1 (sol l m) = sol (l - 1) m := fun m => D_solid_z (by simp [pderiv_X]) (by simp [pderiv_X]) (by simp [pderiv_X]) l m
  have dq : ∀ m, pderiv 2 (sol l m) = (1 / 2 : ℝ) • sol (l - 1) (m + 1) :=
    fun m => D_solid_q (by simp [pderiv_X]) (by simp [pderiv_X]) (by simp [pderiv_X]) l m
  rw [← fock_smul_left, Nat.cast_smul_eq_nsmul, ← he, Fin.sum_univ_three, fock_add_left, fock_add_left, fock_X_left, fock_X_left, fock_X_left,
    dp, dp, dz, dz, dq, dq, fock_smul_left, fock_smul_right]
  ring

/-- Scalar products of harmonic polynomials of the same degree. -/
theorem fock_sol (l : ℕ) (m m' : ℤ) : fock (sol l m) (sol l m') =
    if m = m' then (2 : ℝ) ^ m * ((2 * l - 1).doubleFactorial : ℝ) * (rf (l + m) * rf (l - m)) else 0 := by
  induction l generalizing m m' with
  | zero =>
    have h0 : sol 0 0 = 1 := by simp [sol, solid, solidTerm, dp, ff]
    have h1 : ∀ m : ℤ, m ≠ 0 → sol 0 m = 0 := fun m hm => solid_out (by rw [lt_abs]; omega) _ _ _
    by_cases hm : m = 0
    · by_cases hm' : m' = 0
      · subst hm hm'
        rw [if_pos rfl, Nat.cast_zero, h0, fock_one]
        simp [rf_zero]
      · rw [if_neg (by omega), Nat.cast_zero, h1 m' hm']
        simp [fock]
    · rw [Nat.cast_zero, h1 m hm, show fock (0 : One) (sol 0 m') = 0 by simp [fock]]
      split_ifs
      · rcases lt_or_gt_of_ne hm with h | h
        · rw [rf_neg (i := 0 + m) (by omega)]
          ring
        · rw [rf_neg (i := 0 - m) (by omega)]
          ring
      · rfl
  | succ l ih =>
    have h := fock_sol_step (l + 1) m m'
    have hl : ((l + 1 : ℕ) : ℝ) ≠ 0 := by positivity
    rw [show ((l + 1 : ℕ) : ℤ) - 1 = l by push_cast; ring, ih, ih, ih] at h
    refine mul_left_cancel₀ hl (h.trans ?_)
    by_cases hm : m = m'
    · subst hm
      rw [if_pos rfl, if_pos rfl, if_pos rfl, if_pos rfl]
      have hd : ((2 * (l + 1) - 1).doubleFactorial : ℝ) = (2 * l + 1) * ((2 * l - 1).doubleFactorial : ℝ) := by
        rcases l with - | l
        · simp
        · rw [show 2 * (l + 1 + 1) - 1 = (2 * (l + 1) - 1) + 2 by omega, Nat.doubleFactorial_add_two,
            show 2 * (l + 1) - 1 + 2 = 2 * (l + 1) + 1 by omega]
          push_cast
          ring
      rw [hd, show (l : ℤ) + (m - 1) = (l + 1 : ℕ) + m - 1 - 1 by push_cast; ring, show (l : ℤ) - (m - 1) = (l + 1 : ℕ) - m by push_cast; ring,
        show (l : ℤ) + (m + 1) = (l + 1 : ℕ) + m by push_cast; ring, show (l : ℤ) - (m + 1) = (l + 1 : ℕ) - m - 1 - 1 by push_cast; ring,
        show (l : ℤ) + m = (l + 1 : ℕ) + m - 1 by push_cast; ring, show (l : ℤ) - m = (l + 1 : ℕ) - m - 1 by push_cast; ring,
        zpow_sub₀ (by norm_num), zpow_add₀ (by norm_num), zpow_one]
      simp only [rf_pred]
      push_cast
      ring
    · rw [if_neg hm, if_neg hm, if_neg (by omega), if_neg (by omega)]
      ring

/-- The oscillator state of one particle. -/
noncomputable def one (n l : ℕ) (m : ℤ) : One := osc n l m (X 0) (X 1) (X 2)

theorem homogeneous_one (n l : ℕ) (m : ℤ) : (one n l m).IsHomogeneous (2 * n + l) :=
  homogeneous_osc (isHomogeneous_X ℝ (0 : Fin 3)) (isHomogeneous_X ℝ 1) (isHomogeneous_X ℝ 2) n l m

theorem nodeR_pos (n l : ℕ) : 0 < nodeR n l := Real.sqrt_pos.mpr (by positivity)

/-- The states of one particle are orthonormal. -/
theorem one_ortho {n l n' l' : ℕ} {m m' : ℤ} (hm : |m| ≤ l) : fock (one n l m) (one n' l' m') = if n = n' ∧ l = l' ∧ m = m' then 1 else 0 := by
  induction n generalizing n' with
  | zero =>
    rcases n' with - | n'
    · by_cases hl : l = l'
      · subst hl
        have h : ∀ m, one 0 l m = √(rho 0 l m) • sol l m := by
          intro m
          rw [one, osc, pow_zero, one_mul, pow_zero, one_mul]
          rfl
        rw [h, h, fock_smul_left, fock_smul_right, fock_sol]
        by_cases hmm : m = m'
        · subst hmm
          rw [if_pos rfl, if_pos ⟨rfl, rfl, rfl⟩, ← mul_assoc, Real.mul_self_sqrt (rho_pos _ _ _).le]
          have hm' := abs_le.mp hm
          have f1 := ff_rf (i := (l : ℤ) + m) (by omega)
          have f2 := ff_rf (i := (l : ℤ) - m) (by omega)
          have hd : ((2 * l + 1).doubleFactorial : ℝ) = (2 * l + 1) * ((2 * l - 1).doubleFactorial : ℝ) := by
            rcases l with - | l
            · simp
            · rw [show 2 * (l + 1) + 1 = (2 * (l + 1) - 1) + 2 by omega, Nat.doubleFactorial_add_two]
              rw [show 2 * (l + 1) - 1 + 2 = 2 * (l + 1) + 1 by omega]
              push_cast
              ring
          have h1 : ((2 * l - 1).doubleFactorial : ℝ) ≠ 0 := by exact_mod_cast (Nat.doubleFactorial_pos _).ne'
          have h2 : (2 : ℝ) ^ m ≠ 0 := (zpow_pos (by norm_num) _).ne'
          have h3 : 2 * (l : ℝ) + 1 ≠ 0 := by positivity
          have h4 : (((2 * 0 : ℕ)).doubleFactorial : ℝ) = 1 := by simp
          rw [rho, h4, show 2 * 0 + 2 * l + 1 = 2 * l + 1 by ring, hd]
          have : ∀ a b c d e f g : ℝ, b ≠ 0 → c ≠ 0 → a ≠ 0 → d * e = 1 → f * g = 1 → a * d * f / (b * 1 * (a * c)) * (b * c * (e * g)) = 1 := by
            intro a b c d e f g hb hc ha h1 h2
            field_simp
            linear_combination f * g * h1 + h2
          exact this _ _ _ _ _ _ _ h2 h1 h3 f1 f2
        · rw [if_neg hmm, if_neg (by tauto)]
          ring
      · rw [fock_homogeneous (homogeneous_one 0 l m) (homogeneous_one 0 l' m') (by omega), if_neg (by tauto)]
    · have h := rr_osc (p := (X 0 : One)) (z := X 1) (q := X 2) n' l' m'
      have hn := (nodeR_pos n' l').ne'
      have e := fock_rr_one (one n' l' m') (one 0 l m)
      rw [one, h, one, laplace_osc part_p part_z part_q, if_pos rfl, fock_smul_left] at e
      rw [if_neg (by omega), fock_comm, one, one]
      have e0 : fock (osc n' l' m' (X 0 : One) (X 1) (X 2)) 0 = 0 := by rw [fock_comm]; simp [fock]
      rw [e0] at e
      rcases mul_eq_zero.mp e with e | e
      · exact absurd e (neg_ne_zero.mpr hn)
      · exact e
  | succ n ih =>
    have h := rr_osc (p := (X 0 : One)) (z := X 1) (q := X 2) n l m
    have hn := (nodeR_pos n l).ne'
    have e := fock_rr_one (one n l m) (one n' l' m')
    rw [one, h, one, laplace_osc part_p part_z part_q, fock_smul_left] at e
    rw [one, one]
    rcases n' with - | n'
    · rw [if_neg (by omega)]
      rw [if_pos rfl, show fock (osc n l m (X 0 : One) (X 1) (X 2)) 0 = 0 by rw [fock_comm]; simp [fock]] at e
      rcases mul_eq_zero.mp e with e | e
      · exact absurd e (neg_ne_zero.mpr hn)
      · exact e
    · rw [if_neg (by omega), Nat.add_sub_cancel, fock_smul_right] at e
      have i := ih (n' := n')
      rw [one, one] at i
      rw [i] at e
      refine mul_left_cancel₀ (neg_ne_zero.mpr hn) (e.trans ?_)
      by_cases hc : n = n' ∧ l = l' ∧ m = m'
      · obtain ⟨rfl, rfl, rfl⟩ := hc
        rw [if_pos ⟨rfl, rfl, rfl⟩, if_pos ⟨rfl, rfl, rfl⟩]
      · rw [if_neg hc, if_neg (by omega)]
        ring

/-! ## Two particles -/

/-- A state of the first particle. -/
noncomputable def onFirst : One →ₐ[ℝ] Two := rename fun i => (0, i)
/-- A state of the second particle. -/
noncomputable def onSecond : One →ₐ[ℝ] Two := rename fun i => (1, i)

theorem inj_first : Function.Injective fun i : Fin 3 => ((0, i) : Fin 2 × Fin 3) := fun _ _ h => (Prod.ext_iff.mp h).2
theorem inj_second : Function.Injective fun i : Fin 3 => ((1, i) : Fin 2 × Fin 3) := fun _ _ h => (Prod.ext_iff.mp h).2

theorem D_first_first (i : Fin 3) (A : One) : pderiv (0, i) (onFirst A) = onFirst (pderiv i A) := pderiv_rename inj_first i A
theorem D_second_second (i : Fin 3) (A : One) : pderiv (1, i) (onSecond A) = onSecond (pderiv i A) := pderiv_rename inj_second i A

theorem D_second_first (i : Fin 3) (A : One) : pderiv (1, i) (onFirst A) = 0 := by
  induction A using MvPolynomial.induction_on with
  | C a => rw [onFirst, rename_C, pderiv_C]
  | add p q hp hq => rw [map_add, map_add, hp, hq, add_zero]
  | mul_X p j hp =>
    rw [map_mul, Derivation.leibniz, hp, onFirst, rename_X, pderiv_X_of_ne (by simp)]
    simp

theorem D_first_second (i : Fin 3) (A : One) : pderiv (0, i) (onSecond A) = 0 := by
  induction A using MvPolynomial.induction_on with
  | C a => rw [onSecond, rename_C, pderiv_C]
  | add p q hp hq => rw [map_add, map_add, hp, hq, add_zero]
  | mul_X p j hp =>
    rw [map_mul, Derivation.leibniz, hp, onSecond, rename_X, pderiv_X_of_ne (by simp)]
    simp

theorem fock_const {σ : Type*} [Fintype σ] (a : ℝ) (w : MvPolynomial σ ℝ) : fock (C a) w = a * w.coeff 0 := by
  rw [← monomial_zero', fock_eq (S := {0}) support_monomial_subset]
  simp [dfac]

/-- Scalar products of states of independent particles. -/
theorem fock_prod (A A' B B' : One) : fock (onFirst A * onSecond B) (onFirst A' * onSecond B') = fock A A' * fock B B' := by
  induction A using MvPolynomial.induction_on generalizing A' with
  | add p q hp hq => rw [map_add, add_mul, fock_add_left, hp, hq, fock_add_left, add_mul]
  | mul_X p i hp =>
    rw [map_mul, show onFirst (X i) = X (0, i) from rename_X _ _, mul_comm (onFirst p), mul_assoc, fock_X_left, Derivation.leibniz, D_first_second,
      D_first_first, smul_zero, zero_add, smul_eq_mul, mul_comm (onSecond B'), hp, mul_comm p, fock_X_left]
  | C a =>
    induction B using MvPolynomial.induction_on generalizing B' with
    | add p q hp hq => rw [map_add, mul_add, fock_add_left, hp, hq, fock_add_left, mul_add]
    | mul_X p i hp =>
      rw [map_mul, show onSecond (X i) = X (1, i) from rename_X _ _, mul_comm (onSecond p), ← mul_assoc, mul_comm (onFirst (C a)), mul_assoc, fock_X_left,
        Derivation.leibniz, D_second_first, D_second_second, smul_zero, add_zero, smul_eq_mul, hp, mul_comm p, fock_X_left]
    | C b =>
      have h0 : ∀ A : One, coeff 0 (onFirst A) = coeff 0 A := by
        intro A
        have := coeff_rename_mapDomain _ inj_first A 0
        rwa [Finsupp.mapDomain_zero] at this
      have h1 : ∀ A : One, coeff 0 (onSecond A) = coeff 0 A := by
        intro A
        have := coeff_rename_mapDomain _ inj_second A 0
        rwa [Finsupp.mapDomain_zero] at this
      rw [show onFirst (C a) = C a from rename_C _ _, show onSecond (C b) = C b from rename_C _ _, ← C_mul, fock_const, fock_const, fock_const,
        ← constantCoeff_eq, map_mul, constantCoeff_eq, h0, h1]
      ring

theorem single_first (n l : ℕ) (m : ℤ) : single first n l m = onFirst (one n l m) := by
  rw [one, map_osc]
  simp only [onFirst, rename_X]
  rfl

theorem single_second (n l : ℕ) (m : ℤ) : single second n l m = onSecond (one n l m) := by
  rw [one, map_osc]
  simp only [onSecond, rename_X]
  rfl

end Verif.Moshinsky.Osc
