import Verif.Moshinsky.Spinor
import Mathlib.Algebra.MonoidAlgebra.Basic
import Mathlib.Algebra.Group.Fin.Tuple
import Mathlib.Tactic.FinCases

/-!
# Evaluation on null vectors

The scalar product of a state with a product of solid harmonics is a coefficient of the state evaluated on the null vectors
made of two spinors.
-/

namespace Verif.Moshinsky.Osc
open MvPolynomial

/-- Polynomials in the components of four spinors (with integer exponents). -/
abbrev Spin := AddMonoidAlgebra ℝ (Fin 8 → ℤ)

/-- A monomial. -/
noncomputable def mono (e : Fin 8 → ℤ) : Spin := AddMonoidAlgebra.single e 1

theorem mono_mul (e e' : Fin 8 → ℤ) : mono e * mono e' = mono (e + e') := by
  rw [mono, mono, AddMonoidAlgebra.single_mul_single, one_mul]
  rfl

theorem mono_zero : mono 0 = 1 := rfl

theorem coeff_mul_mono (f : Spin) (e g : Fin 8 → ℤ) : (f * mono g).coeff e = f.coeff (e - g) := by
  rw [mono, AddMonoidAlgebra.coeff_mul_single_apply, mul_one, sub_eq_add_neg]

theorem coeff_mono (e g : Fin 8 → ℤ) [Decidable (e = g)] : (mono e).coeff g = if e = g then 1 else 0 :=
  AddMonoidAlgebra.coeff_single_apply

/-- A component of a spinor. -/
noncomputable def var (i : Fin 8) : Spin := mono (Pi.single i 1)

theorem mono_pow (e : Fin 8 → ℤ) (n : ℕ) : mono e ^ n = mono ((n : ℤ) • e) := by
  induction n with
  | zero => rw [pow_zero, Nat.cast_zero, zero_smul, mono_zero]
  | succ n ih => rw [pow_succ, ih, mono_mul, Nat.cast_succ, add_smul, one_smul]

theorem dp_var (i : Fin 8) (k : ℤ) : dp (var i) k = rf k • mono (Pi.single i k) := by
  rcases lt_or_ge k 0 with h | h
  · rw [dp_neg h, rf_neg h, zero_smul]
  · rw [dp_eq_rf, var, mono_pow, show ((k.toNat : ℕ) : ℤ) = k by omega, ← Pi.single_smul, smul_eq_mul, mul_one]

/-- The null vector made of the spinor of a particle. -/
noncomputable def nullVec : Fin 2 × Fin 3 → Spin
  | (0, 0) => (1 / √2 : ℝ) • mono ![0, 0, 0, 0, 2, 0, 0, 0]
  | (0, 1) => mono ![0, 0, 0, 0, 1, 1, 0, 0]
  | (0, 2) => (1 / √2 : ℝ) • mono ![0, 0, 0, 0, 0, 2, 0, 0]
  | (1, 0) => (1 / √2 : ℝ) • mono ![0, 0, 0, 0, 0, 0, 2, 0]
  | (1, 1) => mono ![0, 0, 0, 0, 0, 0, 1, 1]
  | (1, 2) => (1 / √2 : ℝ) • mono ![0, 0, 0, 0, 0, 0, 0, 2]

/-- Evaluation on the null vectors. -/
noncomputable def null : Two →ₐ[ℝ] Spin := aeval nullVec

/-- The exponents belonging to two angular momenta and their projections. -/
def ex (l1 m1 l2 m2 : ℤ) : Fin 8 → ℤ := ![0, 0, 0, 0, l1 + m1, l1 - m1, l2 + m2, l2 - m2]

section
variable {R : Type*} [CommRing R] [Algebra ℝ R]

/-- The harmonic polynomial with a symmetric normalisation. -/
noncomputable def hs (l m : ℤ) (p z q : R) : R := ((√2 : ℝ) ^ (-m)) • solid l m p z q

theorem map_solid {S : Type*} [CommRing S] [Algebra ℝ S] (f : R →ₐ[ℝ] S) (l m : ℤ) (p z q : R) :
    f (solid l m p z q) = solid l m (f p) (f z) (f q) := by
  simp only [solid, solidTerm, map_smul, map_mul, map_sum, map_dp]

theorem map_hs {S : Type*} [CommRing S] [Algebra ℝ S] (f : R →ₐ[ℝ] S) (l m : ℤ) (p z q : R) :
    f (hs l m p z q) = hs l m (f p) (f z) (f q) := by
  rw [hs, map_smul, map_solid, hs]

theorem dp_zero_arg (i : ℤ) : dp (0 : R) i = if i = 0 then 1 else 0 := by
  split_ifs with h
  · rw [h, dp_zero]
  · rcases lt_or_ge i 0 with h' | h'
    · rw [dp_neg h']
    · rw [dp_eq_rf, zero_pow (by omega), smul_zero]

theorem solid_at_zero (l m : ℤ) : solid l m (0 : R) 0 0 = if l = 0 ∧ m = 0 then 1 else 0 := by
  unfold solid
  split_ifs with h
  · obtain ⟨rfl, rfl⟩ := h
    rw [Finset.Icc_self, Finset.sum_singleton, solidTerm]
    simp [dp_zero]
  · refine Finset.sum_eq_zero fun k _ => ?_
    rw [solidTerm, dp_zero_arg, dp_zero_arg, dp_zero_arg]
    split_ifs <;> first | omega | simp

end

theorem sqrt2_ne : (√2 : ℝ) ≠ 0 := by positivity

section
variable {R : Type*} [CommRing R] [Algebra ℝ R] {D : Derivation ℝ R R} {p z q : R}

theorem D_hs_p (hp : D p = 1) (hz : D z = 0) (hq : D q = 0) (l m : ℤ) : D (hs l m p z q) = (1 / √2 : ℝ) • hs (l - 1) (m - 1) p z q := by
  rw [hs, D.map_smul, D_solid_p hp hz hq, hs, smul_smul]
  congr 1
  rw [show -(m - 1) = -m + 1 by ring, zpow_add₀ sqrt2_ne, zpow_one]
  field_simp

theorem D_hs_z (hp : D p = 0) (hz : D z = 1) (hq : D q = 0) (l m : ℤ) : D (hs l m p z q) = hs (l - 1) m p z q := by
  rw [hs, D.map_smul, D_solid_z hp hz hq, hs]

theorem D_hs_q (hp : D p = 0) (hz : D z = 0) (hq : D q = 1) (l m : ℤ) : D (hs l m p z q) = (1 / √2 : ℝ) • hs (l - 1) (m + 1) p z q := by
  rw [hs, D.map_smul, D_solid_q hp hz hq, hs, smul_smul, smul_smul]
  congr 1
  rw [show -(m + 1) = -m - 1 by ring, zpow_sub₀ sqrt2_ne, zpow_one]
  have : √2 * √2 = (2 : ℝ) := Real.mul_self_sqrt (by norm_num)
  field_simp
  linear_combination this

theorem D_hs_zero (hp : D p = 0) (hz : D z = 0) (hq : D q = 0) (l m : ℤ) : D (hs l m p z q) = 0 := by
  rw [hs, D.map_smul, solid, map_sum, Finset.sum_eq_zero, smul_zero]
  intro k _
  rw [solidTerm, D.map_smul, D.leibniz, D.leibniz, D_dp_zero hp, D_dp_zero hz, D_dp_zero hq]
  simp

end

/-- A product of harmonic polynomials of the two particles. -/
noncomputable def hh (l1 m1 l2 m2 : ℤ) : Two := hs l1 m1 (first 0) (first 1) (first 2) * hs l2 m2 (second 0) (second 1) (second 2)

theorem fock_C (a : ℝ) (w : Two) : fock (C a) w = a * w.coeff 0 := by
  rw [← monomial_zero', fock_eq (S := {0}) support_monomial_subset]
  simp [dfac]

theorem coeff_zero_hh (l1 m1 l2 m2 : ℤ) : (hh l1 m1 l2 m2).coeff 0 = if ex l1 m1 l2 m2 = 0 then 1 else 0 := by
  have h0 : ∀ w : Two, w.coeff 0 = aeval (fun _ => (0 : ℝ)) w := by
    intro w
    rw [← constantCoeff_eq]
    have : (constantCoeff (R := ℝ) (σ := Fin 2 × Fin 3)) = (aeval (fun _ => (0 : ℝ)) : Two →ₐ[ℝ] ℝ).toRingHom := by
      apply MvPolynomial.ringHom_ext
      · intro r
        simp
      · intro i
        simp
    rw [this]
    rfl
  rw [h0, hh, map_mul, map_hs, map_hs]
  simp only [first, second, aeval_X]
  rw [hs, hs, solid_at_zero, solid_at_zero]
  have hiff : ex l1 m1 l2 m2 = 0 ↔ (l1 = 0 ∧ m1 = 0) ∧ (l2 = 0 ∧ m2 = 0) := by
    constructor
    · intro h
      have a4 := congrFun h 4
      have a5 := congrFun h 5
      have a6 := congrFun h 6
      have a7 := congrFun h 7
      simp [ex] at a4 a5 a6 a7
      omega
    · rintro ⟨⟨rfl, rfl⟩, rfl, rfl⟩
      funext i
      fin_cases i <;> rfl
  by_cases h1 : l1 = 0 ∧ m1 = 0
  · by_cases h2 : l2 = 0 ∧ m2 = 0
    · rw [if_pos h1, if_pos h2, if_pos (hiff.mpr ⟨h1, h2⟩), h1.2, h2.2]
      simp
    · rw [if_neg h2, if_neg (fun h => h2 (hiff.mp h).2), smul_zero, mul_zero]
  · rw [if_neg h1, if_neg (fun h => h1 (hiff.mp h).1), smul_zero, zero_mul]

/-- Annihilation of a quantum in a product of harmonic polynomials. -/
theorem pderiv_hh (i : Fin 2 × Fin 3) (l1 m1 l2 m2 : ℤ) : ∃ (c : ℝ) (g : Fin 8 → ℤ) (l1' m1' l2' m2' : ℤ),
    nullVec i = c • mono g ∧ pderiv i (hh l1 m1 l2 m2) = c • hh l1' m1' l2' m2' ∧ ex l1 m1 l2 m2 - g = ex l1' m1' l2' m2' := by
  have d1 : ∀ a : Fin 2 × Fin 3, pderiv a (X a : Two) = 1 := pderiv_X_self
  have d0 : ∀ a b : Fin 2 × Fin 3, b ≠ a → pderiv a (X b : Two) = 0 := fun a b h => pderiv_X_of_ne h
  have hl : ∀ (i : Fin 2 × Fin 3) (a b : Two), pderiv i (a * b) = pderiv i a * b + a * pderiv i b := by
    intro i a b
    rw [(pderiv i).leibniz, smul_eq_mul, smul_eq_mul]
    ring
  match i with
  | (0, 0) =>
    refine ⟨1 / √2, _, l1 - 1, m1 - 1, l2, m2, rfl, ?_, ?_⟩
    · rw [hh, hl, D_hs_p (D := pderiv (0, 0)) (p := first 0) (z := first 1) (q := first 2) (d1 (0, 0)) (d0 (0, 0) (0, 1) (by decide)) (d0 (0, 0) (0, 2) (by decide)),
        D_hs_zero (D := pderiv (0, 0)) (p := second 0) (z := second 1) (q := second 2) (d0 (0, 0) (1, 0) (by decide)) (d0 (0, 0) (1, 1) (by decide)) (d0 (0, 0) (1, 2) (by decide)),
        mul_zero, add_zero, smul_mul_assoc, hh]
    · funext i
      fin_cases i <;> simp [ex] <;> ring
  | (0, 1) =>
    refine ⟨1, _, l1 - 1, m1, l2, m2, (one_smul ℝ _).symm, ?_, ?_⟩
    · rw [hh, hl, D_hs_z (D := pderiv (0, 1)) (p := first 0) (z := first 1) (q := first 2) (d0 (0, 1) (0, 0) (by decide)) (d1 (0, 1)) (d0 (0, 1) (0, 2) (by decide)),
        D_hs_zero (D := pderiv (0, 1)) (p := second 0) (z := second 1) (q := second 2) (d0 (0, 1) (1, 0) (by decide)) (d0 (0, 1) (1, 1) (by decide)) (d0 (0, 1) (1, 2) (by decide)),
        mul_zero, add_zero, one_smul, hh]
    · funext i
      fin_cases i <;> simp [ex] <;> ring
  | (0, 2) =>
    refine ⟨1 / √2, _, l1 - 1, m1 + 1, l2, m2, rfl, ?_, ?_⟩
    · rw [hh, hl, D_hs_q (D := pderiv (0, 2)) (p := first 0) (z := first 1) (q := first 2) (d0 (0, 2) (0, 0) (by decide)) (d0 (0, 2) (0, 1) (by decide)) (d1 (0, 2)),
        D_hs_zero (D := pderiv (0, 2)) (p := second 0) (z := second 1) (q := second 2) (d0 (0, 2) (1, 0) (by decide)) (d0 (0, 2) (1, 1) (by decide)) (d0 (0, 2) (1, 2) (by decide)),
        mul_zero, add_zero, smul_mul_assoc, hh]
    · funext i
      fin_cases i <;> simp [ex] <;> ring
  | (1, 0) =>
    refine ⟨1 / √2, _, l1, m1, l2 - 1, m2 - 1, rfl, ?_, ?_⟩
    · rw [hh, hl, D_hs_p (D := pderiv (1, 0)) (p := second 0) (z := second 1) (q := second 2) (d1 (1, 0)) (d0 (1, 0) (1, 1) (by decide)) (d0 (1, 0) (1, 2) (by decide)),
        D_hs_zero (D := pderiv (1, 0)) (p := first 0) (z := first 1) (q := first 2) (d0 (1, 0) (0, 0) (by decide)) (d0 (1, 0) (0, 1) (by decide)) (d0 (1, 0) (0, 2) (by decide)),
        zero_mul, zero_add, mul_smul_comm, hh]
    · funext i
      fin_cases i <;> simp [ex] <;> ring
  | (1, 1) =>
    refine ⟨1, _, l1, m1, l2 - 1, m2, (one_smul ℝ _).symm, ?_, ?_⟩
    · rw [hh, hl, D_hs_z (D := pderiv (1, 1)) (p := second 0) (z := second 1) (q := second 2) (d0 (1, 1) (1, 0) (by decide)) (d1 (1, 1)) (d0 (1, 1) (1, 2) (by decide)),
        D_hs_zero (D := pderiv (1, 1)) (p := first 0) (z := first 1) (q := first 2) (d0 (1, 1) (0, 0) (by decide)) (d0 (1, 1) (0, 1) (by decide)) (d0 (1, 1) (0, 2) (by decide)),
        zero_mul, zero_add, one_smul, hh]
    · funext i
      fin_cases i <;> simp [ex] <;> ring
  | (1, 2) =>
    refine ⟨1 / √2, _, l1, m1, l2 - 1, m2 + 1, rfl, ?_, ?_⟩
    · rw [hh, hl, D_hs_q (D := pderiv (1, 2)) (p := second 0) (z := second 1) (q := second 2) (d0 (1, 2) (1, 0) (by decide)) (d0 (1, 2) (1, 1) (by decide)) (d1 (1, 2)),
        D_hs_zero (D := pderiv (1, 2)) (p := first 0) (z := first 1) (q := first 2) (d0 (1, 2) (0, 0) (by decide)) (d0 (1, 2) (0, 1) (by decide)) (d0 (1, 2) (0, 2) (by decide)),
        zero_mul, zero_add, mul_smul_comm, hh]
    · funext i
      fin_cases i <;> simp [ex] <;> ring

/-- The scalar product with a product of harmonic polynomials is a coefficient on null vectors. -/
theorem fock_hh (f : Two) (l1 m1 l2 m2 : ℤ) : fock f (hh l1 m1 l2 m2) = (null f).coeff (ex l1 m1 l2 m2) := by
  induction f using MvPolynomial.induction_on generalizing l1 m1 l2 m2 with
  | C a =>
    rw [fock_C, coeff_zero_hh, null, algHom_C, Algebra.algebraMap_eq_smul_one, ← mono_zero, AddMonoidAlgebra.coeff_smul_apply,
      coeff_mono, smul_eq_mul]
    simp only [eq_comm]
  | add p q hp hq => rw [fock_add_left, hp, hq, map_add]; rfl
  | mul_X p i hp =>
    obtain ⟨c, g, l1', m1', l2', m2', h1, h2, h3⟩ := pderiv_hh i l1 m1 l2 m2
    rw [mul_comm p, fock_X_left, h2, fock_smul_right, hp, map_mul, mul_comm (null (X i)), null, aeval_X, h1, mul_smul_comm,
      AddMonoidAlgebra.coeff_smul_apply, coeff_mul_mono, h3, smul_eq_mul]

end Verif.Moshinsky.Osc
