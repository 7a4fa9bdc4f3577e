import Verif.Moshinsky.NucleonGen
import Mathlib.RingTheory.Derivation.Lie

/-!
# Operators on two nucleons

The operators that `relative-gen` knows by name, as operators on the states of two nucleons: the square of the distance between the
nucleons, their relative orbital angular momentum, their spins and isospins.  Lengths are in units of the oscillator length of a nucleon.
-/

namespace Verif.Moshinsky
open Verif MvPolynomial Osc Program
open Verif.SU2 hiding couple
open Verif.Relative (Cfg jmat δ idPair sumPair isoPair same rSqr)

/-! ## Specification -/

/-- The component `μ = 1, 0, -1` of the position of a nucleon: creation and annihilation of a quantum, over `√2`. -/
noncomputable def position (k : Fin 2) (μ : ℤ) : Two →ₗ[ℝ] Two :=
  (1 / √2 : ℝ) • (LinearMap.mulLeft ℝ (X (k, comp μ)) + (if μ = 0 then 1 else -1 : ℝ) • (pderiv (k, comp (-μ)) : Derivation ℝ Two Two).toLinearMap)

/-- The vector between the nucleons. -/
noncomputable def separation (μ : ℤ) : Two →ₗ[ℝ] Two := position 0 μ - position 1 μ

/-- The square of the distance between the nucleons. -/
noncomputable def distanceSq : Two →ₗ[ℝ] Two :=
  separation 0 ∘ₗ separation 0 - separation 1 ∘ₗ separation (-1) - separation (-1) ∘ₗ separation 1

/-- The component `μ` of the momentum of a nucleon, divided by the imaginary unit. -/
noncomputable def momentum (k : Fin 2) (μ : ℤ) : Two →ₗ[ℝ] Two :=
  (1 / √2 : ℝ) • (LinearMap.mulLeft ℝ (X (k, comp μ)) - (if μ = 0 then 1 else -1 : ℝ) • (pderiv (k, comp (-μ)) : Derivation ℝ Two Two).toLinearMap)

/-- The relative momentum, divided by the imaginary unit. -/
noncomputable def relMomentum (μ : ℤ) : Two →ₗ[ℝ] Two := (1 / 2 : ℝ) • (momentum 0 μ - momentum 1 μ)

/-- The component `q = 1, 0, -1` of the relative angular momentum `r × p`. -/
noncomputable def angular (q : ℤ) : Two →ₗ[ℝ] Two :=
  if q = 1 then separation 1 ∘ₗ relMomentum 0 - separation 0 ∘ₗ relMomentum 1
  else if q = 0 then separation 1 ∘ₗ relMomentum (-1) - separation (-1) ∘ₗ relMomentum 1
  else separation 0 ∘ₗ relMomentum (-1) - separation (-1) ∘ₗ relMomentum 0

/-- An operator on the motion of the nucleons. -/
noncomputable def onMotion (F : Two →ₗ[ℝ] Two) : Nucl →ₗ[ℝ] Nucl where
  toFun u σ σ' τ τ' := F (u σ σ' τ τ')
  map_add' u v := by
    funext σ σ' τ τ'
    simp only [Pi.add_apply, map_add]
  map_smul' c u := by
    funext σ σ' τ τ'
    simp only [Pi.smul_apply, map_smul, RingHom.id_apply]

/-- The operator on the spin of a nucleon with elements `K`. -/
noncomputable def onSpin (k : Fin 2) (K : ℤ → ℤ → ℝ) : Nucl →ₗ[ℝ] Nucl where
  toFun u σ σ' τ τ' := if k = 0 then ∑ a, K (proj σ) (proj a) • u a σ' τ τ' else ∑ a, K (proj σ') (proj a) • u σ a τ τ'
  map_add' u v := by
    funext σ σ' τ τ'
    simp only [Pi.add_apply, smul_add, Finset.sum_add_distrib]
    split_ifs <;> rfl
  map_smul' c u := by
    funext σ σ' τ τ'
    simp only [Pi.smul_apply, RingHom.id_apply, smul_comm _ c, ← Finset.smul_sum]
    split_ifs <;> rfl

/-- The operator on the isospin of a nucleon with elements `K`. -/
noncomputable def onIsospin (k : Fin 2) (K : ℤ → ℤ → ℝ) : Nucl →ₗ[ℝ] Nucl where
  toFun u σ σ' τ τ' := if k = 0 then ∑ a, K (proj τ) (proj a) • u σ σ' a τ' else ∑ a, K (proj τ') (proj a) • u σ σ' τ a
  map_add' u v := by
    funext σ σ' τ τ'
    simp only [Pi.add_apply, smul_add, Finset.sum_add_distrib]
    split_ifs <;> rfl
  map_smul' c u := by
    funext σ σ' τ τ'
    simp only [Pi.smul_apply, RingHom.id_apply, smul_comm _ c, ← Finset.smul_sum]
    split_ifs <;> rfl

/-- The derivative with respect to a component of the relative creation operator. -/
noncomputable def relD (μ : ℤ) : Derivation ℝ Two Two := (1 / √2 : ℝ) • (pderiv (0, comp μ) - pderiv (1, comp μ))

/-! ## The motion -/

theorem relD_relative (μ : ℤ) (i : Fin 3) : relD μ (relative i) = if i = comp μ then (1 : Two) else 0 := by
  have h2 : 1 / √2 * (1 / √2) = (1 / 2 : ℝ) := by
    rw [div_mul_div_comm, Real.mul_self_sqrt (by norm_num), one_mul]
  rw [relD, Derivation.smul_apply, Derivation.sub_apply, relative, first, second]
  simp only [Derivation.map_smul, map_sub, pderiv_X, smul_sub, smul_smul, h2]
  by_cases h : i = comp μ
  · subst h
    simp
    module
  · simp [h]

theorem relD_centre (μ : ℤ) (i : Fin 3) : relD μ (centre i) = 0 := by
  rw [relD, Derivation.smul_apply, Derivation.sub_apply, centre, first, second]
  simp only [Derivation.map_smul, map_add, pderiv_X]
  by_cases h : i = comp μ
  · subst h
    simp
  · simp [h]

theorem separation_eq (μ : ℤ) (u : Two) : separation μ u = relative (comp μ) * u + (if μ = 0 then 1 else -1 : ℝ) • relD (-μ) u := by
  simp only [separation, position, relD, relative, first, second, LinearMap.sub_apply, LinearMap.smul_apply, LinearMap.add_apply, LinearMap.mulLeft_apply,
    Derivation.coeFn_coe, Derivation.smul_apply, Derivation.sub_apply, smul_mul_assoc, sub_mul]
  module

/-- A derivation of a polynomial in `c`. -/
theorem derive_single (D : Derivation ℝ Two Two) (c : Fin 3 → Two) (P : One) : D (aeval c P) = ∑ i, aeval c (pderiv i P) * D (c i) := by
  induction P using MvPolynomial.induction_on with
  | C a => simp
  | add p q hp hq => simp only [map_add, hp, hq, add_mul, Finset.sum_add_distrib]
  | mul_X p i hp =>
    rw [map_mul, aeval_X, D.leibniz, hp]
    simp only [pderiv_mul, pderiv_X, map_add, map_mul, aeval_X, add_mul, Finset.sum_add_distrib, smul_eq_mul]
    rw [Finset.mul_sum, add_comm, Finset.sum_congr rfl fun j _ => show aeval c (pderiv j p) * c i * D (c j) = c i * (aeval c (pderiv j p) * D (c j)) by ring]
    congr 1
    rw [Finset.sum_eq_single_of_mem i (Finset.mem_univ _)]
    · simp
    · intro j _ hj
      simp [hj.symm]

theorem single_aeval (c : Fin 3 → Two) (n l : ℕ) (m : ℤ) : single c n l m = aeval c (one n l m) := by
  rw [one, map_osc]
  simp only [aeval_X]
  rfl

theorem relD_single_centre (μ : ℤ) (n l : ℕ) (m : ℤ) : relD μ (single centre n l m) = 0 := by
  rw [single_aeval, derive_single]
  simp only [relD_centre, mul_zero, Finset.sum_const_zero]

theorem relD_partial {μ : ℤ} (hμ : μ = 1 ∨ μ = 0 ∨ μ = -1) : IsPartial (relD μ) μ (relative 0) (relative 1) (relative 2) := by
  constructor <;> rw [relD_relative] <;> rcases hμ with rfl | rfl | rfl <;> simp [comp]

theorem relD_comm (μ ν : ℤ) (u : Two) : relD μ (relD ν u) = relD ν (relD μ u) := by
  have h : ∀ i j : Fin 2 × Fin 3, pderiv i (pderiv j u) = pderiv j (pderiv i u) := fun i j => by
    have h : ⁅pderiv (R := ℝ) i, pderiv (R := ℝ) j⁆ = 0 := by
      apply derivation_ext
      intro k
      rw [Derivation.commutator_apply, pderiv_X, pderiv_X]
      simp only [Pi.single_apply]
      split <;> split <;> simp
    have h' := DFunLike.congr_fun h u
    rwa [Derivation.commutator_apply, Derivation.zero_apply, sub_eq_zero] at h'
  simp only [relD, Derivation.smul_apply, Derivation.sub_apply, Derivation.map_smul, map_sub]
  rw [h (0, comp μ) (0, comp ν), h (0, comp μ) (1, comp ν), h (1, comp μ) (0, comp ν), h (1, comp μ) (1, comp ν)]
  module

/-- The number of quanta. -/
theorem quanta_single (n l : ℕ) (m : ℤ) : relative 0 * relD 1 (single relative n l m) + relative 1 * relD 0 (single relative n l m) +
    relative 2 * relD (-1) (single relative n l m) = ((2 * n + l : ℕ) : ℝ) • single relative n l m := by
  have h := congrArg (aeval relative) (homogeneous_one n l m).sum_X_mul_pderiv
  rw [map_sum, Fin.sum_univ_three] at h
  simp only [map_mul, aeval_X] at h
  have e : ∀ μ, relD μ (single relative n l m) = aeval relative (pderiv (comp μ) (one n l m)) := fun μ => by
    rw [single_aeval, derive_single, Finset.sum_eq_single_of_mem (comp μ) (Finset.mem_univ _)]
    · rw [relD_relative, if_pos rfl, mul_one]
    · intro j _ hj
      rw [relD_relative, if_neg hj, mul_zero]
  rw [e, e, e, show comp 1 = 0 from rfl, show comp 0 = 1 from rfl, show comp (-1) = 2 from rfl, h, single_aeval]
  rw [map_nsmul, Nat.cast_smul_eq_nsmul]

theorem separation_mul (μ : ℤ) {f g : Two} (hg : ∀ ν, relD ν g = 0) : separation μ (f * g) = separation μ f * g := by
  rw [separation_eq, separation_eq, Derivation.leibniz, hg, smul_zero, zero_add, smul_eq_mul, add_mul, smul_mul_assoc, mul_comm g]
  ring

/-- The square of the distance changes the number of nodes by one at most. -/
theorem distanceSq_single (n l : ℕ) (m : ℤ) {g : Two} (hg : ∀ ν, relD ν g = 0) : distanceSq (single relative n l m * g) =
    (2 * ((2 * n + l : ℕ) : ℝ) + 3) • (single relative n l m * g) - nodeR n l • (single relative (n + 1) l m * g) -
      if n = 0 then 0 else nodeR (n - 1) l • (single relative (n - 1) l m * g) := by
  have hl := laplace_osc (relD_partial (.inl rfl)) (relD_partial (.inr (.inl rfl))) (relD_partial (.inr (.inr rfl))) n l m
  have hr := rr_osc (p := relative 0) (z := relative 1) (q := relative 2) n l m
  have hq := quanta_single n l m
  rw [show osc n l m (relative 0) (relative 1) (relative 2) = single relative n l m from rfl] at hl hr
  rw [show osc (n + 1) l m (relative 0) (relative 1) (relative 2) = single relative (n + 1) l m from rfl] at hr
  rw [show osc (n - 1) l m (relative 0) (relative 1) (relative 2) = single relative (n - 1) l m from rfl] at hl
  have hc := relD_comm (-1) 1 (single relative n l m)
  have e : distanceSq (single relative n l m) = (2 * ((2 * n + l : ℕ) : ℝ) + 3) • single relative n l m - nodeR n l • single relative (n + 1) l m -
      if n = 0 then 0 else nodeR (n - 1) l • single relative (n - 1) l m := by
    simp only [distanceSq, LinearMap.sub_apply, LinearMap.comp_apply, separation_eq, map_add, Derivation.map_smul, Derivation.leibniz, relD_relative,
      show comp 1 = 0 from rfl, show comp 0 = 1 from rfl, show comp (-1) = 2 from rfl, neg_neg, neg_zero, if_true, if_false, one_smul,
      show (1 : ℤ) ≠ 0 by decide, show (-1 : ℤ) ≠ 0 by decide]
    generalize single relative n l m = f at *
    simp only [smul_eq_mul]
    have h1 : nodeR n l • single relative (n + 1) l m = -(rr (relative 0) (relative 1) (relative 2) * f) := by rw [hr, neg_smul, neg_neg]
    have h2 : (if n = 0 then 0 else nodeR (n - 1) l • single relative (n - 1) l m) = -(relD 0 (relD 0 f) - (2 : ℝ) • relD 1 (relD (-1) f)) := by
      rw [hl]
      split_ifs <;> simp only [neg_zero, neg_smul, neg_neg]
    have h3 : (2 * ((2 * n + l : ℕ) : ℝ) + 3) • f = (2 : Two) * (((2 * n + l : ℕ) : ℝ) • f) + 3 * f := by
      simp only [smul_eq_C_mul, map_add, map_mul, map_ofNat]
      ring
    have h4 : (2 : ℝ) • relD 1 (relD (-1) f) = 2 * relD 1 (relD (-1) f) := by rw [smul_eq_C_mul, map_ofNat]
    rw [h1, h2, h3, h4, ← hq, hc, rr]
    simp only [neg_smul, one_smul, mul_neg, neg_neg]
    ring
  simp only [distanceSq, LinearMap.sub_apply, LinearMap.comp_apply, separation_mul _ hg] at e ⊢
  rw [← sub_mul, ← sub_mul, e]
  split_ifs
  · simp only [sub_mul, smul_mul_assoc, zero_mul]
  · simp only [sub_mul, smul_mul_assoc]

/-- The elements of an operator on the motion, which leaves the centre of mass as it is. -/
def MotionActs (F : Two →ₗ[ℝ] Two) (a : ℕ → ℕ → ℤ → ℕ → ℕ → ℤ → ℝ) : Prop :=
  ∀ (n l n2 l2 n' l' n2' l2' : ℕ) (m m2 m' m2' : ℤ), |m| ≤ l → |m2| ≤ l2 → |m'| ≤ l' → |m2'| ≤ l2' →
    fock (single relative n l m * single centre n2 l2 m2) (F (single relative n' l' m' * single centre n2' l2' m2')) =
      if (n2, l2, m2) = (n2', l2', m2') then a n l m n' l' m' else 0

theorem motion_id : MotionActs LinearMap.id fun n l m n' l' m' => if (n, l, m) = (n', l', m') then 1 else 0 := by
  intro n l n2 l2 n' l' n2' l2' m m2 m' m2' h1 h2 _ _
  rw [LinearMap.id_apply, motion_ortho h1 h2]
  simp only [Prod.mk.injEq]
  by_cases h : n2 = n2' ∧ l2 = l2' ∧ m2 = m2'
  · simp only [h, and_true, and_self, if_true]
  · simp only [h, and_false, if_false]

/-- The radial integrals of `r²`, in closed form. -/
theorem rSqr_closed (n' n l : ℕ) : rSqr n' l n l = if n' = n then 2 * ((2 * n + l : ℕ) : ℝ) + 3 else if n' = n + 1 then -nodeR n l else
    if n = n' + 1 then -nodeR n' l else 0 := by
  have h1 := coordinateSqr_is_integral n' l n l (.inl rfl)
  rw [sqr_value ⟨by omega, by omega, by omega⟩ ⟨by omega, by omega, by omega⟩] at h1
  rw [Relative.rSqr_unit, ← Except.ok.inj h1, sqrR]
  have hn : ∀ k : ℕ, √((((2 * k + l : ℕ) : ℤ) : ℝ) + ((l : ℤ) : ℝ) + 3) * √((((2 * k + l : ℕ) : ℤ) : ℝ) - ((l : ℤ) : ℝ) + 2) = nodeR k l := fun k => by
    rw [nodeR, ← Real.sqrt_mul (by push_cast; positivity)]
    push_cast
    congr 1
    ring
  by_cases a1 : n' = n
  · subst a1
    rw [if_neg (by omega), if_pos (by omega), if_neg (by omega), if_pos (by omega), if_pos rfl]
    push_cast
    ring
  · rw [if_neg a1]
    by_cases a2 : n' = n + 1
    · subst a2
      rw [if_pos (by omega), if_neg (by omega), if_pos (by omega), if_pos rfl, hn]
      ring
    · rw [if_neg a2, if_neg (by omega), if_neg (by omega)]
      by_cases a3 : n = n' + 1
      · subst a3
        rw [if_pos (by omega), if_neg (by omega), if_pos (by omega), if_pos rfl, ← hn,
          show (((2 * (n' + 1) + l : ℕ) : ℤ) : ℝ) - ((l : ℤ) : ℝ) = (((2 * n' + l : ℕ) : ℤ) : ℝ) - ((l : ℤ) : ℝ) + 2 by push_cast; ring,
          show (((2 * (n' + 1) + l : ℕ) : ℤ) : ℝ) + ((l : ℤ) : ℝ) + 1 = (((2 * n' + l : ℕ) : ℤ) : ℝ) + ((l : ℤ) : ℝ) + 3 by push_cast; ring]
        ring
      · rw [if_neg a3, if_neg (by omega), mul_zero]

theorem motion_distance : MotionActs distanceSq fun n l m n' l' m' => if l = l' ∧ m = m' then rSqr n l n' l else 0 := by
  intro n l n2 l2 n' l' n2' l2' m m2 m' m2' h1 h2 _ _
  rw [distanceSq_single _ _ _ (fun ν => relD_single_centre ν n2' l2' m2'), fock_sub_right, fock_sub_right, fock_smul_right, fock_smul_right,
    motion_ortho h1 h2, motion_ortho h1 h2]
  have e : fock (single relative n l m * single centre n2 l2 m2) (if n' = 0 then 0 else nodeR (n' - 1) l' • (single relative (n' - 1) l' m' * single centre n2' l2' m2')) =
      if (n + 1 = n' ∧ l = l' ∧ m = m') ∧ (n2 = n2' ∧ l2 = l2' ∧ m2 = m2') then nodeR n l else 0 := by
    rcases n' with - | n'
    · rw [if_pos rfl, ← fockL_apply, map_zero, if_neg (by omega)]
    · rw [if_neg (by omega), fock_smul_right, Nat.add_sub_cancel, motion_ortho h1 h2]
      by_cases h : n = n' ∧ l = l'
      · obtain ⟨rfl, rfl⟩ := h
        simp
      · rw [if_neg (by tauto), if_neg (by omega), mul_zero]
  rw [e]
  simp only [Prod.mk.injEq]
  by_cases hc : n2 = n2' ∧ l2 = l2' ∧ m2 = m2'
  · by_cases hl : l = l' ∧ m = m'
    · obtain ⟨rfl, rfl⟩ := hl
      simp only [hc, and_true, and_self, if_true, rSqr_closed]
      by_cases a1 : n = n'
      · subst a1
        simp
      · by_cases a2 : n = n' + 1
        · subst a2
          simp [show ¬ n' + 1 + 1 = n' by omega]
        · by_cases a3 : n' = n + 1
          · subst a3
            simp [show ¬ n = n + 1 + 1 by omega]
          · simp [a1, a2, a3, Ne.symm a3]
    · rw [if_pos hc, if_neg hl, if_neg (by tauto), if_neg (by tauto), if_neg (by tauto)]
      ring
  · rw [if_neg hc, if_neg (by tauto), if_neg (by tauto), if_neg (by tauto)]
    ring

/-! ## The relative angular momentum -/

theorem relMomentum_eq (μ : ℤ) (u : Two) : relMomentum μ u = (1 / 2 : ℝ) • (relative (comp μ) * u - (if μ = 0 then 1 else -1 : ℝ) • relD (-μ) u) := by
  simp only [relMomentum, momentum, relD, relative, first, second, LinearMap.sub_apply, LinearMap.smul_apply, LinearMap.mulLeft_apply,
    Derivation.coeFn_coe, Derivation.smul_apply, Derivation.sub_apply, smul_mul_assoc, sub_mul]
  module

/-- The generators of rotations of the relative motion. -/
noncomputable def turnUp : Derivation ℝ Two Two := (√2 : ℝ) • (relative 0 • relD 0 + relative 1 • relD (-1))
noncomputable def turnDown : Derivation ℝ Two Two := (√2 : ℝ) • (relative 1 • relD 1 + relative 2 • relD 0)
noncomputable def turnZero : Derivation ℝ Two Two := relative 0 • relD 1 - relative 2 • relD (-1)

theorem turnUp_raises : Raises turnUp (relative 0) (relative 1) (relative 2) := by
  constructor <;> simp [turnUp, relD_relative, comp]

theorem turnDown_lowers : Lowers turnDown (relative 0) (relative 1) (relative 2) := by
  constructor <;> simp [turnDown, relD_relative, comp]

theorem angular_up (u : Two) : angular 1 u = -((1 / √2 : ℝ) • turnUp u) := by
  have hc := relD_comm (-1) 0 u
  have h2 : (1 / √2 : ℝ) * √2 = 1 := by rw [mul_comm]; exact sqrt2
  rw [turnUp, Derivation.smul_apply, smul_smul, h2, one_smul]
  simp only [angular, if_true, LinearMap.sub_apply, LinearMap.comp_apply, separation_eq, relMomentum_eq, map_sub, map_smul, map_add, Derivation.map_smul, Derivation.leibniz, relD_relative,
      show comp 1 = 0 from rfl, show comp 0 = 1 from rfl, show comp (-1) = 2 from rfl, neg_neg, neg_zero, if_true, if_false, one_smul,
      show (1 : ℤ) ≠ 0 by decide, show (-1 : ℤ) ≠ 0 by decide, smul_eq_mul, Derivation.add_apply, Derivation.smul_apply, hc]
  simp only [Fin.isValue, show ¬ (1 : Fin 3) = 2 by decide, show ¬ (0 : Fin 3) = 1 by decide, if_false, mul_zero, add_zero, neg_smul, one_smul, mul_sub, mul_neg, mul_smul_comm]
  rw [show relative 1 * (relative 0 * u) = relative 0 * (relative 1 * u) by ring]
  module

theorem angular_down (u : Two) : angular (-1) u = (1 / √2 : ℝ) • turnDown u := by
  have hc := relD_comm 1 0 u
  have h2 : (1 / √2 : ℝ) * √2 = 1 := by rw [mul_comm]; exact sqrt2
  rw [turnDown, Derivation.smul_apply, smul_smul, h2, one_smul]
  simp only [angular, LinearMap.sub_apply, LinearMap.comp_apply, separation_eq, relMomentum_eq, map_sub, map_smul, map_add, Derivation.map_smul, Derivation.leibniz, relD_relative,
      show comp 1 = 0 from rfl, show comp 0 = 1 from rfl, show comp (-1) = 2 from rfl, neg_neg, neg_zero, if_true, if_false, one_smul,
      show (-1 : ℤ) ≠ 1 by decide, show (-1 : ℤ) ≠ 0 by decide, smul_eq_mul, Derivation.add_apply, Derivation.smul_apply, hc]
  simp only [Fin.isValue, show ¬ (1 : Fin 3) = 0 by decide, show ¬ (2 : Fin 3) = 1 by decide, if_false, mul_zero, add_zero, neg_smul, one_smul, mul_sub, mul_neg, mul_smul_comm]
  rw [show relative 1 * (relative 2 * u) = relative 2 * (relative 1 * u) by ring]
  module

theorem angular_zero (u : Two) : angular 0 u = turnZero u := by
  have hc := relD_comm 1 (-1) u
  simp only [turnZero, angular, LinearMap.sub_apply, LinearMap.comp_apply, separation_eq, relMomentum_eq, map_sub, map_smul, map_add, Derivation.map_smul, Derivation.leibniz, relD_relative,
      show comp 1 = 0 from rfl, show comp 0 = 1 from rfl, show comp (-1) = 2 from rfl, neg_neg, neg_zero, if_true, if_false, one_smul,
      show (0 : ℤ) ≠ 1 by decide, show (1 : ℤ) ≠ 0 by decide, show (-1 : ℤ) ≠ 0 by decide, smul_eq_mul, Derivation.sub_apply, Derivation.smul_apply, hc]
  simp only [neg_smul, one_smul, mul_sub, mul_neg, mul_smul_comm]
  rw [show relative 0 * (relative 2 * u) = relative 2 * (relative 0 * u) by ring]
  module

theorem turnUp_single (n l : ℕ) {m : ℤ} (hm : |m| ≤ l) : turnUp (single relative n l m) = √(((l : ℝ) - m) * (l + m + 1)) • single relative n l (m + 1) := by
  have h := raise_st turnUp_raises n l hm
  rw [st, st, Derivation.map_smul] at h
  have hm' := abs_le.mp hm
  have hpr := (pr_pos l m).ne'
  by_cases hl : m = l
  · have e : single relative n l (m + 1) = 0 := osc_out (by rw [lt_abs]; omega) _ _ _
    rw [e, smul_zero, smul_zero] at h
    rw [e, smul_zero]
    exact (smul_eq_zero.mp h).resolve_left hpr
  · have k : pr l (m + 1) * ((l : ℝ) - m) = √(((l : ℝ) - m) * (l + m + 1)) * pr l m := by
      have q1 : (0 : ℝ) ≤ (l : ℝ) - m := by exact_mod_cast show (0 : ℤ) ≤ l - m by omega
      have q2 : (0 : ℝ) ≤ (l : ℝ) + m + 1 := by exact_mod_cast show (0 : ℤ) ≤ l + m + 1 by omega
      refine sqrt_id (mul_pos (ff_pos _) (ff_pos _)).le q1 (mul_nonneg q1 q2) ?_
      have e := ff_succ (i := (l : ℤ) - (m + 1)) (by omega)
      rw [show (l : ℤ) - (m + 1) + 1 = l - m by ring] at e
      rw [show (l : ℤ) + (m + 1) = l + m + 1 by ring, ff_succ (by omega), e]
      push_cast
      ring
    refine smul_right_injective Two hpr ?_
    dsimp only
    rw [h, smul_smul, smul_smul, mul_comm, k, mul_comm]

theorem turnDown_single (n l : ℕ) {m : ℤ} (hm : |m| ≤ l) : turnDown (single relative n l m) = √(((l : ℝ) + m) * (l - m + 1)) • single relative n l (m - 1) := by
  have h := lower_st turnDown_lowers n l hm
  rw [st, st, Derivation.map_smul] at h
  have hm' := abs_le.mp hm
  have hpr := (pr_pos l m).ne'
  by_cases hl : m = -l
  · have e : single relative n l (m - 1) = 0 := osc_out (by rw [lt_abs]; omega) _ _ _
    rw [e, smul_zero, smul_zero] at h
    rw [e, smul_zero]
    exact (smul_eq_zero.mp h).resolve_left hpr
  · have k : pr l (m - 1) * ((l : ℝ) + m) = √(((l : ℝ) + m) * (l - m + 1)) * pr l m := by
      have q1 : (0 : ℝ) ≤ (l : ℝ) + m := by exact_mod_cast show (0 : ℤ) ≤ l + m by omega
      have q2 : (0 : ℝ) ≤ (l : ℝ) - m + 1 := by exact_mod_cast show (0 : ℤ) ≤ l - m + 1 by omega
      refine sqrt_id (mul_pos (ff_pos _) (ff_pos _)).le q1 (mul_nonneg q1 q2) ?_
      have e := ff_succ (i := (l : ℤ) + (m - 1)) (by omega)
      rw [show (l : ℤ) + (m - 1) + 1 = l + m by ring] at e
      rw [show (l : ℤ) - (m - 1) = l - m + 1 by ring, ff_succ (i := (l : ℤ) - m) (by omega), e]
      push_cast
      ring
    refine smul_right_injective Two hpr ?_
    dsimp only
    rw [h, smul_smul, smul_smul, mul_comm, k, mul_comm]

theorem turnZero_single (n l : ℕ) (m : ℤ) : turnZero (single relative n l m) = (m : ℝ) • single relative n l m := by
  have hp : turnZero (relative 0) = relative 0 := by simp [turnZero, relD_relative, comp]
  have hz : turnZero (relative 1) = 0 := by simp [turnZero, relD_relative, comp]
  have hq : turnZero (relative 2) = -relative 2 := by simp [turnZero, relD_relative, comp]
  generalize turnZero = D at *
  have hr : D (rr (relative 0) (relative 1) (relative 2)) = 0 := by
    rw [D_rr, hp, hz, hq]
    ring
  have hs : D (solid l m (relative 0) (relative 1) (relative 2)) = (m : ℝ) • solid l m (relative 0) (relative 1) (relative 2) := by
    rw [solid, map_sum, Finset.smul_sum]
    refine Finset.sum_congr rfl fun k _ => ?_
    rw [solidTerm, D.map_smul, D.leibniz, D.leibniz, D_dp_mul, D_dp_mul, D_dp_mul, hp, hz, hq]
    have e1 := mul_dp (relative 0) (k + m - 1)
    have e2 := mul_dp (relative 2) (k - 1)
    rw [sub_add_cancel] at e1 e2
    push_cast at e1 e2
    rw [smul_comm]
    congr 1
    simp only [smul_eq_mul, mul_neg, mul_zero, add_zero, zero_add]
    rw [mul_comm (dp (relative 2) (k - 1)), e2, mul_comm (dp (relative 0) (k + m - 1)), e1]
    simp only [smul_eq_C_mul, map_sub, map_add, map_one]
    ring
  rw [single, osc, D.map_smul, D.leibniz, D_pow, hr, hs]
  simp only [mul_zero, smul_zero, add_zero, smul_eq_mul, mul_smul_comm, smul_smul]
  congr 1
  ring

theorem turn_mul {D : Derivation ℝ Two Two} {f g : Two} (hg : D g = 0) : D (f * g) = D f * g := by
  rw [D.leibniz, hg, smul_zero, zero_add, smul_eq_mul, mul_comm]

theorem turn_centre {n l : ℕ} {m : ℤ} : turnUp (single centre n l m) = 0 ∧ turnZero (single centre n l m) = 0 ∧ turnDown (single centre n l m) = 0 := by
  simp only [turnUp, turnZero, turnDown, Derivation.smul_apply, Derivation.add_apply, Derivation.sub_apply, relD_single_centre, smul_zero, add_zero, sub_zero,
    and_self]

theorem twice_root (l : ℕ) (x : ℝ) : √((((2 * l : ℕ) : ℝ) - 2 * x) * (((2 * l : ℕ) : ℝ) + 2 * x + 2)) = 2 * √(((l : ℝ) - x) * (l + x + 1)) := by
  rw [show (((2 * l : ℕ) : ℝ) - 2 * x) * (((2 * l : ℕ) : ℝ) + 2 * x + 2) = 2 ^ 2 * (((l : ℝ) - x) * (l + x + 1)) by push_cast; ring, Real.sqrt_mul (by norm_num),
    Real.sqrt_sq (by norm_num)]

theorem jmat_up (l : ℕ) (m m' : ℤ) : jmat (2 * l) (2 * 1) (2 * m) (2 * m') = -(1 / √2 * √(((l : ℝ) - m') * (l + m' + 1))) * if m = m' + 1 then 1 else 0 := by
  have e := twice_root l m'
  rw [jmat, if_neg (by omega), if_pos (by omega)]
  by_cases h : m = m' + 1
  · rw [if_pos (by omega), if_pos h, Int.cast_mul, Int.cast_ofNat, e]
    ring
  · rw [if_neg (by omega), if_neg h, mul_zero]

theorem jmat_zero (l : ℕ) (m m' : ℤ) : jmat (2 * l) (2 * 0) (2 * m) (2 * m') = m' * if m = m' then 1 else 0 := by
  rw [jmat, if_pos (by omega)]
  by_cases h : m = m'
  · rw [if_pos (by omega), if_pos h, Int.cast_mul, Int.cast_ofNat]
    ring
  · rw [if_neg (by omega), if_neg h, mul_zero]

theorem jmat_down (l : ℕ) (m m' : ℤ) : jmat (2 * l) (2 * -1) (2 * m) (2 * m') = 1 / √2 * √(((l : ℝ) + m') * (l - m' + 1)) * if m = m' - 1 then 1 else 0 := by
  have e := twice_root l (-m')
  rw [mul_neg, sub_neg_eq_add, ← sub_eq_add_neg, sub_neg_eq_add, ← sub_eq_add_neg] at e
  rw [jmat, if_neg (by omega), if_neg (by omega), if_pos (by omega)]
  by_cases h : m = m' - 1
  · rw [if_pos (by omega), if_pos h, Int.cast_mul, Int.cast_ofNat, e]
    ring
  · rw [if_neg (by omega), if_neg h, mul_zero]

theorem motion_angular {q : ℤ} (hq : |q| ≤ 1) : MotionActs (angular q) fun n l m n' l' m' => if n = n' ∧ l = l' then jmat (2 * l') (2 * q) (2 * m) (2 * m') else 0 := by
  intro n l n2 l2 n' l' n2' l2' m m2 m' m2' h1 h2 h3 _
  obtain ⟨t1, t2, t3⟩ := turn_centre (n := n2') (l := l2') (m := m2')
  have key : ∀ (c : ℝ) (k : ℤ), (c * if (n = n' ∧ l = l' ∧ m = k) ∧ n2 = n2' ∧ l2 = l2' ∧ m2 = m2' then 1 else 0) =
      if (n2, l2, m2) = (n2', l2', m2') then if n = n' ∧ l = l' then c * if m = k then 1 else 0 else 0 else 0 := by
    intro c k
    simp only [Prod.mk.injEq]
    by_cases hc : n2 = n2' ∧ l2 = l2' ∧ m2 = m2'
    · by_cases hl : n = n' ∧ l = l'
      · simp only [hl, hc, true_and, and_true, and_self, if_true]
      · rw [if_neg (by tauto), if_pos hc, if_neg hl, mul_zero]
    · rw [if_neg (by tauto), if_neg hc, mul_zero]
  obtain rfl | rfl | rfl : q = 1 ∨ q = 0 ∨ q = -1 := by
    rw [abs_le] at hq
    omega
  · rw [angular_up, turn_mul t1, turnUp_single _ _ h3, smul_mul_assoc, smul_smul, ← neg_smul, fock_smul_right, motion_ortho h1 h2, key]
    simp only [jmat_up]
  · rw [angular_zero, turn_mul t2, turnZero_single, smul_mul_assoc, fock_smul_right, motion_ortho h1 h2, key]
    simp only [jmat_zero]
  · rw [angular_down, turn_mul t3, turnDown_single _ _ h3, smul_mul_assoc, smul_smul, fock_smul_right, motion_ortho h1 h2, key]
    simp only [jmat_down]

end Verif.Moshinsky
