import Verif.Separable.OneNucleon

/-!
# Operators on one nucleon

Creation and annihilation of quanta, position, momentum and angular momentum on the polynomial model of the oscillator, and their elements.
-/

namespace Verif.Separable
open Verif Verif.Mapping Verif.Xform Verif.Obme Verif.SU2 MvPolynomial
open Verif.H2 hiding Mat
open Verif.Moshinsky.Osc (One one one_ortho comp fock fockL fockL_apply fock_add_left fock_smul_left fock_add_right fock_smul_right fock_X_left
  fock_X_right fock_comm upR dnR cg1 cg1_eq lower Adjacent part_p part_z part_q D_osc_p D_osc_z D_osc_q osc_out Two first second relative single sqrt2)
open Verif.Moshinsky (proj sum_even even_mem cg_even derive_single relD relD_relative single_aeval separation separation_eq relMomentum relMomentum_eq angular angular_up
  angular_zero angular_down turnUp_single turnZero_single turnDown_single jmat_up jmat_zero jmat_down)
open Verif.Relative (red1D red2D red12D cgD reduces1 reduces2 reduces12 couple jmat)

/-- Creation of a quantum: component `μ = 1, 0, -1`. -/
noncomputable def create (μ : ℤ) : One →ₗ[ℝ] One := LinearMap.mulLeft ℝ (X (comp μ))

/-- Annihilation of a quantum: component `μ` of the vector operator `c`, adjoint of `(-)^μ c†` with component `-μ`. -/
noncomputable def annihilate (μ : ℤ) : One →ₗ[ℝ] One :=
  (if μ = 0 then 1 else -1 : ℝ) • (pderiv (comp (-μ)) : Derivation ℝ One One).toLinearMap

/-- The position, in units of the oscillator length. -/
noncomputable def position1 (μ : ℤ) : One →ₗ[ℝ] One := (1 / √2 : ℝ) • (create μ + annihilate μ)

/-- The momentum divided by the imaginary unit, in units of the inverse oscillator length. -/
noncomputable def momentum1 (μ : ℤ) : One →ₗ[ℝ] One := (1 / √2 : ℝ) • (create μ - annihilate μ)

/-- The component `q = 1, 0, -1` of the orbital angular momentum `r × p`. -/
noncomputable def angular1 (q : ℤ) : One →ₗ[ℝ] One :=
  if q = 1 then position1 1 ∘ₗ momentum1 0 - position1 0 ∘ₗ momentum1 1
  else if q = 0 then position1 1 ∘ₗ momentum1 (-1) - position1 (-1) ∘ₗ momentum1 1
  else position1 0 ∘ₗ momentum1 (-1) - position1 (-1) ∘ₗ momentum1 0

/-! ## Quanta -/

/-- The amplitude of the creation of a quantum. -/
noncomputable def quantum (n' l' n l : ℕ) : ℝ :=
  if n' = n ∧ l' = l + 1 then upR n l else if n' = n + 1 ∧ l = l' + 1 then dnR n l else 0

theorem pderiv_one {μ : ℤ} (hμ : μ ∈ Finset.Icc (-1 : ℤ) 1) (n l : ℕ) (m : ℤ) :
    pderiv (comp μ) (one n l m) = lower one n l m μ := by
  have : μ = 1 ∨ μ = 0 ∨ μ = -1 := by
    rw [Finset.mem_Icc] at hμ
    omega
  rcases this with rfl | rfl | rfl
  · exact D_osc_p part_p n l m
  · exact D_osc_z part_z n l m
  · exact D_osc_q part_q n l m

theorem create_element {n' l' n l : ℕ} {x' μ x : ℤ} (hx' : x' ∈ Finset.Icc (-(l' : ℤ)) l') (hμ : μ ∈ Finset.Icc (-1 : ℤ) 1)
    (hx : x ∈ Finset.Icc (-(l : ℤ)) l) :
    fock (one n' l' x') (create μ (one n l x)) = cgd (2 * l) (2 * x) 2 (2 * μ) (2 * l') (2 * x') * quantum n' l' n l := by
  rw [Finset.mem_Icc] at hx hx'
  have hμ' : μ ∈ ({1, 0, -1} : Finset ℤ) := by
    rw [Finset.mem_Icc] at hμ
    simp only [Finset.mem_insert, Finset.mem_singleton]
    omega
  rw [create, LinearMap.mulLeft_apply, fock_X_right, pderiv_one hμ, lower, fock_add_left]
  have key : ∀ (k n0 : ℕ) (f : ℝ), Adjacent k l' → fock ((f * cg1 k (x' - μ) μ l') • one n0 k (x' - μ)) (one n l x) =
      if n0 = n ∧ k = l then cgd (2 * l) (2 * x) 2 (2 * μ) (2 * l') (2 * x') * f else 0 := by
    intro k n0 f hk
    rw [fock_smul_left]
    by_cases hr : |x' - μ| ≤ k
    · rw [one_ortho hr, cg1_eq hk _ hμ', cg_even, sub_add_cancel]
      by_cases h : n0 = n ∧ k = l
      · obtain ⟨rfl, rfl⟩ := h
        by_cases e : x' - μ = x
        · subst e
          simp [mul_comm]
        · rw [if_neg (fun h => e h.2.2), if_pos ⟨rfl, rfl⟩, mul_zero, cgd_of_ne (by omega), zero_mul]
      · rw [if_neg (by tauto), if_neg h, mul_zero]
    · rw [show one n0 k (x' - μ) = 0 from osc_out (not_le.mp hr) _ _ _, ← fockL_apply, map_zero, LinearMap.zero_apply, mul_zero]
      split_ifs with h
      · obtain ⟨_, rfl⟩ := h
        rw [cgd_of_ne, zero_mul]
        intro e
        apply hr
        rw [show x' - μ = x by omega, abs_le]
        exact hx
      · rfl
  have z : fock (0 : One) (one n l x) = 0 := by rw [← fockL_apply, map_zero, LinearMap.zero_apply]
  have e1 : fock (if l' = 0 then 0 else (upR n' (l' - 1) * cg1 (l' - 1) (x' - μ) μ l') • one n' (l' - 1) (x' - μ)) (one n l x) =
      if n' = n ∧ l' = l + 1 then cgd (2 * l) (2 * x) 2 (2 * μ) (2 * l') (2 * x') * upR n l else 0 := by
    by_cases h : l' = 0
    · rw [if_pos h, z, if_neg (by omega)]
    · rw [if_neg h, key _ _ _ (.inl (by omega))]
      by_cases h2 : n' = n ∧ l' = l + 1
      · rw [if_pos h2, if_pos (by omega), show l' - 1 = l by omega, h2.1]
      · rw [if_neg h2, if_neg (by omega)]
  have e2 : fock (if n' = 0 then 0 else (dnR (n' - 1) (l' + 1) * cg1 (l' + 1) (x' - μ) μ l') • one (n' - 1) (l' + 1) (x' - μ)) (one n l x) =
      if n' = n + 1 ∧ l = l' + 1 then cgd (2 * l) (2 * x) 2 (2 * μ) (2 * l') (2 * x') * dnR n l else 0 := by
    by_cases h : n' = 0
    · rw [if_pos h, z, if_neg (by omega)]
    · rw [if_neg h, key _ _ _ (.inr (by omega))]
      by_cases h2 : n' = n + 1 ∧ l = l' + 1
      · rw [if_pos h2, if_pos (by omega), show n' - 1 = n by omega, h2.2]
      · rw [if_neg h2, if_neg (by omega)]
  rw [e1, e2, quantum]
  by_cases h1 : n' = n ∧ l' = l + 1
  · rw [if_pos h1, if_pos h1, if_neg (by omega), add_zero]
  · rw [if_neg h1, if_neg h1, zero_add]
    split_ifs <;> ring

theorem annihilate_element {n' l' n l : ℕ} {x' μ x : ℤ} (hx' : x' ∈ Finset.Icc (-(l' : ℤ)) l') (hμ : μ ∈ Finset.Icc (-1 : ℤ) 1)
    (hx : x ∈ Finset.Icc (-(l : ℤ)) l) :
    fock (one n' l' x') (annihilate μ (one n l x)) =
      cgd (2 * l) (2 * x) 2 (2 * μ) (2 * l') (2 * x') * (-(√(2 * l + 1) / √(2 * l' + 1)) * quantum n l n' l') := by
  have hμ2 : -μ ∈ Finset.Icc (-1 : ℤ) 1 := by
    rw [Finset.mem_Icc] at hμ ⊢
    omega
  have h := create_element (n' := n) (n := n') hx hμ2 hx'
  rw [create, LinearMap.mulLeft_apply, fock_comm, fock_X_left] at h
  rw [annihilate, LinearMap.smul_apply, Derivation.coeFn_coe, fock_smul_right, h]
  by_cases ha : Adjacent l' l
  · have t := cgd_turn (2 * l) (2 * x) 2 (2 * μ) (2 * l') (2 * x')
    rw [Finset.mem_Icc] at hμ
    have hs : Moshinsky.sgn ((((2 * l' : ℕ) : ℤ) - (2 * l : ℕ) - 2 * μ) / 2) = -(if μ = 0 then 1 else -1 : ℝ) := by
      rw [Moshinsky.sgn]
      rw [Adjacent] at ha
      by_cases h0 : μ = 0
      · rw [if_neg (by push_cast; omega), if_pos h0]
      · rw [if_pos (by push_cast; omega), if_neg h0, neg_neg]
    rw [hs] at t
    have p1 : √(2 * (l : ℝ) + 1) ≠ 0 := by positivity
    have p2 : √(2 * (l' : ℝ) + 1) ≠ 0 := by positivity
    push_cast at t
    rw [show 2 * -μ = -(2 * μ) by ring]
    have hc : (if μ = 0 then 1 else -1 : ℝ) * (if μ = 0 then 1 else -1 : ℝ) = 1 := by split_ifs <;> norm_num
    generalize (if μ = 0 then 1 else -1 : ℝ) = ε at *
    have t' : ε * cgd (2 * l') (2 * x') 2 (-(2 * μ)) (2 * l) (2 * x) = -(√(2 * l + 1) / √(2 * l' + 1)) * cgd (2 * l) (2 * x) 2 (2 * μ) (2 * l') (2 * x') := by
      field_simp
      linear_combination ε * t - (√(2 * l + 1) * cgd (2 * l) (2 * x) 2 (2 * μ) (2 * l') (2 * x')) * hc
    rw [← mul_assoc, t']
    ring
  · rw [Adjacent] at ha
    have hq : quantum n l n' l' = 0 := by rw [quantum, if_neg (by omega), if_neg (by omega)]
    rw [hq]
    ring

/-! ## Orbital angular momentum -/

/-- The polynomial in the operators of the relative motion; used to carry over `motion_angular`. -/
noncomputable def toRel : One →ₐ[ℝ] Two := aeval relative

noncomputable def fromRel : Two →ₐ[ℝ] One := aeval fun p => if p.1 = 0 then (√2 : ℝ) • X p.2 else 0

theorem fromRel_toRel (P : One) : fromRel (toRel P) = P := by
  have h : fromRel.comp toRel = AlgHom.id ℝ One := by
    apply algHom_ext
    intro i
    rw [AlgHom.comp_apply, toRel, aeval_X, relative, map_smul, map_sub, fromRel, first, second, aeval_X, aeval_X, if_pos rfl, if_neg (show ¬ (1 : Fin 2) = 0 by decide), sub_zero, smul_smul,
      mul_comm, sqrt2, one_smul, AlgHom.id_apply]
  exact DFunLike.congr_fun h P

theorem toRel_pderiv (μ : ℤ) (P : One) : toRel (pderiv (comp μ) P) = relD μ (toRel P) := by
  rw [toRel, derive_single, Finset.sum_eq_single_of_mem (comp μ) (Finset.mem_univ _)]
  · rw [relD_relative, if_pos rfl, mul_one]
  · intro j _ hj
    rw [relD_relative, if_neg hj, mul_zero]

theorem toRel_one (n l : ℕ) (m : ℤ) : toRel (one n l m) = single relative n l m := (single_aeval _ _ _ _).symm

theorem toRel_position (μ : ℤ) (P : One) : (√2 : ℝ) • toRel (position1 μ P) = separation μ (toRel P) := by
  rw [position1, LinearMap.smul_apply, map_smul, smul_smul, sqrt2, one_smul, separation_eq, LinearMap.add_apply, create, LinearMap.mulLeft_apply, annihilate,
    LinearMap.smul_apply, Derivation.coeFn_coe, map_add, map_mul, map_smul, toRel_pderiv, toRel, aeval_X]

theorem toRel_momentum (μ : ℤ) (P : One) : (1 / √2 : ℝ) • toRel (momentum1 μ P) = relMomentum μ (toRel P) := by
  have h2 : (1 / √2 * (1 / √2) : ℝ) = 1 / 2 := by rw [div_mul_div_comm, Real.mul_self_sqrt (by norm_num), one_mul]
  rw [momentum1, LinearMap.smul_apply, map_smul, smul_smul, h2, relMomentum_eq, LinearMap.sub_apply, create, LinearMap.mulLeft_apply, annihilate,
    LinearMap.smul_apply, Derivation.coeFn_coe, map_sub, map_mul, map_smul, toRel_pderiv, toRel, aeval_X]

theorem toRel_product (μ ν : ℤ) (P : One) : toRel (position1 μ (momentum1 ν P)) = separation μ (relMomentum ν (toRel P)) := by
  rw [← toRel_momentum, map_smul, ← toRel_position, smul_smul, mul_comm, sqrt2, one_smul]

theorem toRel_angular (q : ℤ) (P : One) : toRel (angular1 q P) = angular q (toRel P) := by
  unfold angular1 angular
  split_ifs <;> simp only [LinearMap.sub_apply, LinearMap.comp_apply, map_sub, toRel_product]

theorem angular1_up (n l : ℕ) {m : ℤ} (hm : |m| ≤ l) : angular1 1 (one n l m) = -(1 / √2 * √(((l : ℝ) - m) * (l + m + 1))) • one n l (m + 1) := by
  rw [← fromRel_toRel (angular1 1 (one n l m)), toRel_angular, toRel_one, angular_up, turnUp_single _ _ hm, smul_smul, ← neg_smul, map_smul, ← toRel_one,
    fromRel_toRel]

theorem angular1_zero (n l : ℕ) (m : ℤ) : angular1 0 (one n l m) = (m : ℝ) • one n l m := by
  rw [← fromRel_toRel (angular1 0 (one n l m)), toRel_angular, toRel_one, angular_zero, turnZero_single, map_smul, ← toRel_one, fromRel_toRel]

theorem angular1_down (n l : ℕ) {m : ℤ} (hm : |m| ≤ l) : angular1 (-1) (one n l m) = (1 / √2 * √(((l : ℝ) + m) * (l - m + 1))) • one n l (m - 1) := by
  rw [← fromRel_toRel (angular1 (-1) (one n l m)), toRel_angular, toRel_one, angular_down, turnDown_single _ _ hm, smul_smul, map_smul, ← toRel_one,
    fromRel_toRel]

/-- The action of the angular momentum, by its matrix. -/
theorem angular1_apply {q : ℤ} (hq : q ∈ Finset.Icc (-1 : ℤ) 1) (n l : ℕ) {m : ℤ} (hm : m ∈ Finset.Icc (-(l : ℤ)) l) :
    angular1 q (one n l m) = ∑ k ∈ Finset.Icc (-(l : ℤ)) l, jmat (2 * l) (2 * q) (2 * k) (2 * m) • one n l k := by
  have hm' : |m| ≤ l := abs_le.mpr (Finset.mem_Icc.mp hm)
  have key : ∀ (f : ℤ → ℝ) (c : ℝ) (k0 : ℤ), (∀ k, f k = c * if k = k0 then 1 else 0) →
      ∑ k ∈ Finset.Icc (-(l : ℤ)) l, f k • one n l k = c • one n l k0 := by
    intro f c k0 hf
    by_cases h : k0 ∈ Finset.Icc (-(l : ℤ)) l
    · rw [Finset.sum_eq_single_of_mem k0 h fun k _ hk => by rw [hf, if_neg hk, mul_zero, zero_smul], hf, if_pos rfl, mul_one]
    · have h0 : one n l k0 = 0 := osc_out (by rw [Finset.mem_Icc, ← abs_le] at h; exact not_le.mp h) _ _ _
      rw [h0, smul_zero, Finset.sum_eq_zero]
      intro k hk
      rw [hf, if_neg (by rintro rfl; exact h hk), mul_zero, zero_smul]
  rw [Finset.mem_Icc] at hq
  obtain rfl | rfl | rfl : q = 1 ∨ q = 0 ∨ q = -1 := by omega
  · rw [angular1_up n l hm', key _ _ _ fun k => jmat_up l k m]
  · rw [angular1_zero, key _ _ _ fun k => jmat_zero l k m]
  · rw [angular1_down n l hm', key _ _ _ fun k => jmat_down l k m]

/-! ## The amplitude of the creation of a quantum -/

/-- The reduced element of the spherical harmonic `C_1` between orbital angular momenta, in Rose's convention. -/
noncomputable def harmonic1 (l' l : ℕ) : ℝ := √(2 * l + 1) / √(2 * l' + 1) * cgd (2 * l) 0 2 0 (2 * l') 0

theorem harmonic1_up (l : ℕ) : harmonic1 (l + 1) l = √(((l : ℝ) + 1) / (2 * l + 3)) := by
  have h := cg1_eq (l := l) (l' := l + 1) (.inl rfl) 0 (μ := 0) (by decide)
  rw [cg_even, cg1, if_neg (by simp; omega), if_pos rfl, if_neg (by decide), if_pos rfl] at h
  simp only [mul_zero, Nat.cast_ofNat, add_zero, mul_one] at h
  rw [harmonic1, ← h]
  push_cast
  rw [← Real.sqrt_div (by positivity), ← Real.sqrt_mul (by positivity)]
  congr 1
  field_simp
  ring

theorem harmonic1_down (l : ℕ) : harmonic1 l (l + 1) = -√(((l : ℝ) + 1) / (2 * l + 1)) := by
  have h := cg1_eq (l := l + 1) (l' := l) (.inr rfl) 0 (μ := 0) (by decide)
  rw [cg_even, cg1, if_neg (by simp; omega), if_neg (by omega), if_pos rfl, if_neg (by decide), if_pos rfl] at h
  simp only [mul_zero, Nat.cast_ofNat, add_zero, mul_one] at h
  rw [harmonic1, ← h]
  push_cast
  rw [← Real.sqrt_div (by positivity), mul_neg, ← Real.sqrt_mul (by positivity)]
  congr 2
  field_simp
  ring

end Verif.Separable
