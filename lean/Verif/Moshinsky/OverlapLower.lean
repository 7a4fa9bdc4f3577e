import Verif.Moshinsky.Overlap

/-!
# The overlaps satisfy the recursion of the program
-/

namespace Verif.Moshinsky.Osc
open MvPolynomial

/-! ## The annihilation operators of the first particle -/

/-- The index of a spherical component. -/
def comp (μ : ℤ) : Fin 3 := if μ = 1 then 0 else if μ = 0 then 1 else 2

/-- `√2` times an annihilation operator of the first particle. -/
noncomputable def E (μ : ℤ) : Derivation ℝ Two Two := (√2 : ℝ) • pderiv (0, comp μ)

theorem sqrt2 : √2 * (1 / √2 : ℝ) = 1 := by
  rw [mul_one_div, div_self]
  positivity

theorem E_apply (μ : ℤ) (u : Two) : E μ u = √2 • pderiv (0, comp μ) u := rfl

theorem pderiv_first (μ : ℤ) (i : Fin 3) : pderiv ((0 : Fin 2), comp μ) (first i) = if i = comp μ then (1 : Two) else 0 := by
  classical
  rw [first, pderiv_X]
  by_cases h : i = comp μ
  · subst h
    simp
  · rw [if_neg h, Pi.single_eq_of_ne]
    intro h'
    exact h (by simpa using (Prod.ext_iff.mp h').2)

theorem pderiv_second (μ : ℤ) (i : Fin 3) : pderiv ((0 : Fin 2), comp μ) (second i) = (0 : Two) := by
  classical
  rw [second, pderiv_X, Pi.single_eq_of_ne]
  intro h
  exact absurd (Prod.ext_iff.mp h).1 (by simp)

theorem E_relative (μ : ℤ) (i : Fin 3) : E μ (relative i) = if i = comp μ then (1 : Two) else 0 := by
  rw [E_apply, relative, Derivation.map_smul, map_sub, pderiv_first, pderiv_second, sub_zero, smul_smul, sqrt2, one_smul]

theorem E_centre (μ : ℤ) (i : Fin 3) : E μ (centre i) = if i = comp μ then (1 : Two) else 0 := by
  rw [E_apply, centre, Derivation.map_smul, map_add, pderiv_first, pderiv_second, add_zero, smul_smul, sqrt2, one_smul]

theorem E_partial {c : Fin 3 → Two} (h : ∀ μ i, E μ (c i) = if i = comp μ then (1 : Two) else 0) {μ : ℤ}
    (hμ : μ = 1 ∨ μ = 0 ∨ μ = -1) : IsPartial (E μ) μ (c 0) (c 1) (c 2) := by
  constructor <;> rw [h] <;> rcases hμ with rfl | rfl | rfl <;> simp [comp]

/-- The scalar product of two annihilation operators of the first particle. -/
noncomputable def lap (u : Two) : Two :=
  pderiv (0, (1 : Fin 3)) (pderiv (0, (1 : Fin 3)) u) - (2 : ℝ) • pderiv (0, (0 : Fin 3)) (pderiv (0, (2 : Fin 3)) u)

theorem fock_sub_left {σ : Type*} [Fintype σ] (u u' v : MvPolynomial σ ℝ) : fock (u - u') v = fock u v - fock u' v := by
  simp only [← fockL_apply, map_sub, LinearMap.sub_apply]

theorem fock_sub_right {σ : Type*} [Fintype σ] (u v v' : MvPolynomial σ ℝ) : fock u (v - v') = fock u v - fock u v' := by
  simp only [← fockL_apply, map_sub]

theorem fock_rr (u v : Two) : fock u (rr (first 0) (first 1) (first 2) * v) = fock (lap u) v := by
  rw [rr, sub_mul, fock_sub_right, lap, fock_sub_left, mul_assoc, first, first, first, fock_X_right, fock_X_right,
    show (2 : Two) * (X (0, 0) * X (0, 2)) * v = (2 : ℝ) • (X (0, 2) * (X (0, 0) * v)) by
      rw [smul_eq_C_mul, show (C (2 : ℝ) : Two) = 2 from map_ofNat C 2]
      ring,
    fock_smul_right, fock_smul_left, fock_X_right, fock_X_right]

/-- Twice the scalar product, applied to a product of states. -/
theorem lap_mul (f g : Two) : (2 : ℝ) • lap (f * g) =
    (E 0 (E 0 f) - (2 : ℝ) • E 1 (E (-1) f)) * g + f * (E 0 (E 0 g) - (2 : ℝ) • E 1 (E (-1) g)) +
      (2 : ℝ) • ∑ μ ∈ ({1, 0, -1} : Finset ℤ), sgn μ • (E μ f * E (-μ) g) := by
  have h2 : √2 * √2 = (2 : ℝ) := Real.mul_self_sqrt (by norm_num)
  have hs : ∑ μ ∈ ({1, 0, -1} : Finset ℤ), sgn μ • (E μ f * E (-μ) g) = -(E 1 f * E (-1) g) + E 0 f * E 0 g - E (-1) f * E 1 g := by
    rw [Finset.sum_insert (by decide), Finset.sum_insert (by decide), Finset.sum_singleton]
    have s1 : sgn 1 = -1 := by unfold sgn; norm_num
    have s0 : sgn 0 = 1 := by unfold sgn; norm_num
    have s2 : sgn (-1) = -1 := by unfold sgn; norm_num
    rw [s1, s0, s2, neg_neg, neg_zero]
    module
  rw [hs, lap]
  simp only [E_apply, Derivation.map_smul, smul_smul, h2]
  rw [show comp 0 = 1 from rfl, show comp 1 = 0 from rfl, show comp (-1) = 2 from rfl]
  simp only [Derivation.leibniz, map_add, smul_eq_mul, smul_mul_smul_comm, h2]
  simp only [MvPolynomial.smul_eq_C_mul, map_mul, show (C (2 : ℝ) : Two) = 2 from map_ofNat C 2]
  ring

/-! ## The two ways of annihilating a quantum -/

/-- The amplitude of one of the two ways: with `s` the number of nodes decreases. -/
noncomputable def lowF (s : Bool) (n l : ℕ) : ℝ :=
  if s then (if n = 0 then 0 else dnR (n - 1) (l + 1)) else (if l = 0 then 0 else upR n (l - 1))
/-- The number of nodes left. -/
def lowN (s : Bool) (n : ℕ) : ℕ := if s then n - 1 else n
/-- The angular momentum left. -/
def lowL (s : Bool) (l : ℕ) : ℕ := if s then l + 1 else l - 1

theorem lower_eq {V : Type*} [AddCommGroup V] [Module ℝ V] (w : ℕ → ℕ → ℤ → V) (n l : ℕ) (m μ : ℤ) :
    lower w n l m μ = ∑ s : Bool, (lowF s n l * cg1 (lowL s l) (m - μ) μ l) • w (lowN s n) (lowL s l) (m - μ) := by
  rw [Fintype.sum_bool, lower, add_comm]
  congr 1
  · by_cases h : n = 0 <;> simp [lowF, lowL, lowN, h]
  · by_cases h : l = 0 <;> simp [lowF, lowL, lowN, h]

theorem lowF_adjacent {s : Bool} {n l : ℕ} (h : lowF s n l ≠ 0) : Adjacent l (lowL s l) := by
  cases s
  · right
    have : l ≠ 0 := fun h0 => h (by simp [lowF, h0])
    simp only [lowL]
    simp
    omega
  · left
    simp [lowL]

theorem couple_add {V : Type*} [AddCommGroup V] [Module ℝ V] (C : Coupling) (l1 l2 Λ : ℕ) (M : ℤ) (v w : ℤ → ℤ → V) :
    couple C l1 l2 Λ M (fun a b => v a b + w a b) = couple C l1 l2 Λ M v + couple C l1 l2 Λ M w := by
  simp only [couple, smul_add, Finset.sum_add_distrib]

theorem couple_smul {V : Type*} [AddCommGroup V] [Module ℝ V] (C : Coupling) (l1 l2 Λ : ℕ) (M : ℤ) (c : ℝ) (w : ℤ → ℤ → V) :
    couple C l1 l2 Λ M (fun a b => c • w a b) = c • couple C l1 l2 Λ M w := by
  simp only [couple, Finset.smul_sum, smul_comm c]

theorem couple_map {V W : Type*} [AddCommGroup V] [Module ℝ V] [AddCommGroup W] [Module ℝ W] (f : V →ₗ[ℝ] W) (C : Coupling)
    (l1 l2 Λ : ℕ) (M : ℤ) (w : ℤ → ℤ → V) : f (couple C l1 l2 Λ M w) = couple C l1 l2 Λ M fun a b => f (w a b) := by
  simp only [couple, map_sum, map_smul]

theorem couple_sum {V ι : Type*} [AddCommGroup V] [Module ℝ V] (C : Coupling) (l1 l2 Λ : ℕ) (M : ℤ) (S : Finset ι)
    (w : ι → ℤ → ℤ → V) : couple C l1 l2 Λ M (fun a b => ∑ i ∈ S, w i a b) = ∑ i ∈ S, couple C l1 l2 Λ M (w i) := by
  simp only [couple, Finset.smul_sum]
  rw [Finset.sum_congr rfl fun m1 _ => Finset.sum_comm, Finset.sum_comm]

/-- Coupling after the scalar product of two annihilation operators, one for each oscillator. -/
theorem couple_cross {C : Coupling} {sixj : Int → Int → Int → Int → Int → Int → ℝ} {Λ : ℕ} {M : ℤ} (hC : Recouples C sixj Λ M)
    (F G : ℕ → ℕ → ℤ → Two) (n1 l1 n2 l2 : ℕ) :
    couple C l1 l2 Λ M (fun m1 m2 => ∑ μ ∈ ({1, 0, -1} : Finset ℤ), sgn μ • (lower F n1 l1 m1 μ * lower G n2 l2 m2 (-μ))) =
      ∑ s1 : Bool, ∑ s2 : Bool, (lowF s1 n1 l1 * lowF s2 n2 l2 * (sgn (lowL s1 l1 + l2 + Λ) * √((2 * l1 + 1) * (2 * l2 + 1)) *
        sixj l1 (lowL s1 l1) 1 (lowL s2 l2) l2 Λ)) •
        couple C (lowL s1 l1) (lowL s2 l2) Λ M (fun m1 m2 => F (lowN s1 n1) (lowL s1 l1) m1 * G (lowN s2 n2) (lowL s2 l2) m2) := by
  have h1 : (fun m1 m2 => ∑ μ ∈ ({1, 0, -1} : Finset ℤ), sgn μ • (lower F n1 l1 m1 μ * lower G n2 l2 m2 (-μ))) =
      fun m1 m2 => ∑ s1 : Bool, ∑ s2 : Bool, (lowF s1 n1 l1 * lowF s2 n2 l2) • ∑ μ ∈ ({1, 0, -1} : Finset ℤ),
        (sgn μ * cg1 (lowL s1 l1) (m1 - μ) μ l1 * cg1 (lowL s2 l2) (m2 - -μ) (-μ) l2) •
          (F (lowN s1 n1) (lowL s1 l1) (m1 - μ) * G (lowN s2 n2) (lowL s2 l2) (m2 - -μ)) := by
    funext m1 m2
    simp only [Finset.smul_sum]
    rw [Finset.sum_congr rfl fun s1 _ => Finset.sum_comm, Finset.sum_comm]
    refine Finset.sum_congr rfl fun μ _ => ?_
    rw [lower_eq, lower_eq, Finset.sum_mul, Finset.smul_sum]
    refine Finset.sum_congr rfl fun s1 _ => ?_
    rw [Finset.mul_sum, Finset.smul_sum]
    refine Finset.sum_congr rfl fun s2 _ => ?_
    rw [smul_mul_smul_comm, smul_smul, smul_smul]
    congr 1
    ring
  rw [h1, couple_sum]
  refine Finset.sum_congr rfl fun s1 _ => ?_
  rw [couple_sum]
  refine Finset.sum_congr rfl fun s2 _ => ?_
  rw [couple_smul]
  by_cases hs : lowF s1 n1 l1 * lowF s2 n2 l2 = 0
  · rw [hs, zero_mul, zero_smul, zero_smul]
  · rw [couple_recouple hC (lowF_adjacent (left_ne_zero_of_mul hs)) (lowF_adjacent (right_ne_zero_of_mul hs))
      (fun a b => F (lowN s1 n1) (lowL s1 l1) a * G (lowN s2 n2) (lowL s2 l2) b), smul_smul]

/-- Twice the scalar product of two annihilation operators of the first particle on a state of relative and centre-of-mass
motion. -/
theorem lap_coupled {C : Coupling} {sixj : Int → Int → Int → Int → Int → Int → ℝ} {Λ : ℕ} {M : ℤ} (hC : Recouples C sixj Λ M)
    (n1 l1 n2 l2 : ℕ) : (2 : ℝ) • lap (coupledState C relative centre n1 l1 n2 l2 Λ M) =
      (if n1 = 0 then 0 else (-nodeR (n1 - 1) l1) • coupledState C relative centre (n1 - 1) l1 n2 l2 Λ M) +
      (if n2 = 0 then 0 else (-nodeR (n2 - 1) l2) • coupledState C relative centre n1 l1 (n2 - 1) l2 Λ M) +
      (2 : ℝ) • ∑ s1 : Bool, ∑ s2 : Bool, (lowF s1 n1 l1 * lowF s2 n2 l2 * (sgn (lowL s1 l1 + l2 + Λ) *
        √((2 * l1 + 1) * (2 * l2 + 1)) * sixj l1 (lowL s1 l1) 1 (lowL s2 l2) l2 Λ)) •
        coupledState C relative centre (lowN s1 n1) (lowL s1 l1) (lowN s2 n2) (lowL s2 l2) Λ M := by
  have hr : ∀ μ i, E μ (relative i) = if i = comp μ then (1 : Two) else 0 := E_relative
  have hc : ∀ μ i, E μ (centre i) = if i = comp μ then (1 : Two) else 0 := E_centre
  let L : Two →ₗ[ℝ] Two := (2 : ℝ) • (((pderiv (0, (1 : Fin 3))).toLinearMap ∘ₗ (pderiv (0, (1 : Fin 3))).toLinearMap) -
    (2 : ℝ) • ((pderiv (0, (0 : Fin 3))).toLinearMap ∘ₗ (pderiv (0, (2 : Fin 3))).toLinearMap))
  have hL : ∀ u, (2 : ℝ) • lap u = L u := fun u => rfl
  have key : ∀ m1 m2, L (single relative n1 l1 m1 * single centre n2 l2 m2) =
      (if n1 = 0 then 0 else (-nodeR (n1 - 1) l1) • (single relative (n1 - 1) l1 m1 * single centre n2 l2 m2)) +
      (if n2 = 0 then 0 else (-nodeR (n2 - 1) l2) • (single relative n1 l1 m1 * single centre (n2 - 1) l2 m2)) +
      (2 : ℝ) • ∑ μ ∈ ({1, 0, -1} : Finset ℤ), sgn μ •
        (lower (single relative) n1 l1 m1 μ * lower (single centre) n2 l2 m2 (-μ)) := by
    intro m1 m2
    rw [← hL, lap_mul, single, single,
      laplace_osc (E_partial hr (Or.inl rfl)) (E_partial hr (Or.inr (Or.inl rfl))) (E_partial hr (Or.inr (Or.inr rfl))),
      laplace_osc (E_partial hc (Or.inl rfl)) (E_partial hc (Or.inr (Or.inl rfl))) (E_partial hc (Or.inr (Or.inr rfl)))]
    congr 1
    · congr 1
      · split_ifs
        · exact zero_mul _
        · rw [smul_mul_assoc]
          rfl
      · split_ifs
        · exact mul_zero _
        · rw [mul_smul_comm]
          rfl
    · congr 1
      refine Finset.sum_congr rfl fun μ hμ => ?_
      have h1 : μ = 1 ∨ μ = 0 ∨ μ = -1 := by simpa using hμ
      have h2 : -μ = 1 ∨ -μ = 0 ∨ -μ = -1 := by omega
      rw [D_osc h1 (E_partial hr h1), D_osc h2 (E_partial hc h2)]
      rfl
  rw [hL, coupledState, couple_map]
  simp only [key]
  rw [couple_add, couple_add, couple_smul, couple_cross hC]
  congr 2
  · split_ifs
    · simp [couple]
    · rw [couple_smul]
      rfl
  · split_ifs
    · simp [couple]
    · rw [couple_smul]
      rfl

/-- Adding two quanta coupled to zero to the first particle. -/
theorem rr_coupled (C : Coupling) (n1 l1 n2 l2 Λ : ℕ) (M : ℤ) :
    rr (first 0) (first 1) (first 2) * coupledState C first second n1 l1 n2 l2 Λ M =
      (-nodeR n1 l1) • coupledState C first second (n1 + 1) l1 n2 l2 Λ M := by
  rw [coupledState, coupledState, ← couple_smul, show rr (first 0) (first 1) (first 2) * couple C l1 l2 Λ M
    (fun m1 m2 => single first n1 l1 m1 * single second n2 l2 m2) = LinearMap.mulLeft ℝ (rr (first 0) (first 1) (first 2))
      (couple C l1 l2 Λ M (fun m1 m2 => single first n1 l1 m1 * single second n2 l2 m2)) from rfl, couple_map]
  congr 1
  funext m1 m2
  rw [LinearMap.mulLeft_apply, ← mul_assoc, single, rr_osc, smul_mul_assoc]
  rfl

/-- The recursion for overlaps. -/
theorem overlap_lower {C : Coupling} {sixj : Int → Int → Int → Int → Int → Int → ℝ} {Λ : ℕ} {M : ℤ} (hC : Recouples C sixj Λ M)
    (n1d l1d n2d l2d n1 l1 n2 l2 : ℕ) : (-2 * nodeR n1 l1) * overlap C n1d l1d n2d l2d (n1 + 1) l1 n2 l2 Λ M =
      (if n1d = 0 then 0 else -nodeR (n1d - 1) l1d * overlap C (n1d - 1) l1d n2d l2d n1 l1 n2 l2 Λ M) +
      (if n2d = 0 then 0 else -nodeR (n2d - 1) l2d * overlap C n1d l1d (n2d - 1) l2d n1 l1 n2 l2 Λ M) +
      2 * ∑ s1 : Bool, ∑ s2 : Bool, (lowF s1 n1d l1d * lowF s2 n2d l2d * (sgn (lowL s1 l1d + l2d + Λ) *
        √((2 * l1d + 1) * (2 * l2d + 1)) * sixj l1d (lowL s1 l1d) 1 (lowL s2 l2d) l2d Λ)) *
        overlap C (lowN s1 n1d) (lowL s1 l1d) (lowN s2 n2d) (lowL s2 l2d) n1 l1 n2 l2 Λ M := by
  have h : (-2 * nodeR n1 l1) * overlap C n1d l1d n2d l2d (n1 + 1) l1 n2 l2 Λ M =
      fock ((2 : ℝ) • lap (coupledState C relative centre n1d l1d n2d l2d Λ M)) (coupledState C first second n1 l1 n2 l2 Λ M) := by
    rw [fock_smul_left, ← fock_rr, rr_coupled, fock_smul_right, overlap]
    ring
  rw [h, lap_coupled hC, fock_add_left, fock_add_left, fock_smul_left]
  congr 1
  · congr 1
    · split_ifs
      · simp [fock]
      · rw [fock_smul_left]
        rfl
    · split_ifs
      · simp [fock]
      · rw [fock_smul_left]
        rfl
  · congr 1
    simp only [← fockL_apply, map_sum, LinearMap.sum_apply, map_smul, LinearMap.smul_apply, smul_eq_mul]
    rfl

end Verif.Moshinsky.Osc
