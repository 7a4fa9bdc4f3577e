import Verif.Mixer.Joined

/-!
# The operators of `h2mixer` and of `moshinsky`

Operators on each nucleon, written in the two descriptions of two nucleons.
-/

namespace Verif.Mixer
open Verif Verif.Mapping Verif.Xform Verif.Obme Verif.Separable Verif.SU2 MvPolynomial
open Verif.Moshinsky (Nucl onMotion onSpin onIsospin proj position momentum separation relMomentum distanceSq angular)
open Verif.Moshinsky.Osc (One Two onFirst onSecond comp D_first_first D_second_first D_first_second D_second_second)
open Verif.Relative (jmat)
open scoped TensorProduct

/-- Operators on two nucleons. -/
abbrev Op2 := Nucleon ⊗[ℝ] Nucleon →ₗ[ℝ] Nucleon ⊗[ℝ] Nucleon

/-- `O2` and `O` are the same operator in the two descriptions. -/
def Joins (O2 : Op2) (O : Nucl →ₗ[ℝ] Nucl) : Prop := joined ∘ₗ O2 = O ∘ₗ joined

/-- An operator on the first nucleon. -/
noncomputable def atFirst (U : Nucleon →ₗ[ℝ] Nucleon) : Op2 := TensorProduct.map U LinearMap.id

/-- An operator on the second nucleon. -/
noncomputable def atSecond (U : Nucleon →ₗ[ℝ] Nucleon) : Op2 := TensorProduct.map LinearMap.id U

section
variable {O2 O2' : Op2} {O O' : Nucl →ₗ[ℝ] Nucl}

theorem Joins.apply (h : Joins O2 O) (x : Nucleon ⊗[ℝ] Nucleon) : joined (O2 x) = O (joined x) := LinearMap.congr_fun h x

theorem Joins.add (h : Joins O2 O) (h' : Joins O2' O') : Joins (O2 + O2') (O + O') :=
  LinearMap.ext fun x => by
    simp only [LinearMap.comp_apply, LinearMap.add_apply, map_add, h.apply, h'.apply]

theorem Joins.sub (h : Joins O2 O) (h' : Joins O2' O') : Joins (O2 - O2') (O - O') :=
  LinearMap.ext fun x => by
    simp only [LinearMap.comp_apply, LinearMap.sub_apply, map_sub, h.apply, h'.apply]

theorem Joins.smul (h : Joins O2 O) (r : ℝ) : Joins (r • O2) (r • O) :=
  LinearMap.ext fun x => by
    simp only [LinearMap.comp_apply, LinearMap.smul_apply, map_smul, h.apply]

theorem Joins.comp (h : Joins O2 O) (h' : Joins O2' O') : Joins (O2 ∘ₗ O2') (O ∘ₗ O') :=
  LinearMap.ext fun x => by
    simp only [LinearMap.comp_apply, h.apply, h'.apply]

theorem Joins.zero : Joins 0 0 := LinearMap.ext fun x => by simp

theorem Joins.id : Joins LinearMap.id LinearMap.id := rfl

theorem joins_tmul (h : ∀ u v σ σ' τ τ', joined (O2 (u ⊗ₜ v)) σ σ' τ τ' = O (joined (u ⊗ₜ v)) σ σ' τ τ') : Joins O2 O :=
  TensorProduct.ext' fun u v => by
    funext σ σ' τ τ'
    exact h u v σ σ' τ τ'

end

/-! ## Spins and isospins -/

theorem joins_spin_first (K : ℤ → ℤ → ℝ) : Joins (atFirst (onSpin1 K)) (onSpin 0 K) := joins_tmul fun u v σ σ' τ τ' => by
  simp only [atFirst, TensorProduct.map_tmul, joined_tmul, LinearMap.id_apply, onSpin1_apply, onSpin, LinearMap.coe_mk, AddHom.coe_mk, if_true, map_sum, map_smul,
    Finset.sum_mul, smul_mul_assoc]

theorem joins_spin_second (K : ℤ → ℤ → ℝ) : Joins (atSecond (onSpin1 K)) (onSpin 1 K) := joins_tmul fun u v σ σ' τ τ' => by
  have h : ¬(1 : Fin 2) = 0 := by decide
  simp only [atSecond, TensorProduct.map_tmul, joined_tmul, LinearMap.id_apply, onSpin1_apply, onSpin, LinearMap.coe_mk, AddHom.coe_mk, if_neg h, map_sum, map_smul,
    Finset.mul_sum, mul_smul_comm]

theorem joins_isospin_first (K : ℤ → ℤ → ℝ) : Joins (atFirst (onIsospin1 K)) (onIsospin 0 K) := joins_tmul fun u v σ σ' τ τ' => by
  simp only [atFirst, TensorProduct.map_tmul, joined_tmul, LinearMap.id_apply, onIsospin1_apply, onIsospin, LinearMap.coe_mk, AddHom.coe_mk, if_true, map_sum, map_smul,
    Finset.sum_mul, smul_mul_assoc]

theorem joins_isospin_second (K : ℤ → ℤ → ℝ) : Joins (atSecond (onIsospin1 K)) (onIsospin 1 K) := joins_tmul fun u v σ σ' τ τ' => by
  have h : ¬(1 : Fin 2) = 0 := by decide
  simp only [atSecond, TensorProduct.map_tmul, joined_tmul, LinearMap.id_apply, onIsospin1_apply, onIsospin, LinearMap.coe_mk, AddHom.coe_mk, if_neg h, map_sum, map_smul,
    Finset.mul_sum, mul_smul_comm]

/-! ## Motion -/

theorem joins_motion_first {F : One →ₗ[ℝ] One} {G : Two →ₗ[ℝ] Two} (h : ∀ a b, G (onFirst a * onSecond b) = onFirst (F a) * onSecond b) :
    Joins (atFirst (onMotion1 F)) (onMotion G) := joins_tmul fun u v σ σ' τ τ' => by
  simp only [atFirst, TensorProduct.map_tmul, joined_tmul, LinearMap.id_apply, onMotion1_apply, onMotion, LinearMap.coe_mk, AddHom.coe_mk, h]

theorem joins_motion_second {F : One →ₗ[ℝ] One} {G : Two →ₗ[ℝ] Two} (h : ∀ a b, G (onFirst a * onSecond b) = onFirst a * onSecond (F b)) :
    Joins (atSecond (onMotion1 F)) (onMotion G) := joins_tmul fun u v σ σ' τ τ' => by
  simp only [atSecond, TensorProduct.map_tmul, joined_tmul, LinearMap.id_apply, onMotion1_apply, onMotion, LinearMap.coe_mk, AddHom.coe_mk, h]

theorem derive_first (i : Fin 3) (a b : One) : pderiv (0, i) (onFirst a * onSecond b) = onFirst (pderiv i a) * onSecond b := by
  rw [Derivation.leibniz, D_first_first, D_first_second, smul_zero, zero_add, smul_eq_mul, mul_comm]

theorem derive_second (i : Fin 3) (a b : One) : pderiv (1, i) (onFirst a * onSecond b) = onFirst a * onSecond (pderiv i b) := by
  rw [Derivation.leibniz, D_second_second, D_second_first, smul_zero, add_zero, smul_eq_mul]

theorem onFirst_X (i : Fin 3) : onFirst (X i) = X (0, i) := by rw [onFirst, rename_X]

theorem onSecond_X (i : Fin 3) : onSecond (X i) = X (1, i) := by rw [onSecond, rename_X]

theorem position_first (μ : ℤ) (a b : One) : position 0 μ (onFirst a * onSecond b) = onFirst (position1 μ a) * onSecond b := by
  simp only [position, position1, create, annihilate, LinearMap.smul_apply, LinearMap.add_apply, LinearMap.mulLeft_apply, Derivation.coeFn_coe, derive_first, map_smul,
    map_add, map_mul, onFirst_X, smul_mul_assoc, add_mul, mul_assoc]

theorem position_second (μ : ℤ) (a b : One) : position 1 μ (onFirst a * onSecond b) = onFirst a * onSecond (position1 μ b) := by
  simp only [position, position1, create, annihilate, LinearMap.smul_apply, LinearMap.add_apply, LinearMap.mulLeft_apply, Derivation.coeFn_coe, derive_second, map_smul,
    map_add, map_mul, onSecond_X, mul_smul_comm, mul_add, mul_left_comm]

theorem momentum_first (μ : ℤ) (a b : One) : momentum 0 μ (onFirst a * onSecond b) = onFirst (momentum1 μ a) * onSecond b := by
  simp only [momentum, momentum1, create, annihilate, LinearMap.smul_apply, LinearMap.sub_apply, LinearMap.mulLeft_apply, Derivation.coeFn_coe, derive_first, map_smul,
    map_sub, map_mul, onFirst_X, smul_mul_assoc, sub_mul, mul_assoc]

theorem momentum_second (μ : ℤ) (a b : One) : momentum 1 μ (onFirst a * onSecond b) = onFirst a * onSecond (momentum1 μ b) := by
  simp only [momentum, momentum1, create, annihilate, LinearMap.smul_apply, LinearMap.sub_apply, LinearMap.mulLeft_apply, Derivation.coeFn_coe, derive_second, map_smul,
    map_sub, map_mul, onSecond_X, mul_smul_comm, mul_sub, mul_left_comm]

theorem onMotion_sub (F G : Two →ₗ[ℝ] Two) : onMotion (F - G) = onMotion F - onMotion G := rfl

theorem onMotion_smul (c : ℝ) (F : Two →ₗ[ℝ] Two) : onMotion (c • F) = c • onMotion F := rfl

theorem onMotion_comp (F G : Two →ₗ[ℝ] Two) : onMotion (F ∘ₗ G) = onMotion F ∘ₗ onMotion G := rfl

theorem onMotion1_comp (F G : One →ₗ[ℝ] One) : onMotion1 (F ∘ₗ G) = onMotion1 F ∘ₗ onMotion1 G := by
  refine LinearMap.ext fun u => ?_
  funext σ τ
  simp only [onMotion1_apply, LinearMap.comp_apply]

theorem onMotion1_sub (F G : One →ₗ[ℝ] One) : onMotion1 (F - G) = onMotion1 F - onMotion1 G := by
  refine LinearMap.ext fun u => ?_
  funext σ τ
  simp only [onMotion1_apply, LinearMap.sub_apply, Pi.sub_apply]

/-- The vector from the second nucleon to the first. -/
noncomputable def apart (μ : ℤ) : Op2 := atFirst (onMotion1 (position1 μ)) - atSecond (onMotion1 (position1 μ))

/-- The relative momentum. -/
noncomputable def drift (μ : ℤ) : Op2 := (1 / 2 : ℝ) • (atFirst (onMotion1 (momentum1 μ)) - atSecond (onMotion1 (momentum1 μ)))

theorem joins_apart (μ : ℤ) : Joins (apart μ) (onMotion (separation μ)) := by
  rw [separation, onMotion_sub]
  exact (joins_motion_first (position_first μ)).sub (joins_motion_second (position_second μ))

theorem joins_drift (μ : ℤ) : Joins (drift μ) (onMotion (relMomentum μ)) := by
  rw [relMomentum, onMotion_smul, onMotion_sub]
  exact ((joins_motion_first (momentum_first μ)).sub (joins_motion_second (momentum_second μ))).smul _

/-- The square of the distance. -/
noncomputable def gap : Op2 := apart 0 ∘ₗ apart 0 - apart 1 ∘ₗ apart (-1) - apart (-1) ∘ₗ apart 1

theorem joins_gap : Joins gap (onMotion distanceSq) := by
  rw [distanceSq, onMotion_sub, onMotion_sub, onMotion_comp, onMotion_comp, onMotion_comp]
  exact (((joins_apart 0).comp (joins_apart 0)).sub ((joins_apart 1).comp (joins_apart (-1)))).sub ((joins_apart (-1)).comp (joins_apart 1))

/-- The relative angular momentum. -/
noncomputable def swirl (q : ℤ) : Op2 :=
  if q = 1 then apart 1 ∘ₗ drift 0 - apart 0 ∘ₗ drift 1
  else if q = 0 then apart 1 ∘ₗ drift (-1) - apart (-1) ∘ₗ drift 1
  else apart 0 ∘ₗ drift (-1) - apart (-1) ∘ₗ drift 0

theorem joins_swirl (q : ℤ) : Joins (swirl q) (onMotion (angular q)) := by
  unfold swirl angular
  split_ifs <;> rw [onMotion_sub, onMotion_comp, onMotion_comp]
  · exact ((joins_apart 1).comp (joins_drift 0)).sub ((joins_apart 0).comp (joins_drift 1))
  · exact ((joins_apart 1).comp (joins_drift (-1))).sub ((joins_apart (-1)).comp (joins_drift 1))
  · exact ((joins_apart 0).comp (joins_drift (-1))).sub ((joins_apart (-1)).comp (joins_drift 0))

/-! ## Coupled products -/

theorem cg_dot (u v : ℤ) (hu : u ∈ projs 2) (hv : v ∈ projs 2) : √3 * cgd 2 u 2 v 0 0 = if u = -v then (if v = 0 then -1 else 1) else 0 := by
  have t := cgd_turn 0 0 2 (-v) 2 u
  rw [neg_neg, cgd_exchange 0, show ((2 : ℕ) : ℝ) + 1 = 3 by norm_num, show ((0 : ℕ) : ℝ) + 1 = 1 by norm_num, Real.sqrt_one] at t
  rw [t]
  rw [mem_projs] at hv
  by_cases h : u = -v
  · subst h
    rw [cgd_scalar (by rw [mem_projs]; omega), if_pos rfl]
    have : v = 0 ∨ v = 2 ∨ v = -2 := by omega
    rcases this with rfl | rfl | rfl <;> norm_num [Moshinsky.sgn]
  · rw [if_neg h, cgd_of_ne (by omega)]
    ring

theorem cg_cross (u v q : ℤ) (hu : u ∈ projs 2) (hv : v ∈ projs 2) (hq : q ∈ projs 2) : √2 * cgd 2 u 2 v 2 q = jmat 2 v q u := by
  have := Relative.vector_law 2 q (by rw [Relative.ms_eq]; exact hq) v (by rw [Relative.ms_eq]; exact hv) u (by rw [Relative.ms_eq]; exact hu)
  rw [this, show (((2 : ℕ) : ℝ) * ((2 : ℕ) + 2) / 4) = 2 by norm_num, Relative.cgD_nat, mul_comm]

theorem projs_two : projs 2 = {-2, 0, 2} := by decide

theorem dot_eq (X : ℤ → Nucleon →ₗ[ℝ] Nucleon) (Y : ℤ → Nucleon →ₗ[ℝ] Nucleon) : √3 • onEach 1 1 0 X Y 0 =
    TensorProduct.map (X 2) (Y (-2)) + TensorProduct.map (X (-2)) (Y 2) - TensorProduct.map (X 0) (Y 0) := by
  have h : ∀ u ∈ projs 2, ∀ v ∈ projs 2, √3 * cgd 2 u 2 v 0 0 = if u = -v then (if v = 0 then -1 else 1) else 0 := fun u hu v hv => cg_dot u v hu hv
  have e : √3 • onEach 1 1 0 X Y 0 = ∑ u ∈ projs 2, ∑ v ∈ projs 2, (√3 * cgd 2 u 2 v 0 0) • TensorProduct.map (X u) (Y v) := by
    rw [onEach]
    simp only [Finset.smul_sum, smul_smul, mul_one, mul_zero]
  rw [e, Finset.sum_congr rfl fun u hu => Finset.sum_congr rfl fun v hv => by rw [h u hu v hv], projs_two]
  rw [Finset.sum_insert (by decide), Finset.sum_pair (by decide)]
  simp only [Finset.sum_insert (show (-2 : ℤ) ∉ ({0, 2} : Finset ℤ) by decide), Finset.sum_pair (show (0 : ℤ) ≠ 2 by decide)]
  norm_num
  module

theorem cross_eq (X : ℤ → Nucleon →ₗ[ℝ] Nucleon) (Y : ℤ → Nucleon →ₗ[ℝ] Nucleon) {q : ℤ} (hq : q ∈ projs 2) : √2 • onEach 1 1 1 X Y q =
    if q = 2 then TensorProduct.map (X 2) (Y 0) - TensorProduct.map (X 0) (Y 2)
    else if q = 0 then TensorProduct.map (X 2) (Y (-2)) - TensorProduct.map (X (-2)) (Y 2)
    else TensorProduct.map (X 0) (Y (-2)) - TensorProduct.map (X (-2)) (Y 0) := by
  have e : √2 • onEach 1 1 1 X Y q = ∑ u ∈ projs 2, ∑ v ∈ projs 2, (√2 * cgd 2 u 2 v 2 q) • TensorProduct.map (X u) (Y v) := by
    rw [onEach]
    simp only [Finset.smul_sum, smul_smul, mul_one]
  have s8 : √8 / 2 / √2 = 1 := by
    rw [show (8 : ℝ) = 2 * 2 * 2 by norm_num, Real.sqrt_mul (by norm_num), Real.sqrt_mul_self (by norm_num)]
    field_simp
  rw [e, Finset.sum_congr rfl fun u hu => Finset.sum_congr rfl fun v hv => by rw [cg_cross u v q hu hv hq], projs_two]
  rw [Finset.sum_insert (by decide), Finset.sum_pair (by decide)]
  simp only [Finset.sum_insert (show (-2 : ℤ) ∉ ({0, 2} : Finset ℤ) by decide), Finset.sum_pair (show (0 : ℤ) ≠ 2 by decide)]
  rw [projs_two] at hq
  simp only [Finset.mem_insert, Finset.mem_singleton] at hq
  rcases hq with rfl | rfl | rfl
  all_goals norm_num [jmat, neg_div, s8]
  all_goals module

/-! ## The named operators -/

/-- The position of a nucleon; components doubled. -/
noncomputable def pos1 (q : ℤ) : Nucleon →ₗ[ℝ] Nucleon := onMotion1 (position1 (q / 2))

/-- The gradient of a nucleon; components doubled. -/
noncomputable def grad1 (q : ℤ) : Nucleon →ₗ[ℝ] Nucleon := onMotion1 (gradient1 (q / 2))

theorem gap_eq : gap = onBoth (square pos1) + (2 : ℝ) • √3 • onEach 1 1 0 pos1 pos1 0 := by
  rw [dot_eq]
  refine TensorProduct.ext' fun u v => ?_
  simp only [gap, apart, atFirst, atSecond, onBoth, square, pos1, LinearMap.sub_apply, LinearMap.add_apply, LinearMap.smul_apply, LinearMap.comp_apply, map_sub,
    TensorProduct.map_tmul, LinearMap.id_apply, TensorProduct.tmul_sub, TensorProduct.sub_tmul, show (0 : ℤ) / 2 = 0 by norm_num, show (2 : ℤ) / 2 = 1 by norm_num,
    show (-2 : ℤ) / 2 = -1 by norm_num]
  module

theorem momentum_grad (μ : ℤ) : onMotion1 (momentum1 μ) = -grad1 (2 * μ) := by
  refine LinearMap.ext fun u => ?_
  funext σ τ
  rw [grad1, LinearMap.neg_apply, Pi.neg_apply, Pi.neg_apply, onMotion1_apply, onMotion1_apply, momentum1, gradient1, show 2 * μ / 2 = μ by omega, LinearMap.smul_apply,
    LinearMap.smul_apply, LinearMap.sub_apply, LinearMap.sub_apply]
  module

theorem orbital1_eq (q : ℤ) : orbital1 (2 * q) =
    if q = 1 then pos1 0 ∘ₗ grad1 2 - pos1 2 ∘ₗ grad1 0
    else if q = 0 then pos1 (-2) ∘ₗ grad1 2 - pos1 2 ∘ₗ grad1 (-2)
    else pos1 (-2) ∘ₗ grad1 0 - pos1 0 ∘ₗ grad1 (-2) := by
  have e1 : onMotion1 (momentum1 1) = -grad1 2 := momentum_grad 1
  have e0 : onMotion1 (momentum1 0) = -grad1 0 := momentum_grad 0
  have e2 : onMotion1 (momentum1 (-1)) = -grad1 (-2) := momentum_grad (-1)
  have p1 : onMotion1 (position1 1) = pos1 2 := rfl
  have p0 : onMotion1 (position1 0) = pos1 0 := rfl
  have p2 : onMotion1 (position1 (-1)) = pos1 (-2) := rfl
  rw [orbital1, show 2 * q / 2 = q by omega, angular1]
  split_ifs <;> simp only [onMotion1_sub, onMotion1_comp, e1, e0, e2, p1, p0, p2, LinearMap.comp_neg] <;> abel

theorem swirl_eq {q : ℤ} (hq : |q| ≤ 1) : swirl q = (1 / 2 : ℝ) • onBoth (orbital1 (2 * q)) +
    (1 / 2 : ℝ) • (√2 • onEach 1 1 1 pos1 grad1 (2 * q) - √2 • onEach 1 1 1 grad1 pos1 (2 * q)) := by
  have hm : 2 * q ∈ projs 2 := by
    rw [abs_le] at hq
    rw [mem_projs]
    omega
  have e1 : onMotion1 (momentum1 1) = -grad1 2 := momentum_grad 1
  have e0 : onMotion1 (momentum1 0) = -grad1 0 := momentum_grad 0
  have e2 : onMotion1 (momentum1 (-1)) = -grad1 (-2) := momentum_grad (-1)
  have p1 : onMotion1 (position1 1) = pos1 2 := rfl
  have p0 : onMotion1 (position1 0) = pos1 0 := rfl
  have p2 : onMotion1 (position1 (-1)) = pos1 (-2) := rfl
  rw [cross_eq _ _ hm, cross_eq _ _ hm, orbital1_eq]
  have : q = 1 ∨ q = 0 ∨ q = -1 := by
    rw [abs_le] at hq
    omega
  refine TensorProduct.ext' fun u v => ?_
  rcases this with rfl | rfl | rfl
  all_goals
    simp only [swirl, Int.reduceMul, Int.reduceNeg, Int.reduceEq, ite_true, ite_false, if_true, if_false, reduceIte, zero_ne_one, mul_zero, mul_one]
    simp only [apart, drift, atFirst, atSecond, onBoth, e1, e0, e2, p1, p0, p2, LinearMap.sub_apply, LinearMap.add_apply, LinearMap.smul_apply, LinearMap.neg_apply,
      LinearMap.comp_apply, map_sub, map_neg, map_smul, TensorProduct.map_tmul, LinearMap.id_apply, TensorProduct.tmul_sub, TensorProduct.sub_tmul, TensorProduct.tmul_neg,
      TensorProduct.neg_tmul]
    module

end Verif.Mixer
