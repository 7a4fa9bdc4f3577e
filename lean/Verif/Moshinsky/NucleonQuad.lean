import Verif.Separable.OneNucleonOps
import Verif.SU2.Product

/-!
# The quadrupole operator on the motion of two nucleons

Components of rank two, made of the separation of the nucleons, have the elements of `r² Y2` between oscillator states.
-/

namespace Verif.Moshinsky
open Verif MvPolynomial Osc
open Verif.SU2 hiding couple
open Verif.Relative (rSqr unitRME harmD amD)
open Verif.Separable (position1 create annihilate quantum create_element annihilate_element toRel fromRel fromRel_toRel toRel_one toRel_position)

/-! ## Specification -/

/-- Component `q` of `r² Y2`, `r` the separation of the two nucleons: the two vectors coupled to two. -/
noncomputable def harmonic2 (q : ℤ) : Two →ₗ[ℝ] Two :=
  √(15 / (8 * Real.pi)) • ∑ μ ∈ Finset.Icc (-1 : ℤ) 1, ∑ ν ∈ Finset.Icc (-1 : ℤ) 1, Osc.cg 1 μ 1 ν 2 q • (separation μ ∘ₗ separation ν)

/-! ## The radial part -/

/-- The radial element of the distance from the origin, in units of the oscillator length. -/
noncomputable def radial (n l n' l' : ℕ) : ℝ :=
  if l = l' + 1 then (if n = n' then √(n' + l' + 3 / 2) else 0) - (if n' = n + 1 then √(n + 1) else 0)
  else if l' = l + 1 then (if n = n' then √(n + l + 3 / 2) else 0) - (if n = n' + 1 then √(n' + 1) else 0)
  else 0

/-- The reduced element of the position. -/
noncomputable def posRME (n l n' l' : ℕ) : ℝ :=
  1 / √2 * (quantum n l n' l' + -(√(2 * l' + 1) / √(2 * l + 1)) * quantum n' l' n l)

theorem posRME_eq (n l n' l' : ℕ) : posRME n l n' l' = unitRME l l' * radial n l n' l' := by
  unfold posRME unitRME radial quantum
  by_cases h1 : l = l' + 1
  · subst h1
    simp only [and_true, if_true, show ¬ l' = l' + 1 + 1 by omega, and_false, if_false]
    have e1 : 1 / √2 * Verif.Moshinsky.Osc.upR n' l' = √((l' + 1) / (2 * l' + 3)) * √(n' + l' + 3 / 2) := by
      rw [Verif.Moshinsky.Osc.upR, ← Real.sqrt_mul (by positivity), one_div, ← Real.sqrt_inv, ← Real.sqrt_mul (by positivity)]
      congr 1
      field_simp
    have e2 : 1 / √2 * ((√(2 * l' + 1) / √(2 * ((l' + 1 : ℕ) : ℝ) + 1)) * dnR n (l' + 1)) = √((l' + 1) / (2 * l' + 3)) * √(n + 1) := by
      rw [dnR, ← Real.sqrt_mul (by positivity), one_div, ← Real.sqrt_inv, ← Real.sqrt_div (by positivity), ← Real.sqrt_mul (by positivity), ← Real.sqrt_mul (by positivity)]
      congr 1
      push_cast
      have : 2 * (l' : ℝ) + 1 ≠ 0 := by positivity
      have : 2 * ((l' : ℝ) + 1) - 1 ≠ 0 := by
        have : (0 : ℝ) ≤ l' := Nat.cast_nonneg _
        linarith
      have : 2 * ((l' : ℝ) + 1) + 1 ≠ 0 := by positivity
      have : 2 * (l' : ℝ) + 3 ≠ 0 := by positivity
      field_simp
      ring
    by_cases a : n = n'
    · subst a
      rw [if_pos rfl, if_pos rfl, if_neg (by omega), if_neg (by omega), sub_zero, ← e1]
      ring
    · rw [if_neg a, if_neg a]
      by_cases b : n' = n + 1
      · rw [if_pos b, if_pos b, mul_sub, mul_zero, ← e2]
        ring
      · rw [if_neg b, if_neg b]
        ring
  · rw [if_neg h1, if_neg h1]
    by_cases h2 : l' = l + 1
    · subst h2
      simp only [and_true, if_true, show ¬ l = l + 1 + 1 by omega, and_false, if_false]
      have e1 : 1 / √2 * ((√(2 * ((l + 1 : ℕ) : ℝ) + 1) / √(2 * l + 1)) * Verif.Moshinsky.Osc.upR n l) = √((l + 1) / (2 * l + 1)) * √(n + l + 3 / 2) := by
        rw [Verif.Moshinsky.Osc.upR, ← Real.sqrt_mul (by positivity), one_div, ← Real.sqrt_inv, ← Real.sqrt_div (by positivity), ← Real.sqrt_mul (by positivity), ← Real.sqrt_mul (by positivity)]
        congr 1
        push_cast
        have : 2 * (l : ℝ) + 1 ≠ 0 := by positivity
        have : 2 * (l : ℝ) + 3 ≠ 0 := by positivity
        field_simp
        ring
      have e2 : 1 / √2 * dnR n' (l + 1) = √((l + 1) / (2 * l + 1)) * √(n' + 1) := by
        rw [dnR, ← Real.sqrt_mul (by positivity), one_div, ← Real.sqrt_inv, ← Real.sqrt_mul (by positivity)]
        congr 1
        push_cast
        have : 2 * (l : ℝ) + 1 ≠ 0 := by positivity
        have : 2 * ((l : ℝ) + 1) - 1 ≠ 0 := by
          have : (0 : ℝ) ≤ l := Nat.cast_nonneg _
          linarith
        field_simp
        ring
      have e3 : √(((l + 1 : ℕ) : ℝ) / (2 * ((l + 1 : ℕ) : ℝ) - 1)) = √((l + 1) / (2 * l + 1)) := by
        congr 1
        push_cast
        ring_nf
      rw [e3]
      by_cases a : n = n'
      · subst a
        rw [if_pos rfl, if_neg (by omega), if_pos rfl, if_neg (by omega), sub_zero]
        linear_combination (-1 : ℝ) * e1
      · rw [if_neg a, if_neg (Ne.symm a)]
        by_cases b : n = n' + 1
        · rw [if_pos b, if_pos b, zero_sub, neg_mul_neg, ← e2]
          ring
        · rw [if_neg b, if_neg b]
          ring
    · rw [if_neg h2]
      simp [h1, h2]

theorem sum_two {N a b : ℕ} (ha : a ∈ Finset.range N) (hb : b ∈ Finset.range N) (f : ℕ → ℝ) (x y : ℝ) :
    ∑ k ∈ Finset.range N, f k * ((if k = a then x else 0) - (if k = b then y else 0)) = f a * x - f b * y := by
  simp only [mul_sub, mul_ite, mul_zero, Finset.sum_sub_distrib, Finset.sum_ite_eq', if_pos ha, if_pos hb]

theorem radial_sum_up (n l n' l' : ℕ) : ∑ k ∈ Finset.range (n' + 2), radial n l k (l' + 1) * radial k (l' + 1) n' l' =
    radial n l n' (l' + 1) * √(n' + l' + 3 / 2) - if n' = 0 then 0 else radial n l (n' - 1) (l' + 1) * √n' := by
  simp only [show ∀ k, radial k (l' + 1) n' l' = (if k = n' then √(n' + l' + 3 / 2) else 0) - (if n' = k + 1 then √(k + 1) else 0) from fun k => if_pos rfl]
  rcases n' with - | n'
  · rw [if_pos rfl, Finset.sum_congr rfl fun k _ => by rw [if_neg (show ¬ 0 = k + 1 by omega)]]
    have := sum_two (N := 0 + 2) (a := 0) (b := 0) (by simp) (by simp) (fun k => radial n l k (l' + 1)) (√(((0 : ℕ) : ℝ) + l' + 3 / 2)) 0
    simp only [ite_self] at this
    rw [this]
    ring
  · rw [if_neg (by omega), Nat.add_sub_cancel]
    have e : ∀ k : ℕ, (if n' + 1 = k + 1 then √((k : ℝ) + 1) else 0) = if k = n' then √(((n' + 1 : ℕ) : ℝ)) else 0 := by
      intro k
      by_cases h : k = n'
      · subst h
        simp
      · rw [if_neg (by omega), if_neg h]
    simp only [e]
    exact sum_two (by simp) (by rw [Finset.mem_range]; omega) _ _ _

theorem radial_sum_down (n l n' k0 : ℕ) : ∑ k ∈ Finset.range (n' + 2), radial n l k k0 * radial k k0 n' (k0 + 1) =
    radial n l n' k0 * √(n' + k0 + 3 / 2) - radial n l (n' + 1) k0 * √(n' + 1) := by
  have e : ∀ k, radial k k0 n' (k0 + 1) = (if k = n' then √(n' + k0 + 3 / 2) else 0) - (if k = n' + 1 then √(n' + 1) else 0) := by
    intro k
    rw [radial, if_neg (by omega), if_pos rfl]
    by_cases h : k = n'
    · subst h
      rfl
    · rw [if_neg h, if_neg h]
  simp only [e]
  exact sum_two (by simp) (by simp) _ _ _

/-- The radial elements of `r²`. -/
theorem rSqr_value {n l n' l' : ℕ} (h : l = l' ∨ l = l' + 2 ∨ l' = l + 2) : rSqr n l n' l' = 2 * sqrR ((2 * n + l : ℕ) : ℤ) l ((2 * n' + l' : ℕ) : ℤ) l' 1 := by
  have h1 := coordinateSqr_is_integral n l n' l' h
  rw [sqr_value ⟨by omega, by omega, by omega⟩ ⟨by omega, by omega, by omega⟩] at h1
  rw [Relative.rSqr_unit, ← Except.ok.inj h1, Int.cast_one]

theorem sqrt_pair {A B a b : ℝ} (hA : A = 2 * a) (hB : B = 2 * b) : √A * √B = 2 * (√a * √b) := by
  have hs : √2 * √2 = (2 : ℝ) := Real.mul_self_sqrt (by norm_num)
  rw [hA, hB, Real.sqrt_mul (by norm_num), Real.sqrt_mul (by norm_num)]
  linear_combination (√a * √b) * hs

theorem rSqr_up (n n' l : ℕ) : rSqr n (l + 2) n' l = if n = n' then 2 * (√(n + l + 5 / 2) * √(n + l + 3 / 2)) else
    if n' = n + 1 then -4 * (√(n + 1) * √(n + l + 5 / 2)) else if n' = n + 2 then 2 * (√(n + 1) * √(n + 2)) else 0 := by
  rw [rSqr_value (by omega), sqrR]
  by_cases a1 : n = n'
  · subst a1
    rw [if_pos rfl, if_pos (by omega), if_pos (by omega), sqrt_pair (a := n + l + 5 / 2) (b := n + l + 3 / 2) (by push_cast; ring) (by push_cast; ring)]
    ring
  rw [if_neg a1]
  by_cases a2 : n' = n + 1
  · subst a2
    rw [if_pos rfl, if_neg (by omega), if_pos (by omega), if_pos (by omega), sqrt_pair (a := n + 1) (b := n + l + 5 / 2) (by push_cast; ring) (by push_cast; ring)]
    ring
  rw [if_neg a2]
  by_cases a3 : n' = n + 2
  · subst a3
    rw [if_pos rfl, if_neg (by omega), if_neg (by omega), if_pos (by omega), if_pos (by omega), sqrt_pair (a := n + 1) (b := n + 2) (by push_cast; ring) (by push_cast; ring)]
    ring
  rw [if_neg a3, if_neg (by omega), if_neg (by omega), if_neg (by omega), mul_zero]

theorem nodeR_eq (n l : ℕ) : nodeR n l = 2 * (√(n + 1) * √(n + l + 3 / 2)) := by
  rw [nodeR, Real.sqrt_mul (by positivity)]
  exact sqrt_pair (by ring) (by ring)

theorem radial_up (a b l : ℕ) : radial a (l + 1) b l = (if a = b then √(b + l + 3 / 2) else 0) - (if b = a + 1 then √(a + 1) else 0) := if_pos rfl

theorem radial_down (a b l : ℕ) : radial a l b (l + 1) = (if a = b then √(a + l + 3 / 2) else 0) - (if a = b + 1 then √(b + 1) else 0) := by
  rw [radial, if_neg (by omega), if_pos rfl]

/-- The square of the distance is the product, whatever the angular momentum in between. -/
theorem radial_square {n l n' l' k : ℕ} (h1 : k = l' + 1 ∨ l' = k + 1) (h2 : k = l + 1 ∨ l = k + 1) :
    2 * ∑ j ∈ Finset.range (n' + 2), radial n l j k * radial j k n' l' = rSqr n l n' l' := by
  have sq : ∀ x : ℝ, 0 ≤ x → √x * √x = x := fun x hx => Real.mul_self_sqrt hx
  rcases h1 with rfl | rfl
  · rw [radial_sum_up]
    rcases h2 with h2 | rfl
    · obtain rfl : l = l' := by omega
      rw [rSqr_closed, radial_down, radial_down, nodeR_eq, nodeR_eq]
      by_cases a1 : n = n'
      · subst a1
        have e := sq (n + l + 3 / 2) (by positivity)
        have e' := sq n (by positivity)
        rcases n with - | n
        · simp only [if_true, show ¬ 0 = 0 + 1 by omega, if_false]
          push_cast at e ⊢
          linear_combination 2 * e
        · simp only [if_true, show ¬ n + 1 = n + 1 + 1 by omega, if_false, show ¬ n + 1 = 0 by omega, Nat.add_sub_cancel, show ¬ n + 1 = n by omega]
          push_cast at e e' ⊢
          linear_combination 2 * e + 2 * e'
      · by_cases a2 : n = n' + 1
        · subst a2
          rcases n' with - | n'
          · simp
          · simp [show ¬ n' + 1 + 1 = n' by omega]
        · by_cases a3 : n' = n + 1
          · subst a3
            simp [show ¬ n = n + 1 + 1 by omega]
            ring
          · rcases n' with - | n'
            · simp [a1, a2]
            · simp only [if_neg a1, if_neg a2, if_neg a3, show ¬ n' + 1 = 0 by omega, show ¬ n = n' by omega, if_false, Nat.add_sub_cancel]
              ring
    · rw [rSqr_up, radial_up, radial_up]
      simp only [show ∀ x : ℝ, x + ((l' + 1 : ℕ) : ℝ) + 3 / 2 = x + l' + 5 / 2 from fun x => by push_cast; ring]
      by_cases a1 : n = n'
      · subst a1
        rcases n with - | n
        · simp only [if_true, show ¬ 0 = 0 + 1 by omega, if_false]
          ring
        · simp only [if_true, show ¬ n + 1 = n + 1 + 1 by omega, show ¬ n + 1 = n by omega, show ¬ n = n + 1 + 1 by omega, show ¬ n + 1 = 0 by omega, if_false, Nat.add_sub_cancel]
          ring
      by_cases a2 : n' = n + 1
      · subst a2
        simp only [if_true, show ¬ n = n + 1 by omega, show ¬ n + 1 = 0 by omega, if_false, Nat.add_sub_cancel]
        rw [show ((n + 1 : ℕ) : ℝ) + l' + 3 / 2 = n + l' + 5 / 2 by push_cast; ring, Nat.cast_succ]
        ring
      by_cases a3 : n' = n + 2
      · subst a3
        simp only [if_true, show ¬ n = n + 2 by omega, show ¬ n + 2 = n + 1 by omega, show ¬ n + 2 = 0 by omega, if_false, show n + 2 - 1 = n + 1 by omega,
          show ¬ n = n + 1 by omega]
        push_cast
        ring
      rw [if_neg a1, if_neg a2, if_neg a1, if_neg a2, if_neg a3]
      rcases n' with - | n'
      · simp
      · rw [if_neg (by omega), Nat.add_sub_cancel, if_neg (by omega), if_neg (by omega)]
        ring
  · rw [radial_sum_down]
    rcases h2 with rfl | rfl
    · rw [Relative.rSqr_comm, rSqr_up, radial_down, radial_down]
      simp only [show ∀ x : ℝ, x + ((l + 1 : ℕ) : ℝ) + 3 / 2 = x + l + 5 / 2 from fun x => by push_cast; ring]
      by_cases a1 : n = n'
      · subst a1
        simp only [if_true, show ¬ n = n + 1 by omega, show ¬ n = n + 1 + 1 by omega, if_false]
        ring
      by_cases a2 : n = n' + 1
      · subst a2
        simp only [if_true, show ¬ n' + 1 = n' by omega, show ¬ n' = n' + 1 by omega, show ¬ n' + 1 = n' + 1 + 1 by omega, if_false]
        rw [show ((n' + 1 : ℕ) : ℝ) + l + 3 / 2 = n' + l + 5 / 2 by push_cast; ring]
        ring
      by_cases a3 : n = n' + 2
      · subst a3
        simp only [if_true, show ¬ n' + 2 = n' by omega, show ¬ n' = n' + 2 by omega, show ¬ n' + 2 = n' + 1 by omega, show n' + 2 = n' + 1 + 1 by omega, if_false,
          show ¬ n' + 1 + 1 = n' + 1 by omega, show ¬ n' = n' + 1 + 1 by omega, show ¬ n' + 1 + 1 = n' by omega]
        rw [show ((n' + 1 : ℕ) : ℝ) + 1 = n' + 2 by push_cast; ring]
        ring
      rw [if_neg a1, if_neg a2, if_neg (Ne.symm a1), if_neg a2, if_neg a3, if_neg a2, if_neg (by omega)]
      ring
    · rw [rSqr_closed, radial_up, radial_up, nodeR_eq, nodeR_eq]
      have c : ∀ x : ℝ, x + ((k + 1 : ℕ) : ℝ) + 3 / 2 = x + k + 5 / 2 := fun x => by push_cast; ring
      simp only [c]
      by_cases a1 : n = n'
      · subst a1
        have e := sq (n + k + 3 / 2) (by positivity)
        have e' := sq (n + 1) (by positivity)
        simp only [if_true, show ¬ n = n + 1 by omega, if_false]
        push_cast
        linear_combination 2 * e + 2 * e'
      by_cases a2 : n = n' + 1
      · subst a2
        simp only [if_true, show ¬ n' + 1 = n' by omega, show ¬ n' = n' + 1 + 1 by omega, show ¬ n' + 1 = n' + 1 + 1 by omega, if_false]
        rw [show ((n' + 1 : ℕ) : ℝ) + k + 3 / 2 = n' + k + 5 / 2 by push_cast; ring]
        ring
      by_cases a3 : n' = n + 1
      · subst a3
        simp only [if_true, show ¬ n = n + 1 by omega, show ¬ n = n + 1 + 1 by omega, show ¬ n + 1 + 1 = n + 1 by omega, if_false]
        rw [show ((n + 1 : ℕ) : ℝ) + k + 3 / 2 = n + k + 5 / 2 by push_cast; ring]
        ring
      rw [if_neg a1, if_neg a2, if_neg a3, if_neg a1, if_neg a2, if_neg a3, if_neg (by omega)]
      ring

/-! ## The separation -/

/-- The combinations of states near a state. -/
noncomputable def nearSpan (n l : ℕ) : Submodule ℝ One := Submodule.span ℝ {u | ∃ a b m, a < n + 2 ∧ b < l + 2 ∧ |m| ≤ (b : ℤ) ∧ u = one a b m}

theorem nearSpan_one {n l a b : ℕ} (m : ℤ) (ha : a < n + 2) (hb : b < l + 2) : one a b m ∈ nearSpan n l := by
  by_cases h : |m| ≤ (b : ℤ)
  · exact Submodule.subset_span ⟨a, b, m, ha, hb, h, rfl⟩
  · rw [show one a b m = 0 from osc_out (not_le.mp h) _ _ _]
    exact Submodule.zero_mem _

theorem create_near (μ : ℤ) (n l : ℕ) (m : ℤ) : create μ (one n l m) ∈ nearSpan n l := by
  obtain ⟨x, y, m', h⟩ := add_quantum relative (comp μ) n l m
  have h' := congrArg fromRel h
  have e : fromRel (relative (comp μ)) = X (comp μ) := by
    rw [show relative (comp μ) = toRel (X (comp μ)) by rw [toRel, aeval_X], fromRel_toRel]
  rw [map_mul, e, ← toRel_one, fromRel_toRel, map_add, map_smul, map_smul, ← toRel_one, fromRel_toRel] at h'
  rw [create, LinearMap.mulLeft_apply, h']
  refine Submodule.add_mem _ (Submodule.smul_mem _ _ (nearSpan_one _ (by omega) (by omega))) (Submodule.smul_mem _ _ ?_)
  split_ifs
  · rw [map_zero]
    exact Submodule.zero_mem _
  · rw [← toRel_one, fromRel_toRel]
    exact nearSpan_one _ (by omega) (by omega)

theorem annihilate_near {μ : ℤ} (hμ : μ ∈ Finset.Icc (-1 : ℤ) 1) (n l : ℕ) (m : ℤ) : annihilate μ (one n l m) ∈ nearSpan n l := by
  rw [annihilate, LinearMap.smul_apply, Derivation.coeFn_coe, Separable.pderiv_one (by rw [Finset.mem_Icc] at hμ ⊢; omega), lower]
  refine Submodule.smul_mem _ _ (Submodule.add_mem _ ?_ ?_)
  · split_ifs
    · exact Submodule.zero_mem _
    · exact Submodule.smul_mem _ _ (nearSpan_one _ (by omega) (by omega))
  · split_ifs
    · exact Submodule.zero_mem _
    · exact Submodule.smul_mem _ _ (nearSpan_one _ (by omega) (by omega))

/-- A combination of states is the sum of its projections. -/
theorem near_expand {n l : ℕ} {u : One} (h : u ∈ nearSpan n l) :
    u = ∑ a ∈ Finset.range (n + 2), ∑ b ∈ Finset.range (l + 2), ∑ m ∈ Finset.Icc (-(b : ℤ)) b, fock (one a b m) u • one a b m := by
  induction h using Submodule.span_induction with
  | zero => simp only [← fockL_apply, map_zero, zero_smul, Finset.sum_const_zero]
  | add u v _ _ hu hv =>
    simp only [fock_add_right, add_smul, Finset.sum_add_distrib]
    rw [← hu, ← hv]
  | smul c u _ hu =>
    simp only [fock_smul_right, mul_smul, ← Finset.smul_sum]
    rw [← hu]
  | mem u hu =>
    obtain ⟨a, b, m, ha, hb, hm, rfl⟩ := hu
    rw [Finset.sum_eq_single_of_mem a (Finset.mem_range.mpr ha), Finset.sum_eq_single_of_mem b (Finset.mem_range.mpr hb),
      Finset.sum_eq_single_of_mem m (Finset.mem_Icc.mpr (abs_le.mp hm)), one_ortho hm, if_pos ⟨rfl, rfl, rfl⟩, one_smul]
    · intro k hk hne
      rw [one_ortho (abs_le.mpr (Finset.mem_Icc.mp hk)), if_neg (fun h => hne h.2.2), zero_smul]
    · intro b' _ hne
      refine Finset.sum_eq_zero fun k hk => ?_
      rw [one_ortho (abs_le.mpr (Finset.mem_Icc.mp hk)), if_neg (fun h => hne h.2.1), zero_smul]
    · intro a' _ hne
      refine Finset.sum_eq_zero fun b' _ => Finset.sum_eq_zero fun k hk => ?_
      rw [one_ortho (abs_le.mpr (Finset.mem_Icc.mp hk)), if_neg (fun h => hne h.1), zero_smul]

theorem position_element {n l n' l' : ℕ} {m μ m' : ℤ} (hm : m ∈ Finset.Icc (-(l : ℤ)) l) (hμ : μ ∈ Finset.Icc (-1 : ℤ) 1) (hm' : m' ∈ Finset.Icc (-(l' : ℤ)) l') :
    fock (one n l m) (position1 μ (one n' l' m')) = cgd (2 * l') (2 * m') 2 (2 * μ) (2 * l) (2 * m) * posRME n l n' l' := by
  rw [position1, LinearMap.smul_apply, LinearMap.add_apply, fock_smul_right, fock_add_right, create_element hm hμ hm', annihilate_element hm hμ hm', posRME]
  ring

/-- The separation of the nucleons in the states of the relative motion. -/
theorem separation_expand {μ : ℤ} (hμ : μ ∈ Finset.Icc (-1 : ℤ) 1) (n l : ℕ) {m : ℤ} (hm : m ∈ Finset.Icc (-(l : ℤ)) l) :
    separation μ (single relative n l m) = ∑ a ∈ Finset.range (n + 2), ∑ b ∈ Finset.range (l + 2), ∑ k ∈ Finset.Icc (-(b : ℤ)) b,
      (√2 * (cgd (2 * l) (2 * m) 2 (2 * μ) (2 * b) (2 * k) * posRME a b n l)) • single relative a b k := by
  have hn : position1 μ (one n l m) ∈ nearSpan n l := by
    rw [position1, LinearMap.smul_apply, LinearMap.add_apply]
    exact Submodule.smul_mem _ _ (Submodule.add_mem _ (create_near _ _ _ _) (annihilate_near hμ _ _ _))
  rw [← toRel_one, ← toRel_position]
  conv_lhs => rw [near_expand hn]
  simp only [map_sum, map_smul, Finset.smul_sum, smul_smul, toRel_one]
  refine Finset.sum_congr rfl fun a _ => Finset.sum_congr rfl fun b _ => Finset.sum_congr rfl fun k hk => ?_
  rw [position_element hk hμ hm]

theorem posRME_far {n l n' l' : ℕ} (h : ¬ (n < n' + 2 ∧ l < l' + 2)) : posRME n l n' l' = 0 := by
  rw [posRME, quantum, quantum, if_neg (by omega), if_neg (by omega), if_neg (by omega), if_neg (by omega)]
  ring

theorem motion_separation {μ : ℤ} (hμ : μ ∈ Finset.Icc (-1 : ℤ) 1) :
    MotionActs (separation μ) fun n l m n' l' m' => √2 * (cgd (2 * l') (2 * m') 2 (2 * μ) (2 * l) (2 * m) * posRME n l n' l') := by
  intro n l n2 l2 n' l' n2' l2' m m2 m' m2' h1 h2 h3 _
  rw [separation_mul _ fun ν => relD_single_centre ν _ _ _, separation_expand hμ n' l' (Finset.mem_Icc.mpr (abs_le.mp h3))]
  simp only [Finset.sum_mul, smul_mul_assoc]
  simp only [← fockL_apply, map_sum, map_smul]
  simp only [fockL_apply, motion_ortho h1 h2, smul_eq_mul, Prod.mk.injEq]
  by_cases hc : n2 = n2' ∧ l2 = l2' ∧ m2 = m2'
  · simp only [hc, and_true, and_self, if_true]
    by_cases hr : n < n' + 2 ∧ l < l' + 2
    · rw [Finset.sum_eq_single_of_mem n (Finset.mem_range.mpr hr.1), Finset.sum_eq_single_of_mem l (Finset.mem_range.mpr hr.2),
        Finset.sum_eq_single_of_mem m (Finset.mem_Icc.mpr (abs_le.mp h1)), if_pos ⟨rfl, rfl, rfl⟩, mul_one]
      · intro k _ hne
        rw [if_neg (fun h => hne h.2.2.symm), mul_zero]
      · intro b _ hne
        refine Finset.sum_eq_zero fun k _ => ?_
        rw [if_neg (fun h => hne h.2.1.symm), mul_zero]
      · intro a _ hne
        refine Finset.sum_eq_zero fun b _ => Finset.sum_eq_zero fun k _ => ?_
        rw [if_neg (fun h => hne h.1.symm), mul_zero]
    · rw [posRME_far hr, mul_zero, mul_zero]
      refine Finset.sum_eq_zero fun a ha => Finset.sum_eq_zero fun b hb => Finset.sum_eq_zero fun k _ => ?_
      rw [Finset.mem_range] at ha hb
      rw [if_neg (by rintro ⟨rfl, rfl, -⟩; exact hr ⟨ha, hb⟩), mul_zero]
  · simp only [hc, and_false, if_false, mul_zero, Finset.sum_const_zero]

/-- Two separations, one after the other. -/
theorem motion_twice {μ ν : ℤ} (hμ : μ ∈ Finset.Icc (-1 : ℤ) 1) (hν : ν ∈ Finset.Icc (-1 : ℤ) 1) :
    MotionActs (separation μ ∘ₗ separation ν) fun n l m n' l' m' => ∑ a ∈ Finset.range (n' + 2), ∑ b ∈ Finset.range (l' + 2),
      (2 * (posRME n l a b * posRME a b n' l')) * ∑ k ∈ Finset.Icc (-(b : ℤ)) b, cgd (2 * l') (2 * m') 2 (2 * ν) (2 * b) (2 * k) * cgd (2 * b) (2 * k) 2 (2 * μ) (2 * l) (2 * m) := by
  intro n l n2 l2 n' l' n2' l2' m m2 m' m2' h1 h2 h3 h4
  have hs : √2 * √2 = (2 : ℝ) := Real.mul_self_sqrt (by norm_num)
  rw [LinearMap.comp_apply, separation_mul ν fun ν => relD_single_centre ν _ _ _, separation_expand hν n' l' (Finset.mem_Icc.mpr (abs_le.mp h3))]
  simp only [Finset.sum_mul, smul_mul_assoc, map_sum, map_smul]
  simp only [← fockL_apply, map_sum, map_smul]
  simp only [fockL_apply, smul_eq_mul]
  rw [Finset.sum_congr rfl fun a _ => Finset.sum_congr rfl fun b _ => Finset.sum_congr rfl fun k hk => by
    rw [motion_separation hμ _ _ _ _ _ _ _ _ _ _ _ _ h1 h2 (abs_le.mpr (Finset.mem_Icc.mp hk)) h4]]
  split_ifs
  · refine Finset.sum_congr rfl fun a _ => Finset.sum_congr rfl fun b _ => ?_
    rw [Finset.mul_sum]
    refine Finset.sum_congr rfl fun k _ => ?_
    linear_combination (cgd (2 * l') (2 * m') 2 (2 * ν) (2 * b) (2 * k) * posRME a b n' l' * cgd (2 * b) (2 * k) 2 (2 * μ) (2 * l) (2 * m) * posRME n l a b) * hs
  · simp

/-! ## The angular part -/

theorem recoupling_overlap (a b c k1 k2 k : ℕ) : recoupling a b c k1 k2 k =
    sgn (((a : ℤ) + k2 - b) / 2) * (sgn (((k1 : ℤ) + k2 - k) / 2) * sgn (((a : ℤ) + k - c) / 2)) * overlap3 k2 a k1 b k c c := by
  have e : ∀ m ∈ projs a, ∀ q1 ∈ projs k1, ∀ q2 ∈ projs k2, ∑ q ∈ projs k, ∑ μ ∈ projs b, (cgd a m k2 q2 b μ * cgd b μ k1 q1 c c) * (cgd k1 q1 k2 q2 k q * cgd a m k q c c) =
      sgn (((a : ℤ) + k2 - b) / 2) * (sgn (((k1 : ℤ) + k2 - k) / 2) * sgn (((a : ℤ) + k - c) / 2)) * (amp3 k2 a k1 b c c q2 m q1 * amp3 k2 k1 a k c c q2 q1 m) := by
    intro m _ q1 _ q2 _
    simp only [← Finset.sum_mul]
    rw [sum_inner, ← Finset.mul_sum]
    have h : ∑ q ∈ projs k, cgd k1 q1 k2 q2 k q * cgd a m k q c c = sgn (((k1 : ℤ) + k2 - k) / 2) * sgn (((a : ℤ) + k - c) / 2) * amp3 k2 k1 a k c c q2 q1 m := by
      rw [amp3]
      by_cases hq : q2 + q1 ∈ projs k
      · rw [Finset.sum_eq_single_of_mem _ hq fun q _ hne => by rw [cgd_of_ne (by omega), zero_mul], cgd_exchange k1 q1, cgd_exchange a m]
        ring
      · rw [Finset.sum_eq_zero fun q hq' => by rw [cgd_of_ne (fun h => hq (by rw [add_comm, h]; exact hq')), zero_mul], cgd_range (m1 := q2 + q1) (fun h => hq h.1)]
        ring
    rw [h]
    ring
  unfold recoupling overlap3
  rw [Finset.sum_congr rfl fun m hm => by
    rw [Finset.sum_comm, Finset.sum_congr rfl fun q1 h1 => by
      rw [Finset.sum_comm, Finset.sum_congr rfl fun q2 h2 => e m hm q1 h1 q2 h2]]]
  rw [Finset.sum_congr rfl fun m _ => Finset.sum_comm, Finset.sum_comm]
  simp only [Finset.mul_sum]

theorem overlap3_symm (a b c ab ac J : ℕ) (M : ℤ) : overlap3 a b c ab ac J M = overlap3 a c b ac ab J M := by
  unfold overlap3
  refine Finset.sum_congr rfl fun ma _ => ?_
  rw [Finset.sum_comm]
  refine Finset.sum_congr rfl fun mc _ => Finset.sum_congr rfl fun mb _ => mul_comm _ _

/-- Coefficients without projections vanish for an odd sum. -/
theorem cgd_odd {a b c : ℕ} (h : (a + b + c) % 2 = 1) : cgd (2 * a) 0 (2 * b) 0 (2 * c) 0 = 0 := by
  have e := cgd_flip (2 * a) 0 (2 * b) 0 (2 * c) 0
  rw [sgn_odd (by push_cast; omega), neg_zero] at e
  linarith

theorem cg_zero {l l' : ℕ} (h : Adjacent l l') : cgd (2 * l) 0 2 0 (2 * l') 0 = Verif.Moshinsky.Osc.cg1 l 0 0 l' := by
  rw [cg1_eq h 0 (by simp), cg_even]
  rfl

/-- The reduced element of the unit vector. -/
theorem unitRME_eq (b l : ℕ) : unitRME b l = √(2 * l + 1) / √(2 * b + 1) * cgd (2 * l) 0 2 0 (2 * b) 0 := by
  unfold unitRME
  by_cases h1 : b = l + 1
  · subst h1
    rw [if_pos rfl, cg_zero (.inl rfl), Verif.Moshinsky.Osc.cg1, if_neg (by simp; omega), if_pos rfl, if_neg (by decide), if_pos rfl, ← Real.sqrt_div (by positivity), ← Real.sqrt_mul (by positivity)]
    congr 1
    push_cast
    have : 2 * (l : ℝ) + 1 ≠ 0 := by positivity
    have : 2 * (l : ℝ) + 3 ≠ 0 := by positivity
    have : 2 * ((l : ℝ) + 1) + 1 ≠ 0 := by positivity
    field_simp
    ring
  · rw [if_neg h1]
    by_cases h2 : b + 1 = l
    · subst h2
      rw [if_pos rfl, cg_zero (.inr rfl), Verif.Moshinsky.Osc.cg1, if_neg (by simp; omega), if_neg (by omega), if_pos rfl, if_neg (by decide), if_pos rfl, mul_neg, ← Real.sqrt_div (by positivity),
        ← Real.sqrt_mul (by positivity)]
      congr 2
      push_cast
      have : 2 * (b : ℝ) + 1 ≠ 0 := by positivity
      have : 2 * ((b : ℝ) + 1) + 1 ≠ 0 := by positivity
      rw [show 2 * ((b : ℝ) + 1) - 1 = 2 * b + 1 by ring]
      field_simp
      ring
    · rw [if_neg h2]
      by_cases h3 : b = l
      · rw [show (2 : ℕ) = 2 * 1 from rfl, cgd_odd (by omega), mul_zero]
      · rw [cgd_triangle, mul_zero]
        rw [Coupled, abs_le]
        push_cast
        omega

theorem cgd_vectors : cgd 2 0 2 0 4 0 = √(2 / 3) := by
  have h := cg_zero (l := 1) (l' := 2) (.inl rfl)
  rw [show (2 : ℕ) * 1 = 2 from rfl, show (2 : ℕ) * 2 = 4 from rfl] at h
  rw [h, Verif.Moshinsky.Osc.cg1, if_neg (by simp), if_pos rfl, if_neg (by decide), if_pos rfl]
  congr 1
  norm_num

/-- The angular part of two vectors coupled to two. -/
theorem angular_square {l l' : ℕ} (h : Coupled (2 * l') 4 (2 * l)) (hp : (l + l') % 2 = 0) :
    ∑ b ∈ Finset.range (l' + 2), unitRME l b * unitRME b l' * recoupling (2 * l') (2 * b) (2 * l) 2 2 4 =
      √(2 * l' + 1) / √(2 * l + 1) * (√(2 / 3) * cgd (2 * l') 0 4 0 (2 * l) 0) := by
  have z : ∀ j : ℕ, (0 : ℤ) ∈ projs (2 * j) := fun j => by
    rw [mem_projs]
    push_cast
    omega
  have hr := recouple3 2 2 (2 * l') 4 (2 * l) 0 (z 1) (z 1) (z l')
  rw [amp3, cgd_exchange _ _ (2 * l')] at hr
  simp only [amp3, add_zero] at hr
  have he : sgn (((4 : ℕ) + ((2 * l' : ℕ) : ℤ) - (2 * l : ℕ)) / 2) = 1 := if_pos (by push_cast; omega)
  rw [cgd_vectors, he, one_mul] at hr
  rw [hr]
  have hs : ∑ x ∈ (sums 2 (2 * l')).filter (fun x => Coupled x 2 (2 * l)), overlap3 2 2 (2 * l') 4 x (2 * l) (2 * l : ℕ) * (cgd 2 0 (2 * l') 0 x 0 * cgd x 0 2 0 (2 * l) 0) =
      ∑ b ∈ Finset.range (l' + 2), overlap3 2 2 (2 * l') 4 (2 * b) (2 * l) (2 * l : ℕ) * (cgd 2 0 (2 * l') 0 (2 * b) 0 * cgd (2 * b) 0 2 0 (2 * l) 0) := by
    rw [← Finset.sum_image (s := Finset.range (l' + 2)) (g := fun b => 2 * b)
      (f := fun x => overlap3 2 2 (2 * l') 4 x (2 * l) (2 * l : ℕ) * (cgd 2 0 (2 * l') 0 x 0 * cgd x 0 2 0 (2 * l) 0)) (fun a _ b _ hab => by dsimp only at hab; omega)]
    refine Finset.sum_subset ?_ ?_
    · intro x hx
      rw [Finset.mem_filter, mem_sums, Coupled] at hx
      rw [Finset.mem_image]
      exact ⟨x / 2, Finset.mem_range.mpr (by omega), by omega⟩
    · intro x _ hx
      rw [Finset.mem_filter, mem_sums, not_and_or] at hx
      rcases hx with hx | hx
      · rw [cgd_triangle hx, zero_mul, mul_zero]
      · rw [cgd_triangle (j1 := x) hx, mul_zero, mul_zero]
  rw [hs, Finset.mul_sum]
  refine Finset.sum_congr rfl fun b _ => ?_
  have hb : √(2 * (b : ℝ) + 1) ≠ 0 := by positivity
  have hc : sgn (((2 : ℕ) + (2 : ℕ) - (4 : ℕ) : ℤ) / 2) = 1 := if_pos (by decide)
  have hd : sgn ((((2 * l' : ℕ) : ℤ) + (4 : ℕ) - (2 * l : ℕ)) / 2) = 1 := if_pos (by push_cast; omega)
  have e := cgd_exchange 2 0 (2 * l') 0 (2 * b) 0
  have e2 := sgn_parity (a := (((2 : ℕ) : ℤ) + (2 * l' : ℕ) - (2 * b : ℕ)) / 2) (b := ((((2 * l' : ℕ) : ℤ) + (2 : ℕ) - (2 * b : ℕ)) / 2)) (by rw [add_comm])
  rw [e2] at e
  rw [unitRME_eq, unitRME_eq, recoupling_overlap, hc, hd, e, overlap3_symm 2 (2 * l')]
  field_simp

/-- Two vectors coupled to two, between states of the relative motion. -/
theorem angular_harm (n l n' l' : ℕ) (m q m' : ℤ) (hm' : m' ∈ Finset.Icc (-(l' : ℤ)) l') (hq : q ∈ Finset.Icc (-2 : ℤ) 2) :
    √(15 / (8 * Real.pi)) * ∑ μ ∈ Finset.Icc (-1 : ℤ) 1, ∑ ν ∈ Finset.Icc (-1 : ℤ) 1, Osc.cg 1 μ 1 ν 2 q *
      ∑ a ∈ Finset.range (n' + 2), ∑ b ∈ Finset.range (l' + 2), (2 * (posRME n l a b * posRME a b n' l')) *
        ∑ k ∈ Finset.Icc (-(b : ℤ)) b, cgd (2 * l') (2 * m') 2 (2 * ν) (2 * b) (2 * k) * cgd (2 * b) (2 * k) 2 (2 * μ) (2 * l) (2 * m) =
    rSqr n l n' l' * harmD l l' (2 * q) (2 * m) (2 * m') := by
  have hpi : 0 < Real.pi := Real.pi_pos
  have e1 : ∑ μ ∈ Finset.Icc (-1 : ℤ) 1, ∑ ν ∈ Finset.Icc (-1 : ℤ) 1, Osc.cg 1 μ 1 ν 2 q *
      ∑ a ∈ Finset.range (n' + 2), ∑ b ∈ Finset.range (l' + 2), (2 * (posRME n l a b * posRME a b n' l')) *
        ∑ k ∈ Finset.Icc (-(b : ℤ)) b, cgd (2 * l') (2 * m') 2 (2 * ν) (2 * b) (2 * k) * cgd (2 * b) (2 * k) 2 (2 * μ) (2 * l) (2 * m) =
      ∑ a ∈ Finset.range (n' + 2), ∑ b ∈ Finset.range (l' + 2), (2 * (posRME n l a b * posRME a b n' l')) *
        (recoupling (2 * l') (2 * b) (2 * l) 2 2 4 * cgd (2 * l') (2 * m') 4 (2 * q) (2 * l) (2 * m)) := by
    have pr : ∀ b : ℕ, ∑ μ ∈ Finset.Icc (-1 : ℤ) 1, ∑ ν ∈ Finset.Icc (-1 : ℤ) 1, Osc.cg 1 μ 1 ν 2 q *
        ∑ k ∈ Finset.Icc (-(b : ℤ)) b, cgd (2 * l') (2 * m') 2 (2 * ν) (2 * b) (2 * k) * cgd (2 * b) (2 * k) 2 (2 * μ) (2 * l) (2 * m) =
        recoupling (2 * l') (2 * b) (2 * l) 2 2 4 * cgd (2 * l') (2 * m') 4 (2 * q) (2 * l) (2 * m) := by
      intro b
      have h := product_recoupling (a := 2 * l') (b := 2 * b) (c := 2 * l) (k1 := 2 * 1) (k2 := 2 * 1) (k := 2 * 2) (even_mem.mpr hm') (even_mem.mpr hq) (2 * m)
      rw [sum_even] at h
      simp only [sum_even, ← cg_even 1 _ 1 _ 2] at h
      exact h
    simp only [← pr, Finset.mul_sum]
    rw [Finset.sum_congr rfl fun μ _ => Finset.sum_comm, Finset.sum_comm]
    refine Finset.sum_congr rfl fun a _ => ?_
    rw [Finset.sum_congr rfl fun μ _ => Finset.sum_comm, Finset.sum_comm]
    refine Finset.sum_congr rfl fun b _ => Finset.sum_congr rfl fun μ _ => Finset.sum_congr rfl fun ν _ => Finset.sum_congr rfl fun k _ => ?_
    ring
  rw [e1]
  have hD : harmD l l' (2 * q) (2 * m) (2 * m') = cgd (2 * l') (2 * m') 4 (2 * q) (2 * l) (2 * m) * (√(5 / (4 * Real.pi)) * cgd (2 * l) 0 4 0 (2 * l') 0) := by
    have s1 : sgn ((((2 * l : ℕ) : ℤ) - (4 : ℕ)) / 2) = (-1) ^ l := by
      rw [← Relative.sgn_pow]
      exact sgn_parity (by push_cast; omega)
    have s2 : ((-1 : ℝ) ^ l) * (-1) ^ l = 1 := by rw [← mul_pow]; norm_num
    have s3 : √(2 * (l' : ℝ) + 1) ≠ 0 := by positivity
    unfold harmD amD
    simp only
    rw [s1]
    push_cast
    field_simp
    linear_combination (cgd (2 * l') (2 * m') 4 (2 * q) (2 * l) (2 * m) * cgd (2 * l) 0 4 0 (2 * l') 0) * s2
  rw [hD]
  by_cases hc : Coupled (2 * l') 4 (2 * l)
  swap
  · simp only [cgd_triangle hc, mul_zero, zero_mul, Finset.sum_const_zero]
  by_cases hp : (l + l') % 2 = 0
  swap
  · have ho : cgd (2 * l) 0 4 0 (2 * l') 0 = 0 := cgd_odd (a := l) (b := 2) (c := l') (by omega)
    rw [ho]
    rw [Finset.sum_eq_zero, mul_zero]
    · ring
    · intro a _
      refine Finset.sum_eq_zero fun b _ => ?_
      rw [posRME_eq, posRME_eq]
      unfold unitRME
      by_cases h1 : l = b + 1
      · rw [if_neg (show ¬ b = l' + 1 by omega), if_neg (show ¬ b + 1 = l' by omega)]
        ring
      · by_cases h2 : l + 1 = b
        · rw [if_neg (show ¬ b = l' + 1 by omega), if_neg (show ¬ b + 1 = l' by omega)]
          ring
        · rw [if_neg h1, if_neg h2]
          ring
  have ht := cgd_turn (2 * l') 0 4 0 (2 * l) 0
  have hs : sgn ((((2 * l : ℕ) : ℤ) - (2 * l' : ℕ) - 0) / 2) = 1 := if_pos (by push_cast; omega)
  rw [hs, one_mul, neg_zero] at ht
  push_cast at ht
  have ha := angular_square hc hp
  have hsum : ∑ a ∈ Finset.range (n' + 2), ∑ b ∈ Finset.range (l' + 2), (2 * (posRME n l a b * posRME a b n' l')) *
        (recoupling (2 * l') (2 * b) (2 * l) 2 2 4 * cgd (2 * l') (2 * m') 4 (2 * q) (2 * l) (2 * m)) =
      rSqr n l n' l' * cgd (2 * l') (2 * m') 4 (2 * q) (2 * l) (2 * m) *
        ∑ b ∈ Finset.range (l' + 2), unitRME l b * unitRME b l' * recoupling (2 * l') (2 * b) (2 * l) 2 2 4 := by
    rw [Finset.sum_comm, Finset.mul_sum]
    refine Finset.sum_congr rfl fun b _ => ?_
    by_cases h1 : b = l' + 1 ∨ l' = b + 1
    · by_cases h2 : b = l + 1 ∨ l = b + 1
      · rw [← radial_square h1 h2, Finset.mul_sum, Finset.sum_mul, Finset.sum_mul]
        refine Finset.sum_congr rfl fun a _ => ?_
        rw [posRME_eq, posRME_eq]
        ring
      · have : unitRME l b = 0 := by rw [unitRME, if_neg (by omega), if_neg (by omega)]
        simp only [posRME_eq, this, zero_mul, mul_zero, Finset.sum_const_zero]
    · have : unitRME b l' = 0 := by rw [unitRME, if_neg (by omega), if_neg (by omega)]
      simp only [posRME_eq, this, zero_mul, mul_zero, Finset.sum_const_zero]
  rw [hsum, ha]
  have h4 : √(15 / (8 * Real.pi)) * √(2 / 3) = √(5 / (4 * Real.pi)) := by
    rw [← Real.sqrt_mul (by positivity)]
    congr 1
    field_simp
    norm_num
  have h5 : √(2 * (l : ℝ) + 1) ≠ 0 := by positivity
  rw [← h4]
  have h6 : √(2 * l' + 1) / √(2 * l + 1) * cgd (2 * l') 0 4 0 (2 * l) 0 = cgd (2 * l) 0 4 0 (2 * l') 0 := by
    field_simp
    linarith
  rw [← h6]
  ring

/-- **`r² Y2` of the separation has the elements of `r² Y2` between oscillator states.** -/
theorem motion_harmonic {q : ℤ} (hq : |q| ≤ 2) : MotionActs (harmonic2 q) fun n l m n' l' m' => rSqr n l n' l' * harmD l l' (2 * q) (2 * m) (2 * m') := by
  intro n l n2 l2 n' l' n2' l2' m m2 m' m2' h1 h2 h3 h4
  rw [harmonic2, LinearMap.smul_apply, fock_smul_right]
  simp only [LinearMap.sum_apply, LinearMap.smul_apply]
  simp only [← fockL_apply, map_sum, map_smul]
  simp only [fockL_apply, smul_eq_mul]
  rw [Finset.sum_congr rfl fun μ hμ => Finset.sum_congr rfl fun ν hν => by rw [motion_twice hμ hν _ _ _ _ _ _ _ _ _ _ _ _ h1 h2 h3 h4]]
  split_ifs
  · exact angular_harm n l n' l' m q m' (Finset.mem_Icc.mpr (abs_le.mp h3)) (Finset.mem_Icc.mpr (abs_le.mp hq))
  · simp

/-! ## The components, without coefficients -/

theorem vectors_ne {μ ν q : ℤ} (h : μ + ν ≠ q) : Osc.cg 1 μ 1 ν 2 q = 0 := by
  rw [cg_even, cgd_of_ne (by omega)]

theorem vectors_two (μ : ℤ) {ν : ℤ} (hν : ν ∈ ({1, 0, -1} : Finset ℤ)) : Osc.cg 1 μ 1 ν 2 (μ + ν) = Verif.Moshinsky.Osc.cg1 1 μ ν 2 :=
  (cg1_eq (.inl rfl) μ hν).symm

theorem sum_vectors (q : ℤ) : harmonic2 q = √(15 / (8 * Real.pi)) • ∑ μ ∈ ({1, 0, -1} : Finset ℤ), ∑ ν ∈ ({1, 0, -1} : Finset ℤ),
    Osc.cg 1 μ 1 ν 2 q • (separation μ ∘ₗ separation ν) := by
  rw [harmonic2, show Finset.Icc (-1 : ℤ) 1 = {1, 0, -1} by decide]

/-- The largest component is a product: `r² Y22 = √(15/8π) r₊ r₊`. -/
theorem harmonic2_top : harmonic2 2 = √(15 / (8 * Real.pi)) • (separation 1 ∘ₗ separation 1) := by
  have h := vectors_two 1 (ν := 1) (by decide)
  rw [show (1 : ℤ) + 1 = 2 by norm_num] at h
  have e : Verif.Moshinsky.Osc.cg1 1 1 1 2 = 1 := by
    rw [Verif.Moshinsky.Osc.cg1, if_neg (by decide), if_pos rfl, if_pos rfl]
    norm_num
  rw [sum_vectors, Finset.sum_eq_single_of_mem 1 (by decide), Finset.sum_eq_single_of_mem 1 (by decide), h, e, one_smul]
  · intro ν hν hne
    rw [vectors_ne (by simp at hν; omega), zero_smul]
  · intro μ hμ hne
    refine Finset.sum_eq_zero fun ν hν => ?_
    rw [vectors_ne (by simp at hν hμ; omega), zero_smul]

/-- The component zero: `r² Y20 = √(5/16π) (3 z² - r²)`. -/
theorem harmonic2_zero : harmonic2 0 = √(5 / (16 * Real.pi)) • ((3 : ℝ) • (separation 0 ∘ₗ separation 0) - distanceSq) := by
  have h0 := vectors_two 0 (ν := 0) (by decide)
  have h1 := vectors_two 1 (ν := -1) (by decide)
  have h2 := vectors_two (-1) (ν := 1) (by decide)
  rw [show (0 : ℤ) + 0 = 0 by norm_num] at h0
  rw [show (1 : ℤ) + -1 = 0 by norm_num] at h1
  rw [show (-1 : ℤ) + 1 = 0 by norm_num] at h2
  have hpi : 0 < Real.pi := Real.pi_pos
  have s1 : √(15 / (8 * Real.pi)) * √(1 / 6) = √(5 / (16 * Real.pi)) := by
    rw [← Real.sqrt_mul (by positivity)]
    congr 1
    field_simp
    norm_num
  have s2 : √(15 / (8 * Real.pi)) * √(2 / 3) = 2 * √(5 / (16 * Real.pi)) := by
    rw [← s1, show (2 / 3 : ℝ) = 2 ^ 2 * (1 / 6) by norm_num, Real.sqrt_mul (by norm_num), Real.sqrt_sq (by norm_num)]
    ring
  have e0 : Verif.Moshinsky.Osc.cg1 1 0 0 2 = √(2 / 3) := by
    rw [Verif.Moshinsky.Osc.cg1, if_neg (by decide), if_pos rfl, if_neg (by decide), if_pos rfl]
    norm_num
  have e1 : Verif.Moshinsky.Osc.cg1 1 1 (-1) 2 = √(1 / 6) := by
    rw [Verif.Moshinsky.Osc.cg1, if_neg (by decide), if_pos rfl, if_neg (by decide), if_neg (by decide), if_pos rfl]
    norm_num
  have e2 : Verif.Moshinsky.Osc.cg1 1 (-1) 1 2 = √(1 / 6) := by
    rw [Verif.Moshinsky.Osc.cg1, if_neg (by decide), if_pos rfl, if_pos rfl]
    norm_num
  have t3 : ∀ f : ℤ → Two →ₗ[ℝ] Two, ∑ μ ∈ ({1, 0, -1} : Finset ℤ), f μ = f 1 + f 0 + f (-1) := fun f => by
    rw [Finset.sum_insert (by decide), Finset.sum_pair (by decide), add_assoc]
  rw [sum_vectors, t3, t3, t3, t3, h0, h1, h2, e0, e1, e2, vectors_ne (μ := 1) (ν := 1) (by decide), vectors_ne (μ := 1) (ν := 0) (by decide),
    vectors_ne (μ := 0) (ν := 1) (by decide), vectors_ne (μ := 0) (ν := -1) (by decide), vectors_ne (μ := -1) (ν := 0) (by decide), vectors_ne (μ := -1) (ν := -1) (by decide)]
  simp only [zero_smul, zero_add, add_zero, smul_add, smul_smul, s1, s2, distanceSq]
  module

end Verif.Moshinsky
