import Verif.Separable.OneNucleonSpin

/-!
# Squares of the position and of the gradient of one nucleon
-/

namespace Verif.Separable
open Verif Verif.Mapping Verif.Xform Verif.Obme Verif.SU2 MvPolynomial
open Verif.H2 hiding Mat
open Verif.Moshinsky.Osc (One one one_ortho comp fock fockL fockL_apply Two single relative part_p part_z part_q osc laplace_osc rr rr_osc nodeR sqrt2)
open Verif.Moshinsky (proj sum_even even_mem distanceSq distanceSq_single separation)
open Verif.Relative (red1D red2D cgD couple)

/-- The gradient, in units of the inverse oscillator length. -/
noncomputable def gradient1 (μ : ℤ) : One →ₗ[ℝ] One := (1 / √2 : ℝ) • (annihilate μ - create μ)

theorem square_create (n l : ℕ) (m : ℤ) : square (fun q => create (q / 2)) (one n l m) = -nodeR n l • one (n + 1) l m := by
  have hr := rr_osc (p := (X 0 : One)) (z := X 1) (q := X 2) n l m
  rw [show osc n l m (X 0 : One) (X 1) (X 2) = one n l m from rfl, show osc (n + 1) l m (X 0 : One) (X 1) (X 2) = one (n + 1) l m from rfl] at hr
  rw [← hr]
  simp only [square, LinearMap.sub_apply, LinearMap.comp_apply, create, LinearMap.mulLeft_apply, rr, show (0 : ℤ) / 2 = 0 by decide, show (2 : ℤ) / 2 = 1 by decide,
    show (-2 : ℤ) / 2 = -1 by decide, show comp 1 = 0 from rfl, show comp 0 = 1 from rfl, show comp (-1) = 2 from rfl]
  ring

theorem square_annihilate (n l : ℕ) (m : ℤ) : square (fun q => annihilate (q / 2)) (one n l m) =
    if n = 0 then 0 else -nodeR (n - 1) l • one (n - 1) l m := by
  have hl := laplace_osc part_p part_z part_q n l m
  rw [show osc n l m (X 0 : One) (X 1) (X 2) = one n l m from rfl, show osc (n - 1) l m (X 0 : One) (X 1) (X 2) = one (n - 1) l m from rfl] at hl
  rw [← hl]
  simp only [square, LinearMap.sub_apply, LinearMap.comp_apply, annihilate, LinearMap.smul_apply, Derivation.coeFn_coe, show (0 : ℤ) / 2 = 0 by decide, show (2 : ℤ) / 2 = 1 by decide,
    show (-2 : ℤ) / 2 = -1 by decide, show comp 1 = 0 from rfl, show comp 0 = 1 from rfl, show comp (-1) = 2 from rfl]
  have hc : pderiv (2 : Fin 3) (pderiv 0 (one n l m)) = pderiv 0 (pderiv 2 (one n l m)) := by
    have h : ⁅pderiv (R := ℝ) (2 : Fin 3), pderiv (R := ℝ) (0 : Fin 3)⁆ = 0 := by
      apply derivation_ext
      intro k
      rw [Derivation.commutator_apply, pderiv_X, pderiv_X]
      simp only [Pi.single_apply]
      split <;> split <;> simp
    have h' := DFunLike.congr_fun h (one n l m)
    rwa [Derivation.commutator_apply, Derivation.zero_apply, sub_eq_zero] at h'
  simp only [neg_zero, neg_neg, if_true, show ¬ (1 : ℤ) = 0 by decide, show ¬ (-1 : ℤ) = 0 by decide, if_false, Derivation.map_smul, one_smul,
    show comp 1 = 0 from rfl, show comp 0 = 1 from rfl, show comp (-1) = 2 from rfl, hc]
  module

theorem square_position (n l : ℕ) (m : ℤ) : square (fun q => position1 (q / 2)) (one n l m) =
    (((2 * n + l : ℕ) : ℝ) + 3 / 2) • one n l m - (nodeR n l / 2) • one (n + 1) l m - if n = 0 then 0 else (nodeR (n - 1) l / 2) • one (n - 1) l m := by
  have h := distanceSq_single n l m (g := 1) (fun ν => Derivation.map_one_eq_zero _)
  simp only [mul_one] at h
  have hp : ∀ P, separation 0 (separation 0 (toRel P)) - separation 1 (separation (-1) (toRel P)) - separation (-1) (separation 1 (toRel P)) =
      (2 : ℝ) • toRel (square (fun q => position1 (q / 2)) P) := by
    intro P
    have hs : (√2 : ℝ) * √2 = 2 := Real.mul_self_sqrt (by norm_num)
    simp only [← toRel_position, map_smul, square, LinearMap.sub_apply, LinearMap.comp_apply, map_sub, smul_smul, hs, smul_sub,
      show (0 : ℤ) / 2 = 0 by decide, show (2 : ℤ) / 2 = 1 by decide, show (-2 : ℤ) / 2 = -1 by decide]
  rw [← toRel_one, distanceSq, LinearMap.sub_apply, LinearMap.sub_apply, LinearMap.comp_apply, LinearMap.comp_apply, LinearMap.comp_apply, hp] at h
  have h' := congrArg (fun P => (1 / 2 : ℝ) • fromRel P) h
  simp only [map_smul, fromRel_toRel, smul_smul] at h'
  rw [show (1 / 2 * 2 : ℝ) = 1 by norm_num, one_smul] at h'
  rw [h']
  rcases n with - | n
  · simp only [if_true, sub_zero, map_sub, map_smul, ← toRel_one, fromRel_toRel, smul_sub, smul_smul]
    module
  · rw [if_neg (by omega), if_neg (by omega)]
    simp only [map_sub, map_smul, ← toRel_one, fromRel_toRel, smul_sub, smul_smul]
    module

theorem square_sum (f : One) : square (fun q => gradient1 (q / 2)) f = square (fun q => create (q / 2)) f + square (fun q => annihilate (q / 2)) f -
    square (fun q => position1 (q / 2)) f := by
  have h2 : (1 / √2 * (1 / √2) : ℝ) = 1 / 2 := by rw [div_mul_div_comm, Real.mul_self_sqrt (by norm_num), one_mul]
  simp only [square, gradient1, position1, LinearMap.sub_apply, LinearMap.comp_apply, LinearMap.smul_apply, LinearMap.add_apply, map_smul, map_sub, map_add, smul_sub, smul_add, smul_smul, h2]
  module

theorem square_gradient (n l : ℕ) (m : ℤ) : square (fun q => gradient1 (q / 2)) (one n l m) =
    -(((2 * n + l : ℕ) : ℝ) + 3 / 2) • one n l m - (nodeR n l / 2) • one (n + 1) l m - if n = 0 then 0 else (nodeR (n - 1) l / 2) • one (n - 1) l m := by
  rw [square_sum, square_create, square_annihilate, square_position]
  split_ifs <;> module

/-! ## Reduced elements -/

theorem position_components {space : Space} : Components form1 nucleon space 1 (fun q => onMotion1 (position1 (q / 2))) fun c a =>
    if c.sp = a.sp then red1D (2 * c.l) 1 c.tj (2 * a.l) a.tj 2 * (1 / √2 * (quantum c.n c.l a.n a.l +
      -(√(2 * a.l + 1) / √(2 * c.l + 1)) * quantum a.n a.l c.n c.l)) else 0 := by
  intro c a _ _ m' hm' q hq m hm
  exact motion_components (k := 1) (F := fun q => position1 (q / 2)) (fun x' hx' p hp x hx => by
    beta_reduce
    rw [Int.mul_ediv_cancel_left _ (by decide), position1, LinearMap.smul_apply, LinearMap.add_apply, ← fockL_apply, map_smul, map_add, fockL_apply, fockL_apply,
      create_element hx' hp hx, annihilate_element hx' hp hx, smul_eq_mul]
    ring) hm' hq hm

theorem gradient_components {space : Space} : Components form1 nucleon space 1 (fun q => onMotion1 (gradient1 (q / 2))) fun c a =>
    if c.sp = a.sp then red1D (2 * c.l) 1 c.tj (2 * a.l) a.tj 2 * (1 / √2 * (-quantum c.n c.l a.n a.l +
      -(√(2 * a.l + 1) / √(2 * c.l + 1)) * quantum a.n a.l c.n c.l)) else 0 := by
  intro c a _ _ m' hm' q hq m hm
  exact motion_components (k := 1) (F := fun q => gradient1 (q / 2)) (fun x' hx' p hp x hx => by
    beta_reduce
    rw [Int.mul_ediv_cancel_left _ (by decide), gradient1, LinearMap.smul_apply, LinearMap.sub_apply, ← fockL_apply, map_smul, map_sub, fockL_apply, fockL_apply,
      create_element hx' hp hx, annihilate_element hx' hp hx, smul_eq_mul]
    ring) hm' hq hm

theorem nucleon_ortho {c a : SpOrb} (hc : c.Physical) {m' m : ℤ} (hm' : m' ∈ projs c.tj) (hm : m ∈ projs a.tj) :
    form1 (nucleon c m') (nucleon a m) = if c = a ∧ m' = m then 1 else 0 := by
  rw [← identity1 (nucleon a m), isospin_element _ hc hm' hm, Relative.δ]
  simp only [kindOf_inj]
  rcases c with ⟨s, n, l, t⟩
  rcases a with ⟨s', n', l', t'⟩
  simp only [SpOrb.mk.injEq]
  split_ifs <;> first | rfl | (exfalso; tauto)

/-- A scalar operator on the motion which changes the number of nodes by one at most. -/
noncomputable def nodes (α β : ℕ → ℕ → ℝ) (n' n l : ℕ) : ℝ :=
  if n' = n then α n l else if n' = n + 1 then -β n l else if n = n' + 1 then -β n' l else 0

theorem nodes_components {space : Space} (hp : ∀ a, InSpace space a → a.Physical) {F : One →ₗ[ℝ] One} {α β : ℕ → ℕ → ℝ}
    (hF : ∀ n l m, F (one n l m) = α n l • one n l m - β n l • one (n + 1) l m - if n = 0 then 0 else β (n - 1) l • one (n - 1) l m) :
    Components form1 nucleon space 0 (fun _ => onMotion1 F) fun c a =>
      if c.labels = a.labels then nodes α β c.n a.n a.l else 0 := by
  intro c a hc ha m' hm' q hq m hm
  have hq0 : q = 0 := by
    rw [mem_projs] at hq
    push_cast at hq
    omega
  subst hq0
  have e : onMotion1 F (nucleon a m) = α a.n a.l • nucleon a m - β a.n a.l • nucleon { a with n := a.n + 1 } m -
      if a.n = 0 then 0 else β (a.n - 1) a.l • nucleon { a with n := a.n - 1 } m := by
    funext σ τ
    rw [onMotion1_apply]
    rcases a with ⟨s, n, l, t⟩
    by_cases hτ : τ = kindOf s
    · simp only [nucleon, if_pos hτ, map_sum, map_smul, Pi.sub_apply, Pi.smul_apply, hF, smul_sub, Finset.sum_sub_distrib]
      rcases n with - | n
      · simp only [if_true, Pi.zero_apply, smul_zero, Finset.sum_const_zero, sub_zero, Finset.smul_sum]
        congr 1 <;> exact Finset.sum_congr rfl fun _ _ => smul_comm _ _ _
      · simp only [Nat.succ_ne_zero, if_false, Pi.smul_apply, Finset.smul_sum, nucleon, if_pos hτ]
        congr 1
        · congr 1 <;> exact Finset.sum_congr rfl fun _ _ => smul_comm _ _ _
        · exact Finset.sum_congr rfl fun _ _ => smul_comm _ _ _
    · rcases n with - | n
      · simp [nucleon, hτ]
      · simp [nucleon, hτ]
  beta_reduce
  rw [e, map_sub, map_sub, map_smul, map_smul, nucleon_ortho (hp c hc) hm' hm, nucleon_ortho (hp c hc) hm' (a := { a with n := a.n + 1 }) hm]
  have e2 : form1 (nucleon c m') (if a.n = 0 then 0 else β (a.n - 1) a.l • nucleon { a with n := a.n - 1 } m) =
      if (c.labels = a.labels ∧ a.n = c.n + 1) ∧ m' = m then β c.n a.l else 0 := by
    by_cases h0 : a.n = 0
    · rw [if_pos h0, map_zero, if_neg (by omega)]
    · rw [if_neg h0, map_smul, nucleon_ortho (hp c hc) hm' (a := { a with n := a.n - 1 }) hm]
      rcases c with ⟨s, n, l, t⟩
      rcases a with ⟨s', n', l', t'⟩
      simp only [SpOrb.mk.injEq, SpOrb.labels, Obme.Labels.mk.injEq] at *
      rcases n' with - | n'
      · exact absurd rfl h0
      · simp only [Nat.add_sub_cancel, add_left_inj]
        by_cases h : (s = s' ∧ n = n' ∧ l = l' ∧ t = t') ∧ m' = m
        · obtain ⟨⟨rfl, rfl, rfl, rfl⟩, rfl⟩ := h
          simp
        · rw [if_neg h, if_neg (by tauto), smul_zero]
  rw [e2, nodes]
  rcases c with ⟨s, n, l, t⟩
  rcases a with ⟨s', n', l', t'⟩
  simp only [SpOrb.mk.injEq, SpOrb.labels, Obme.Labels.mk.injEq, smul_eq_mul]
  simp only at hm' hm
  by_cases h : l = l' ∧ t = t' ∧ s = s'
  · obtain ⟨rfl, rfl, rfl⟩ := h
    by_cases e : m' = m
    · subst e
      rw [show ((2 * 0 : ℕ)) = 0 from rfl, cgd_scalar hm', one_mul]
      simp only [true_and, and_true, and_self, if_true]
      by_cases a1 : n = n'
      · subst a1
        simp
      · by_cases a2 : n = n' + 1
        · subst a2
          simp [show ¬ n' = n' + 1 + 1 by omega]
        · by_cases a3 : n' = n + 1
          · subst a3
            simp [show ¬ n = n + 1 + 1 by omega]
          · simp [a1, a2, a3]
    · rw [cgd_of_ne (by omega)]
      simp [e]
  · rw [if_neg (by tauto), if_neg (by tauto), if_neg (by tauto), if_neg h]
    ring

/-- The factor of reduction of a scalar. -/
theorem red1D_zero {l tj : ℕ} (h : Coupled (2 * l) 1 tj) : red1D (2 * l) 1 tj (2 * l) tj 0 = 1 := by
  have hm : (tj : ℤ) ∈ projs tj := by
    rw [mem_projs]
    omega
  have hm2 : (tj : ℤ) ∈ Relative.ms tj := by rwa [Relative.ms_eq]
  have h0 : (0 : ℤ) ∈ Relative.ms 0 := by decide
  have h1 := Relative.reduces1 (2 * l) (2 * l) 1 tj tj 0 tj hm2 0 h0 tj hm2
  beta_reduce at h1
  rw [Relative.couple_cgD, Relative.cgD_nat tj tj 0 0 tj tj, cgd_scalar hm, one_mul] at h1
  rw [← h1]
  have e : ∀ x' ∈ projs (2 * l), ∀ y' ∈ projs 1, ∑ x ∈ projs (2 * l), ∑ y ∈ projs 1, cgd (2 * l) x' 1 y' tj tj * cgd (2 * l) x 1 y tj tj *
      (cgD (2 * l : ℕ) x 0 0 (2 * l : ℕ) x' * Relative.δ y' y) = cgd (2 * l) x' 1 y' tj tj * cgd (2 * l) x' 1 y' tj tj := by
    intro x' hx' y' hy'
    rw [Finset.sum_eq_single_of_mem x' hx', Finset.sum_eq_single_of_mem y' hy']
    · rw [show cgD (2 * l : ℕ) x' 0 0 (2 * l : ℕ) x' = cgd (2 * l) x' 0 0 (2 * l) x' from Relative.cgD_nat _ _ 0 0 _ _, cgd_scalar hx', Relative.δ, if_pos rfl]
      ring
    · intro y _ hy
      rw [Relative.δ, if_neg hy.symm]
      ring
    · intro x _ hx
      refine Finset.sum_eq_zero fun y _ => ?_
      rw [show cgD (2 * l : ℕ) x 0 0 (2 * l : ℕ) x' = cgd (2 * l) x 0 0 (2 * l) x' from Relative.cgD_nat _ _ 0 0 _ _,
        show cgd (2 * l) x 0 0 (2 * l) x' = 0 from cgd_of_ne (by omega)]
      ring
  have := cgd_ortho (J' := tj) (M' := tj) h hm
  rw [if_pos ⟨rfl, rfl⟩] at this
  rw [← this]
  exact Finset.sum_congr rfl fun x' hx' => Finset.sum_congr rfl fun y' hy' => e x' hx' y' hy'

end Verif.Separable
