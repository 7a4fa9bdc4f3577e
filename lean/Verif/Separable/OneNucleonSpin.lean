import Verif.Separable.OneNucleonOps
import Verif.Moshinsky.NucleonActs

/-!
# Angular momentum of one nucleon

The total angular momentum acts on the orbitals by its matrix, and the squares of angular momenta have the expected eigenvalues.
-/

namespace Verif.Separable
open Verif Verif.Mapping Verif.Xform Verif.Obme Verif.SU2 MvPolynomial
open Verif.H2 hiding Mat
open Verif.Moshinsky.Osc (One one one_ortho fock fockL fockL_apply upR dnR)
open Verif.Moshinsky (proj sum_even even_mem)
open Verif.Relative (red1D red2D cgD couple jmat jmat_axis jmat_dn jmat_apply)

/-! ## Reduced elements of quanta -/

theorem quantum_harmonic (n' l' n l : ℕ) : quantum n' l' n l = harmonic1 l' l *
    (if n' = n ∧ l' = l + 1 then √(2 * n + 2 * l + 3) else if n' = n + 1 ∧ l = l' + 1 then -√(2 * n + 2) else 0) := by
  rw [quantum]
  by_cases h1 : n' = n ∧ l' = l + 1
  · obtain ⟨rfl, rfl⟩ := h1
    rw [if_pos ⟨rfl, rfl⟩, if_pos ⟨rfl, rfl⟩, harmonic1_up, upR, ← Real.sqrt_mul (by positivity)]
    congr 1
    ring
  · rw [if_neg h1, if_neg h1]
    by_cases h2 : n' = n + 1 ∧ l = l' + 1
    · obtain ⟨rfl, rfl⟩ := h2
      rw [if_pos ⟨rfl, rfl⟩, if_pos ⟨rfl, rfl⟩, harmonic1_down, dnR, neg_mul_neg, ← Real.sqrt_mul (by positivity)]
      congr 1
      push_cast
      rw [show 2 * ((l' : ℝ) + 1) - 1 = 2 * l' + 1 by ring]
      ring
    · rw [if_neg h2, if_neg h2, mul_zero]

theorem quantum_turn (n' l' n l : ℕ) : -(√(2 * l + 1) / √(2 * l' + 1)) * quantum n l n' l' = harmonic1 l' l *
    (if n = n' ∧ l = l' + 1 then √(2 * n' + 2 * l' + 3) else if n = n' + 1 ∧ l' = l + 1 then -√(2 * n' + 2) else 0) := by
  rw [quantum_harmonic]
  have key : ∀ k : ℕ, -(√(2 * (k : ℝ) + 1) / √(2 * (k + 1 : ℕ) + 1)) * harmonic1 k (k + 1) = harmonic1 (k + 1) k := by
    intro k
    rw [harmonic1_up, harmonic1_down, ← Real.sqrt_div (by positivity), neg_mul_neg, ← Real.sqrt_mul (by positivity)]
    congr 1
    push_cast
    field_simp
    ring
  have key' : ∀ k : ℕ, -(√(2 * ((k + 1 : ℕ) : ℝ) + 1) / √(2 * k + 1)) * harmonic1 (k + 1) k = harmonic1 k (k + 1) := by
    intro k
    rw [← key k]
    have p1 : √(2 * ((k + 1 : ℕ) : ℝ) + 1) ≠ 0 := by positivity
    have p2 : √(2 * (k : ℝ) + 1) ≠ 0 := by positivity
    field_simp
  by_cases h1 : n = n' ∧ l = l' + 1
  · obtain ⟨rfl, rfl⟩ := h1
    rw [if_pos ⟨rfl, rfl⟩, ← key' l']
    ring
  · rw [if_neg h1]
    by_cases h2 : n = n' + 1 ∧ l' = l + 1
    · obtain ⟨rfl, rfl⟩ := h2
      rw [if_pos ⟨rfl, rfl⟩, ← key l]
      ring
    · rw [if_neg h2, mul_zero, mul_zero, mul_zero]

/-! ## Total angular momentum -/

theorem jmat_couple {a b j : ℕ} {q : ℤ} (hq : q ∈ projs 2) {x' y' M : ℤ} (hx' : x' ∈ projs a) (hy' : y' ∈ projs b) :
    (∑ x ∈ projs a, jmat a q x' x * cgd a x b y' j M) + (∑ y ∈ projs b, jmat b q y' y * cgd a x' b y j M) =
      ∑ k ∈ projs j, jmat j q k M * cgd a x' b y' j k := by
  have o1 : ∀ y m, m ∉ projs a → cgd a m b y j M = 0 := fun y m hm => cgd_range fun h => hm h.1
  have o2 : ∀ x m, m ∉ projs b → cgd a x b m j M = 0 := fun x m hm => cgd_range fun h => hm h.2.1
  have key : ∀ (f : ℤ → ℝ) (c : ℝ) (k0 : ℤ), (∀ k, f k = if k = k0 then c else 0) →
      ∑ k ∈ projs j, f k * cgd a x' b y' j k = c * cgd a x' b y' j k0 := by
    intro f c k0 hf
    by_cases h : k0 ∈ projs j
    · rw [Finset.sum_eq_single_of_mem k0 h fun k _ hk => by rw [hf, if_neg hk, zero_mul], hf, if_pos rfl]
    · rw [cgd_range (fun h' => h h'.2.2), mul_zero, Finset.sum_eq_zero]
      intro k hk
      rw [hf, if_neg (by rintro rfl; exact h hk), zero_mul]
  have : q = 0 ∨ q = 2 ∨ q = -2 := by
    rw [mem_projs] at hq
    omega
  rcases this with rfl | rfl | rfl
  · rw [key _ _ _ fun k => jmat_axis j k M, (jmat_apply hx' _ (o1 y')).1 rfl, (jmat_apply hy' _ (o2 x')).1 rfl]
    by_cases hs : x' + y' = M
    · rw [← hs]
      push_cast
      ring
    · rw [cgd_of_ne hs]
      ring
  · rw [key _ _ _ fun k => Relative.jmat_up j k M, (jmat_apply hx' _ (o1 y')).2.1 rfl, (jmat_apply hy' _ (o2 x')).2.1 rfl]
    linear_combination (-1 / √2) * cgd_raise a x' b y' j M
  · rw [key _ _ _ fun k => jmat_dn j k M, (jmat_apply hx' _ (o1 y')).2.2 rfl, (jmat_apply hy' _ (o2 x')).2.2 rfl]
    linear_combination (1 / √2) * cgd_lower a x' b y' j M

/-- The scalar square of a vector operator with components `q = 2, 0, -2` (doubled). -/
noncomputable def square {V : Type*} [AddCommGroup V] [Module ℝ V] (A : ℤ → V →ₗ[ℝ] V) : V →ₗ[ℝ] V :=
  A 0 ∘ₗ A 0 - A 2 ∘ₗ A (-2) - A (-2) ∘ₗ A 2

/-- The square of an angular momentum has the eigenvalue `j(j+1)`. -/
theorem square_eigen {V : Type*} [AddCommGroup V] [Module ℝ V] {A : ℤ → V →ₗ[ℝ] V} {e : ℤ → V} {j : ℕ}
    (hA : ∀ q ∈ projs 2, ∀ m ∈ projs j, A q (e m) = ∑ k ∈ projs j, jmat j q k m • e k) {m : ℤ} (hm : m ∈ projs j) :
    square A (e m) = ((j : ℝ) * (j + 2) / 4) • e m := by
  have key : ∀ (f : ℤ → ℝ) (c : ℝ) (k0 : ℤ), (∀ k, f k = if k = k0 then c else 0) →
      ∑ k ∈ projs j, f k • e k = if k0 ∈ projs j then c • e k0 else 0 := by
    intro f c k0 hf
    split_ifs with h
    · rw [Finset.sum_eq_single_of_mem k0 h fun k _ hk => by rw [hf, if_neg hk, zero_smul], hf, if_pos rfl]
    · rw [Finset.sum_eq_zero]
      intro k hk
      rw [hf, if_neg (by rintro rfl; exact h hk), zero_smul]
  have h0 : ∀ m ∈ projs j, A 0 (e m) = ((m : ℝ) / 2) • e m := by
    intro m hm
    rw [hA 0 (by decide) m hm, key _ _ _ fun k => jmat_axis j k m, if_pos hm]
  have hu : ∀ m ∈ projs j, A 2 (e m) = if m + 2 ∈ projs j then (-up j m / √2) • e (m + 2) else 0 := by
    intro m hm
    rw [hA 2 (by decide) m hm, key _ _ _ fun k => Relative.jmat_up j k m]
  have hd : ∀ m ∈ projs j, A (-2) (e m) = if m - 2 ∈ projs j then (dn j m / √2) • e (m - 2) else 0 := by
    intro m hm
    rw [hA (-2) (by decide) m hm, key _ _ _ fun k => jmat_dn j k m]
  have s2 : √(2 : ℝ) * √2 = 2 := Real.mul_self_sqrt (by norm_num)
  have p2 : √(2 : ℝ) ≠ 0 := by positivity
  have r1 : A 2 (A (-2) (e m)) = (-(((j : ℝ) + m) * (j - m + 2) / 8)) • e m := by
    rw [hd m hm]
    split_ifs with h
    · rw [map_smul, hu _ h, sub_add_cancel, if_pos hm, smul_smul, up_dn]
      congr 1
      have := dn_sq hm
      field_simp
      rw [Real.sq_sqrt (by norm_num)]
      linear_combination (-8) * this
    · have : m = -j := by
        rw [mem_projs] at hm h
        omega
      rw [map_zero, this]
      simp
  have r2 : A (-2) (A 2 (e m)) = (-(((j : ℝ) - m) * (j + m + 2) / 8)) • e m := by
    rw [hu m hm]
    split_ifs with h
    · rw [map_smul, hd _ h, add_sub_cancel_right, if_pos hm, smul_smul, dn_up]
      congr 1
      have := up_sq hm
      field_simp
      rw [Real.sq_sqrt (by norm_num)]
      linear_combination (-8) * this
    · have : m = j := by
        rw [mem_projs] at hm h
        omega
      rw [map_zero, this]
      simp
  rw [square, LinearMap.sub_apply, LinearMap.sub_apply, LinearMap.comp_apply, LinearMap.comp_apply, LinearMap.comp_apply, r1, r2, h0 m hm, map_smul, h0 m hm,
    smul_smul, ← sub_smul, ← sub_smul]
  congr 1
  ring

/-! ## Action on the orbitals -/

theorem delta_proj (i j : Fin 2) : Relative.δ (proj i) (proj j) = if i = j then 1 else 0 := by
  rw [Relative.δ]
  fin_cases i <;> fin_cases j <;> simp [proj]

theorem onMotion1_apply (F : One →ₗ[ℝ] One) (u : Nucleon) (σ τ : Fin 2) : onMotion1 F u σ τ = F (u σ τ) := by
  simp only [onMotion1, act, LinearMap.coe_mk, AddHom.coe_mk, delta_proj]
  simp

theorem onSpin1_apply (K : ℤ → ℤ → ℝ) (u : Nucleon) (σ τ : Fin 2) : onSpin1 K u σ τ = ∑ σ', K (proj σ) (proj σ') • u σ' τ := by
  simp only [onSpin1, act, LinearMap.coe_mk, AddHom.coe_mk, delta_proj, LinearMap.id_apply]
  simp

theorem onIsospin1_apply (I : ℤ → ℤ → ℝ) (u : Nucleon) (σ τ : Fin 2) : onIsospin1 I u σ τ = ∑ τ', I (proj τ) (proj τ') • u σ τ' := by
  simp only [onIsospin1, act, LinearMap.coe_mk, AddHom.coe_mk, delta_proj, LinearMap.id_apply]
  simp

/-- Orbital angular momentum, component `q = 2, 0, -2` (doubled). -/
noncomputable def orbital1 (q : ℤ) : Nucleon →ₗ[ℝ] Nucleon := onMotion1 (angular1 (q / 2))

/-- Spin. -/
noncomputable def spin1 (q : ℤ) : Nucleon →ₗ[ℝ] Nucleon := onSpin1 (jmat 1 q)

/-- Total angular momentum. -/
noncomputable def total1 (q : ℤ) : Nucleon →ₗ[ℝ] Nucleon := orbital1 q + spin1 q

theorem half_mem {q : ℤ} (hq : q ∈ projs 2) : q / 2 ∈ Finset.Icc (-1 : ℤ) 1 ∧ 2 * (q / 2) = q := by
  rw [mem_projs] at hq
  rw [Finset.mem_Icc]
  omega

theorem proj_mem (σ : Fin 2) : proj σ ∈ projs 1 := by
  fin_cases σ <;> decide

/-- The total angular momentum acts on an orbital by its matrix. -/
theorem total1_nucleon {q : ℤ} (hq : q ∈ projs 2) (a : SpOrb) (μ : ℤ) :
    total1 q (nucleon a μ) = ∑ k ∈ projs a.tj, jmat a.tj q k μ • nucleon a k := by
  obtain ⟨h1, h2⟩ := half_mem hq
  funext σ τ
  simp only [total1, LinearMap.add_apply, Pi.add_apply, orbital1, spin1, onMotion1_apply, onSpin1_apply, Finset.sum_apply, Pi.smul_apply]
  by_cases hτ : τ = kindOf a.sp
  · simp only [nucleon, if_pos hτ, map_sum, map_smul]
    have e1 : ∑ m ∈ Finset.Icc (-(a.l : ℤ)) a.l, cgd (2 * a.l) (2 * m) 1 (proj σ) a.tj μ • angular1 (q / 2) (one a.n a.l m) =
        ∑ k ∈ Finset.Icc (-(a.l : ℤ)) a.l, (∑ x ∈ projs (2 * a.l), jmat (2 * a.l : ℕ) q (2 * k) x * cgd (2 * a.l) x 1 (proj σ) a.tj μ) • one a.n a.l k := by
      rw [Finset.sum_congr rfl fun m hm => by rw [angular1_apply h1 a.n a.l hm, h2, Finset.smul_sum], Finset.sum_comm]
      refine Finset.sum_congr rfl fun k _ => ?_
      rw [sum_even, Finset.sum_smul]
      refine Finset.sum_congr rfl fun m _ => ?_
      rw [smul_smul, mul_comm]
    have e2 : ∑ σ', jmat 1 q (proj σ) (proj σ') • ∑ k ∈ Finset.Icc (-(a.l : ℤ)) a.l, cgd (2 * a.l) (2 * k) 1 (proj σ') a.tj μ • one a.n a.l k =
        ∑ k ∈ Finset.Icc (-(a.l : ℤ)) a.l, (∑ y ∈ projs 1, jmat (1 : ℕ) q (proj σ) y * cgd (2 * a.l) (2 * k) 1 y a.tj μ) • one a.n a.l k := by
      simp only [Finset.smul_sum, smul_smul]
      rw [Finset.sum_comm]
      refine Finset.sum_congr rfl fun k _ => ?_
      rw [sum_half, Finset.sum_smul]
    rw [e1, e2, ← Finset.sum_add_distrib]
    simp only [Finset.smul_sum, smul_smul]
    rw [Finset.sum_comm]
    refine Finset.sum_congr rfl fun k hk => ?_
    rw [← add_smul, jmat_couple hq ((even_mem).mpr hk) (proj_mem σ), Finset.sum_smul]
  · simp only [nucleon, if_neg hτ, map_zero, smul_zero, Finset.sum_const_zero, add_zero]

theorem square_total1 (a : SpOrb) {μ : ℤ} (hμ : μ ∈ projs a.tj) : square total1 (nucleon a μ) = ((a.tj : ℝ) * (a.tj + 2) / 4) • nucleon a μ :=
  square_eigen (fun _ hq m _ => total1_nucleon hq a m) hμ

theorem square_angular1 (n l : ℕ) {m : ℤ} (hm : m ∈ Finset.Icc (-(l : ℤ)) l) :
    square (fun q => angular1 (q / 2)) (one n l m) = ((l : ℝ) * (l + 1)) • one n l m := by
  have h := square_eigen (A := fun q => angular1 (q / 2)) (e := fun m => one n l (m / 2)) (j := 2 * l) (m := 2 * m) (fun q hq m hm => by
    obtain ⟨h1, h2⟩ := half_mem hq
    have hm2 : m = 2 * (m / 2) := by rw [mem_projs] at hm; push_cast at hm; omega
    rw [angular1_apply h1 n l (even_mem.mp (hm2 ▸ hm)), sum_even, h2, ← hm2]
    refine Finset.sum_congr rfl fun k _ => ?_
    rw [Int.mul_ediv_cancel_left _ (by decide)]) (even_mem.mpr hm)
  simp only [Int.mul_ediv_cancel_left _ (show (2 : ℤ) ≠ 0 by decide)] at h
  rw [h]
  congr 1
  push_cast
  ring

theorem square_orbital1 (a : SpOrb) (μ : ℤ) : square orbital1 (nucleon a μ) = ((a.l : ℝ) * (a.l + 1)) • nucleon a μ := by
  have e : ∀ u : Nucleon, square orbital1 u = onMotion1 (square fun q => angular1 (q / 2)) u := by
    intro u
    funext σ τ
    simp only [square, LinearMap.sub_apply, LinearMap.comp_apply, Pi.sub_apply, orbital1, onMotion1_apply]
  rw [e]
  funext σ τ
  rw [onMotion1_apply, Pi.smul_apply, Pi.smul_apply]
  by_cases hτ : τ = kindOf a.sp
  · simp only [nucleon, if_pos hτ, map_sum, map_smul, Finset.smul_sum]
    refine Finset.sum_congr rfl fun m hm => ?_
    rw [square_angular1 a.n a.l hm, smul_comm]
  · simp only [nucleon, if_neg hτ, map_zero, smul_zero]

theorem square_spin1 (u : Nucleon) : square spin1 u = (3 / 4 : ℝ) • u := by
  have h2 : (√2 : ℝ)⁻¹ * (√2)⁻¹ = 1 / 2 := by
    rw [← mul_inv, Real.mul_self_sqrt (by norm_num), one_div]
  funext σ τ
  simp only [square, LinearMap.sub_apply, LinearMap.comp_apply, Pi.sub_apply, spin1, onSpin1_apply, Fin.sum_univ_two, Moshinsky.half_up,
    Moshinsky.half_down, Moshinsky.half_zero, Pi.smul_apply]
  fin_cases σ
  · simp [smul_smul, h2, ← add_smul]
    norm_num [← add_smul]
  · simp [smul_smul, h2, ← add_smul]
    norm_num [← add_smul]

/-! ## Reduced elements -/

theorem create_components {space : Space} : Components form1 nucleon space 1 (fun q => onMotion1 (create (q / 2))) fun c a =>
    if c.sp = a.sp then red1D (2 * c.l) 1 c.tj (2 * a.l) a.tj 2 * quantum c.n c.l a.n a.l else 0 := by
  intro c a _ _ m' hm' q hq m hm
  exact motion_components (k := 1) (F := fun q => create (q / 2)) (fun x' hx' p hp x hx => by
    beta_reduce
    rw [Int.mul_ediv_cancel_left _ (by decide)]
    exact create_element hx' hp hx) hm' hq hm

theorem annihilate_components {space : Space} : Components form1 nucleon space 1 (fun q => onMotion1 (annihilate (q / 2))) fun c a =>
    if c.sp = a.sp then red1D (2 * c.l) 1 c.tj (2 * a.l) a.tj 2 * (-(√(2 * a.l + 1) / √(2 * c.l + 1)) * quantum a.n a.l c.n c.l) else 0 := by
  intro c a _ _ m' hm' q hq m hm
  exact motion_components (k := 1) (F := fun q => annihilate (q / 2)) (fun x' hx' p hp x hx => by
    beta_reduce
    rw [Int.mul_ediv_cancel_left _ (by decide)]
    exact annihilate_element hx' hp hx) hm' hq hm

theorem jmat_cgd {j : ℕ} {m' q m : ℤ} (hm' : m' ∈ projs j) (hq : q ∈ projs 2) (hm : m ∈ projs j) :
    jmat j q m' m = cgd j m 2 q j m' * √((j : ℝ) * (j + 2) / 4) := by
  rw [← Relative.ms_eq] at *
  rw [Relative.vector_law j m' hm' q hq m hm]
  rfl

theorem orbital_components {space : Space} : Components form1 nucleon space 1 orbital1 fun c a =>
    if c.sp = a.sp ∧ c.n = a.n ∧ c.l = a.l then red1D (2 * c.l) 1 c.tj (2 * a.l) a.tj 2 * √((a.l : ℝ) * (a.l + 1)) else 0 := by
  intro c a _ _ m' hm' q hq m hm
  have h := motion_components (k := 1) (c := c) (a := a) (F := fun q => angular1 (q / 2)) (f := if c.n = a.n ∧ c.l = a.l then √((a.l : ℝ) * (a.l + 1)) else 0)
    (fun x' hx' p hp x hx => by
    beta_reduce
    rw [Int.mul_ediv_cancel_left _ (by decide), angular1_apply hp _ _ hx, ← fockL_apply, map_sum]
    simp only [map_smul, fockL_apply, one_ortho (abs_le.mpr (Finset.mem_Icc.mp hx')), smul_eq_mul]
    by_cases h : c.n = a.n ∧ c.l = a.l
    · rw [if_pos h, Finset.sum_eq_single_of_mem x' (h.2 ▸ hx') (fun k _ hk => by rw [if_neg (fun e => hk e.2.2.symm), mul_zero]),
        if_pos ⟨h.1, h.2, rfl⟩, mul_one, h.2]
      have := jmat_cgd (j := 2 * a.l) (q := 2 * p) (even_mem.mpr (h.2 ▸ hx')) (even_mem (l := 1).mpr hp) (even_mem.mpr hx)
      push_cast at this
      rw [this]
      congr 2
      ring
    · rw [if_neg h, mul_zero, Finset.sum_eq_zero]
      intro k _
      rw [if_neg (fun e => h ⟨e.1, e.2.1⟩), mul_zero]) hm' hq hm
  rw [orbital1, h]
  beta_reduce
  congr 1
  by_cases hs : c.sp = a.sp
  · rw [if_pos hs]
    by_cases h : c.n = a.n ∧ c.l = a.l
    · rw [if_pos h, if_pos ⟨hs, h⟩]
    · rw [if_neg h, if_neg (fun e => h e.2), mul_zero]
  · rw [if_neg hs, if_neg (fun e => hs e.1)]

theorem spin_vector_components {space : Space} : Components form1 nucleon space 1 spin1 fun c a =>
    if c.sp = a.sp ∧ c.n = a.n ∧ c.l = a.l then red2D (2 * c.l) 1 c.tj 1 a.tj 2 * √(3 / 4) else 0 := by
  intro c a _ _ m' hm' q hq m hm
  exact spin_components (k := 1) (K := jmat 1) (fun y' hy' p hp y hy => by
    have := jmat_cgd (j := 1) hy' hp hy
    push_cast at this
    rw [this]
    norm_num) c a hm' hq hm

theorem total_components {space : Space} (hp : ∀ a, InSpace space a → a.Physical) : Components form1 nucleon space 1 total1 fun c a =>
    if c = a then √((a.tj : ℝ) / 2 * (a.tj / 2 + 1)) else 0 := by
  intro c a hc ha m' hm' q hq m hm
  rw [total1_nucleon hq, map_sum]
  simp only [map_smul, smul_eq_mul]
  rw [Finset.sum_congr rfl fun k hk => by rw [nucleon_orthonormal hp c a hc ha m' hm' k hk]]
  beta_reduce
  by_cases h : c = a
  · subst h
    rw [if_pos rfl, Finset.sum_eq_single_of_mem m' hm' (fun k _ hk => by rw [if_neg (fun e => hk e.2.symm), mul_zero]), if_pos ⟨rfl, rfl⟩, mul_one,
      jmat_cgd hm' hq hm]
    congr 2
    ring
  · rw [if_neg h, mul_zero, Finset.sum_eq_zero]
    intro k _
    rw [if_neg (fun e => h e.1), mul_zero]

/-- An operator with the orbitals as eigenstates. -/
theorem scalar_components {space : Space} (hp : ∀ a, InSpace space a → a.Physical) {O : Nucleon →ₗ[ℝ] Nucleon} {f : SpOrb → ℝ}
    (hO : ∀ a, InSpace space a → ∀ m ∈ projs a.tj, O (nucleon a m) = f a • nucleon a m) :
    Components form1 nucleon space 0 (fun _ => O) fun c a => if c = a then f a else 0 := by
  intro c a hc ha m' hm' q hq m hm
  beta_reduce
  rw [hO a ha m hm, map_smul, smul_eq_mul]
  have h := identity_components hp c a hc ha m' hm' q hq m hm
  rw [LinearMap.id_apply] at h
  rw [h]
  beta_reduce
  split_ifs <;> ring

/-- An operator on the isospin. -/
theorem isospin_components {space : Space} (hp : ∀ a, InSpace space a → a.Physical) (I : ℤ → ℤ → ℝ) :
    Components form1 nucleon space 0 (fun _ => onIsospin1 I) fun c a =>
      if c.n = a.n ∧ c.l = a.l ∧ c.tj = a.tj then I (speciesProj c.sp) (speciesProj a.sp) else 0 := by
  intro c a hc ha m' hm' q hq m hm
  have hq0 : q = 0 := by
    rw [mem_projs] at hq
    push_cast at hq
    omega
  subst hq0
  rw [isospin_element I (hp c hc) hm' hm]
  beta_reduce
  by_cases h : c.n = a.n ∧ c.l = a.l ∧ c.tj = a.tj
  · rw [if_pos h]
    by_cases e : m' = m
    · subst e
      rw [if_pos ⟨h.1, h.2.1, h.2.2, rfl⟩, ← h.2.2, cgd_scalar hm', one_mul]
    · rw [if_neg (fun h => e h.2.2.2), cgd_of_ne (by omega), zero_mul]
  · rw [if_neg h, if_neg (fun e => h ⟨e.1, e.2.1, e.2.2.1⟩), mul_zero]

end Verif.Separable
