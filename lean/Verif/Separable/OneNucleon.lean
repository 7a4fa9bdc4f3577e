import Verif.Separable.Nucleons
import Verif.Moshinsky.NucleonPhys

/-!
# One nucleon in a harmonic oscillator

A state of one nucleon is a polynomial in the three creation operators for each projection of the spin and of the isospin.  The orbitals are
harmonic oscillator functions with the spin coupled to `j`.
-/

namespace Verif.Separable
open Verif Verif.Mapping Verif.Xform Verif.Obme Verif.SU2 MvPolynomial
open Verif.H2 hiding Mat
open Verif.Moshinsky.Osc (One one one_ortho comp fock fockL fockL_apply fock_add_left fock_smul_left fock_add_right fock_smul_right)
open Verif.Moshinsky (proj sum_even even_mem)
open Verif.Relative (red1D red2D red12D cgD reduces1 reduces2 reduces12 couple)

/-- States of one nucleon; the indices are the projections of the spin and of the isospin, as in `proj`. -/
abbrev Nucleon := Fin 2 → Fin 2 → One

/-- The inner product. -/
noncomputable def form1 : Nucleon →ₗ[ℝ] Nucleon →ₗ[ℝ] ℝ :=
  LinearMap.mk₂ ℝ (fun u v => ∑ σ, ∑ τ, fock (u σ τ) (v σ τ))
    (fun u u' v => by simp only [Pi.add_apply, fock_add_left, Finset.sum_add_distrib])
    (fun c u v => by simp only [Pi.smul_apply, fock_smul_left, Finset.mul_sum, smul_eq_mul])
    (fun u v v' => by simp only [Pi.add_apply, fock_add_right, Finset.sum_add_distrib])
    (fun c u v => by simp only [Pi.smul_apply, fock_smul_right, Finset.mul_sum, smul_eq_mul])

theorem form1_apply (u v : Nucleon) : form1 u v = ∑ σ, ∑ τ, fock (u σ τ) (v σ τ) := rfl

/-- The projection of the isospin of a species: up for protons. -/
def kindOf : Species1 → Fin 2
  | .p => 0
  | .n => 1

/-- The state of an orbital with projection `μ` (doubled). -/
noncomputable def nucleon (a : SpOrb) (μ : ℤ) : Nucleon := fun σ τ =>
  if τ = kindOf a.sp then ∑ m ∈ Finset.Icc (-(a.l : ℤ)) a.l, cgd (2 * a.l) (2 * m) 1 (proj σ) a.tj μ • one a.n a.l m else 0

/-- The product of operators on the motion, on the spin and on the isospin. -/
noncomputable def act (F : One →ₗ[ℝ] One) (K I : ℤ → ℤ → ℝ) : Nucleon →ₗ[ℝ] Nucleon where
  toFun u σ τ := ∑ σ', ∑ τ', (K (proj σ) (proj σ') * I (proj τ) (proj τ')) • F (u σ' τ')
  map_add' u v := by
    funext σ τ
    simp only [Pi.add_apply, map_add, smul_add, Finset.sum_add_distrib]
  map_smul' c u := by
    funext σ τ
    simp only [Pi.smul_apply, map_smul, RingHom.id_apply, smul_comm _ c, ← Finset.smul_sum]

/-- An operator on the motion. -/
noncomputable def onMotion1 (F : One →ₗ[ℝ] One) : Nucleon →ₗ[ℝ] Nucleon := act F Relative.δ Relative.δ

/-- An operator on the spin. -/
noncomputable def onSpin1 (K : ℤ → ℤ → ℝ) : Nucleon →ₗ[ℝ] Nucleon := act LinearMap.id K Relative.δ

/-- An operator on the isospin. -/
noncomputable def onIsospin1 (I : ℤ → ℤ → ℝ) : Nucleon →ₗ[ℝ] Nucleon := act LinearMap.id Relative.δ I

/-! ## Elements -/

theorem sum_half (f : ℤ → ℝ) : ∑ y ∈ projs 1, f y = ∑ σ, f (proj σ) := by
  rw [show projs 1 = {1, -1} by decide, Finset.sum_pair (by decide), Fin.sum_univ_two]
  rfl

/-- The species with given projection. -/
def speciesProj (s : Species1) : ℤ := proj (kindOf s)

theorem act_element (F : One →ₗ[ℝ] One) (K I : ℤ → ℤ → ℝ) (c a : SpOrb) (μ' μ : ℤ) :
    form1 (nucleon c μ') (act F K I (nucleon a μ)) = I (speciesProj c.sp) (speciesProj a.sp) *
      couple cgD (2 * c.l) 1 c.tj (2 * a.l) 1 a.tj (fun x' y' x y => fock (one c.n c.l (x' / 2)) (F (one a.n a.l (x / 2))) * K y' y) μ' μ := by
  have h : form1 (nucleon c μ') (act F K I (nucleon a μ)) = ∑ σ, ∑ σ', ∑ x' ∈ Finset.Icc (-(c.l : ℤ)) c.l, ∑ x ∈ Finset.Icc (-(a.l : ℤ)) a.l,
      I (speciesProj c.sp) (speciesProj a.sp) * (cgd (2 * c.l) (2 * x') 1 (proj σ) c.tj μ' * cgd (2 * a.l) (2 * x) 1 (proj σ') a.tj μ *
        (fock (one c.n c.l x') (F (one a.n a.l x)) * K (proj σ) (proj σ'))) := by
    rw [form1_apply]
    refine Finset.sum_congr rfl fun σ _ => ?_
    rw [Finset.sum_eq_single_of_mem (kindOf c.sp) (Finset.mem_univ _) (fun τ _ hτ => by
      rw [nucleon, if_neg hτ, ← fockL_apply, map_zero, LinearMap.zero_apply])]
    rw [← fockL_apply]
    simp only [act, LinearMap.coe_mk, AddHom.coe_mk, map_sum]
    refine Finset.sum_congr rfl fun σ' _ => ?_
    rw [Finset.sum_eq_single_of_mem (kindOf a.sp) (Finset.mem_univ _) (fun τ _ hτ => by
      rw [show nucleon a μ σ' τ = 0 from if_neg hτ, map_zero, smul_zero, map_zero])]
    simp only [nucleon, if_true, map_sum, map_smul, LinearMap.sum_apply, LinearMap.smul_apply, smul_eq_mul, Finset.mul_sum, fockL_apply]
    rw [Finset.sum_comm]
    refine Finset.sum_congr rfl fun x' _ => Finset.sum_congr rfl fun x _ => ?_
    rw [speciesProj, speciesProj]
    ring
  rw [h, Relative.couple_cgD, sum_even, Finset.mul_sum]
  simp only [sum_half, sum_even, Finset.mul_sum]
  rw [Finset.sum_congr rfl fun σ _ => Finset.sum_comm, Finset.sum_comm]
  refine Finset.sum_congr rfl fun x' _ => Finset.sum_congr rfl fun σ _ => ?_
  rw [Finset.sum_comm]
  refine Finset.sum_congr rfl fun x _ => Finset.sum_congr rfl fun σ' _ => ?_
  rw [Int.mul_ediv_cancel_left _ (by decide), Int.mul_ediv_cancel_left _ (by decide)]

theorem kindOf_inj {s s' : Species1} : speciesProj s = speciesProj s' ↔ s = s' := by
  cases s <;> cases s' <;> decide

/-- Orbital angular momentum and spin of the orbital couple to its angular momentum. -/
def SpOrb.Physical (a : SpOrb) : Prop := Coupled (2 * a.l) 1 a.tj

/-- An operator on the motion with the elements of a tensor operator of rank `k` between two shells. -/
theorem motion_components {k : ℕ} {F : ℤ → One →ₗ[ℝ] One} {f : ℝ} {c a : SpOrb}
    (hF : ∀ x' ∈ Finset.Icc (-(c.l : ℤ)) c.l, ∀ q ∈ Finset.Icc (-(k : ℤ)) k, ∀ x ∈ Finset.Icc (-(a.l : ℤ)) a.l,
      fock (one c.n c.l x') (F (2 * q) (one a.n a.l x)) = cgd (2 * a.l) (2 * x) (2 * k) (2 * q) (2 * c.l) (2 * x') * f)
    {m' q m : ℤ} (hm' : m' ∈ projs c.tj) (hq : q ∈ projs (2 * k)) (hm : m ∈ projs a.tj) :
    form1 (nucleon c m') (onMotion1 (F q) (nucleon a m)) =
      cgd a.tj m (2 * k) q c.tj m' * (if c.sp = a.sp then red1D (2 * c.l) 1 c.tj (2 * a.l) a.tj (2 * k) * f else 0) := by
  rw [onMotion1, act_element, Relative.δ]
  simp only [kindOf_inj]
  by_cases hs : c.sp = a.sp
  · rw [if_pos hs, if_pos hs, one_mul, ← mul_assoc]
    rw [← Relative.ms_eq] at hm' hm hq
    have := reduces1 (2 * c.l) (2 * a.l) 1 c.tj a.tj (2 * k) m' hm' q hq m hm
    rw [Relative.cgD_nat] at this
    rw [← this, ← Relative.couple_mul]
    refine Relative.couple_congr fun x' hx' y' _ x hx y _ => ?_
    rw [Relative.ms_eq] at hx' hx hq
    have e' : x' = 2 * (x' / 2) := by rw [mem_projs] at hx'; push_cast at hx'; omega
    have e : x = 2 * (x / 2) := by rw [mem_projs] at hx; push_cast at hx; omega
    have eq : q = 2 * (q / 2) := by rw [mem_projs] at hq; push_cast at hq; omega
    have := hF (x' / 2) (by rw [← even_mem, ← e']; exact hx') (q / 2) (by rw [← even_mem, ← eq]; exact hq) (x / 2) (by rw [← even_mem, ← e]; exact hx)
    rw [← e', ← e, ← eq] at this
    rw [this, Relative.cgD_nat]
    ring
  · rw [if_neg hs, if_neg hs, zero_mul, mul_zero]

/-- An operator on the spin with the elements of a tensor operator of rank `k`. -/
theorem spin_components {k : ℕ} {K : ℤ → ℤ → ℤ → ℝ} {f : ℝ} (hK : ∀ y' ∈ projs 1, ∀ q ∈ projs (2 * k), ∀ y ∈ projs 1, K q y' y = cgd 1 y (2 * k) q 1 y' * f)
    (c a : SpOrb) {m' q m : ℤ} (hm' : m' ∈ projs c.tj) (hq : q ∈ projs (2 * k)) (hm : m ∈ projs a.tj) :
    form1 (nucleon c m') (onSpin1 (K q) (nucleon a m)) =
      cgd a.tj m (2 * k) q c.tj m' * (if c.sp = a.sp ∧ c.n = a.n ∧ c.l = a.l then red2D (2 * c.l) 1 c.tj 1 a.tj (2 * k) * f else 0) := by
  rw [onSpin1, act_element, Relative.δ]
  simp only [kindOf_inj, LinearMap.id_apply]
  by_cases hs : c.sp = a.sp
  · rw [if_pos hs, one_mul]
    by_cases hl : c.n = a.n ∧ c.l = a.l
    · rw [if_pos ⟨hs, hl⟩, ← mul_assoc]
      rw [← Relative.ms_eq] at hm' hm hq
      have := reduces2 (2 * c.l) 1 1 c.tj a.tj (2 * k) m' hm' q hq m hm
      rw [Relative.cgD_nat] at this
      rw [← this, ← Relative.couple_mul, hl.1, ← hl.2]
      refine Relative.couple_congr fun x' hx' y' hy' x hx y hy => ?_
      rw [Relative.ms_eq] at hx' hx hq hy hy'
      have e' : x' = 2 * (x' / 2) := by rw [mem_projs] at hx'; push_cast at hx'; omega
      have e : x = 2 * (x / 2) := by rw [mem_projs] at hx; push_cast at hx; omega
      rw [one_ortho (by rw [mem_projs] at hx'; push_cast at hx'; rw [abs_le]; omega), hK y' hy' q hq y hy, Relative.cgD_nat, Relative.δ]
      simp only [true_and]
      simp only [show x' / 2 = x / 2 ↔ x' = x by omega]
      ring
    · rw [if_neg (fun h => hl h.2), mul_zero, ← Relative.couple_zero]
      refine Relative.couple_congr fun x' hx' y' hy' x hx y hy => ?_
      rw [Relative.ms_eq] at hx'
      rw [one_ortho (by rw [mem_projs] at hx'; push_cast at hx'; rw [abs_le]; omega), if_neg (fun h => hl ⟨h.1, h.2.1⟩), zero_mul]
  · rw [if_neg hs, if_neg (fun h => hs h.1), zero_mul, mul_zero]

/-- An operator on the isospin. -/
theorem isospin_element (I : ℤ → ℤ → ℝ) {c a : SpOrb} (hc : c.Physical) {m' m : ℤ} (hm' : m' ∈ projs c.tj) (hm : m ∈ projs a.tj) :
    form1 (nucleon c m') (onIsospin1 I (nucleon a m)) =
      if c.n = a.n ∧ c.l = a.l ∧ c.tj = a.tj ∧ m' = m then I (speciesProj c.sp) (speciesProj a.sp) else 0 := by
  rw [onIsospin1, act_element]
  simp only [LinearMap.id_apply]
  by_cases hl : c.n = a.n ∧ c.l = a.l
  · rw [hl.1, ← hl.2, Relative.couple_cgD]
    have e : ∀ x' ∈ projs (2 * c.l), ∀ y' ∈ projs 1, ∑ x ∈ projs (2 * c.l), ∑ y ∈ projs 1, cgd (2 * c.l) x' 1 y' c.tj m' * cgd (2 * c.l) x 1 y a.tj m *
        (fock (one a.n c.l (x' / 2)) (one a.n c.l (x / 2)) * Relative.δ y' y) = cgd (2 * c.l) x' 1 y' c.tj m' * cgd (2 * c.l) x' 1 y' a.tj m := by
      intro x' hx' y' hy'
      rw [Finset.sum_eq_single_of_mem x' hx', Finset.sum_eq_single_of_mem y' hy']
      · rw [one_ortho (by rw [mem_projs] at hx'; push_cast at hx'; rw [abs_le]; omega), if_pos ⟨rfl, rfl, rfl⟩, Relative.δ, if_pos rfl]
        ring
      · intro y _ hy
        rw [Relative.δ, if_neg hy.symm]
        ring
      · intro x hx hxx
        refine Finset.sum_eq_zero fun y _ => ?_
        rw [one_ortho (by rw [mem_projs] at hx'; push_cast at hx'; rw [abs_le]; omega), if_neg]
        · ring
        · rintro ⟨_, _, h⟩
          rw [mem_projs] at hx hx'
          push_cast at hx hx'
          omega
    rw [Finset.sum_congr rfl fun x' hx' => Finset.sum_congr rfl fun y' hy' => e x' hx' y' hy', cgd_ortho hc hm']
    simp only [true_and]
    split_ifs <;> simp
  · rw [if_neg (by tauto)]
    suffices h : couple cgD (2 * c.l) 1 c.tj (2 * a.l) 1 a.tj
        (fun x' y' x y => fock (one c.n c.l (x' / 2)) (one a.n a.l (x / 2)) * Relative.δ y' y) m' m = 0 by rw [h, mul_zero]
    rw [← Relative.couple_zero (cg := cgD) (a' := 2 * c.l) (b' := 1) (j' := c.tj) (a := 2 * a.l) (b := 1) (j := a.tj) (M' := m') (M := m)]
    refine Relative.couple_congr fun x' hx' y' hy' x hx y hy => ?_
    rw [Relative.ms_eq] at hx'
    rw [one_ortho (by rw [mem_projs] at hx'; push_cast at hx'; rw [abs_le]; omega), if_neg (fun h => hl ⟨h.1, h.2.1⟩), zero_mul]

theorem identity1 (u : Nucleon) : onIsospin1 Relative.δ u = u := by
  funext σ τ
  have e : ∀ i j : Fin 2, Relative.δ (proj i) (proj j) = if i = j then 1 else 0 := by
    intro i j
    rw [Relative.δ]
    fin_cases i <;> fin_cases j <;> simp [proj]
  simp only [onIsospin1, act, LinearMap.coe_mk, AddHom.coe_mk, LinearMap.id_apply, e]
  simp

/-- The orbitals are orthonormal. -/
theorem nucleon_orthonormal {space : Space} (hp : ∀ a, InSpace space a → a.Physical) : Orthonormal form1 nucleon space := by
  intro a b ha hb m hm m' hm'
  rw [← identity1 (nucleon b m'), isospin_element _ (hp a ha) hm hm', Relative.δ]
  simp only [kindOf_inj]
  rcases a with ⟨s, n, l, t⟩
  rcases b with ⟨s', n', l', t'⟩
  simp only [SpOrb.mk.injEq]
  split_ifs <;> first | rfl | (exfalso; tauto)

/-- The identity is a scalar operator. -/
theorem identity_components {space : Space} (hp : ∀ a, InSpace space a → a.Physical) :
    Components form1 nucleon space 0 (fun _ => LinearMap.id) fun c a => if c = a then 1 else 0 := by
  intro c a hc ha m' hm' q hq m hm
  have hq0 : q = 0 := by
    rw [mem_projs] at hq
    push_cast at hq
    omega
  subst hq0
  rw [LinearMap.id_apply, nucleon_orthonormal hp c a hc ha m' hm' m hm]
  beta_reduce
  by_cases h : c = a
  · subst h
    rw [if_pos (rfl : c = c), mul_one]
    by_cases e : m' = m
    · subst e
      rw [if_pos ⟨rfl, rfl⟩, cgd_scalar hm']
    · rw [if_neg (fun h => e h.2), cgd_of_ne (by omega)]
  · rw [if_neg (fun e => h e.1), if_neg h, mul_zero]

end Verif.Separable
