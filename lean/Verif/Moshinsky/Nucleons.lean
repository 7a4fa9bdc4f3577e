import Verif.Moshinsky.AntiSym
import Verif.SU2.Recouple

/-!
# Two nucleons: states with spin and isospin

The states of two nucleons, coupled in the ways in which `libraries/moshinsky/moshinsky_xform.cpp` couples them: orbital angular momenta and
spins first (`LSJT`), orbital angular momentum and spin of each nucleon first (`jjJT`), and relative orbital angular momentum and spin first.
The recoupling coefficients that the program gets from the `am` library are defined here by sums over projections of products of coupling
coefficients.
-/

namespace Verif.Moshinsky
open Verif MvPolynomial Osc
open Verif.SU2 hiding couple

/-! ## Specification: the states -/

/-- States of two nucleons: oscillator states for each value of the spins and of the isospins of the first and of the second nucleon. -/
abbrev Nucl := Fin 2 → Fin 2 → Fin 2 → Fin 2 → Two

/-- Twice the projection of a spin, or isospin, one half. -/
def proj : Fin 2 → ℤ := ![1, -1]

/-- The inner product of states of two nucleons. -/
noncomputable def inner (u v : Nucl) : ℝ := ∑ σ, ∑ σ', ∑ τ, ∑ τ', fock (u σ σ' τ τ') (v σ σ' τ τ')

/-- The state of two spins, or isospins, one half coupled to `S M`. -/
noncomputable def pairSpin (S : ℕ) (M : ℤ) (σ σ' : Fin 2) : ℝ := cgd 1 (proj σ) 1 (proj σ') (2 * S) (2 * M)

/-- A state of the orbital motion, of the spins and of the isospins. -/
noncomputable def ten (u : Two) (x y : Fin 2 → Fin 2 → ℝ) : Nucl := fun σ σ' τ τ' => (x σ σ' * y τ τ') • u

/-- A family of states `u` of orbital angular momentum `L` and spin `S` coupled to `J M`, with isospin `T MT`. -/
noncomputable def lsState (u : ℤ → Two) (q : LSJT) (M MT : ℤ) : Nucl :=
  couple Osc.cg q.L q.S q.J M fun mL mS => ten (u mL) (pairSpin q.S mS) (pairSpin q.T MT)

/-- A nucleon with orbital angular momentum `l` and spin coupled to `j`, quanta of the oscillator `c`; `tj = 2j`, `μ` twice the projection. -/
noncomputable def spinor (c : Fin 3 → Two) (n l tj : ℕ) (μ : ℤ) (σ : Fin 2) : Two :=
  ∑ m ∈ Finset.Icc (-(l : ℤ)) l, cgd (2 * l) (2 * m) 1 (proj σ) tj μ • single c n l m

/-- Two nucleons coupled to `J M`, with isospin `T MT`. -/
noncomputable def jjState (x : JJState) (J T : ℕ) (M MT : ℤ) : Nucl := fun σ σ' τ τ' =>
  pairSpin T MT τ τ' • ∑ μ ∈ projs x.tj1, ∑ μ' ∈ projs x.tj2, cgd x.tj1 μ x.tj2 μ' (2 * J) (2 * M) •
    (spinor first ((x.N1 - x.l1) / 2) x.l1 x.tj1 μ σ * spinor second ((x.N2 - x.l2) / 2) x.l2 x.tj2 μ' σ')

/-- Exchange of the two nucleons. -/
noncomputable def swapped (u : Nucl) : Nucl := fun σ σ' τ τ' => exchanged (u σ' σ τ' τ)

/-- The antisymmetrised state `(1 - P)/√2`. -/
noncomputable def asym (u : Nucl) : Nucl := (1 / √2 : ℝ) • (u - swapped u)

/-! ## Specification: the coefficients of the `am` library -/

/-- `am::Unitary9J(l1,1/2,j1,l2,1/2,j2,L,S,J)`: the overlap of the states in which orbital angular momenta and spins, and in which angular
momenta of each nucleon, are coupled first. -/
def IsNine (nine : NineJ) : Prop := ∀ (l1 tj1 l2 tj2 L S J : ℕ) (M : ℤ), M ∈ projs (2 * J) →
  nine l1 tj1 l2 tj2 L S J = overlap4 (2 * l1) 1 (2 * l2) 1 tj1 tj2 (2 * L) (2 * S) (2 * J) M

/-! ## Lemmas -/

theorem sum_even (l : ℕ) {V : Type*} [AddCommMonoid V] (f : ℤ → V) :
    ∑ m ∈ projs (2 * l), f m = ∑ m ∈ Finset.Icc (-(l : ℤ)) l, f (2 * m) := by
  refine Finset.sum_bij' (fun m _ => m / 2) (fun m _ => 2 * m) ?_ ?_ ?_ ?_ ?_
  · intro m hm
    rw [mem_projs] at hm
    push_cast at hm
    rw [Finset.mem_Icc]
    omega
  · intro m hm
    rw [Finset.mem_Icc] at hm
    rw [mem_projs]
    push_cast
    omega
  · intro m hm
    rw [mem_projs] at hm
    push_cast at hm
    omega
  · intro m _
    omega
  · intro m hm
    rw [mem_projs] at hm
    push_cast at hm
    congr 1
    omega

theorem even_mem {l : ℕ} {m : ℤ} : 2 * m ∈ projs (2 * l) ↔ m ∈ Finset.Icc (-(l : ℤ)) l := by
  rw [mem_projs, Finset.mem_Icc]
  push_cast
  omega

theorem proj_mem (σ : Fin 2) : proj σ ∈ projs 1 := by
  rw [mem_projs]
  fin_cases σ <;> simp [proj]

theorem collapse (a : ℕ) (ma : ℤ) (b : ℕ) (mb : ℤ) (j : ℕ) (f : ℤ → ℝ) :
    ∑ μ ∈ projs j, cgd a ma b mb j μ * f μ = cgd a ma b mb j (ma + mb) * f (ma + mb) := by
  by_cases h : ma + mb ∈ projs j
  · exact Finset.sum_eq_single_of_mem _ h fun μ _ hμ => by rw [cgd_of_ne fun e => hμ e.symm, zero_mul]
  · rw [cgd_range fun h' => h h'.2.2, zero_mul]
    refine Finset.sum_eq_zero fun μ hμ => ?_
    rw [cgd_of_ne, zero_mul]
    rintro rfl
    exact h hμ

/-- The amplitudes of a state of two nucleons coupled by nucleons. -/
theorem jj_amp (x : JJState) (J T : ℕ) (M MT : ℤ) (σ σ' τ τ' : Fin 2) : jjState x J T M MT σ σ' τ τ' =
    pairSpin T MT τ τ' • ∑ m ∈ Finset.Icc (-(x.l1 : ℤ)) x.l1, ∑ m' ∈ Finset.Icc (-(x.l2 : ℤ)) x.l2,
      amp4 (2 * x.l1) 1 (2 * x.l2) 1 x.tj1 x.tj2 (2 * J) (2 * M) (2 * m) (proj σ) (2 * m') (proj σ') •
        (single first ((x.N1 - x.l1) / 2) x.l1 m * single second ((x.N2 - x.l2) / 2) x.l2 m') := by
  unfold jjState
  congr 1
  have e : ∀ μ μ', cgd x.tj1 μ x.tj2 μ' (2 * J) (2 * M) •
      (spinor first ((x.N1 - x.l1) / 2) x.l1 x.tj1 μ σ * spinor second ((x.N2 - x.l2) / 2) x.l2 x.tj2 μ' σ') =
      ∑ m ∈ Finset.Icc (-(x.l1 : ℤ)) x.l1, ∑ m' ∈ Finset.Icc (-(x.l2 : ℤ)) x.l2,
        (cgd (2 * x.l1) (2 * m) 1 (proj σ) x.tj1 μ * (cgd (2 * x.l2) (2 * m') 1 (proj σ') x.tj2 μ' * cgd x.tj1 μ x.tj2 μ' (2 * J) (2 * M))) •
          (single first ((x.N1 - x.l1) / 2) x.l1 m * single second ((x.N2 - x.l2) / 2) x.l2 m') := by
    intro μ μ'
    unfold spinor
    rw [Finset.sum_mul_sum, Finset.smul_sum]
    refine Finset.sum_congr rfl fun m _ => ?_
    rw [Finset.smul_sum]
    refine Finset.sum_congr rfl fun m' _ => ?_
    rw [smul_mul_smul_comm, smul_smul]
    congr 1
    ring
  simp only [e]
  rw [Finset.sum_congr rfl fun μ _ => Finset.sum_comm, Finset.sum_comm]
  refine Finset.sum_congr rfl fun m _ => ?_
  rw [Finset.sum_congr rfl fun μ _ => Finset.sum_comm, Finset.sum_comm]
  refine Finset.sum_congr rfl fun m' _ => ?_
  simp only [← Finset.sum_smul]
  congr 1
  simp only [← Finset.mul_sum, collapse]
  unfold amp4
  ring

/-- The amplitudes of a state in which orbital angular momenta are coupled first. -/
theorem ls_amp (a b : Fin 3 → Two) (n1 l1 n2 l2 : ℕ) (q : LSJT) (M MT : ℤ) (σ σ' τ τ' : Fin 2) :
    lsState (coupledState Osc.cg a b n1 l1 n2 l2 q.L) q M MT σ σ' τ τ' =
    pairSpin q.T MT τ τ' • ∑ m ∈ Finset.Icc (-(l1 : ℤ)) l1, ∑ m' ∈ Finset.Icc (-(l2 : ℤ)) l2,
      amp4 (2 * l1) (2 * l2) 1 1 (2 * q.L) (2 * q.S) (2 * q.J) (2 * M) (2 * m) (2 * m') (proj σ) (proj σ') •
        (single a n1 l1 m * single b n2 l2 m') := by
  have e : lsState (coupledState Osc.cg a b n1 l1 n2 l2 q.L) q M MT σ σ' τ τ' =
      ∑ mL ∈ Finset.Icc (-(q.L : ℤ)) q.L, ∑ mS ∈ Finset.Icc (-(q.S : ℤ)) q.S, ∑ m ∈ Finset.Icc (-(l1 : ℤ)) l1, ∑ m' ∈ Finset.Icc (-(l2 : ℤ)) l2,
        (pairSpin q.T MT τ τ' * (cgd (2 * l1) (2 * m) (2 * l2) (2 * m') (2 * q.L) (2 * mL) *
          (cgd 1 (proj σ) 1 (proj σ') (2 * q.S) (2 * mS) * cgd (2 * q.L) (2 * mL) (2 * q.S) (2 * mS) (2 * q.J) (2 * M)))) •
          (single a n1 l1 m * single b n2 l2 m') := by
    unfold lsState couple
    simp only [Finset.sum_apply, Pi.smul_apply]
    refine Finset.sum_congr rfl fun mL _ => Finset.sum_congr rfl fun mS _ => ?_
    unfold ten coupledState couple
    simp only [Finset.smul_sum]
    refine Finset.sum_congr rfl fun m _ => Finset.sum_congr rfl fun m' _ => ?_
    rw [smul_smul, smul_smul, cgd_even, cgd_even, pairSpin]
    congr 1
    ring
  rw [e, Finset.sum_congr rfl fun μ _ => Finset.sum_comm, Finset.sum_comm, Finset.smul_sum]
  refine Finset.sum_congr rfl fun m _ => ?_
  rw [Finset.sum_congr rfl fun μ _ => Finset.sum_comm, Finset.sum_comm, Finset.smul_sum]
  refine Finset.sum_congr rfl fun m' _ => ?_
  simp only [← Finset.sum_smul, smul_smul]
  congr 1
  simp only [← Finset.mul_sum]
  rw [← sum_even q.L fun mL => cgd (2 * l1) (2 * m) (2 * l2) (2 * m') (2 * q.L) mL * ∑ mS ∈ Finset.Icc (-(q.S : ℤ)) q.S,
    cgd 1 (proj σ) 1 (proj σ') (2 * q.S) (2 * mS) * cgd (2 * q.L) mL (2 * q.S) (2 * mS) (2 * q.J) (2 * M), collapse,
    ← sum_even q.S fun mS => cgd 1 (proj σ) 1 (proj σ') (2 * q.S) mS * cgd (2 * q.L) (2 * m + 2 * m') (2 * q.S) mS (2 * q.J) (2 * M), collapse]
  unfold amp4
  ring

/-- All `(L,S)` to which the orbitals of a `jj` state couple. -/
def lsAll (J : ℕ) (x : JJState) : Finset (ℕ × ℕ) :=
  (Finset.range (x.l1 + x.l2 + 1) ×ˢ Finset.range 2).filter fun c => Tri x.l1 x.l2 c.1 ∧ Tri c.1 c.2 J

theorem sum_lsAll (J : ℕ) (x : JJState) {V : Type*} [AddCommMonoid V] (F : ℕ → ℕ → V) :
    ∑ ac ∈ sums (2 * x.l1) (2 * x.l2), ∑ bd ∈ (sums 1 1).filter (fun bd => Coupled ac bd (2 * J)), F ac bd =
      ∑ c ∈ lsAll J x, F (2 * c.1) (2 * c.2) := by
  rw [Finset.sum_sigma']
  refine Finset.sum_bij' (fun c _ => (c.1 / 2, c.2 / 2)) (fun c _ => ⟨2 * c.1, 2 * c.2⟩) ?_ ?_ ?_ ?_ ?_
  · rintro ⟨c1, c2⟩ h
    simp only [Finset.mem_sigma, Finset.mem_filter, mem_sums, Coupled, abs_le] at h
    unfold lsAll Tri
    simp only [Finset.mem_filter, Finset.mem_product, Finset.mem_range]
    omega
  · rintro ⟨c1, c2⟩ h
    unfold lsAll Tri at h
    simp only [Finset.mem_filter, Finset.mem_product, Finset.mem_range] at h
    simp only [Finset.mem_sigma, Finset.mem_filter, mem_sums, Coupled, abs_le]
    omega
  · rintro ⟨c1, c2⟩ h
    simp only [Finset.mem_sigma, Finset.mem_filter, mem_sums, Coupled, abs_le] at h
    have h1 : 2 * (c1 / 2) = c1 := by omega
    have h2 : 2 * (c2 / 2) = c2 := by omega
    dsimp only
    rw [h1, h2]
  · rintro ⟨c1, c2⟩ h
    dsimp only
    rw [Nat.mul_div_cancel_left _ (by norm_num), Nat.mul_div_cancel_left _ (by norm_num)]
  · rintro ⟨c1, c2⟩ h
    simp only [Finset.mem_sigma, Finset.mem_filter, mem_sums, Coupled, abs_le] at h
    have h1 : 2 * (c1 / 2) = c1 := by omega
    have h2 : 2 * (c2 / 2) = c2 := by omega
    dsimp only
    rw [h1, h2]

/-- Expansion of `jj` states in `LS` states. -/
theorem jj_expand {nine : NineJ} (hn : IsNine nine) (x : JJState) (J T : ℕ) (M MT : ℤ) :
    jjState x J T M MT = ∑ c ∈ lsAll J x, nine x.l1 x.tj1 x.l2 x.tj2 c.1 c.2 J • lsState (orbitals x.pair c.1) ⟨c.1, c.2, J, T⟩ M MT := by
  funext σ σ' τ τ'
  simp only [Finset.sum_apply, Pi.smul_apply]
  rw [jj_amp]
  have e : ∀ c ∈ lsAll J x, nine x.l1 x.tj1 x.l2 x.tj2 c.1 c.2 J • lsState (orbitals x.pair c.1) ⟨c.1, c.2, J, T⟩ M MT σ σ' τ τ' =
      pairSpin T MT τ τ' • ∑ m ∈ Finset.Icc (-(x.l1 : ℤ)) x.l1, ∑ m' ∈ Finset.Icc (-(x.l2 : ℤ)) x.l2,
        (overlap4 (2 * x.l1) 1 (2 * x.l2) 1 x.tj1 x.tj2 (2 * c.1) (2 * c.2) (2 * J) (2 * J : ℕ) *
          amp4 (2 * x.l1) (2 * x.l2) 1 1 (2 * c.1) (2 * c.2) (2 * J) (2 * M) (2 * m) (2 * m') (proj σ) (proj σ')) •
        (single first ((x.N1 - x.l1) / 2) x.l1 m * single second ((x.N2 - x.l2) / 2) x.l2 m') := by
    intro c _
    have h := ls_amp first second ((x.N1 - x.l1) / 2) x.l1 ((x.N2 - x.l2) / 2) x.l2 ⟨c.1, c.2, J, T⟩ M MT σ σ' τ τ'
    have ho : orbitals x.pair c.1 = coupledState Osc.cg first second ((x.N1 - x.l1) / 2) x.l1 ((x.N2 - x.l2) / 2) x.l2 c.1 := rfl
    rw [ho]
    rw [h, hn x.l1 x.tj1 x.l2 x.tj2 c.1 c.2 J (2 * J : ℕ) (by rw [mem_projs]; push_cast; omega), smul_comm]
    congr 1
    simp only [Finset.smul_sum, smul_smul]
  rw [Finset.sum_congr rfl e, ← Finset.smul_sum]
  congr 1
  conv_rhs => rw [Finset.sum_comm]
  refine Finset.sum_congr rfl fun m hm => ?_
  conv_rhs => rw [Finset.sum_comm]
  refine Finset.sum_congr rfl fun m' hm' => ?_
  rw [← Finset.sum_smul]
  congr 1
  rw [recouple4 _ _ _ _ _ _ _ _ (even_mem.mpr hm) (proj_mem σ) (even_mem.mpr hm') (proj_mem σ')]
  exact sum_lsAll J x fun ac bd => overlap4 (2 * x.l1) 1 (2 * x.l2) 1 x.tj1 x.tj2 ac bd (2 * J) (2 * J : ℕ) *
    amp4 (2 * x.l1) (2 * x.l2) 1 1 ac bd (2 * J) (2 * M) (2 * m) (2 * m') (proj σ) (proj σ')

end Verif.Moshinsky
