import Verif.Moshinsky.Oscillator
import Verif.Moshinsky.Fock
import Verif.Moshinsky.MemoProps

/-!
# Specification of the Moshinsky bracket: the overlap of two coupled states

Two particles in a common oscillator.  A state is a polynomial in the six creation operators; the first index is the
particle, the second the spherical component `+1, 0, -1`.  The oscillators of the relative and of the centre-of-mass motion
have the creation operators `(c₁ - c₂)/√2` and `(c₁ + c₂)/√2`.
-/

namespace Verif.Moshinsky.Osc
open MvPolynomial

/-- The states of two particles. -/
abbrev Two := MvPolynomial (Fin 2 × Fin 3) ℝ

/-- Creation operators of the first particle. -/
noncomputable def first (i : Fin 3) : Two := X (0, i)
/-- Creation operators of the second particle. -/
noncomputable def second (i : Fin 3) : Two := X (1, i)
/-- Creation operators of the relative motion. -/
noncomputable def relative (i : Fin 3) : Two := (1 / √2 : ℝ) • (first i - second i)
/-- Creation operators of the centre-of-mass motion. -/
noncomputable def centre (i : Fin 3) : Two := (1 / √2 : ℝ) • (first i + second i)

/-- The single-oscillator state made with the creation operators `c`. -/
noncomputable def single (c : Fin 3 → Two) (n l : ℕ) (m : ℤ) : Two := osc n l m (c 0) (c 1) (c 2)

/-- Coupling coefficients `(l₁ m₁ l₂ m₂ | Λ M)`. -/
abbrev Coupling := ℕ → ℤ → ℕ → ℤ → ℕ → ℤ → ℝ

/-- Couple two families of states. -/
noncomputable def couple {V : Type*} [AddCommGroup V] [Module ℝ V] (C : Coupling) (l1 l2 Λ : ℕ) (M : ℤ) (w : ℤ → ℤ → V) : V :=
  ∑ m1 ∈ Finset.Icc (-(l1 : ℤ)) l1, ∑ m2 ∈ Finset.Icc (-(l2 : ℤ)) l2, C l1 m1 l2 m2 Λ M • w m1 m2

/-- The state of two oscillators coupled to `Λ M`. -/
noncomputable def coupledState (C : Coupling) (a b : Fin 3 → Two) (n1 l1 n2 l2 Λ : ℕ) (M : ℤ) : Two :=
  couple C l1 l2 Λ M fun m1 m2 => single a n1 l1 m1 * single b n2 l2 m2

/-- The overlap of a state of relative and centre-of-mass motion with a state of the two particles. -/
noncomputable def overlap (C : Coupling) (n1d l1d n2d l2d n1 l1 n2 l2 Λ : ℕ) (M : ℤ) : ℝ :=
  fock (coupledState C relative centre n1d l1d n2d l2d Λ M) (coupledState C first second n1 l1 n2 l2 Λ M)

/-- `l` and `l'` differ by one. -/
def Adjacent (l l' : ℕ) : Prop := l' = l + 1 ∨ l = l' + 1

/-- Laws of coupling coefficients and six-j symbols that the recursion rests on. -/
structure Recouples (C : Coupling) (sixj : Int → Int → Int → Int → Int → Int → ℝ) (Λ : ℕ) (M : ℤ) : Prop where
  /-- projections are within range -/
  range : ∀ (l1 : ℕ) (m1 : ℤ) (l2 : ℕ) (m2 : ℤ), (l1 : ℤ) < |m1| ∨ (l2 : ℤ) < |m2| → C l1 m1 l2 m2 Λ M = 0
  /-- the triangle rule -/
  triangle : ∀ (l1 : ℕ) (m1 : ℤ) (l2 : ℕ) (m2 : ℤ), ¬(|(l1 : ℤ) - l2| ≤ Λ ∧ (Λ : ℤ) ≤ l1 + l2) → C l1 m1 l2 m2 Λ M = 0
  /-- symmetry under exchange -/
  exchange : ∀ (l1 : ℕ) (m1 : ℤ) (l2 : ℕ) (m2 : ℤ), C l1 m1 l2 m2 Λ M = sgn (l1 + l2 - Λ) * C l2 m2 l1 m1 Λ M
  /-- recoupling of a scalar product of two vectors -/
  recouple : ∀ (l1 l1' l2 l2' : ℕ) (m1 m2 : ℤ), Adjacent l1 l1' → Adjacent l2 l2' →
    ∑ μ ∈ ({1, 0, -1} : Finset ℤ), sgn μ * cg1 l1' m1 μ l1 * cg1 l2' m2 (-μ) l2 * C l1 (m1 + μ) l2 (m2 - μ) Λ M =
      sgn (l1' + l2 + Λ) * √((2 * l1 + 1) * (2 * l2 + 1)) * sixj l1 l1' 1 l2' l2 Λ * C l1' m1 l2' m2 Λ M

/-! ## Sums over projections -/

section
variable {V : Type*} [AddCommGroup V] [Module ℝ V]

theorem sum_wide (f : ℤ → V) {l : ℕ} {K : ℤ} (hK : (l : ℤ) ≤ K) (h : ∀ m, (l : ℤ) < |m| → f m = 0) :
    ∑ m ∈ Finset.Icc (-(l : ℤ)) l, f m = ∑ m ∈ Finset.Icc (-K) K, f m := by
  refine Finset.sum_subset (Finset.Icc_subset_Icc (by omega) hK) fun m _ hm => h m ?_
  rw [Finset.mem_Icc, ← abs_le] at hm
  omega

theorem sum_move (f : ℤ → V) {l : ℕ} {K : ℤ} (hK : (l : ℤ) + 1 ≤ K) (h : ∀ m, (l : ℤ) < |m| → f m = 0) {μ : ℤ} (hμ : |μ| ≤ 1) :
    ∑ m ∈ Finset.Icc (-K) K, f (m - μ) = ∑ m ∈ Finset.Icc (-K) K, f m := by
  rw [← sum_wide f (show (l : ℤ) ≤ K by omega) h]
  obtain ⟨h1, h2⟩ := abs_le.mp hμ
  have := sum_shift f (a := -(l : ℤ)) (b := l) (fun k hk => h k (by rw [lt_abs]; omega)) (fun k hk => h k (by rw [lt_abs]; omega)) (-μ)
    (S := Finset.Icc (-K) K) (Finset.Icc_subset_Icc (by omega) (by omega))
  rw [← this]
  rfl

theorem couple_wide {C : Coupling} {l1 l2 Λ : ℕ} {M : ℤ} (w : ℤ → ℤ → V)
    (hC : ∀ m1 m2, (l1 : ℤ) < |m1| ∨ (l2 : ℤ) < |m2| → C l1 m1 l2 m2 Λ M = 0) {K : ℤ} (h1 : (l1 : ℤ) ≤ K) (h2 : (l2 : ℤ) ≤ K) :
    couple C l1 l2 Λ M w = ∑ m1 ∈ Finset.Icc (-K) K, ∑ m2 ∈ Finset.Icc (-K) K, C l1 m1 l2 m2 Λ M • w m1 m2 := by
  unfold couple
  rw [sum_wide _ h1 fun m1 hm => Finset.sum_eq_zero fun m2 _ => by rw [hC _ _ (Or.inl hm), zero_smul]]
  refine Finset.sum_congr rfl fun m1 _ => ?_
  exact sum_wide _ h2 fun m2 hm => by rw [hC _ _ (Or.inr hm), zero_smul]

/-- Coupling after the scalar product of two annihilation operators. -/
theorem couple_recouple {C : Coupling} {sixj : Int → Int → Int → Int → Int → Int → ℝ} {Λ : ℕ} {M : ℤ} (hC : Recouples C sixj Λ M)
    {l1 l1' l2 l2' : ℕ} (a1 : Adjacent l1 l1') (a2 : Adjacent l2 l2') (w : ℤ → ℤ → V) :
    couple C l1 l2 Λ M (fun m1 m2 => ∑ μ ∈ ({1, 0, -1} : Finset ℤ),
      (sgn μ * cg1 l1' (m1 - μ) μ l1 * cg1 l2' (m2 - -μ) (-μ) l2) • w (m1 - μ) (m2 - -μ)) =
      (sgn (l1' + l2 + Λ) * √((2 * l1 + 1) * (2 * l2 + 1)) * sixj l1 l1' 1 l2' l2 Λ) • couple C l1' l2' Λ M w := by
  obtain ⟨K, hK⟩ : ∃ K : ℤ, K = l1 + l1' + l2 + l2' + 1 := ⟨_, rfl⟩
  rw [couple_wide _ (hC.range l1 · l2 ·) (K := K) (by omega) (by omega),
    couple_wide _ (hC.range l1' · l2' ·) (K := K) (by omega) (by omega), Finset.smul_sum]
  simp only [Finset.smul_sum, smul_smul]
  have hz : ∀ (l : ℕ) (m μ : ℤ) (l' : ℕ), (l : ℤ) < |m| → cg1 l m μ l' = 0 := fun l m μ l' h => if_pos (Or.inl h)
  -- bring the component outside
  have e1 : ∀ m1, ∑ m2 ∈ Finset.Icc (-K) K, ∑ μ ∈ ({1, 0, -1} : Finset ℤ),
      (C l1 m1 l2 m2 Λ M * (sgn μ * cg1 l1' (m1 - μ) μ l1 * cg1 l2' (m2 - -μ) (-μ) l2)) • w (m1 - μ) (m2 - -μ) =
      ∑ μ ∈ ({1, 0, -1} : Finset ℤ), ∑ m2 ∈ Finset.Icc (-K) K,
      (sgn μ * cg1 l1' (m1 - μ) μ l1 * cg1 l2' m2 (-μ) l2 * C l1 (m1 - μ + μ) l2 (m2 - μ) Λ M) • w (m1 - μ) m2 := by
    intro m1
    rw [Finset.sum_comm]
    refine Finset.sum_congr rfl fun μ hμ => ?_
    have h1 : |(-μ)| ≤ 1 := by
      simp only [Finset.mem_insert, Finset.mem_singleton] at hμ
      rw [abs_le]
      omega
    rw [← sum_move (fun m2 => (sgn μ * cg1 l1' (m1 - μ) μ l1 * cg1 l2' m2 (-μ) l2 * C l1 (m1 - μ + μ) l2 (m2 - μ) Λ M) • w (m1 - μ) m2)
      (l := l2') (K := K) (by omega) (fun m hm => by rw [hz _ _ _ _ hm, mul_zero, zero_mul, zero_smul]) h1]
    refine Finset.sum_congr rfl fun m2 _ => ?_
    rw [sub_add_cancel, show m2 - -μ - μ = m2 by ring]
    congr 1
    ring
  rw [Finset.sum_congr rfl fun m1 _ => e1 m1, Finset.sum_comm]
  have e2 : ∀ μ ∈ ({1, 0, -1} : Finset ℤ), ∑ m1 ∈ Finset.Icc (-K) K, ∑ m2 ∈ Finset.Icc (-K) K,
      (sgn μ * cg1 l1' (m1 - μ) μ l1 * cg1 l2' m2 (-μ) l2 * C l1 (m1 - μ + μ) l2 (m2 - μ) Λ M) • w (m1 - μ) m2 =
      ∑ m1 ∈ Finset.Icc (-K) K, ∑ m2 ∈ Finset.Icc (-K) K,
      (sgn μ * cg1 l1' m1 μ l1 * cg1 l2' m2 (-μ) l2 * C l1 (m1 + μ) l2 (m2 - μ) Λ M) • w m1 m2 := by
    intro μ hμ
    have h1 : |μ| ≤ 1 := by
      simp only [Finset.mem_insert, Finset.mem_singleton] at hμ
      rw [abs_le]
      omega
    exact sum_move (fun m1 => ∑ m2 ∈ Finset.Icc (-K) K,
      (sgn μ * cg1 l1' m1 μ l1 * cg1 l2' m2 (-μ) l2 * C l1 (m1 + μ) l2 (m2 - μ) Λ M) • w m1 m2) (l := l1') (K := K) (by omega)
      (fun m hm => Finset.sum_eq_zero fun m2 _ => by rw [hz _ _ _ _ hm, mul_zero, zero_mul, zero_mul, zero_smul]) h1
  rw [Finset.sum_congr rfl e2, Finset.sum_comm]
  refine Finset.sum_congr rfl fun m1 _ => ?_
  rw [Finset.sum_comm]
  refine Finset.sum_congr rfl fun m2 _ => ?_
  rw [← Finset.sum_smul, hC.recouple l1 l1' l2 l2' m1 m2 a1 a2]

end

end Verif.Moshinsky.Osc
