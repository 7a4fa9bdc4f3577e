import Mathlib.Algebra.BigOperators.Fin
import Mathlib.Algebra.BigOperators.Group.Finset.Sigma
import Mathlib.Algebra.BigOperators.GroupWithZero.Action
import Mathlib.Algebra.Module.BigOperators
import Mathlib.LinearAlgebra.BilinearMap
import Mathlib.Algebra.Algebra.Bilinear
import Mathlib.Data.Real.Basic
import Mathlib.Tactic.Module
import Mathlib.Tactic.FieldSimp
import Mathlib.Tactic.NoncommRing
import Mathlib.Tactic.Linarith
import Mathlib.Tactic.Positivity

/-!
# From relative operators on pairs to intrinsic operators on `A` particles

`relative_me.h` states, operator by operator, the factor with which a two-body operator built from the relative operator
gives the intrinsic operator of the `A`-body system (lines 97-111, 177-182, 211-215, 248-253, 280-284, 307-311).  Here
these statements are proved for any family of single-particle quantities: positions and momenta are elements of any real
vector space (an algebra of operators in particular), and products of two of them are any bilinear map.
-/

namespace Verif.Relative.Intrinsic
open Finset

variable {M M' R : Type*} [AddCommGroup M] [Module ℝ M] [AddCommGroup M'] [Module ℝ M'] [AddCommGroup R] [Module ℝ R]

/-- The two-body operator `V[O]`: the sum of `O` over all pairs of particles. -/
def pairs {A : ℕ} (O : Fin A → Fin A → R) : R := ∑ i, ∑ j, if i < j then O i j else 0

/-- The mean of a single-particle quantity: the position of the centre of mass, or the momentum per particle. -/
noncomputable def mean {A : ℕ} (x : Fin A → M) : M := (1 / (A : ℝ)) • ∑ i, x i

/-- A symmetric operator summed over ordered pairs counts each pair twice. -/
theorem sum_ordered {A : ℕ} (O : Fin A → Fin A → R) (hs : ∀ i j, O i j = O j i) :
    ∑ i, ∑ j, O i j = (2 : ℝ) • pairs O + ∑ i, O i i := by
  have h1 : ∀ i j : Fin A, O i j = (if i < j then O i j else 0) + ((if j < i then O j i else 0) +
      if i = j then O i i else 0) := by
    intro i j
    rcases lt_trichotomy i j with h | h | h
    · rw [if_pos h, if_neg (by omega), if_neg (by omega), add_zero, add_zero]
    · subst h
      simp
    · rw [if_neg (by omega), if_pos h, if_neg (by omega), hs i j]
      simp
  have h2 : ∑ i, ∑ j, O i j = ∑ i, ∑ j, ((if i < j then O i j else 0) + ((if j < i then O j i else 0) +
      if i = j then O i i else 0)) := Finset.sum_congr rfl fun i _ => Finset.sum_congr rfl fun j _ => h1 i j
  rw [h2]
  simp only [Finset.sum_add_distrib]
  rw [Finset.sum_comm (f := fun i j => if j < i then O j i else 0)]
  simp only [Finset.sum_ite_eq, Finset.mem_univ, if_true, pairs]
  rw [two_smul, add_assoc]

/-- Products of deviations from the mean, summed, are products of differences, summed over pairs and divided by `A`. -/
theorem deviations {A : ℕ} (hA : 0 < A) (B : M →ₗ[ℝ] M' →ₗ[ℝ] R) (x : Fin A → M) (y : Fin A → M') :
    ∑ i, B (x i - mean x) (y i - mean y) = (1 / (A : ℝ)) • pairs fun i j => B (x i - x j) (y i - y j) := by
  have hA' : (A : ℝ) ≠ 0 := Nat.cast_ne_zero.mpr hA.ne'
  have hp := sum_ordered (fun i j => B (x i - x j) (y i - y j)) fun i j => by
    rw [← neg_sub (x j), ← neg_sub (y j), map_neg, map_neg, LinearMap.neg_apply, neg_neg]
  have hd : ∑ i, B (x i - x i) (y i - y i) = 0 := by simp
  rw [hd, add_zero] at hp
  have hl : ∑ i, ∑ j, B (x i - x j) (y i - y j) =
      (2 * (A : ℝ)) • ∑ i, B (x i) (y i) - (2 : ℝ) • B (∑ i, x i) (∑ i, y i) := by
    simp only [map_sub, LinearMap.sub_apply, Finset.sum_sub_distrib, Finset.sum_const, Finset.card_univ,
      Fintype.card_fin, map_sum, LinearMap.sum_apply]
    rw [Finset.sum_comm (f := fun i j => B (x j) (y i)), ← Finset.smul_sum, ← Nat.cast_smul_eq_nsmul ℝ]
    module
  have hr : ∑ i, B (x i - mean x) (y i - mean y) =
      ∑ i, B (x i) (y i) - (1 / (A : ℝ)) • B (∑ i, x i) (∑ i, y i) := by
    have e1 : ∑ i, B (x i) (mean y) = B (∑ i, x i) (mean y) := by rw [map_sum, LinearMap.sum_apply]
    have e2 : ∑ i, B (mean x) (y i) = B (mean x) (∑ i, y i) := by rw [map_sum]
    simp only [map_sub, LinearMap.sub_apply, Finset.sum_sub_distrib, Finset.sum_const, Finset.card_univ,
      Fintype.card_fin]
    rw [e1, e2, mean, mean]
    simp only [map_smul, LinearMap.smul_apply]
    rw [← Nat.cast_smul_eq_nsmul ℝ]
    have e3 : ((A : ℝ) * (1 / A)) = 1 := by field_simp
    rw [smul_smul, e3]
    module
  rw [hl] at hp
  have : pairs (fun i j => B (x i - x j) (y i - y j)) =
      (A : ℝ) • ∑ i, B (x i) (y i) - B (∑ i, x i) (∑ i, y i) := by
    have := congrArg (fun z => (1 / 2 : ℝ) • z) hp
    rw [smul_smul, show (1 / 2 * 2 : ℝ) = 1 by norm_num, one_smul] at this
    rw [← this]
    module
  rw [this, hr, smul_sub, smul_smul]
  have e3 : (1 / (A : ℝ)) * A = 1 := by field_simp
  rw [e3, one_smul]

/-- The relative coordinate of a pair (`relative_me.h` 27). -/
def rRel (r₁ r₂ : M) : M := r₁ - r₂

/-- The relative momentum of a pair (`relative_me.h` 29). -/
noncomputable def kRel (k₁ k₂ : M) : M := (1 / 2 : ℝ) • (k₁ - k₂)

/-- **C114**, squared coordinate: `r²_intr = (1/A) V[r_rel²]`. -/
theorem r_sqr_intrinsic {A : ℕ} (hA : 0 < A) (dot : M →ₗ[ℝ] M →ₗ[ℝ] R) (r : Fin A → M) :
    ∑ i, dot (r i - mean r) (r i - mean r) =
      (1 / (A : ℝ)) • pairs fun i j => dot (rRel (r i) (r j)) (rRel (r i) (r j)) := deviations hA dot r r

theorem pairs_smul {A : ℕ} (c : ℝ) (O : Fin A → Fin A → R) : pairs (fun i j => c • O i j) = c • pairs O := by
  simp only [pairs, Finset.smul_sum, smul_ite, smul_zero]

/-- **C114**, squared momentum: `k²_intr = (4/A) V[k_rel²]`. -/
theorem k_sqr_intrinsic {A : ℕ} (hA : 0 < A) (dot : M →ₗ[ℝ] M →ₗ[ℝ] R) (k : Fin A → M) :
    ∑ i, dot (k i - mean k) (k i - mean k) =
      (4 / (A : ℝ)) • pairs fun i j => dot (kRel (k i) (k j)) (kRel (k i) (k j)) := by
  rw [deviations hA dot k k]
  simp only [kRel, map_smul, LinearMap.smul_apply, smul_smul]
  rw [pairs_smul, smul_smul]
  congr 1
  ring

/-- **C114**, kinetic energy: `T_intr = (2/A) V[T_rel]` with `T_rel = (ħ²/m) k_rel²`. -/
theorem kinetic_intrinsic {A : ℕ} (hA : 0 < A) (dot : M →ₗ[ℝ] M →ₗ[ℝ] R) (hbar m : ℝ) (k : Fin A → M) :
    (hbar ^ 2 / (2 * m)) • ∑ i, dot (k i - mean k) (k i - mean k) =
      (2 / (A : ℝ)) • pairs fun i j => (hbar ^ 2 / m) • dot (kRel (k i) (k j)) (kRel (k i) (k j)) := by
  rw [k_sqr_intrinsic hA, pairs_smul, smul_smul, smul_smul]
  congr 1
  ring

/-- **C114 is false of the header in one place**: with the header's `T_rel = (ħ²/(4m)) k_rel²` (`relative_me.h` 106,
111) the result is a quarter of the intrinsic kinetic energy. -/
theorem kinetic_header_quarter {A : ℕ} (hA : 0 < A) (dot : M →ₗ[ℝ] M →ₗ[ℝ] R) (hbar m : ℝ) (k : Fin A → M) :
    (2 / (A : ℝ)) • pairs (fun i j => (hbar ^ 2 / (4 * m)) • dot (kRel (k i) (k j)) (kRel (k i) (k j))) =
      (1 / 4 : ℝ) • (hbar ^ 2 / (2 * m)) • ∑ i, dot (k i - mean k) (k i - mean k) := by
  rw [kinetic_intrinsic hA, pairs_smul, pairs_smul, smul_smul, smul_smul, smul_smul]
  congr 1
  ring

/-- The header's formula fails already for two particles moving apart. -/
theorem kinetic_header_wrong : ∃ k : Fin 2 → ℝ,
    (2 / (2 : ℝ)) * pairs (fun i j => (1 ^ 2 / (4 * 1) : ℝ) * (kRel (k i) (k j) * kRel (k i) (k j))) ≠
      (1 ^ 2 / (2 * 1) : ℝ) * ∑ i, (k i - mean k) * (k i - mean k) := by
  refine ⟨![1, -1], ?_⟩
  have h : ((0 : Fin 2) < 1) := by decide
  norm_num [pairs, kRel, mean, Fin.sum_univ_two, h]

/-- **C114**, orbital angular momentum: `L_intr = (2/A) V[L_rel]`. -/
theorem orbital_intrinsic {A : ℕ} (hA : 0 < A) (cross : M →ₗ[ℝ] M →ₗ[ℝ] R) (r k : Fin A → M) :
    ∑ i, cross (r i - mean r) (k i - mean k) =
      (2 / (A : ℝ)) • pairs fun i j => cross (rRel (r i) (r j)) (kRel (k i) (k j)) := by
  rw [deviations hA cross r k]
  simp only [kRel, rRel, map_smul]
  rw [pairs_smul, smul_smul]
  congr 1
  ring

/-- **C114**, dipole: `D_intr = Σ τ_i (r_i - R) = (1/A) V[(τ_i - τ_j) r_rel]`. -/
theorem dipole_intrinsic {A : ℕ} (hA : 0 < A) (mul : M' →ₗ[ℝ] M →ₗ[ℝ] R) (tau : Fin A → M') (r : Fin A → M) :
    ∑ i, mul (tau i) (r i - mean r) =
      (1 / (A : ℝ)) • pairs fun i j => mul (tau i - tau j) (rRel (r i) (r j)) := by
  have hA' : (A : ℝ) ≠ 0 := Nat.cast_ne_zero.mpr hA.ne'
  have h := deviations hA mul tau r
  rw [show (fun i j => mul (tau i - tau j) (rRel (r i) (r j))) = fun i j => mul (tau i - tau j) (r i - r j) from rfl, ← h]
  simp only [map_sub, LinearMap.sub_apply, Finset.sum_sub_distrib, Finset.sum_const, Finset.card_univ, Fintype.card_fin]
  have e1 : ∑ i, mul (mean tau) (r i) = mul (mean tau) (∑ i, r i) := by rw [map_sum]
  rw [e1, show mul (mean tau) (mean r) = (1 / (A : ℝ)) • mul (mean tau) (∑ i, r i) by
    conv_lhs => rw [show mean r = (1 / (A : ℝ)) • ∑ i, r i from rfl, map_smul],
    ← Nat.cast_smul_eq_nsmul ℝ, smul_smul]
  have e3 : ((A : ℝ) * (1 / A)) = 1 := by field_simp
  rw [e3]
  module

/-- **C114**, spin and isospin: `S = 1/(A-1) V[S_rel]` with `S_rel` the sum over the pair. -/
theorem spin_intrinsic {A : ℕ} (hA : 2 ≤ A) (s : Fin A → R) :
    ∑ i, s i = (1 / ((A : ℝ) - 1)) • pairs fun i j => s i + s j := by
  have hA' : ((A : ℝ) - 1) ≠ 0 := by
    have : (2 : ℝ) ≤ A := by exact_mod_cast hA
    linarith
  have hp := sum_ordered (fun i j => s i + s j) fun i j => add_comm _ _
  simp only [Finset.sum_add_distrib, Finset.sum_const, Finset.card_univ, Fintype.card_fin] at hp
  rw [← Finset.smul_sum, ← Nat.cast_smul_eq_nsmul ℝ] at hp
  have : pairs (fun i j => s i + s j) = ((A : ℝ) - 1) • ∑ i, s i := by
    have e := congrArg (fun z => (1 / 2 : ℝ) • z) (eq_sub_of_add_eq hp.symm)
    simp only [smul_sub, smul_smul, smul_add] at e
    norm_num at e
    rw [e]
    module
  rw [this, smul_smul, one_div_mul_cancel hA', one_smul]

/-- The number of pairs. -/
theorem pairs_const {A : ℕ} (c : R) : pairs (fun (_ _ : Fin A) => c) = ((A : ℝ) * (A - 1) / 2) • c := by
  have hp := sum_ordered (fun (_ _ : Fin A) => c) fun _ _ => rfl
  simp only [Finset.sum_const, Finset.card_univ, Fintype.card_fin] at hp
  have e := congrArg (fun z => (1 / 2 : ℝ) • z) (eq_sub_of_add_eq hp.symm)
  simp only [smul_sub, smul_smul, ← Nat.cast_smul_eq_nsmul ℝ] at e
  norm_num at e
  rw [e]
  module

/-- **C114**, Casimir: `C = V[C_rel] - (A-2)/(A-1) V[15/2]`, for any generators whose squares add up to `15/4` on each
particle (as for the fifteen generators of SU(4) on one nucleon). -/
theorem casimir_intrinsic {A n : ℕ} (hA : 2 ≤ A) {E : Type*} [Ring E] [Algebra ℝ E] (g : Fin n → Fin A → E)
    (h1 : ∀ i, ∑ a, g a i * g a i = (15 / 4 : ℝ) • (1 : E)) :
    ∑ a, (∑ i, g a i) * (∑ i, g a i) =
      pairs (fun i j => ∑ a, (g a i + g a j) * (g a i + g a j)) -
        (((A : ℝ) - 2) / (A - 1)) • pairs fun (_ _ : Fin A) => (15 / 2 : ℝ) • (1 : E) := by
  have hA' : ((A : ℝ) - 1) ≠ 0 := by
    have : (2 : ℝ) ≤ A := by exact_mod_cast hA
    linarith
  have hp := sum_ordered (fun i j => ∑ a, (g a i * g a j + g a j * g a i)) fun i j =>
    Finset.sum_congr rfl fun a _ => add_comm _ _
  have hd : ∑ i, ∑ a, (g a i * g a i + g a i * g a i) = ((A : ℝ) * (15 / 2)) • (1 : E) := by
    simp only [Finset.sum_add_distrib, h1, Finset.sum_const, Finset.card_univ, Fintype.card_fin,
      ← Nat.cast_smul_eq_nsmul ℝ]
    module
  have hs : ∑ i, ∑ j, ∑ a, (g a i * g a j + g a j * g a i) = (2 : ℝ) • ∑ a, (∑ i, g a i) * (∑ i, g a i) := by
    simp only [Finset.sum_add_distrib]
    have e1 : ∑ i, ∑ j, ∑ a, g a i * g a j = ∑ a, (∑ i, g a i) * (∑ i, g a i) := by
      simp only [Finset.sum_mul_sum]
      rw [Finset.sum_comm (s := (univ : Finset (Fin n)))]
      exact Finset.sum_congr rfl fun i _ => Finset.sum_comm
    have e2 : ∑ i, ∑ j, ∑ a, g a j * g a i = ∑ a, (∑ i, g a i) * (∑ i, g a i) := by
      rw [Finset.sum_comm]
      exact e1
    rw [e1, e2]
    module
  have hc : pairs (fun i j => ∑ a, (g a i + g a j) * (g a i + g a j)) =
      pairs (fun i j => ∑ a, (g a i * g a j + g a j * g a i)) + pairs fun (_ _ : Fin A) => (15 / 2 : ℝ) • (1 : E) := by
    simp only [pairs]
    rw [← Finset.sum_add_distrib]
    refine Finset.sum_congr rfl fun i _ => ?_
    rw [← Finset.sum_add_distrib]
    refine Finset.sum_congr rfl fun j _ => ?_
    by_cases h : i < j
    · simp only [if_pos h]
      have : ∀ a, (g a i + g a j) * (g a i + g a j) = (g a i * g a j + g a j * g a i) + (g a i * g a i + g a j * g a j) :=
        fun a => by noncomm_ring
      simp only [this, Finset.sum_add_distrib, h1]
      module
    · simp [h]
  rw [hs, hd] at hp
  have hV : ∑ a, (∑ i, g a i) * (∑ i, g a i) = pairs (fun i j => ∑ a, (g a i * g a j + g a j * g a i)) +
      ((A : ℝ) * (15 / 4)) • (1 : E) := by
    have e := congrArg (fun z => (1 / 2 : ℝ) • z) hp
    simp only [smul_add, smul_smul] at e
    norm_num at e
    rw [e]
    congr 2
    ring
  rw [hV, hc, pairs_const, smul_smul, smul_smul, add_sub_assoc]
  congr 1
  rw [← sub_smul]
  congr 1
  field_simp
  ring

/-- Three particles on a line: their spread about the mean, and the spread of the pairs. -/
example : ∑ i, (![0, 1, 5] i - mean ![(0 : ℝ), 1, 5]) * (![0, 1, 5] i - mean ![(0 : ℝ), 1, 5]) = 14 ∧
    (1 / ((3 : ℕ) : ℝ)) • pairs (fun i j : Fin 3 => rRel (![(0 : ℝ), 1, 5] i) (![(0 : ℝ), 1, 5] j)
      * rRel (![(0 : ℝ), 1, 5] i) (![(0 : ℝ), 1, 5] j)) = 14 := by
  have h := r_sqr_intrinsic (A := 3) (by norm_num) (LinearMap.mul ℝ ℝ) ![(0 : ℝ), 1, 5]
  simp only [LinearMap.mul_apply'] at h
  rw [← h, and_self]
  have h2 : ![(0 : ℝ), 1, 5] 2 = 5 := rfl
  norm_num [mean, Fin.sum_univ_three, h2]

/-- The hypothesis of `casimir_intrinsic` can be met. -/
example : ∑ a : Fin 15, (∑ _i : Fin 4, (1 / 2 : ℝ)) * (∑ _i : Fin 4, (1 / 2 : ℝ)) =
    pairs (fun (_ _ : Fin 4) => ∑ _a : Fin 15, ((1 / 2 : ℝ) + 1 / 2) * (1 / 2 + 1 / 2)) -
      ((((4 : ℕ) : ℝ) - 2) / ((4 : ℕ) - 1)) • pairs fun (_ _ : Fin 4) => (15 / 2 : ℝ) • (1 : ℝ) :=
  casimir_intrinsic (A := 4) (n := 15) (by norm_num) (fun _ _ => (1 / 2 : ℝ)) fun _ => by norm_num

end Verif.Relative.Intrinsic
