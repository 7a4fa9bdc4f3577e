import Verif.Moshinsky.Rotation
import Mathlib.LinearAlgebra.Matrix.NonsingularInverse
import Mathlib.Order.Interval.Finset.Nat
import Mathlib.Data.Int.Interval

/-!
# The oscillator states are complete
-/

namespace Verif.Moshinsky.Osc
open MvPolynomial

/-! ## Sums over projections -/

theorem fock_sum_left {σ : Type*} [Fintype σ] {ι : Type*} (S : Finset ι) (f : ι → MvPolynomial σ ℝ) (v : MvPolynomial σ ℝ) :
    fock (∑ i ∈ S, f i) v = ∑ i ∈ S, fock (f i) v := by
  rw [← fockL_apply, map_sum, LinearMap.sum_apply]
  rfl

theorem fock_sum_right {σ : Type*} [Fintype σ] {ι : Type*} (S : Finset ι) (f : ι → MvPolynomial σ ℝ) (v : MvPolynomial σ ℝ) :
    fock v (∑ i ∈ S, f i) = ∑ i ∈ S, fock v (f i) := by
  rw [← fockL_apply, map_sum]
  rfl

/-- The product state of two particles. -/
noncomputable def pair (n1 l1 : ℕ) (m1 : ℤ) (n2 l2 : ℕ) (m2 : ℤ) : Two := single first n1 l1 m1 * single second n2 l2 m2

theorem pair_ortho {n1 l1 n2 l2 n1' l1' n2' l2' : ℕ} {m1 m2 m1' m2' : ℤ} (h1 : |m1| ≤ l1) (h2 : |m2| ≤ l2) :
    fock (pair n1 l1 m1 n2 l2 m2) (pair n1' l1' m1' n2' l2' m2') =
      if (n1 = n1' ∧ l1 = l1' ∧ m1 = m1') ∧ (n2 = n2' ∧ l2 = l2' ∧ m2 = m2') then 1 else 0 := by
  rw [pair, pair, single_first, single_second, single_first, single_second, fock_prod, one_ortho h1, one_ortho h2]
  split_ifs <;> first | rfl | tauto | simp

/-- The scalar product of a state with a coupled state of the two particles. -/
theorem fock_coupled (u : Two) (n1 l1 n2 l2 Λ : ℕ) (M : ℤ) : fock u (coupledState cg first second n1 l1 n2 l2 Λ M) =
    ∑ m1 ∈ Finset.Icc (-(l1 : ℤ)) l1, ∑ m2 ∈ Finset.Icc (-(l2 : ℤ)) l2, cg l1 m1 l2 m2 Λ M * fock u (pair n1 l1 m1 n2 l2 m2) := by
  rw [coupledState, couple, fock_sum_right]
  refine Finset.sum_congr rfl fun m1 _ => ?_
  rw [fock_sum_right]
  refine Finset.sum_congr rfl fun m2 _ => ?_
  rw [fock_smul_right]
  rfl

theorem pair_coupled {n1 l1 n2 l2 n1' l1' n2' l2' Λ : ℕ} {m1 m2 M : ℤ} (h1 : |m1| ≤ l1) (h2 : |m2| ≤ l2) :
    fock (pair n1 l1 m1 n2 l2 m2) (coupledState cg first second n1' l1' n2' l2' Λ M) =
      if n1 = n1' ∧ l1 = l1' ∧ n2 = n2' ∧ l2 = l2' then cg l1 m1 l2 m2 Λ M else 0 := by
  rw [fock_coupled]
  simp only [pair_ortho h1 h2]
  split_ifs with h
  · obtain ⟨rfl, rfl, rfl, rfl⟩ := h
    rw [Finset.sum_eq_single m1, Finset.sum_eq_single m2]
    · simp
    · intro m _ hm
      rw [if_neg (by tauto), mul_zero]
    · intro hm
      exact absurd (Finset.mem_Icc.mpr (abs_le.mp h2)) hm
    · intro m _ hm
      refine Finset.sum_eq_zero fun m' _ => ?_
      rw [if_neg (by tauto), mul_zero]
    · intro hm
      exact absurd (Finset.mem_Icc.mpr (abs_le.mp h1)) hm
  · refine Finset.sum_eq_zero fun m _ => Finset.sum_eq_zero fun m' _ => ?_
    rw [if_neg (by tauto), mul_zero]

theorem coupled_fock (n1 l1 n2 l2 n1' l1' n2' l2' Λ Λ' : ℕ) (M M' : ℤ) :
    fock (coupledState cg first second n1 l1 n2 l2 Λ M) (coupledState cg first second n1' l1' n2' l2' Λ' M') =
      if n1 = n1' ∧ l1 = l1' ∧ n2 = n2' ∧ l2 = l2' then
        ∑ m1 ∈ Finset.Icc (-(l1 : ℤ)) l1, ∑ m2 ∈ Finset.Icc (-(l2 : ℤ)) l2, cg l1 m1 l2 m2 Λ M * cg l1 m1 l2 m2 Λ' M' else 0 := by
  rw [fock_comm, fock_coupled]
  split_ifs with h
  · refine Finset.sum_congr rfl fun m1 h1 => Finset.sum_congr rfl fun m2 h2 => ?_
    rw [fock_comm, pair_coupled (abs_le.mpr (Finset.mem_Icc.mp h1)) (abs_le.mpr (Finset.mem_Icc.mp h2)), if_pos h]
  · refine Finset.sum_eq_zero fun m1 h1 => Finset.sum_eq_zero fun m2 h2 => ?_
    rw [fock_comm, pair_coupled (abs_le.mpr (Finset.mem_Icc.mp h1)) (abs_le.mpr (Finset.mem_Icc.mp h2)), if_neg h, mul_zero]

/-- The coupling coefficients are orthogonal. -/
theorem cg_ortho {l1 l2 Λ Λ' : ℕ} {M M' : ℤ} (h : Λ ≠ Λ' ∨ M ≠ M') :
    ∑ m1 ∈ Finset.Icc (-(l1 : ℤ)) l1, ∑ m2 ∈ Finset.Icc (-(l2 : ℤ)) l2, cg l1 m1 l2 m2 Λ M * cg l1 m1 l2 m2 Λ' M' = 0 := by
  have e := coupled_fock 0 l1 0 l2 0 l1 0 l2 Λ Λ' M M'
  rw [if_pos ⟨rfl, rfl, rfl, rfl⟩, coupled_ortho rotates_first rotates_second rotates_first rotates_second h] at e
  exact e.symm

/-- The coupled states of two particles are orthonormal. -/
theorem coupled_norm {n1 l1 n2 l2 Λ : ℕ} {M : ℤ} (n1' l1' n2' l2' : ℕ) (ht : |(l1 : ℤ) - l2| ≤ Λ ∧ (Λ : ℤ) ≤ l1 + l2) (hM : |M| ≤ Λ) :
    fock (coupledState cg first second n1 l1 n2 l2 Λ M) (coupledState cg first second n1' l1' n2' l2' Λ M) =
      if n1 = n1' ∧ l1 = l1' ∧ n2 = n2' ∧ l2 = l2' then 1 else 0 := by
  rw [coupled_fock]
  split_ifs
  · rw [← cg_norm ht hM]
    simp only [pow_two]
  · rfl

/-- The projections of the first angular momentum with a given sum. -/
noncomputable def cols (l1 l2 : ℕ) (M : ℤ) : Finset ℤ := Finset.Icc (max (-l1) (M - l2)) (min l1 (M + l2))
/-- The angular momenta with a given projection. -/
def rows (l1 l2 : ℕ) (M : ℤ) : Finset ℕ := Finset.Icc (max ((l1 : ℤ) - l2).natAbs M.natAbs) (l1 + l2)

theorem card_rows (l1 l2 : ℕ) (M : ℤ) : (rows l1 l2 M).card = (cols l1 l2 M).card := by
  rw [rows, cols, Nat.card_Icc, Int.card_Icc]
  omega

theorem sum_cols (l1 l2 : ℕ) (M : ℤ) (f : ℤ → ℤ → ℝ) (h : ∀ m1 m2, m1 + m2 ≠ M → f m1 m2 = 0) :
    ∑ m1 ∈ Finset.Icc (-(l1 : ℤ)) l1, ∑ m2 ∈ Finset.Icc (-(l2 : ℤ)) l2, f m1 m2 = ∑ m ∈ cols l1 l2 M, f m (M - m) := by
  have e : ∀ m1 ∈ Finset.Icc (-(l1 : ℤ)) l1, ∑ m2 ∈ Finset.Icc (-(l2 : ℤ)) l2, f m1 m2 = if m1 ∈ cols l1 l2 M then f m1 (M - m1) else 0 := by
    intro m1 h1
    rw [Finset.mem_Icc] at h1
    split_ifs with hc
    · rw [cols, Finset.mem_Icc] at hc
      refine Finset.sum_eq_single (M - m1) (fun m2 _ h2 => h _ _ (by omega)) fun h2 => ?_
      rw [Finset.mem_Icc] at h2
      omega
    · refine Finset.sum_eq_zero fun m2 h2 => h _ _ fun h3 => hc ?_
      rw [Finset.mem_Icc] at h2
      rw [cols, Finset.mem_Icc]
      omega
  rw [Finset.sum_congr rfl e, ← Finset.sum_filter]
  refine Finset.sum_congr ?_ fun _ _ => rfl
  ext m
  rw [Finset.mem_filter, cols, Finset.mem_Icc, Finset.mem_Icc]
  omega

/-- The coupling coefficients are complete. -/
theorem cg_complete (l1 l2 : ℕ) (M : ℤ) {m m' : ℤ} (hm : m ∈ cols l1 l2 M) (hm' : m' ∈ cols l1 l2 M) :
    ∑ Λ ∈ rows l1 l2 M, cg l1 m l2 (M - m) Λ M * cg l1 m' l2 (M - m') Λ M = if m = m' then 1 else 0 := by
  let A : Matrix (rows l1 l2 M) (cols l1 l2 M) ℝ := Matrix.of fun Λ m => cg l1 m l2 (M - m) Λ M
  have hA : A * A.transpose = 1 := by
    ext Λ Λ'
    rw [Matrix.mul_apply, Matrix.one_apply]
    simp only [A, Matrix.transpose_apply, Matrix.of_apply]
    rw [Finset.sum_coe_sort (cols l1 l2 M) fun m => cg l1 m l2 (M - m) Λ M * cg l1 m l2 (M - m) Λ' M,
      ← sum_cols l1 l2 M (fun m1 m2 => cg l1 m1 l2 m2 Λ M * cg l1 m1 l2 m2 Λ' M) fun m1 m2 h => by rw [cg_of_ne h, zero_mul]]
    split_ifs with h
    · rw [h]
      have hΛ := Finset.mem_Icc.mp Λ'.2
      rw [← cg_norm (l1 := l1) (l2 := l2) (Λ := Λ') (M := M) (by rw [abs_le]; omega) (by rw [abs_le]; omega)]
      simp only [pow_two]
    · exact cg_ortho (Or.inl fun h' => h (Subtype.ext h'))
  have e : (rows l1 l2 M) ≃ (cols l1 l2 M) := Fintype.equivOfCardEq (by simpa using card_rows l1 l2 M)
  have hB := (Matrix.mul_eq_one_comm_of_equiv e).mp hA
  have := congrFun (congrFun hB ⟨m, hm⟩) ⟨m', hm'⟩
  rw [Matrix.mul_apply, Matrix.one_apply] at this
  simp only [A, Matrix.transpose_apply, Matrix.of_apply, Subtype.mk.injEq] at this
  rw [← this, Finset.sum_coe_sort (rows l1 l2 M) fun Λ => cg l1 m l2 (M - m) Λ M * cg l1 m' l2 (M - m') Λ M]

/-- Sums over products of amplitudes in the coupled scheme: one projection. -/
theorem recouple_cols (l1 l2 : ℕ) (M : ℤ) (f g : ℤ → ℝ) : ∑ m ∈ cols l1 l2 M, f m * g m =
    ∑ Λ ∈ rows l1 l2 M, (∑ m ∈ cols l1 l2 M, cg l1 m l2 (M - m) Λ M * f m) * ∑ m ∈ cols l1 l2 M, cg l1 m l2 (M - m) Λ M * g m := by
  simp only [Finset.sum_mul, Finset.mul_sum]
  rw [Finset.sum_comm]
  refine Finset.sum_congr rfl fun m hm => ?_
  rw [Finset.sum_comm]
  have e : ∀ m' ∈ cols l1 l2 M, ∑ Λ ∈ rows l1 l2 M, cg l1 m' l2 (M - m') Λ M * f m' * (cg l1 m l2 (M - m) Λ M * g m) =
      if m = m' then f m' * g m else 0 := by
    intro m' hm'
    trans (∑ Λ ∈ rows l1 l2 M, cg l1 m l2 (M - m) Λ M * cg l1 m' l2 (M - m') Λ M) * (f m' * g m)
    · rw [Finset.sum_mul]
      exact Finset.sum_congr rfl fun Λ _ => by ring
    · rw [cg_complete l1 l2 M hm hm']
      split_ifs <;> ring
  rw [Finset.sum_congr rfl e, Finset.sum_ite_eq, if_pos hm]

theorem sum_by_total (l1 l2 : ℕ) (h : ℤ → ℤ → ℝ) : ∑ m1 ∈ Finset.Icc (-(l1 : ℤ)) l1, ∑ m2 ∈ Finset.Icc (-(l2 : ℤ)) l2, h m1 m2 =
    ∑ M ∈ Finset.Icc (-((l1 : ℤ) + l2)) (l1 + l2), ∑ m ∈ cols l1 l2 M, h m (M - m) := by
  have e : ∀ M ∈ Finset.Icc (-((l1 : ℤ) + l2)) (l1 + l2), ∑ m ∈ cols l1 l2 M, h m (M - m) =
      ∑ m1 ∈ Finset.Icc (-(l1 : ℤ)) l1, ∑ m2 ∈ Finset.Icc (-(l2 : ℤ)) l2, if m1 + m2 = M then h m1 m2 else 0 := by
    intro M _
    rw [sum_cols l1 l2 M (fun m1 m2 => if m1 + m2 = M then h m1 m2 else 0) fun m1 m2 h => if_neg h]
    refine Finset.sum_congr rfl fun m _ => ?_
    rw [if_pos (by ring)]
  rw [Finset.sum_congr rfl e]
  symm
  rw [Finset.sum_comm]
  refine Finset.sum_congr rfl fun m1 h1 => ?_
  rw [Finset.sum_comm]
  refine Finset.sum_congr rfl fun m2 h2 => ?_
  rw [Finset.mem_Icc] at h1 h2
  rw [Finset.sum_ite_eq, if_pos]
  rw [Finset.mem_Icc]
  omega

/-- Sums over products of amplitudes in the coupled scheme, for amplitudes of one angular momentum and projection. -/
theorem recouple_one (l1 l2 Λ : ℕ) (M : ℤ) (f g : ℤ → ℤ → ℝ)
    (hf : ∀ (Λ' : ℕ) (M' : ℤ), Λ ≠ Λ' ∨ M ≠ M' →
      ∑ m1 ∈ Finset.Icc (-(l1 : ℤ)) l1, ∑ m2 ∈ Finset.Icc (-(l2 : ℤ)) l2, cg l1 m1 l2 m2 Λ' M' * f m1 m2 = 0) :
    ∑ m1 ∈ Finset.Icc (-(l1 : ℤ)) l1, ∑ m2 ∈ Finset.Icc (-(l2 : ℤ)) l2, f m1 m2 * g m1 m2 =
      (∑ m1 ∈ Finset.Icc (-(l1 : ℤ)) l1, ∑ m2 ∈ Finset.Icc (-(l2 : ℤ)) l2, cg l1 m1 l2 m2 Λ M * f m1 m2) *
        ∑ m1 ∈ Finset.Icc (-(l1 : ℤ)) l1, ∑ m2 ∈ Finset.Icc (-(l2 : ℤ)) l2, cg l1 m1 l2 m2 Λ M * g m1 m2 := by
  have hc : ∀ (Λ' : ℕ) (M' : ℤ) (f : ℤ → ℤ → ℝ), ∑ m ∈ cols l1 l2 M', cg l1 m l2 (M' - m) Λ' M' * f m (M' - m) =
      ∑ m1 ∈ Finset.Icc (-(l1 : ℤ)) l1, ∑ m2 ∈ Finset.Icc (-(l2 : ℤ)) l2, cg l1 m1 l2 m2 Λ' M' * f m1 m2 := by
    intro Λ' M' f
    rw [sum_cols l1 l2 M' (fun m1 m2 => cg l1 m1 l2 m2 Λ' M' * f m1 m2) fun m1 m2 h => by rw [cg_of_ne h, zero_mul]]
  have e : ∀ M' ∈ Finset.Icc (-((l1 : ℤ) + l2)) (l1 + l2), ∑ m ∈ cols l1 l2 M', f m (M' - m) * g m (M' - m) =
      ∑ Λ' ∈ rows l1 l2 M', if M = M' ∧ Λ = Λ' then
        (∑ m1 ∈ Finset.Icc (-(l1 : ℤ)) l1, ∑ m2 ∈ Finset.Icc (-(l2 : ℤ)) l2, cg l1 m1 l2 m2 Λ M * f m1 m2) *
          (∑ m1 ∈ Finset.Icc (-(l1 : ℤ)) l1, ∑ m2 ∈ Finset.Icc (-(l2 : ℤ)) l2, cg l1 m1 l2 m2 Λ M * g m1 m2) else 0 := by
    intro M' _
    rw [recouple_cols l1 l2 M' (fun m => f m (M' - m)) fun m => g m (M' - m)]
    refine Finset.sum_congr rfl fun Λ' _ => ?_
    rw [hc, hc]
    split_ifs with h
    · obtain ⟨rfl, rfl⟩ := h
      rfl
    · rw [hf Λ' M' (by tauto), zero_mul]
  rw [sum_by_total l1 l2 fun m1 m2 => f m1 m2 * g m1 m2, Finset.sum_congr rfl e]
  by_cases hM : M ∈ Finset.Icc (-((l1 : ℤ) + l2)) (l1 + l2) ∧ Λ ∈ rows l1 l2 M
  · rw [Finset.sum_eq_single M, Finset.sum_eq_single Λ]
    · rw [if_pos ⟨rfl, rfl⟩]
    · intro Λ' _ h
      rw [if_neg (by tauto)]
    · intro h
      exact absurd hM.2 h
    · intro M' _ h
      exact Finset.sum_eq_zero fun Λ' _ => if_neg (by tauto)
    · intro h
      exact absurd hM.1 h
  · have h0 : ∀ m1 m2 : ℤ, cg l1 m1 l2 m2 Λ M = 0 := by
      intro m1 m2
      by_cases h1 : (Λ : ℤ) < |M|
      · exact cg_range' h1
      · refine cg_triangle fun ht => hM ?_
        rw [abs_le] at ht
        rw [not_lt, abs_le] at h1
        rw [rows, Finset.mem_Icc, Finset.mem_Icc]
        omega
    rw [Finset.sum_eq_zero]
    · symm
      rw [Finset.sum_eq_zero, zero_mul]
      exact fun m1 _ => Finset.sum_eq_zero fun m2 _ => by rw [h0, zero_mul]
    · intro M' hM'
      refine Finset.sum_eq_zero fun Λ' hΛ' => if_neg ?_
      rintro ⟨rfl, rfl⟩
      exact hM ⟨hM', hΛ'⟩

/-! ## Every state is a combination of oscillator states -/

/-- The combinations of product states with `N` quanta. -/
noncomputable def shell (N : ℕ) : Submodule ℝ Two :=
  Submodule.span ℝ {w | ∃ (n1 l1 : ℕ) (m1 : ℤ) (n2 l2 : ℕ) (m2 : ℤ), 2 * n1 + l1 + (2 * n2 + l2) = N ∧ |m1| ≤ l1 ∧ |m2| ≤ l2 ∧
    w = pair n1 l1 m1 n2 l2 m2}

theorem pair_mem {N n1 l1 n2 l2 : ℕ} (m1 m2 : ℤ) (h : 2 * n1 + l1 + (2 * n2 + l2) = N) : pair n1 l1 m1 n2 l2 m2 ∈ shell N := by
  by_cases h1 : |m1| ≤ l1
  · by_cases h2 : |m2| ≤ l2
    · exact Submodule.subset_span ⟨n1, l1, m1, n2, l2, m2, h, h1, h2, rfl⟩
    · rw [pair, single.eq_def second, osc_out (not_le.mp h2), mul_zero]
      exact Submodule.zero_mem _
  · rw [pair, single.eq_def first, osc_out (not_le.mp h1), zero_mul]
    exact Submodule.zero_mem _

theorem raw_single (c : Fin 3 → Two) (n l : ℕ) (m : ℤ) : ∃ x : ℝ, rr (c 0) (c 1) (c 2) ^ n * solid l m (c 0) (c 1) (c 2) = x • single c n l m := by
  have h : ((-1) ^ n * √(rho n l m) : ℝ) ≠ 0 := mul_ne_zero (pow_ne_zero _ (by norm_num)) (Real.sqrt_pos.mpr (rho_pos n l m)).ne'
  exact ⟨((-1) ^ n * √(rho n l m))⁻¹, by rw [single, osc, smul_smul, inv_mul_cancel₀ h, one_smul]⟩

theorem raw_pred (c : Fin 3 → Two) (n l : ℕ) (m : ℤ) : ∃ x : ℝ, rr (c 0) (c 1) (c 2) ^ (n + 1) * solid ((l : ℤ) - 1) m (c 0) (c 1) (c 2) =
    x • (if l = 0 then 0 else single c (n + 1) (l - 1) m) := by
  rcases l with - | l
  · exact ⟨0, by rw [solid_pred 0 m rfl, mul_zero, zero_smul]⟩
  · obtain ⟨x, hx⟩ := raw_single c (n + 1) l m
    exact ⟨x, by rw [if_neg (Nat.succ_ne_zero l), Nat.add_sub_cancel, ← hx, Nat.cast_succ, add_sub_cancel_right]⟩

/-- Adding a quantum. -/
theorem add_quantum (c : Fin 3 → Two) (i : Fin 3) (n l : ℕ) (m : ℤ) : ∃ (x y : ℝ) (m' : ℤ),
    c i * single c n l m = x • single c n (l + 1) m' + y • (if l = 0 then 0 else single c (n + 1) (l - 1) m') := by
  have key : ∀ (m' : ℤ) (s t : ℝ), c i * solid l m (c 0) (c 1) (c 2) = s • solid (l + 1) m' (c 0) (c 1) (c 2) +
      t • (rr (c 0) (c 1) (c 2) * solid (l - 1) m' (c 0) (c 1) (c 2)) → ∃ x y : ℝ,
      c i * single c n l m = x • single c n (l + 1) m' + y • (if l = 0 then 0 else single c (n + 1) (l - 1) m') := by
    intro m' s t h
    obtain ⟨x, hx⟩ := raw_single c n (l + 1) m'
    obtain ⟨y, hy⟩ := raw_pred c n l m'
    refine ⟨(-1) ^ n * √(rho n l m) * s * x, (-1) ^ n * √(rho n l m) * t * y, ?_⟩
    rw [mul_smul _ x, ← hx, mul_smul _ y, ← hy, single, osc, mul_smul_comm, mul_left_comm, h, mul_add, smul_add, mul_smul_comm, mul_smul_comm, smul_smul,
      smul_smul, Nat.cast_succ]
    congr 2
    ring
  have hl : (2 * ((l : ℤ) : ℝ) + 1) ≠ 0 := odd_ne l
  match i with
  | 0 =>
    have h := p_solid l m hl (c 0) (c 1) (c 2)
    rw [sub_eq_add_neg, ← neg_smul] at h
    obtain ⟨x, y, hxy⟩ := key (m + 1) _ _ h
    exact ⟨x, y, m + 1, hxy⟩
  | 1 =>
    obtain ⟨x, y, hxy⟩ := key m _ _ (z_solid l m hl (c 0) (c 1) (c 2))
    exact ⟨x, y, m, hxy⟩
  | 2 =>
    have h := q_solid l m hl (c 0) (c 1) (c 2)
    rw [sub_eq_add_neg, ← neg_smul] at h
    obtain ⟨x, y, hxy⟩ := key (m - 1) _ _ h
    exact ⟨x, y, m - 1, hxy⟩

theorem X_shell (i : Fin 2 × Fin 3) {N : ℕ} {w : Two} (h : w ∈ shell N) : X i * w ∈ shell (N + 1) := by
  induction h using Submodule.span_induction with
  | zero => rw [mul_zero]; exact Submodule.zero_mem _
  | add u v _ _ hu hv => rw [mul_add]; exact Submodule.add_mem _ hu hv
  | smul a u _ hu => rw [mul_smul_comm]; exact Submodule.smul_mem _ a hu
  | mem w hw =>
    obtain ⟨n1, l1, m1, n2, l2, m2, hN, _, _, rfl⟩ := hw
    obtain ⟨k, i⟩ := i
    match k with
    | 0 =>
      obtain ⟨x, y, m', e⟩ := add_quantum first i n1 l1 m1
      rw [pair, ← mul_assoc, show (X (0, i) : Two) = first i from rfl, e, add_mul, smul_mul_assoc, smul_mul_assoc]
      refine Submodule.add_mem _ (Submodule.smul_mem _ _ (pair_mem m' m2 (by omega))) (Submodule.smul_mem _ _ ?_)
      split_ifs
      · rw [zero_mul]; exact Submodule.zero_mem _
      · exact pair_mem m' m2 (by omega)
    | 1 =>
      obtain ⟨x, y, m', e⟩ := add_quantum second i n2 l2 m2
      rw [pair, mul_left_comm, show (X (1, i) : Two) = second i from rfl, e, mul_add, mul_smul_comm, mul_smul_comm]
      refine Submodule.add_mem _ (Submodule.smul_mem _ _ (pair_mem m1 m' (by omega))) (Submodule.smul_mem _ _ ?_)
      split_ifs
      · rw [mul_zero]; exact Submodule.zero_mem _
      · exact pair_mem m1 m' (by omega)

theorem monomial_shell (d : Fin 2 × Fin 3 →₀ ℕ) (a : ℝ) : monomial d a ∈ shell d.degree := by
  induction d using Finsupp.induction with
  | zero =>
    have h : pair 0 0 0 0 0 0 = (1 : Two) := by
      have : ∀ c, single c 0 0 0 = (1 : Two) := by
        intro c
        simp [single, osc, solid, solidTerm, dp, ff, rho]
      rw [pair, this, this, mul_one]
    have e : (monomial 0 a : Two) = a • pair 0 0 0 0 0 0 := by rw [h, smul_eq_C_mul, mul_one]; rfl
    rw [e]
    exact Submodule.smul_mem _ _ (pair_mem 0 0 (by simp))
  | single_add i n d _ _ hd =>
    have hp : ∀ n : ℕ, X i ^ n * monomial d a ∈ shell (n + d.degree) := by
      intro n
      induction n with
      | zero => rwa [pow_zero, one_mul, zero_add]
      | succ n ih =>
        rw [pow_succ', mul_assoc, show n + 1 + d.degree = n + d.degree + 1 by ring]
        exact X_shell i ih
    rw [monomial_single_add, map_add, Finsupp.degree_single]
    exact hp n

theorem homogeneous_shell {u : Two} {N : ℕ} (h : u.IsHomogeneous N) : u ∈ shell N := by
  rw [u.as_sum]
  refine Submodule.sum_mem _ fun d hd => ?_
  have := monomial_shell d (coeff d u)
  rwa [show d.degree = N from ?_] at this
  rw [Finsupp.degree_eq_weight_one]
  exact h (mem_support_iff.mp hd)

/-! ## Sums over intermediate states -/

/-- Insertion of a complete set of product states. -/
theorem insert_pairs {u : Two} {N K : ℕ} (h : u ∈ shell N) (hK : N < K) (v : Two) :
    fock u v = ∑ n1 ∈ Finset.range K, ∑ l1 ∈ Finset.range K, ∑ n2 ∈ Finset.range K, ∑ l2 ∈ Finset.range K,
      ∑ m1 ∈ Finset.Icc (-(l1 : ℤ)) l1, ∑ m2 ∈ Finset.Icc (-(l2 : ℤ)) l2,
        fock u (pair n1 l1 m1 n2 l2 m2) * fock v (pair n1 l1 m1 n2 l2 m2) := by
  induction h using Submodule.span_induction with
  | zero => simp [fock]
  | add u u' _ _ hu hu' =>
    rw [fock_add_left, hu, hu']
    simp only [fock_add_left, add_mul, Finset.sum_add_distrib]
  | smul a u _ hu =>
    rw [fock_smul_left, hu]
    simp only [fock_smul_left, mul_assoc, Finset.mul_sum]
  | mem w hw =>
    obtain ⟨n1, l1, m1, n2, l2, m2, hN, h1, h2, rfl⟩ := hw
    simp only [pair_ortho h1 h2]
    rw [Finset.sum_eq_single n1, Finset.sum_eq_single l1, Finset.sum_eq_single n2, Finset.sum_eq_single l2, Finset.sum_eq_single m1,
      Finset.sum_eq_single m2]
    · rw [if_pos ⟨⟨rfl, rfl, rfl⟩, rfl, rfl, rfl⟩, one_mul, fock_comm]
    · intro m _ hm
      rw [if_neg (by tauto), zero_mul]
    · intro hm
      exact absurd (Finset.mem_Icc.mpr (abs_le.mp h2)) hm
    · intro m _ hm
      exact Finset.sum_eq_zero fun _ _ => by rw [if_neg (by tauto), zero_mul]
    · intro hm
      exact absurd (Finset.mem_Icc.mpr (abs_le.mp h1)) hm
    · intro m _ hm
      exact Finset.sum_eq_zero fun _ _ => Finset.sum_eq_zero fun _ _ => by rw [if_neg (by tauto), zero_mul]
    · intro hm
      exact absurd (Finset.mem_range.mpr (by omega)) hm
    · intro m _ hm
      exact Finset.sum_eq_zero fun _ _ => Finset.sum_eq_zero fun _ _ => Finset.sum_eq_zero fun _ _ => by rw [if_neg (by tauto), zero_mul]
    · intro hm
      exact absurd (Finset.mem_range.mpr (by omega)) hm
    · intro m _ hm
      exact Finset.sum_eq_zero fun _ _ => Finset.sum_eq_zero fun _ _ => Finset.sum_eq_zero fun _ _ => Finset.sum_eq_zero fun _ _ => by
        rw [if_neg (by tauto), zero_mul]
    · intro hm
      exact absurd (Finset.mem_range.mpr (by omega)) hm
    · intro m _ hm
      exact Finset.sum_eq_zero fun _ _ => Finset.sum_eq_zero fun _ _ => Finset.sum_eq_zero fun _ _ => Finset.sum_eq_zero fun _ _ =>
        Finset.sum_eq_zero fun _ _ => by rw [if_neg (by tauto), zero_mul]
    · intro hm
      exact absurd (Finset.mem_range.mpr (by omega)) hm

/-- Insertion of a complete set of coupled states, for a state of one angular momentum and projection. -/
theorem insert_coupled {u : Two} {N K Λ : ℕ} {M : ℤ} (h : u.IsHomogeneous N) (hK : N < K)
    (hu : ∀ (n1 l1 n2 l2 Λ' : ℕ) (M' : ℤ), Λ ≠ Λ' ∨ M ≠ M' → fock u (coupledState cg first second n1 l1 n2 l2 Λ' M') = 0) (v : Two) :
    fock u v = ∑ n1 ∈ Finset.range K, ∑ l1 ∈ Finset.range K, ∑ n2 ∈ Finset.range K, ∑ l2 ∈ Finset.range K,
      fock u (coupledState cg first second n1 l1 n2 l2 Λ M) * fock v (coupledState cg first second n1 l1 n2 l2 Λ M) := by
  rw [insert_pairs (homogeneous_shell h) hK]
  refine Finset.sum_congr rfl fun n1 _ => Finset.sum_congr rfl fun l1 _ => Finset.sum_congr rfl fun n2 _ => Finset.sum_congr rfl fun l2 _ => ?_
  rw [fock_coupled, fock_coupled]
  refine recouple_one l1 l2 Λ M _ _ fun Λ' M' hne => ?_
  rw [← fock_coupled]
  exact hu n1 l1 n2 l2 Λ' M' hne

/-! ## The change of variables -/

/-- The change to relative and centre-of-mass variables (`ε = 1`) and back (`ε = -1`). -/
noncomputable def turn (ε : ℝ) : Two →ₐ[ℝ] Two :=
  aeval fun i => if i.1 = 0 then (1 / √2 : ℝ) • (X (0, i.2) - ε • X (1, i.2)) else (1 / √2 : ℝ) • (X (1, i.2) + ε • X (0, i.2))

theorem turn_first (ε : ℝ) (i : Fin 3) : turn ε (X (0, i)) = (1 / √2 : ℝ) • (X (0, i) - ε • X (1, i)) := by
  rw [turn, aeval_X, if_pos rfl]

theorem turn_second (ε : ℝ) (i : Fin 3) : turn ε (X (1, i)) = (1 / √2 : ℝ) • (X (1, i) + ε • X (0, i)) := by
  rw [turn, aeval_X, if_neg (by simp)]

theorem D_turn {ε : ℝ} (hε : ε * ε = 1) (j : Fin 3) (v : Two) :
    (1 / √2 : ℝ) • (pderiv (0, j) (turn ε v) - ε • pderiv (1, j) (turn ε v)) = turn ε (pderiv (0, j) v) ∧
    (1 / √2 : ℝ) • (pderiv (1, j) (turn ε v) + ε • pderiv (0, j) (turn ε v)) = turn ε (pderiv (1, j) v) := by
  induction v using MvPolynomial.induction_on with
  | C a =>
    rw [show turn ε (C a) = C a from aeval_C _ a]
    simp
  | add p q hp hq =>
    simp only [map_add, ← hp.1, ← hq.1, ← hp.2, ← hq.2, smul_add, smul_sub]
    constructor <;> abel
  | mul_X p i hp =>
    have h0 : (1 / √2 : ℝ) • (pderiv (0, j) (turn ε (X i)) - ε • pderiv (1, j) (turn ε (X i))) = turn ε (pderiv (0, j) (X i)) ∧
        (1 / √2 : ℝ) • (pderiv (1, j) (turn ε (X i)) + ε • pderiv (0, j) (turn ε (X i))) = turn ε (pderiv (1, j) (X i)) := by
      have hh := half
      obtain ⟨k, i⟩ := i
      match k with
      | 0 =>
        by_cases hij : i = j
        · subst hij
          rw [turn_first]
          simp only [Derivation.map_smul, map_sub, pderiv_X_self, pderiv_X_of_ne (show ((0, i) : Fin 2 × Fin 3) ≠ (1, i) by simp),
            pderiv_X_of_ne (show ((1, i) : Fin 2 × Fin 3) ≠ (0, i) by simp), smul_zero, sub_zero, zero_sub, smul_neg, map_one, map_zero]
          constructor
          · rw [sub_neg_eq_add, smul_comm ε, smul_smul ε, hε, one_smul, ← smul_add, smul_smul, hh, ← two_smul ℝ, smul_smul]
            norm_num
          · rw [smul_comm ε, neg_add_cancel, smul_zero]
        · have n1 : ((0, i) : Fin 2 × Fin 3) ≠ (0, j) := by simp [hij]
          have n2 : ((0, i) : Fin 2 × Fin 3) ≠ (1, j) := by simp
          have n3 : ((1, i) : Fin 2 × Fin 3) ≠ (0, j) := by simp
          have n4 : ((1, i) : Fin 2 × Fin 3) ≠ (1, j) := by simp [hij]
          rw [turn_first]
          simp only [Derivation.map_smul, map_sub, pderiv_X_of_ne n1, pderiv_X_of_ne n2, pderiv_X_of_ne n3, pderiv_X_of_ne n4, smul_zero, sub_zero,
            map_zero, add_zero, and_self]
      | 1 =>
        by_cases hij : i = j
        · subst hij
          rw [turn_second]
          simp only [Derivation.map_smul, map_add, pderiv_X_self, pderiv_X_of_ne (show ((0, i) : Fin 2 × Fin 3) ≠ (1, i) by simp),
            pderiv_X_of_ne (show ((1, i) : Fin 2 × Fin 3) ≠ (0, i) by simp), smul_zero, add_zero, zero_add, map_one, map_zero]
          constructor
          · rw [smul_comm ε, sub_self, smul_zero]
          · rw [smul_comm ε, smul_smul ε, hε, one_smul, ← smul_add, smul_smul, hh, ← two_smul ℝ, smul_smul]
            norm_num
        · have n1 : ((0, i) : Fin 2 × Fin 3) ≠ (0, j) := by simp [hij]
          have n2 : ((0, i) : Fin 2 × Fin 3) ≠ (1, j) := by simp
          have n3 : ((1, i) : Fin 2 × Fin 3) ≠ (0, j) := by simp
          have n4 : ((1, i) : Fin 2 × Fin 3) ≠ (1, j) := by simp [hij]
          rw [turn_second]
          simp only [Derivation.map_smul, map_add, pderiv_X_of_ne n1, pderiv_X_of_ne n2, pderiv_X_of_ne n3, pderiv_X_of_ne n4, smul_zero, sub_zero,
            map_zero, add_zero, and_self]
    simp only [map_mul, Derivation.leibniz, map_add, smul_eq_mul, ← hp.1, ← hp.2, ← h0.1, ← h0.2, smul_add, smul_sub, mul_add, mul_sub, mul_smul_comm]
    constructor <;> abel

/-- The change of variables keeps the scalar product. -/
theorem fock_turn {ε : ℝ} (hε : ε * ε = 1) (u v : Two) : fock (turn ε u) (turn ε v) = fock u v := by
  induction u using MvPolynomial.induction_on generalizing v with
  | C a =>
    have h : coeff 0 (turn ε v) = coeff 0 v := by
      have : (constantCoeff : Two →+* ℝ).comp (turn ε).toRingHom = constantCoeff := by
        refine MvPolynomial.ringHom_ext (fun r => ?_) fun i => ?_
        · simp
        · obtain ⟨k, i⟩ := i
          match k with
          | 0 => simp [turn_first]
          | 1 => simp [turn_second]
      have := congrArg (fun f => f v) this
      simpa [constantCoeff_eq] using this
    rw [show turn ε (C a) = C a from aeval_C _ a, fock_const, fock_const, h]
  | add p q hp hq => rw [map_add, fock_add_left, fock_add_left, hp, hq]
  | mul_X p i hp =>
    have hd := fun j => D_turn hε j v
    obtain ⟨k, i⟩ := i
    match k with
    | 0 =>
      rw [map_mul, turn_first, mul_smul_comm, mul_sub, mul_smul_comm, mul_comm _ (X (0, i)), mul_comm _ (X (1, i)), fock_smul_left, sub_eq_add_neg,
        ← neg_smul, fock_add_left, fock_smul_left, fock_X_left, fock_X_left, ← fock_smul_right, ← fock_add_right, ← fock_smul_right,
        neg_smul, ← sub_eq_add_neg, (hd i).1, hp, mul_comm p, fock_X_left]
    | 1 =>
      rw [map_mul, turn_second, mul_smul_comm, mul_add, mul_smul_comm, mul_comm _ (X (0, i)), mul_comm _ (X (1, i)), fock_smul_left,
        fock_add_left, fock_smul_left, fock_X_left, fock_X_left, ← fock_smul_right, ← fock_add_right, ← fock_smul_right,
        (hd i).2, hp, mul_comm p, fock_X_left]

theorem turn_back (u : Two) : turn 1 (turn (-1) u) = u := by
  have : (turn 1).comp (turn (-1)) = AlgHom.id ℝ Two := by
    refine MvPolynomial.algHom_ext fun i => ?_
    have hh := half
    obtain ⟨k, i⟩ := i
    match k with
    | 0 =>
      rw [AlgHom.comp_apply, turn_first, map_smul, map_sub, map_smul, turn_first, turn_second, AlgHom.id_apply]
      rw [smul_comm (-1 : ℝ), ← smul_sub, smul_smul, hh]
      module
    | 1 =>
      rw [AlgHom.comp_apply, turn_second, map_smul, map_add, map_smul, turn_first, turn_second, AlgHom.id_apply]
      rw [smul_comm (-1 : ℝ), ← smul_add, smul_smul, hh]
      module
  exact congrArg (fun f => f u) this

theorem turn_coupled (n1 l1 n2 l2 Λ : ℕ) (M : ℤ) :
    turn 1 (coupledState cg first second n1 l1 n2 l2 Λ M) = coupledState cg relative centre n1 l1 n2 l2 Λ M := by
  have h1 : ∀ i, turn 1 (first i) = relative i := fun i => by rw [first, turn_first, one_smul]; rfl
  have h2 : ∀ i, turn 1 (second i) = centre i := fun i => by rw [second, turn_second, one_smul, add_comm]; rfl
  rw [coupledState, coupledState, couple, couple, map_sum]
  refine Finset.sum_congr rfl fun m1 _ => ?_
  rw [map_sum]
  refine Finset.sum_congr rfl fun m2 _ => ?_
  rw [map_smul, map_mul, single, single, map_osc, map_osc]
  simp only [h1, h2]
  rfl

end Verif.Moshinsky.Osc
