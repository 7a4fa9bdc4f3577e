import Verif.Moshinsky.Complete
import Verif.Moshinsky.OverlapRun

/-!
# The brackets form an orthogonal matrix

`libraries/moshinsky/moshinsky_xform.cpp:295-340` transforms with the matrix of brackets between the states of relative and
centre-of-mass motion and the states of the two particles.  With angular-momentum functions that have the defining property
of six-j symbols this matrix is orthogonal, by rows and by columns.
-/

namespace Verif.Moshinsky.Osc
open MvPolynomial

/-! ## Specification -/

/-- `l1` and `l2` can couple to `Λ`. -/
def Couples (l1 l2 Λ : ℕ) : Prop := |(l1 : ℤ) - l2| ≤ Λ ∧ (Λ : ℤ) ≤ l1 + l2

/-- The number of quanta of two states. -/
def quanta (n1 l1 n2 l2 : ℕ) : ℕ := 2 * n1 + l1 + (2 * n2 + l2)

/-! ## Lemmas -/

theorem homogeneous_turn {u : Two} {N : ℕ} (ε : ℝ) (h : u.IsHomogeneous N) : (turn ε u).IsHomogeneous N := by
  have := h.aeval (n := 1) (fun i : Fin 2 × Fin 3 =>
    if i.1 = 0 then (1 / √2 : ℝ) • (X (0, i.2) - ε • X (1, i.2)) else (1 / √2 : ℝ) • (X (1, i.2) + ε • X (0, i.2)) : _ → Two) fun i => by
      split_ifs
      · exact homogeneous_smul ((isHomogeneous_X _ _).sub (homogeneous_smul (isHomogeneous_X _ _) _)) _
      · exact homogeneous_smul ((isHomogeneous_X _ _).add (homogeneous_smul (isHomogeneous_X _ _) _)) _
  rw [one_mul] at this
  exact this

theorem homogeneous_first (i : Fin 3) : (first i).IsHomogeneous 1 := isHomogeneous_X _ _
theorem homogeneous_second (i : Fin 3) : (second i).IsHomogeneous 1 := isHomogeneous_X _ _
theorem homogeneous_relative (i : Fin 3) : (relative i).IsHomogeneous 1 :=
  homogeneous_smul ((homogeneous_first i).sub (homogeneous_second i)) _
theorem homogeneous_centre (i : Fin 3) : (centre i).IsHomogeneous 1 :=
  homogeneous_smul ((homogeneous_first i).add (homogeneous_second i)) _

theorem overlap_rows {Λ : ℕ} {M : ℤ} (hM : |M| ≤ Λ) {n1d l1d n2d l2d : ℕ} (ht : Couples l1d l2d Λ) (n1d' l1d' n2d' l2d' : ℕ)
    {K : ℕ} (hK : quanta n1d l1d n2d l2d < K) :
    (∑ n1 ∈ Finset.range K, ∑ l1 ∈ Finset.range K, ∑ n2 ∈ Finset.range K, ∑ l2 ∈ Finset.range K,
      overlap cg n1d l1d n2d l2d n1 l1 n2 l2 Λ M * overlap cg n1d' l1d' n2d' l2d' n1 l1 n2 l2 Λ M) =
      if n1d = n1d' ∧ l1d = l1d' ∧ n2d = n2d' ∧ l2d = l2d' then 1 else 0 := by
  unfold overlap
  rw [← insert_coupled (homogeneous_coupled cg homogeneous_relative homogeneous_centre _ _ _ _ _ _) hK
    (fun _ _ _ _ _ _ h => coupled_ortho rotates_relative rotates_centre rotates_first rotates_second h),
    ← turn_coupled, ← turn_coupled, fock_turn (by norm_num)]
  exact coupled_norm n1d' l1d' n2d' l2d' ht hM

theorem overlap_columns {Λ : ℕ} {M : ℤ} (hM : |M| ≤ Λ) {n1 l1 n2 l2 : ℕ} (ht : Couples l1 l2 Λ) (n1' l1' n2' l2' : ℕ)
    {K : ℕ} (hK : quanta n1 l1 n2 l2 < K) :
    (∑ n1d ∈ Finset.range K, ∑ l1d ∈ Finset.range K, ∑ n2d ∈ Finset.range K, ∑ l2d ∈ Finset.range K,
      overlap cg n1d l1d n2d l2d n1 l1 n2 l2 Λ M * overlap cg n1d l1d n2d l2d n1' l1' n2' l2' Λ M) =
      if n1 = n1' ∧ l1 = l1' ∧ n2 = n2' ∧ l2 = l2' then 1 else 0 := by
  have hu : ∀ (u v : Two), fock (turn (-1) u) v = fock (turn 1 v) u := fun u v => by
    rw [← fock_turn (ε := 1) (by norm_num) (turn (-1) u), turn_back, fock_comm]
  unfold overlap
  simp only [← turn_coupled, ← hu]
  rw [← insert_coupled (homogeneous_turn (-1) (homogeneous_coupled cg homogeneous_first homogeneous_second _ _ _ _ _ _)) hK
    (fun _ _ _ _ _ _ h => by
      rw [hu, turn_coupled]
      exact coupled_ortho rotates_relative rotates_centre rotates_first rotates_second (by tauto)),
    fock_turn (by norm_num)]
  exact coupled_norm n1' l1' n2' l2' ht hM

/-! ## Properties -/

/-- **C165, rows.**  The products of the brackets of two states of relative and centre-of-mass motion, summed over all states of
two particles with fewer than `K` nodes and units of angular momentum each, give one for a state with itself and zero for two
different states, whenever `K` exceeds the quanta of the first state. -/
theorem brackets_rows {env : Env} (ha : Angular env) {n1d l1d n2d l2d Λ : ℕ} (ht : Couples l1d l2d Λ) (n1d' l1d' n2d' l2d' : ℕ)
    {K : ℕ} (hK : quanta n1d l1d n2d l2d < K) :
    (∑ n1 ∈ Finset.range K, ∑ l1 ∈ Finset.range K, ∑ n2 ∈ Finset.range K, ∑ l2 ∈ Finset.range K,
      bracket env ⟨n1d, l1d, n2d, l2d, n1, l1, n2, l2, Λ⟩ * bracket env ⟨n1d', l1d', n2d', l2d', n1, l1, n2, l2, Λ⟩) =
      if n1d = n1d' ∧ l1d = l1d' ∧ n2d = n2d' ∧ l2d = l2d' then 1 else 0 := by
  have hM : |(0 : ℤ)| ≤ Λ := by simp
  simp only [bracket_overlap ha hM]
  exact overlap_rows hM ht n1d' l1d' n2d' l2d' hK

/-- **C165, columns.**  The same for two states of the two particles and the sum over states of relative and centre-of-mass motion. -/
theorem brackets_columns {env : Env} (ha : Angular env) {n1 l1 n2 l2 Λ : ℕ} (ht : Couples l1 l2 Λ) (n1' l1' n2' l2' : ℕ)
    {K : ℕ} (hK : quanta n1 l1 n2 l2 < K) :
    (∑ n1d ∈ Finset.range K, ∑ l1d ∈ Finset.range K, ∑ n2d ∈ Finset.range K, ∑ l2d ∈ Finset.range K,
      bracket env ⟨n1d, l1d, n2d, l2d, n1, l1, n2, l2, Λ⟩ * bracket env ⟨n1d, l1d, n2d, l2d, n1', l1', n2', l2', Λ⟩) =
      if n1 = n1' ∧ l1 = l1' ∧ n2 = n2' ∧ l2 = l2' then 1 else 0 := by
  have hM : |(0 : ℤ)| ≤ Λ := by simp
  simp only [bracket_overlap ha hM]
  exact overlap_columns hM ht n1' l1' n2' l2' hK

/-- The hypotheses are met, for two different states with the same quanta. -/
example : (∑ n1 ∈ Finset.range 7, ∑ l1 ∈ Finset.range 7, ∑ n2 ∈ Finset.range 7, ∑ l2 ∈ Finset.range 7,
    bracket angularEnv ⟨1, 1, 1, 1, n1, l1, n2, l2, 2⟩ * bracket angularEnv ⟨0, 3, 1, 1, n1, l1, n2, l2, 2⟩) = 0 :=
  brackets_rows angularEnv_angular (n1d := 1) (l1d := 1) (n2d := 1) (l2d := 1) (Λ := 2) (by unfold Couples; norm_num) 0 3 1 1
    (K := 7) (by unfold quanta; norm_num)

example : (∑ n1d ∈ Finset.range 7, ∑ l1d ∈ Finset.range 7, ∑ n2d ∈ Finset.range 7, ∑ l2d ∈ Finset.range 7,
    bracket angularEnv ⟨n1d, l1d, n2d, l2d, 1, 1, 1, 1, 2⟩ * bracket angularEnv ⟨n1d, l1d, n2d, l2d, 1, 1, 1, 1, 2⟩) = 1 :=
  brackets_columns angularEnv_angular (n1 := 1) (l1 := 1) (n2 := 1) (l2 := 1) (Λ := 2) (by unfold Couples; norm_num) 1 1 1 1
    (K := 7) (by unfold quanta; norm_num)

/-- No bracket is larger than one. -/
theorem bracket_le_one {env : Env} (ha : Angular env) (n1d l1d n2d l2d n1 l1 n2 l2 Λ : ℕ) :
    |bracket env ⟨n1d, l1d, n2d, l2d, n1, l1, n2, l2, Λ⟩| ≤ 1 := by
  by_cases ht : Couples l1d l2d Λ
  · set K := quanta n1d l1d n2d l2d + n1 + l1 + n2 + l2 + 1 with hK
    have h := brackets_rows ha (n1d := n1d) (n2d := n2d) ht n1d l1d n2d l2d (K := K) (by omega)
    rw [if_pos ⟨rfl, rfl, rfl, rfl⟩] at h
    rw [← sq_le_one_iff_abs_le_one, ← h, pow_two]
    have hn : ∀ a b c d : ℕ, 0 ≤ bracket env ⟨n1d, l1d, n2d, l2d, a, b, c, d, Λ⟩ * bracket env ⟨n1d, l1d, n2d, l2d, a, b, c, d, Λ⟩ :=
      fun a b c d => mul_self_nonneg _
    have h1 := Finset.single_le_sum (f := fun d : ℕ => bracket env ⟨n1d, l1d, n2d, l2d, n1, l1, n2, d, Λ⟩ * bracket env ⟨n1d, l1d, n2d, l2d, n1, l1, n2, d, Λ⟩)
      (fun d _ => hn _ _ _ d) (Finset.mem_range.mpr (show l2 < K by omega))
    have h2 := Finset.single_le_sum (f := fun c : ℕ => ∑ d ∈ Finset.range K, bracket env ⟨n1d, l1d, n2d, l2d, n1, l1, c, d, Λ⟩ * bracket env ⟨n1d, l1d, n2d, l2d, n1, l1, c, d, Λ⟩)
      (fun c _ => Finset.sum_nonneg fun d _ => hn _ _ c d) (Finset.mem_range.mpr (show n2 < K by omega))
    have h3 := Finset.single_le_sum (f := fun b : ℕ => ∑ c ∈ Finset.range K, ∑ d ∈ Finset.range K, bracket env ⟨n1d, l1d, n2d, l2d, n1, b, c, d, Λ⟩ * bracket env ⟨n1d, l1d, n2d, l2d, n1, b, c, d, Λ⟩)
      (fun b _ => Finset.sum_nonneg fun c _ => Finset.sum_nonneg fun d _ => hn _ b c d) (Finset.mem_range.mpr (show l1 < K by omega))
    have h4 := Finset.single_le_sum (f := fun a : ℕ => ∑ b ∈ Finset.range K, ∑ c ∈ Finset.range K, ∑ d ∈ Finset.range K, bracket env ⟨n1d, l1d, n2d, l2d, a, b, c, d, Λ⟩ * bracket env ⟨n1d, l1d, n2d, l2d, a, b, c, d, Λ⟩)
      (fun a _ => Finset.sum_nonneg fun b _ => Finset.sum_nonneg fun c _ => Finset.sum_nonneg fun d _ => hn a b c d)
      (Finset.mem_range.mpr (show n1 < K by omega))
    exact h1.trans (h2.trans (h3.trans h4))
  · have h0 : bracket env ⟨n1d, l1d, n2d, l2d, n1, l1, n2, l2, Λ⟩ = 0 :=
      (bracket_brackets env).selection _ fun hk => ht (by
        obtain ⟨_, _, h3, _⟩ := hk
        exact h3)
    rw [h0]
    norm_num

end Verif.Moshinsky.Osc
