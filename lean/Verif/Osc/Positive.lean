import Verif.Osc.Square
import Mathlib.Algebra.Order.BigOperators.Group.Finset
import Mathlib.Algebra.BigOperators.Field

/-! # Property C30: sign of the squared operators -/

namespace Verif.Osc
open Verif Verif.H2

/-- How far the literal is from the square root of two: the correction factor of
`square_is_product` differs from one by less than `10⁻¹⁶`. -/
theorem kSqrt2_factor : 1 < 2 / kSqrt2 ^ 2 ∧ 2 / kSqrt2 ^ 2 < 1 + 1e-16 := by
  unfold kSqrt2; norm_num

/-- **C30 is false of the code.**  Every diagonal element of the operator documented as
`k^2 = -del^2` is negative. -/
theorem ksqr_diagonal_negative {N l : Int} (h : Physical N l) :
    ∃ x, coordinateSqr N l N l (-1) = .ok x ∧ x < 0 := by
  refine ⟨_, sqr_value h h (-1), ?_⟩
  have : (0 : ℝ) ≤ N := by exact_mod_cast (le_trans h.1 h.2.1)
  simp [sqrR]
  linarith

/-- **C30, what does hold** (`_partial`: the sign differs from the documented one).  The matrix of
`r²` is positive, and *minus* the matrix of `k²` is positive: as quadratic forms on any finite set
of radial quantum numbers, for every `l`; the form is a sum of squares of coordinate elements. -/
theorem square_sign_partial (l : ℕ) (s : Int) (hs : s = 1 ∨ s = -1) (D : ℕ) (v : ℕ → ℝ)
    (K : ℕ → ℕ → ℝ)
    (hK : ∀ n' n, n' < D → n < D →
      coordinateSqr (2 * n' + l : ℕ) l (2 * n + l : ℕ) l s = .ok (K n' n)) :
    0 ≤ (s : ℝ) * ∑ n' ∈ Finset.range D, ∑ n ∈ Finset.range D, v n' * K n' n * v n := by
  have phys : ∀ n : ℕ, Physical ((2 * n + l : ℕ) : Int) (l : Int) := by
    intro n; unfold Physical; push_cast; omega
  -- the coordinate elements to orbitals of `l + 1`
  set R : Int → ℕ → ℝ := fun m n =>
    ((s : ℝ) * upR m (l + 1) (2 * n + l : ℕ) l + downR m (l + 1) (2 * n + l : ℕ) l) / kSqrt2 with hR
  set S := (Finset.range (2 * D + l + 1 + 1)).filter (fun m : ℕ => Physical m ((l : Int) + 1)) with hS
  have hkp : (0 : ℝ) < kSqrt2 := by norm_num [kSqrt2]
  -- exchange of bra and ket
  have hswap : ∀ (m n : ℕ), Physical m ((l : Int) + 1) →
      coordinate ((2 * n + l : ℕ) : Int) l m (l + 1) s = .ok ((s : ℝ) * R m n) := by
    intro m n hm
    have h0 := coordinate_value (N' := m) (l' := (l : Int) + 1) (phys n) (by omega) s
    rcases hs with rfl | rfl
    · rw [coordinate_symmetric, h0, hR]; congr 1; push_cast; ring
    · rw [momentum_antisymmetric, h0, hR]; simp only [Except.map]; congr 1; push_cast; ring
  have hsum : ∀ n' n, n' < D → n < D → K n' n = kSqrt2 ^ 2 / 2 * ∑ m ∈ S, (s : ℝ) * R m n' * R m n := by
    intro n' n h1 h2
    have := square_is_product (phys n') (phys n) (l'' := (l : Int) + 1) (M := 2 * D + l + 1) (by omega)
      (by omega) (by omega) hs (by push_cast; omega)
      (f := fun m => (s : ℝ) * R m n') (g := fun m => R m n)
      (fun m _ hm => hswap m n' hm) (fun m _ hm => coordinate_value (phys n) (by omega) s) (hK n' n h1 h2)
    rw [hS]
    rw [this]
    field_simp
  have hs2 : (s : ℝ) * s = 1 := by rcases hs with h | h <;> rw [h] <;> norm_num
  have : (s : ℝ) * ∑ n' ∈ Finset.range D, ∑ n ∈ Finset.range D, v n' * K n' n * v n
      = kSqrt2 ^ 2 / 2 * ∑ m ∈ S, (∑ n ∈ Finset.range D, R m n * v n) ^ 2 := by
    have e : ∀ m ∈ S, (∑ n ∈ Finset.range D, R (m : ℕ) n * v n) ^ 2
        = ∑ n' ∈ Finset.range D, ∑ n ∈ Finset.range D, (R m n' * v n') * (R m n * v n) := by
      intro m _
      rw [pow_two, Finset.sum_mul_sum]
    rw [Finset.sum_congr rfl e, Finset.sum_comm (s := S), Finset.mul_sum, Finset.mul_sum]
    apply Finset.sum_congr rfl
    intro n' hn'
    rw [Finset.sum_comm (s := S), Finset.mul_sum, Finset.mul_sum]
    apply Finset.sum_congr rfl
    intro n hn
    rw [hsum n' n (Finset.mem_range.mp hn') (Finset.mem_range.mp hn)]
    rw [Finset.mul_sum, Finset.mul_sum, Finset.mul_sum, Finset.sum_mul, Finset.mul_sum]
    apply Finset.sum_congr rfl
    intro m _
    linear_combination (kSqrt2 ^ 2 / 2 * v n' * R m n' * R m n * v n) * hs2
  rw [this]
  positivity

/-! ## Examples -/

/-- A physical pair one shell apart, a non-trivial `r` element. -/
example : Physical 3 1 ∧ Physical 4 2 ∧ coordinate 4 2 3 1 1 = .ok (Real.sqrt 7 / kSqrt2) := by
  refine ⟨by decide, by decide, ?_⟩
  rw [coordinate_value (by decide) (by decide)]
  norm_num [upR, downR]

/-- The hypotheses of `square_is_product` at `l'' = 2` between `(3,1)` and `(3,1)`: the sum is
`2/kSqrt2² · 9/2`. -/
example (f g : ℕ → ℝ) (hf : ∀ m : ℕ, m ≤ 4 → Physical m 2 → coordinate 3 1 m 2 1 = .ok (f m))
    (hg : ∀ m : ℕ, m ≤ 4 → Physical m 2 → coordinate m 2 3 1 1 = .ok (g m)) :
    (∑ m ∈ (Finset.range 5).filter (fun m : ℕ => Physical m 2), f m * g m) = 2 / kSqrt2 ^ 2 * (9 / 2) :=
  square_is_product (by decide) (by decide) (by decide) (by decide) (by decide) (by decide)
    (by norm_num) hf hg (by rw [sqr_value (by decide) (by decide)]; norm_num [sqrR])

example : ∃ f : ℕ → ℝ, ∀ m : ℕ, m ≤ 4 → Physical m 2 → coordinate 3 1 m 2 1 = .ok (f m) :=
  ⟨_, fun _ _ h => coordinate_value h (by decide) 1⟩

example : ∃ K : ℕ → ℕ → ℝ, ∀ n' n, n' < 3 → n < 3 →
    coordinateSqr (2 * n' + 1 : ℕ) (1 : ℕ) (2 * n + 1 : ℕ) (1 : ℕ) (-1) = .ok (K n' n) :=
  ⟨_, fun n' n _ _ => sqr_value ⟨by omega, by omega, by omega⟩ ⟨by omega, by omega, by omega⟩ _⟩

end Verif.Osc
