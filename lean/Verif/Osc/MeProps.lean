import Verif.Osc.Model
import Verif.H2.Lemmas
import Mathlib.Tactic.LinearCombination
import Mathlib.Tactic.NormNum
import Mathlib.Tactic.Linarith
import Mathlib.Tactic.Positivity

/-! # Properties C27–C30: oscillator radial matrix elements

The vocabulary of the claims: orbitals, transposition, and the sum over intermediate orbitals. -/

namespace Verif.Osc
open Verif Verif.H2

/-- Orbital labels that occur: `0 ≤ l ≤ N`, `N - l` even. -/
def Physical (N l : Int) : Prop := 0 ≤ l ∧ l ≤ N ∧ (N - l) % 2 = 0

instance (N l : Int) : Decidable (Physical N l) := by unfold Physical; infer_instance

theorem fsqrt_ok {x : ℝ} (h : 0 ≤ x) : fsqrt x = .ok (Real.sqrt x) := by
  simp [fsqrt, not_lt.mpr h]

/-- **C27.** The matrix element of the lowering operator is the transposed one of the raising
operator, for all integer arguments, physical or not (a NaN of one is a NaN of the other). -/
theorem lowering_is_adjoint (N' l' N l : Int) : cLower N' l' N l = cDagger N l N' l' := by
  unfold cLower cDagger
  by_cases hN : N' - N = -1
  · have e : N = N' + 1 := by omega
    subst e
    by_cases h1 : l' - l = 1
    · have e : l' = l + 1 := by omega
      subst e
      rw [if_pos hN, if_pos h1, if_pos (by omega), if_neg (by omega), if_pos (by omega)]
      congr 2; push_cast; ring
    · by_cases h2 : l' - l = -1
      · have e : l = l' + 1 := by omega
        subst e
        rw [if_pos hN, if_neg h1, if_pos h2, if_pos (by omega), if_pos (by omega)]
        congr 1; push_cast; ring
      · rw [if_pos hN, if_neg h1, if_neg h2, if_pos (by omega), if_neg (by omega), if_neg (by omega)]
  · rw [if_neg hN, if_neg (by omega)]

/-- Between physical orbitals no square root of a negative number is taken: the raising,
lowering and squared operators always return a number. -/
theorem elements_are_numbers {N' l' N l : Int} (h' : Physical N' l') (h : Physical N l) (s : Int) :
    (∃ x, cDagger N' l' N l = .ok x) ∧ (∃ x, cLower N' l' N l = .ok x) ∧
    (∃ x, coordinateSqr N' l' N l s = .ok x) := by
  obtain ⟨a', b', c'⟩ := h'
  obtain ⟨a, b, c⟩ := h
  have ra : (0 : ℝ) ≤ l := by exact_mod_cast a
  have rb : (l : ℝ) ≤ N := by exact_mod_cast b
  refine ⟨?_, ?_, ?_⟩
  · unfold cDagger
    simp only
    split_ifs with h1 h2 h3
    · exact ⟨_, fsqrt_ok (by linarith)⟩
    · rw [fsqrt_ok (by linarith)]; exact ⟨_, rfl⟩
    all_goals exact ⟨_, rfl⟩
  · unfold cLower
    simp only
    split_ifs with h1 h2 h3
    · rw [fsqrt_ok (by linarith)]; exact ⟨_, rfl⟩
    · exact ⟨_, fsqrt_ok (by linarith)⟩
    all_goals exact ⟨_, rfl⟩
  · unfold coordinateSqr
    simp only
    split_ifs with h1 h2 h3 h4 h5 h6 h7 h8 h9 h10 h11 h12
    · rw [fsqrt_ok (by apply mul_nonneg <;> linarith)]; exact ⟨_, rfl⟩
    · rw [fsqrt_ok (by apply mul_nonneg <;> linarith)]; exact ⟨_, rfl⟩
    · rw [fsqrt_ok (by apply mul_nonneg <;> linarith)]; exact ⟨_, rfl⟩
    · exact ⟨_, rfl⟩
    · rw [fsqrt_ok (by apply mul_nonneg <;> linarith)]; exact ⟨_, rfl⟩
    · exact ⟨_, rfl⟩
    · rw [fsqrt_ok (by apply mul_nonneg <;> linarith)]; exact ⟨_, rfl⟩
    · exact ⟨_, rfl⟩
    · have : (2 : ℝ) ≤ (N : ℝ) - l := by
        have : (2 : Int) ≤ N - l := by omega
        exact_mod_cast this
      rw [fsqrt_ok (by apply mul_nonneg <;> linarith)]; exact ⟨_, rfl⟩
    · rw [fsqrt_ok (by apply mul_nonneg <;> linarith)]; exact ⟨_, rfl⟩
    · have : (2 : ℝ) ≤ (l : ℝ) := by
        have : (2 : Int) ≤ l := by omega
        exact_mod_cast this
      rw [fsqrt_ok (by apply mul_nonneg <;> linarith)]; exact ⟨_, rfl⟩
    all_goals exact ⟨_, rfl⟩

/-- The coordinate element of two physical orbitals with `|δl| = 1` is a number. -/
theorem coordinate_is_number {N' l' N l : Int} (h' : Physical N' l') (h : Physical N l)
    (hl : l' - l = -1 ∨ l' - l = 1) (s : Int) : ∃ x, coordinate N' l' N l s = .ok x := by
  obtain ⟨⟨u, hu⟩, ⟨d, hd⟩, -⟩ := elements_are_numbers h' h s
  refine ⟨((s : ℝ) * u + d) / kSqrt2, ?_⟩
  simp [coordinate, hl, assertE, hu, hd, Except.ok_bind', Except.pure_ok]

/-- **C29.** `r` is symmetric under exchange of bra and ket. -/
theorem coordinate_symmetric (N' l' N l : Int) :
    coordinate N' l' N l 1 = coordinate N l N' l' 1 := by
  unfold coordinate
  rw [← lowering_is_adjoint N l N' l', lowering_is_adjoint N' l' N l]
  by_cases hl : l' - l = -1 ∨ l' - l = 1
  · have hl2 : l - l' = -1 ∨ l - l' = 1 := by omega
    simp only [hl, hl2, decide_true, assertE, if_true, Except.ok_bind', Except.pure_ok]
    rcases h1 : cLower N l N' l' with e1 | x <;> rcases h2 : cDagger N l N' l' with e2 | y
    all_goals simp only [Except.ok_bind', Except.error_bind']
    · rw [← lowering_is_adjoint] at h2
      -- both NaN: the outcomes agree
      have n1 : e1 = .notANumber := by
        unfold cLower fsqrt at h1
        simp only at h1
        split_ifs at h1 <;> simp [Except.map] at h1 <;> exact h1.symm
      have n2 : e2 = .notANumber := by
        unfold cLower fsqrt at h2
        simp only at h2
        split_ifs at h2 <;> simp [Except.map] at h2 <;> exact h2.symm
      rw [n1, n2]
    · congr 2; push_cast; ring
  · have hl2 : ¬ (l - l' = -1 ∨ l - l' = 1) := by omega
    simp [hl, hl2, assertE, Except.error_bind']

/-- **C29.** `ik` is antisymmetric under exchange of bra and ket. -/
theorem momentum_antisymmetric (N' l' N l : Int) :
    coordinate N' l' N l (-1) = (coordinate N l N' l' (-1)).map (fun x => -x) := by
  unfold coordinate
  rw [← lowering_is_adjoint N l N' l', lowering_is_adjoint N' l' N l]
  by_cases hl : l' - l = -1 ∨ l' - l = 1
  · have hl2 : l - l' = -1 ∨ l - l' = 1 := by omega
    simp only [hl, hl2, decide_true, assertE, if_true, Except.ok_bind', Except.pure_ok]
    rcases h1 : cLower N l N' l' with e1 | x <;> rcases h2 : cDagger N l N' l' with e2 | y
    all_goals simp only [Except.ok_bind', Except.error_bind', Except.map]
    · rw [← lowering_is_adjoint] at h2
      have n1 : e1 = .notANumber := by
        unfold cLower fsqrt at h1
        simp only at h1
        split_ifs at h1 <;> simp [Except.map] at h1 <;> exact h1.symm
      have n2 : e2 = .notANumber := by
        unfold cLower fsqrt at h2
        simp only at h2
        split_ifs at h2 <;> simp [Except.map] at h2 <;> exact h2.symm
      rw [n1, n2]
    · congr 1; push_cast; ring
  · have hl2 : ¬ (l - l' = -1 ∨ l - l' = 1) := by omega
    simp [hl, hl2, assertE, Except.error_bind', Except.map]

/-- **C29.** The squared operators, of either sign, are symmetric. -/
theorem square_symmetric (N' l' N l s : Int) :
    coordinateSqr N' l' N l s = coordinateSqr N l N' l' s := by
  unfold coordinateSqr
  by_cases hl : l' - l = 2 ∨ l' - l = 0 ∨ l' - l = -2
  · by_cases hN : N' - N = 2 ∨ N' - N = 0 ∨ N' - N = -2
    · rcases hl with hl | hl | hl <;> rcases hN with hN | hN | hN
      all_goals
        have e1 : l' = l + (l' - l) := by omega
        have e2 : N' = N + (N' - N) := by omega
        rw [hl] at e1
        rw [hN] at e2
        subst e1
        subst e2
        simp only [add_sub_cancel_left, sub_add_cancel_left]
        norm_num
        try (congr 2; ring)
    · have h1 : ¬ (N' - N = 2) := by omega
      have h2 : ¬ (N' - N = 0) := by omega
      have h3 : ¬ (N' - N = -2) := by omega
      have h4 : ¬ (N - N' = 2) := by omega
      have h5 : ¬ (N - N' = 0) := by omega
      have h6 : ¬ (N - N' = -2) := by omega
      simp only [if_neg h1, if_neg h2, if_neg h3, if_neg h4, if_neg h5, if_neg h6]
  · have h1 : ¬ (l' - l = 2) := by omega
    have h2 : ¬ (l' - l = 0) := by omega
    have h3 : ¬ (l' - l = -2) := by omega
    have h4 : ¬ (l - l' = 2) := by omega
    have h5 : ¬ (l - l' = 0) := by omega
    have h6 : ¬ (l - l' = -2) := by omega
    simp only [if_neg h1, if_neg h2, if_neg h3, if_neg h4, if_neg h5, if_neg h6, ite_self]

end Verif.Osc
