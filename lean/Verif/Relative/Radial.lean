import Verif.Osc.Square

/-!
# Relative radial matrices

Model of `RadialCoordinateSqrMatrix` and `RadialCoordinateMatrix`
(`libraries/relative/relative_me.cpp` 26-213).  The double loop assigns every entry at most once, so
a matrix is given by its entries: the assigned element where the restricted loop passes, zero (the
initial value) elsewhere.
-/

namespace Verif.Relative
open Verif Verif.H2 Verif.Osc

/-- Entries of a matrix of `double`, each a number or NaN. -/
abbrev Entries := ℕ → ℕ → Except Err ℝ

/-- Limits of the restricted loop over `bra_n` before clamping (`relative_me.cpp` 98-113):
uninitialised for any other `delta_L`. -/
def sqrLoopLimits (deltaL : Int) (ketN : Int) : Option (Int × Int) :=
  if deltaL = -2 then some (ketN, ketN + 2)
  else if deltaL = 0 then some (ketN - 1, ketN + 1)
  else if deltaL = 2 then some (ketN - 1, ketN)
  else none

/-- Limits of the restricted loop over `bra_n` (`relative_me.cpp` 183-194). -/
def coordLoopLimits (deltaL : Int) (ketN : Int) : Option (Int × Int) :=
  if deltaL = -1 then some (ketN, ketN + 1)
  else if deltaL = 1 then some (ketN - 1, ketN)
  else none

/-- Is `bra_n` visited: limits clamped to `[0, bra_dim - 1]` (`relative_me.cpp` 114-116). -/
def visited (limits : Int × Int) (braDim : ℕ) (braN : ℕ) : Bool :=
  decide (max limits.1 0 ≤ (braN : Int) ∧ (braN : Int) ≤ min limits.2 ((braDim : Int) - 1))

/-- `RadialCoordinateSqrMatrix` (`relative_me.cpp` 26-143). -/
noncomputable def radialSqrMatrix (braDim ketDim : ℕ) (L deltaL sign : Int) : Except Err Entries := do
  assertE (decide (deltaL = 0 ∨ sign = 1))
  let braL := L + deltaL
  match sqrLoopLimits deltaL 0 with
  | none => if ketDim = 0 then pure (fun _ _ => .ok 0) else throw .undefinedBehaviour
  | some _ =>
    pure fun braN ketN =>
      match sqrLoopLimits deltaL ketN with
      | none => .ok 0
      | some lim =>
        if ketN < ketDim ∧ visited lim braDim braN then
          coordinateSqr (2 * braN + braL) braL (2 * ketN + L) L sign
        else .ok 0

/-- `RadialCoordinateMatrix` (`relative_me.cpp` 145-213). -/
noncomputable def radialMatrix (braDim ketDim : ℕ) (L deltaL sign : Int) : Except Err Entries := do
  assertE (decide (deltaL = -1 ∨ deltaL = 1))
  let braL := L + deltaL
  pure fun braN ketN =>
    match coordLoopLimits deltaL ketN with
    | none => .ok 0
    | some lim =>
      if ketN < ketDim ∧ visited lim braDim braN then
        coordinate (2 * braN + braL) braL (2 * ketN + L) L sign
      else .ok 0

/-! ## Property C35 -/

/-- **C35**, `r`: the matrix holds every radial element, although the inner loop is restricted. -/
theorem radial_loop_complete {braDim ketDim : ℕ} {L deltaL : Int} (hL : 0 ≤ L) (hb : 0 ≤ L + deltaL)
    (hd : deltaL = -1 ∨ deltaL = 1) (sign : Int) :
    ∃ m, radialMatrix braDim ketDim L deltaL sign = .ok m ∧
      ∀ i j : ℕ, i < braDim → j < ketDim →
        m i j = coordinate (2 * i + (L + deltaL)) (L + deltaL) (2 * j + L) L sign := by
  refine ⟨_, by simp only [radialMatrix, hd, decide_true, assertE, if_true, Except.ok_bind', Except.pure_ok]; rfl, ?_⟩
  intro i j hi hj
  have hp : Physical (2 * j + L) L := ⟨hL, by omega, by omega⟩
  rcases hd with rfl | rfl
  · simp only [coordLoopLimits, if_true]
    by_cases hv : (j : Int) ≤ i ∧ (i : Int) ≤ j + 1
    · rw [if_pos ⟨hj, by simp only [visited, decide_eq_true_eq]; omega⟩]
    · rw [if_neg (by simp only [visited, decide_eq_true_eq]; omega), coordinate_value hp (by omega)]
      simp only [upR, downR]
      rw [if_neg (by omega), if_neg (by omega)]
      simp
  · simp only [coordLoopLimits]
    rw [if_neg (by omega)]
    simp only [if_true]
    by_cases hv : (j : Int) - 1 ≤ i ∧ (i : Int) ≤ j
    · rw [if_pos ⟨hj, by simp only [visited, decide_eq_true_eq]; omega⟩]
    · rw [if_neg (by simp only [visited, decide_eq_true_eq]; omega), coordinate_value hp (by omega)]
      simp only [upR, downR]
      rw [if_neg (by omega), if_neg (by omega)]
      simp

/-- **C35**, `r²` and `k²`, what does hold (`_partial`: not for `δL = +2`): the matrix holds every
radial element for `δL = 0` and `δL = -2`. -/
theorem radial_sqr_loop_complete_partial {braDim ketDim : ℕ} {L deltaL sign : Int} (hL : 0 ≤ L)
    (hb : 0 ≤ L + deltaL) (hd : deltaL = 0 ∨ (deltaL = -2 ∧ sign = 1)) :
    ∃ m, radialSqrMatrix braDim ketDim L deltaL sign = .ok m ∧
      ∀ i j : ℕ, i < braDim → j < ketDim →
        m i j = coordinateSqr (2 * i + (L + deltaL)) (L + deltaL) (2 * j + L) L sign := by
  have hA : deltaL = 0 ∨ sign = 1 := by tauto
  have hlim : ∀ k : Int, sqrLoopLimits deltaL k = some (if deltaL = 0 then (k - 1, k + 1) else (k, k + 2)) := by
    intro k
    rcases hd with rfl | ⟨rfl, _⟩ <;> simp [sqrLoopLimits]
  refine ⟨_, by simp only [radialSqrMatrix, hA, decide_true, assertE, if_true, Except.ok_bind', hlim, Except.pure_ok]; rfl, ?_⟩
  intro i j hi hj
  have hk : Physical (2 * j + L) L := ⟨hL, by omega, by omega⟩
  have hbr : Physical (2 * i + (L + deltaL)) (L + deltaL) := ⟨hb, by omega, by omega⟩
  rcases hd with rfl | ⟨rfl, _⟩
  · simp only [if_true]
    by_cases hv : (j : Int) - 1 ≤ i ∧ (i : Int) ≤ j + 1
    · rw [if_pos ⟨hj, by simp only [visited, decide_eq_true_eq]; omega⟩]
    · rw [if_neg (by simp only [visited, decide_eq_true_eq]; omega), sqr_value hbr hk]
      simp only [sqrR]
      rw [if_neg (by omega), if_neg (by omega), if_neg (by omega)]
  · simp only [show ¬ ((-2 : Int) = 0) by omega, if_false]
    by_cases hv : (j : Int) ≤ i ∧ (i : Int) ≤ j + 2
    · rw [if_pos ⟨hj, by simp only [visited, decide_eq_true_eq]; omega⟩]
    · rw [if_neg (by simp only [visited, decide_eq_true_eq]; omega), sqr_value hbr hk]
      simp only [sqrR]
      rw [if_neg (by omega), if_neg (by omega), if_neg (by omega)]

/-- **C35 is false of the code for `δL = +2`**: for every `L` and every `n`, the element from ket
`n + 2` to bra `n` is not zero, but the matrix holds zero, whenever both states are inside the
dimensions. -/
theorem radial_sqr_loop_incomplete {braDim ketDim : ℕ} {L : Int} (hL : 0 ≤ L) (n : ℕ)
    (_hi : n < braDim) (_hj : n + 2 < ketDim) :
    ∃ m x, radialSqrMatrix braDim ketDim L 2 1 = .ok m ∧ m n (n + 2) = .ok 0 ∧
      coordinateSqr (2 * n + (L + 2)) (L + 2) (2 * (n + 2 : ℕ) + L) L 1 = .ok x ∧ x ≠ 0 := by
  have hlim : ∀ k : Int, sqrLoopLimits 2 k = some (k - 1, k) := by intro k; simp [sqrLoopLimits]
  refine ⟨_, _, by simp only [radialSqrMatrix, or_true, decide_true, assertE, if_true, Except.ok_bind', hlim, Except.pure_ok]; rfl, ?_,
    sqr_value ⟨by omega, by omega, by omega⟩ ⟨by omega, by omega, by omega⟩ 1, ?_⟩
  · rw [if_neg]
    simp only [visited, decide_eq_true_eq]
    push_cast
    omega
  · simp only [sqrR]
    rw [if_neg (by push_cast; omega), if_neg (by push_cast; omega), if_pos (by push_cast; omega), if_pos (by omega)]
    have hn : (0 : ℝ) ≤ n := by positivity
    have h1 : (0 : ℝ) < (2 * ((n + 2 : ℕ) : Int) + L : Int) - (L : ℝ) - 2 := by push_cast; linarith
    have h2 : (0 : ℝ) < (2 * ((n + 2 : ℕ) : Int) + L : Int) - (L : ℝ) := by push_cast; linarith
    have := Real.sqrt_pos.mpr h1
    have := Real.sqrt_pos.mpr h2
    positivity

/-- A forbidden `k²` request aborts; an impossible `δL` leaves the loop limits uninitialised. -/
theorem radial_sqr_rejects (braDim ketDim : ℕ) (L deltaL sign : Int) :
    (deltaL ≠ 0 ∧ sign ≠ 1 → radialSqrMatrix braDim ketDim L deltaL sign = .error .assertFail) ∧
    (deltaL ≠ 0 → deltaL ≠ 2 → deltaL ≠ -2 → sign = 1 → 0 < ketDim →
      radialSqrMatrix braDim ketDim L deltaL sign = .error .undefinedBehaviour) := by
  constructor
  · rintro ⟨h1, h2⟩
    simp [radialSqrMatrix, h1, h2, assertE, Except.error_bind']
  · intro h0 h2 h3 hs hk
    have : sqrLoopLimits deltaL 0 = none := by simp [sqrLoopLimits, h0, h2, h3]
    simp only [radialSqrMatrix, hs, or_true, decide_true, assertE, if_true, Except.ok_bind', this]
    rw [if_neg (by omega)]
    rfl

/-! ## Examples -/

/-- The witness noted in the source's own validation table: bra `L = 2, n = 1`; ket `L = 0, n = 3`
(the comment there lists 2.449). -/
example : ∃ m x, radialSqrMatrix 5 5 0 2 1 = .ok m ∧ m 1 3 = .ok 0 ∧
    coordinateSqr 4 2 6 0 1 = .ok x ∧ x = Real.sqrt 6 := by
  obtain ⟨m, x, h1, h2, h3, _⟩ := radial_sqr_loop_incomplete (braDim := 5) (ketDim := 5) (L := 0) (le_refl 0) 1
    (by omega) (by omega)
  have h4 : coordinateSqr 4 2 6 0 1 = .ok (Real.sqrt 6) := by
    rw [sqr_value (by decide) (by decide)]
    norm_num [sqrR]
    rw [← Real.sqrt_mul (by norm_num), show (4 : ℝ) * 6 = 2 ^ 2 * 6 by norm_num, Real.sqrt_mul (by norm_num),
      Real.sqrt_sq (by norm_num)]
    ring
  exact ⟨m, _, h1, h2, h4, rfl⟩

example : ∃ m, radialSqrMatrix 4 4 2 (-2) 1 = .ok m ∧ m 2 0 = .ok (Real.sqrt 2) := by
  obtain ⟨m, h1, h2⟩ := radial_sqr_loop_complete_partial (braDim := 4) (ketDim := 4) (L := 2) (deltaL := -2)
    (sign := 1) (by omega) (by omega) (Or.inr ⟨rfl, rfl⟩)
  refine ⟨m, h1, ?_⟩
  rw [h2 2 0 (by omega) (by omega), sqr_value (by decide) (by decide)]
  norm_num [sqrR]
  rw [← Real.sqrt_mul (by norm_num), show (2 : ℝ) * 4 = 2 ^ 2 * 2 by norm_num, Real.sqrt_mul (by norm_num),
    Real.sqrt_sq (by norm_num)]
  ring

end Verif.Relative
