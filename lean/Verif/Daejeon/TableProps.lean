import Verif.Daejeon.Model

/-!
# What the tables hold

The tables are symmetric, of full size, and zero beyond 60 quanta.  They are finite, and the checks go through all of their numbers.
-/

namespace Verif.Daejeon
open Verif

/-- Element in column `j` and row `i`, counted from zero. -/
def entry (t : List (List Num)) (i j : ℕ) : Option Num := t[j]?.bind (·[i]?)

/-- The first row is the first column, and so on for the rest. -/
def symmetric : ℕ → List (List Num) → Bool
  | 0, [] => true
  | n + 1, (_ :: row) :: rest => decide (rest.map (·.head?) = row.map some) && symmetric n (rest.map (·.tail))
  | _, _ => false

theorem symmetric_entry : ∀ {n : ℕ} {t : List (List Num)}, symmetric n t = true →
    (∀ i j, entry t i j = entry t j i) ∧ (∀ i j, (entry t i j).isSome ↔ i < n ∧ j < n) ∧ t.length = n
  | 0, [], _ => ⟨fun i j => by simp [entry], fun i j => by simp [entry], rfl⟩
  | n + 1, (x :: row) :: rest, h => by
    rw [symmetric, Bool.and_eq_true, decide_eq_true_eq] at h
    obtain ⟨h1, h2⟩ := h
    obtain ⟨hs, hi, hl⟩ := symmetric_entry h2
    rw [List.length_map] at hl
    have hrow : row.length = n := by simpa [hl] using (congrArg List.length h1).symm
    have hcol : ∀ i : ℕ, (rest[i]?).bind (fun r : List Num => r[0]?) = row[i]? := by
      intro i
      have := congrArg (fun l => l[i]?) h1
      simp only [List.getElem?_map] at this
      by_cases hi' : i < n
      · rw [List.getElem?_eq_getElem (by omega), List.getElem?_eq_getElem (by omega)] at this ⊢
        simpa [List.head?_eq_getElem?] using this
      · rw [List.getElem?_eq_none (by omega), List.getElem?_eq_none (by omega)]
        rfl
    have hin : ∀ i j : ℕ, entry ((x :: row) :: rest) (i + 1) (j + 1) = entry (rest.map (·.tail)) i j := by
      intro i j
      simp only [entry, List.getElem?_cons_succ, List.getElem?_map]
      cases rest[j]? with
      | none => rfl
      | some r => simp
    refine ⟨?_, ?_, by simp [hl]⟩
    · intro i j
      rcases i with _ | i <;> rcases j with _ | j
      · rfl
      · simpa [entry] using hcol j
      · simpa [entry] using (hcol i).symm
      · rw [hin, hin, hs]
    · intro i j
      rcases i with _ | i <;> rcases j with _ | j
      · simp [entry]
      · have := hcol j
        simp only [entry, List.getElem?_cons_succ, this]
        simp [hrow]
      · simp [entry, hrow]
      · rw [hin, hi]
        omega

/-- Rows of zeros, from place `a` up to place `b`. -/
def zeros (a b : ℕ) (t : List (List Num)) : Bool := ((t.take b).drop a).all fun r => r.all fun x => decide (x.digits = 0)

theorem zeros_entry {a b : ℕ} {t : List (List Num)} (h : zeros a b t = true) {i j : ℕ} (ha : a ≤ j) (hb : j < b) {x : Num}
    (hx : entry t i j = some x) : x.digits = 0 := by
  simp only [entry, Option.bind_eq_some_iff] at hx
  obtain ⟨r, hr, hx⟩ := hx
  have := List.all_eq_true.mp h r (List.mem_of_getElem? (i := j - a) (by
    rw [List.getElem?_drop, List.getElem?_take, show a + (j - a) = j by omega, if_pos hb, hr]))
  exact of_decide_eq_true (List.all_eq_true.mp this x (List.mem_of_getElem? hx))

set_option maxRecDepth 100000

theorem unc1s0_symmetric : symmetric 31 unc1s0 = true := by decide +kernel
theorem unc3p0_symmetric : symmetric 31 unc3p0 = true := by decide +kernel
theorem unc1p1_symmetric : symmetric 31 unc1p1 = true := by decide +kernel
theorem unc3p1_symmetric : symmetric 31 unc3p1 = true := by decide +kernel
theorem unc1d2_symmetric : symmetric 31 unc1d2 = true := by decide +kernel
theorem unc3d2_symmetric : symmetric 31 unc3d2 = true := by decide +kernel
theorem unc1f3_symmetric : symmetric 31 unc1f3 = true := by decide +kernel
theorem unc3f3_symmetric : symmetric 31 unc3f3 = true := by decide +kernel
theorem unc1g4_symmetric : symmetric 31 unc1g4 = true := by decide +kernel
theorem unc3g4_symmetric : symmetric 31 unc3g4 = true := by decide +kernel
theorem unc1h5_symmetric : symmetric 31 unc1h5 = true := by decide +kernel
theorem unc3h5_symmetric : symmetric 31 unc3h5 = true := by decide +kernel
theorem unc1i6_symmetric : symmetric 31 unc1i6 = true := by decide +kernel
theorem unc3i6_symmetric : symmetric 31 unc3i6 = true := by decide +kernel
theorem coup3sd_symmetric : symmetric 62 coup3sd = true := by decide +kernel
theorem coup3pf_symmetric : symmetric 62 coup3pf = true := by decide +kernel
theorem coup3dg_symmetric : symmetric 62 coup3dg = true := by decide +kernel
theorem coup3fh_symmetric : symmetric 62 coup3fh = true := by decide +kernel
theorem coup3gi_symmetric : symmetric 62 coup3gi = true := by decide +kernel
theorem coup3hj_symmetric : symmetric 62 coup3hj = true := by decide +kernel

theorem unc1s0_zeros : zeros 31 31 unc1s0 = true := by decide +kernel
theorem unc3p0_zeros : zeros 30 31 unc3p0 = true := by decide +kernel
theorem unc1p1_zeros : zeros 30 31 unc1p1 = true := by decide +kernel
theorem unc3p1_zeros : zeros 30 31 unc3p1 = true := by decide +kernel
theorem unc1d2_zeros : zeros 30 31 unc1d2 = true := by decide +kernel
theorem unc3d2_zeros : zeros 30 31 unc3d2 = true := by decide +kernel
theorem unc1f3_zeros : zeros 29 31 unc1f3 = true := by decide +kernel
theorem unc3f3_zeros : zeros 29 31 unc3f3 = true := by decide +kernel
theorem unc1g4_zeros : zeros 29 31 unc1g4 = true := by decide +kernel
theorem unc3g4_zeros : zeros 29 31 unc3g4 = true := by decide +kernel
theorem unc1h5_zeros : zeros 28 31 unc1h5 = true := by decide +kernel
theorem unc3h5_zeros : zeros 28 31 unc3h5 = true := by decide +kernel
theorem unc1i6_zeros : zeros 28 31 unc1i6 = true := by decide +kernel
theorem unc3i6_zeros : zeros 28 31 unc3i6 = true := by decide +kernel
theorem coup3sd_zeros : zeros 31 31 coup3sd = true ∧ zeros 61 62 coup3sd = true := by decide +kernel
theorem coup3pf_zeros : zeros 30 31 coup3pf = true ∧ zeros 60 62 coup3pf = true := by decide +kernel
theorem coup3dg_zeros : zeros 30 31 coup3dg = true ∧ zeros 60 62 coup3dg = true := by decide +kernel
theorem coup3fh_zeros : zeros 29 31 coup3fh = true ∧ zeros 59 62 coup3fh = true := by decide +kernel
theorem coup3gi_zeros : zeros 29 31 coup3gi = true ∧ zeros 59 62 coup3gi = true := by decide +kernel
theorem coup3hj_zeros : zeros 28 31 coup3hj = true ∧ zeros 58 62 coup3hj = true := by decide +kernel

/-- The number of rows and columns. -/
def Tab.size : Tab → ℕ
  | .coup3sd | .coup3pf | .coup3dg | .coup3fh | .coup3gi | .coup3hj => 62
  | _ => 31

theorem Tab.symmetric (t : Tab) : Daejeon.symmetric t.size t.data = true := by
  cases t
  · exact unc1s0_symmetric
  · exact unc3p0_symmetric
  · exact unc1p1_symmetric
  · exact unc3p1_symmetric
  · exact unc1d2_symmetric
  · exact unc3d2_symmetric
  · exact unc1f3_symmetric
  · exact unc3f3_symmetric
  · exact unc1g4_symmetric
  · exact unc3g4_symmetric
  · exact unc1h5_symmetric
  · exact unc3h5_symmetric
  · exact unc1i6_symmetric
  · exact unc3i6_symmetric
  · exact coup3sd_symmetric
  · exact coup3pf_symmetric
  · exact coup3dg_symmetric
  · exact coup3fh_symmetric
  · exact coup3gi_symmetric
  · exact coup3hj_symmetric

end Verif.Daejeon
