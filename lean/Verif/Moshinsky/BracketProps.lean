import Verif.Moshinsky.Bracket
import Verif.Relative.IsospinProps
import Verif.H2.Lemmas
import Mathlib.Tactic.Ring
import Mathlib.Tactic.Linarith
import Mathlib.Tactic.FieldSimp
import Mathlib.Tactic.Positivity
import Mathlib.Tactic.IntervalCases
import Mathlib.Order.Interval.Finset.Basic
import Mathlib.Data.Int.Interval

/-!
# The seed bracket is well defined
-/

namespace Verif.Moshinsky
open Verif
open Verif.H2 hiding Mat

/-! ## Specification of the seed -/

/-- `n!` as a real number, for an integer known to be non-negative. -/
noncomputable def ff (n : Int) : ℝ := (n.toNat.factorial : ℝ)

/-- The sum over `q` of the coefficient `A(l1 l1',l2 l2';κ)` of Brody and Moshinsky: `q` runs over all
integers between `κ` and the smaller of the two sums that have the parity of `l1+l1'`. -/
noncomputable def aFormula (l1 l1d l2 l2d κ : Int) : ℝ :=
  Real.sqrt (ff (l1 + l1d + κ + 1) * ff (l1 + l1d - κ) * ff (l1 - l1d + κ) / ff (l1d - l1 + κ)
      * (ff (l2 + l2d + κ + 1) * ff (l2 + l2d - κ) * ff (l2 - l2d + κ)) / ff (l2d - l2 + κ))
    * ∑ q ∈ (Finset.Icc κ (min (l1 + l1d) (l2 + l2d))).filter (fun q => (q + l1 + l1d) % 2 = 0),
      sgn ((l1d - l1 + q) / 2) / (ff (q - κ) * ff (q + κ + 1))
        * ff (l1d - l1 + q) / (ff ((l1d - l1 + q) / 2) * ff ((l1d + l1 - q) / 2))
        * ff (l2d - l2 + q) / (ff ((l2d - l2 + q) / 2) * ff ((l2d + l2 - q) / 2))

/-- The seed formula: `κ` runs over all integers satisfying both triangle conditions. -/
noncomputable def seedFormula (env : Env) (n1d l1d n2d l2d l1 l2 Λ : Int) : ℝ :=
  sgn (n1d + l1d + l2d - Λ) * Real.sqrt (ff l1 * ff l2 / (ff (2 * l1) * ff (2 * l2))
      * ((2 * l1d + 1) * (2 * l2d + 1)) / (2 : ℝ) ^ (l1d + l2d)
      * ff (n1d + l1d) / (ff n1d * ff (2 * n1d + 2 * l1d + 1))
      * ff (n2d + l2d) / (ff n2d * ff (2 * n2d + 2 * l2d + 1)))
    * ∑ κ ∈ (Finset.Icc 0 (l1 + l1d)).filter (fun κ => tri l1 l1d κ ∧ tri l2 l2d κ),
      (2 * κ + 1) * aFormula l1 l1d l2 l2d κ / (Real.sqrt (2 * Λ + 1) * Real.sqrt (2 * κ + 1))
        * env.unitary l1d l2d Λ l2 l1 κ

/-! ## Lists of summation indices -/

theorem mem_qList {l1 l1d l2 l2d κ q : Int} (hκ : 0 ≤ κ) (h1 : 0 ≤ l1) (h1d : 0 ≤ l1d) :
    q ∈ qList l1 l1d l2 l2d κ ↔
      (κ ≤ q ∧ q ≤ min (l1 + l1d) (l2 + l2d)) ∧ (q + l1 + l1d) % 2 = 0 := by
  simp only [qList, List.mem_map, List.mem_range]
  rw [Int.tmod_eq_emod_of_nonneg (by omega)]
  constructor
  · rintro ⟨i, hi, rfl⟩
    omega
  · rintro ⟨⟨ha, hb⟩, hc⟩
    refine ⟨((q - (κ + (κ + l1d + l1) % 2)) / 2).toNat, ?_, ?_⟩ <;> omega

theorem nodup_qList (l1 l1d l2 l2d κ : Int) : (qList l1 l1d l2 l2d κ).Nodup := by
  unfold qList
  refine List.Nodup.map ?_ List.nodup_range
  intro a b h
  simp only at h
  omega

theorem mem_kappaList {l1 l1d l2 l2d κ : Int} :
    κ ∈ kappaList l1 l1d l2 l2d ↔
      (|l1 - l1d| ≤ κ ∧ κ ≤ l1 + l1d) ∧ (|l2 - l2d| ≤ κ ∧ κ ≤ l2 + l2d) := by
  simp only [kappaList, List.mem_map, List.mem_range]
  constructor
  · rintro ⟨i, hi, rfl⟩
    omega
  · rintro ⟨⟨ha, hb⟩, hc, hd⟩
    refine ⟨(κ - max |l1 - l1d| |l2 - l2d|).toNat, ?_, ?_⟩ <;> omega

theorem nodup_kappaList (l1 l1d l2 l2d : Int) : (kappaList l1 l1d l2 l2d).Nodup := by
  unfold kappaList
  refine List.Nodup.map ?_ List.nodup_range
  intro a b h
  simp only at h
  omega

theorem fact_ok {n : Int} (h0 : 0 ≤ n) (h1 : n ≤ 170) : fact n = .ok (ff n) := by
  simp [fact, ff, h0, h1]

theorem sum_list_eq {l : List Int} {s : Finset Int} (hn : l.Nodup) (hm : ∀ x, x ∈ l ↔ x ∈ s)
    (f : Int → ℝ) : (l.map f).sum = ∑ x ∈ s, f x := by
  have : s = l.toFinset := by ext x; simp [hm]
  rw [this, List.sum_toFinset _ hn]

theorem aTerm_ok {l1 l1d l2 l2d κ q : Int} (hκ : |l1 - l1d| ≤ κ) (hκ' : |l2 - l2d| ≤ κ)
    (hq : κ ≤ q) (hq1 : q ≤ l1 + l1d) (hq2 : q ≤ l2 + l2d)
    (hb1 : 2 * l1d ≤ 170) (hb2 : 2 * l2d ≤ 170) (hb3 : l1 + l1d + (l2 + l2d) ≤ 169) :
    aTerm l1 l1d l2 l2d κ q = .ok (
      sgn ((l1d - l1 + q) / 2) / (ff (q - κ) * ff (q + κ + 1))
        * ff (l1d - l1 + q) / (ff ((l1d - l1 + q) / 2) * ff ((l1d + l1 - q) / 2))
        * ff (l2d - l2 + q) / (ff ((l2d - l2 + q) / 2) * ff ((l2d + l2 - q) / 2))) := by
  have h1 := abs_le.mp hκ
  have h2 := abs_le.mp hκ'
  unfold aTerm
  rw [Int.tdiv_eq_ediv_of_nonneg (by omega), Int.tdiv_eq_ediv_of_nonneg (by omega),
    Int.tdiv_eq_ediv_of_nonneg (by omega), Int.tdiv_eq_ediv_of_nonneg (by omega)]
  rw [fact_ok (by omega) (by omega), fact_ok (by omega) (by omega), fact_ok (by omega) (by omega),
    fact_ok (by omega) (by omega), fact_ok (by omega) (by omega), fact_ok (by omega) (by omega),
    fact_ok (by omega) (by omega), fact_ok (by omega) (by omega)]
  rfl

theorem moshinskyA_ok {l1 l1d l2 l2d κ : Int} (hκ : |l1 - l1d| ≤ κ) (hκ' : |l2 - l2d| ≤ κ)
    (hk1 : κ ≤ l1 + l1d) (hk2 : κ ≤ l2 + l2d) (h1 : 0 ≤ l1) (h1d : 0 ≤ l1d) (h2 : 0 ≤ l2)
    (h2d : 0 ≤ l2d) (hb1 : l1 + l2 ≤ 84) (hb2 : l1d + l2d ≤ 84) :
    moshinskyA l1 l1d l2 l2d κ = .ok (aFormula l1 l1d l2 l2d κ) := by
  have ha := abs_le.mp hκ
  have hb := abs_le.mp hκ'
  unfold moshinskyA
  rw [fact_ok (by omega) (by omega), fact_ok (by omega) (by omega), fact_ok (by omega) (by omega),
    fact_ok (by omega) (by omega), fact_ok (by omega) (by omega), fact_ok (by omega) (by omega),
    fact_ok (by omega) (by omega), fact_ok (by omega) (by omega)]
  have hm : ∀ q ∈ qList l1 l1d l2 l2d κ, aTerm l1 l1d l2 l2d κ q = .ok (
      sgn ((l1d - l1 + q) / 2) / (ff (q - κ) * ff (q + κ + 1))
        * ff (l1d - l1 + q) / (ff ((l1d - l1 + q) / 2) * ff ((l1d + l1 - q) / 2))
        * ff (l2d - l2 + q) / (ff ((l2d - l2 + q) / 2) * ff ((l2d + l2 - q) / 2))) := by
    intro q hq
    rw [mem_qList (by omega) h1 h1d] at hq
    exact aTerm_ok hκ hκ' (by omega) (by omega) (by omega) (by omega) (by omega) (by omega)
  have hl := Verif.Relative.mapM_ok hm
  simp only [Except.ok_bind', hl, Except.pure_ok]
  unfold aFormula
  congr 2
  · apply sum_list_eq (nodup_qList ..)
    intro q
    rw [mem_qList (by omega) h1 h1d, Finset.mem_filter, Finset.mem_Icc]

/-- C45: whenever the selection rules hold, the seed evaluates without leaving the factorial table for
all `ρ ≤ 84`, and its value is the published formula, in which the sums run over all admissible
indices. -/
theorem seed_defined (env : Env) {n1d l1d n2d l2d l1 l2 Λ : Int} (hn1d : 0 ≤ n1d) (hl1d : 0 ≤ l1d)
    (hn2d : 0 ≤ n2d) (hl2d : 0 ≤ l2d) (hl1 : 0 ≤ l1) (hl2 : 0 ≤ l2)
    (hρ : 2 * n1d + l1d + 2 * n2d + l2d = l1 + l2) (hmax : l1 + l2 ≤ 84) :
    seed env n1d l1d n2d l2d l1 l2 Λ = .ok (seedFormula env n1d l1d n2d l2d l1 l2 Λ) := by
  unfold seed
  rw [fact_ok (by omega) (by omega), fact_ok (by omega) (by omega), fact_ok (by omega) (by omega),
    fact_ok (by omega) (by omega), fact_ok (by omega) (by omega), fact_ok (by omega) (by omega),
    fact_ok (by omega) (by omega), fact_ok (by omega) (by omega), fact_ok (by omega) (by omega),
    fact_ok (by omega) (by omega)]
  have hm : ∀ κ ∈ kappaList l1 l1d l2 l2d, seedTerm env l1d l2d l1 l2 Λ κ = .ok (
      (2 * κ + 1) * aFormula l1 l1d l2 l2d κ / (Real.sqrt (2 * Λ + 1) * Real.sqrt (2 * κ + 1))
        * env.unitary l1d l2d Λ l2 l1 κ) := by
    intro κ hκ
    rw [mem_kappaList] at hκ
    unfold seedTerm
    rw [moshinskyA_ok hκ.1.1 hκ.2.1 hκ.1.2 hκ.2.2 hl1 hl1d hl2 hl2d (by omega) (by omega)]
    rfl
  have hl := Verif.Relative.mapM_ok hm
  simp only [Except.ok_bind', hl, Except.pure_ok]
  unfold seedFormula
  congr 2
  apply sum_list_eq (nodup_kappaList ..)
  intro κ
  rw [mem_kappaList, Finset.mem_filter, Finset.mem_Icc]
  simp only [tri, decide_eq_true_eq]
  constructor
  · intro h
    exact ⟨⟨le_trans (abs_nonneg _) h.1.1, h.1.2⟩, h⟩
  · exact fun h => h.2

/-- C45: every halving in the sum over `q` is exact, and every halved argument is non-negative. -/
theorem halvings_exact {n1d l1d n2d l2d l1 l2 κ q : Int}
    (hl1d : 0 ≤ l1d) (hl1 : 0 ≤ l1)
    (hρ : 2 * n1d + l1d + 2 * n2d + l2d = l1 + l2)
    (hκ : κ ∈ kappaList l1 l1d l2 l2d) (hq : q ∈ qList l1 l1d l2 l2d κ) :
    ∀ x ∈ [l1d - l1 + q, l1d + l1 - q, l2d - l2 + q, l2d + l2 - q], 0 ≤ x ∧ 2 * x.tdiv 2 = x := by
  rw [mem_kappaList] at hκ
  have ha := abs_le.mp hκ.1.1
  have hb := abs_le.mp hκ.2.1
  rw [mem_qList (by omega) hl1 hl1d] at hq
  intro x hx
  simp only [List.mem_cons, List.not_mem_nil, or_false] at hx
  have h0 : 0 ≤ x := by omega
  rw [Int.tdiv_eq_ediv_of_nonneg h0]
  omega

/-- The bound is sharp: at `ρ = 85` the seed with all quanta in one relative mode requests `171!` and
stops. -/
theorem seed_limit (env : Env) : seed env 0 85 0 0 85 0 85 = .error .exitFailure := by
  unfold seed
  rw [show fact 85 = .ok (ff 85) from fact_ok (by omega) (by omega),
    show fact 0 = .ok (ff 0) from fact_ok (by omega) (by omega),
    show fact (2 * 85) = .ok (ff (2 * 85)) from fact_ok (by omega) (by omega),
    show fact (2 * 0) = .ok (ff (2 * 0)) from fact_ok (by omega) (by omega),
    show fact (0 + 85) = .ok (ff (0 + 85)) from fact_ok (by omega) (by omega),
    show fact (2 * 0 + 2 * 85 + 1) = .error .exitFailure by simp [fact]]
  rfl

/-- Non-vacuity: a seed with `ρ = 3`, and one visited `κ` and `q`. -/
example : (2 : Int) * 1 + 1 + 2 * 0 + 0 = 2 + 1 ∧ (1 : Int) ∈ kappaList 2 1 1 0 ∧
    (1 : Int) ∈ qList 2 1 1 0 1 := by decide

end Verif.Moshinsky
