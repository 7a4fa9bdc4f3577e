import Verif.Count.Spec
import Verif.H2.Lemmas
import Mathlib.Algebra.BigOperators.Intervals
import Mathlib.Algebra.Order.BigOperators.Group.Finset
import Mathlib.Tactic.Linarith
import Mathlib.Tactic.Ring
import Mathlib.Tactic.Abel

/-!
# Lemmas on loops and projections
-/

namespace Verif.Count
open Verif

/-! ## Loops -/

/-- A loop whose condition holds exactly below `b` adds up its bodies. -/
theorem forSum_iff {c : ℕ → Prop} {body : ℕ → ℤ → Prop} {f : ℕ → ℤ} {b : ℕ} : ∀ {start : ℕ},
    (∀ x, start ≤ x → (c x ↔ x < b)) → (∀ x v, start ≤ x → x < b → (body x v ↔ v = f x)) →
    ∀ {s}, ForSum c body start s ↔ s = ∑ x ∈ Finset.Ico start b, f x := by
  intro start
  induction h : b - start generalizing start with
  | zero =>
    intro hc _ s
    have hn : ¬ c start := by rw [hc start le_rfl]; omega
    rw [Finset.Ico_eq_empty (by omega), Finset.sum_empty]
    constructor
    · intro h
      cases h with
      | stop => rfl
      | step h _ _ => exact absurd h hn
    · rintro rfl
      exact .stop hn
  | succ m ih =>
    intro hc hb s
    have hlt : start < b := by omega
    have hy : c start := (hc start le_rfl).mpr hlt
    have ih' := fun {s} => ih (start := start + 1) (by omega) (fun x hx => hc x (by omega))
      (fun x v hx => hb x v (by omega)) (s := s)
    rw [Finset.sum_eq_sum_Ico_succ_bot hlt]
    constructor
    · intro h
      cases h with
      | stop h => exact absurd hy h
      | step _ h1 h2 => rw [(hb _ _ le_rfl hlt).mp h1, ih'.mp h2]
    · rintro rfl
      exact .step hy ((hb _ _ le_rfl hlt).mpr rfl) (ih'.mpr rfl)

/-- The shells of an enumeration are cut off at some position. -/
theorem Enumerates.cut {e : Enumeration} (h : Enumerates e) (M : ℕ) : ∃ b, ∀ k, e.N k ≤ M ↔ k < b := by
  classical
  have hex : ∃ k, M < e.N k := by
    obtain ⟨k, h1, _⟩ := h.onto (M + 1) 1 (by norm_num) (by omega)
    exact ⟨k, by omega⟩
  refine ⟨Nat.find hex, fun k => ⟨fun hk => ?_, fun hk => ?_⟩⟩
  · by_contra hc
    have := h.mono _ _ (not_lt.mp hc)
    have := Nat.find_spec hex
    omega
  · have := Nat.find_min hex hk
    omega

/-! ## Arithmetic progressions -/

theorem card_step (lo hi : ℤ) :
    ((Finset.Icc lo hi).filter fun x => (x - lo) % 2 = 0).card = ((hi - lo + 2) / 2).toNat := by
  rw [← Finset.card_range ((hi - lo + 2) / 2).toNat]
  symm
  refine Finset.card_bij (fun i _ => lo + 2 * (i : ℤ)) ?_ ?_ ?_
  · intro i hi'
    simp only [Finset.mem_range] at hi'
    simp only [Finset.mem_filter, Finset.mem_Icc]
    omega
  · intro i _ j _ h
    omega
  · intro x hx
    simp only [Finset.mem_filter, Finset.mem_Icc] at hx
    refine ⟨((x - lo) / 2).toNat, ?_, ?_⟩
    · simp only [Finset.mem_range]
      omega
    · omega

theorem mem_projections {a : ℕ} {m : ℤ} : m ∈ projections a ↔ -(a : ℤ) ≤ m ∧ m ≤ a ∧ (a + m) % 2 = 0 := by
  simp only [projections, Finset.mem_filter, Finset.mem_Icc, and_assoc]

/-- The projections of two angular momenta with a given sum. -/
def pairStates (a b : ℕ) (M : ℤ) : Finset ℤ := (projections a).filter fun x => M - x ∈ projections b

/-- The angular momenta two can be coupled to. -/
def coupled (a b : ℕ) : Finset ℕ := (Finset.range (a + b + 1)).filter fun c => triangle a b c

theorem triangle_iff {a b c : ℤ} : triangle a b c = true ↔ Couple a b c := by
  unfold triangle Couple
  exact decide_eq_true_iff

theorem couple_cases {a b c : ℤ} : Couple a b c ↔ a - b ≤ c ∧ b - a ≤ c ∧ c ≤ a + b ∧ (a + b + c) % 2 = 0 := by
  unfold Couple
  rw [abs_le]
  constructor <;> rintro ⟨h, h2, h3⟩
  · exact ⟨h.2, by linarith [h.1], h2, h3⟩
  · exact ⟨⟨by linarith, h⟩, h3⟩

theorem mem_coupled {a b c : ℕ} : c ∈ coupled a b ↔ Couple a b c := by
  simp only [coupled, Finset.mem_filter, Finset.mem_range, triangle_iff, and_iff_right_iff_imp]
  intro h
  have := h.2.1
  omega

/-- The number of product states of two is the number of coupled states with the same projection. -/
theorem pairStates_card (a b : ℕ) (M : ℤ) :
    (pairStates a b M).card = ((coupled a b).filter fun c => M ∈ projections c).card := by
  by_cases hp : ((a : ℤ) + b + M) % 2 = 0
  · have h1 : pairStates a b M = (Finset.Icc (max (-(a : ℤ)) (M - b)) (min (a : ℤ) (M + b))).filter fun x =>
        (x - max (-(a : ℤ)) (M - b)) % 2 = 0 := by
      ext x
      simp only [pairStates, Finset.mem_filter, mem_projections, Finset.mem_Icc]
      omega
    have h2 : ((coupled a b).filter fun c => M ∈ projections c).card =
        ((Finset.Icc (max |(a : ℤ) - b| |M|) (a + b)).filter fun x => (x - max |(a : ℤ) - b| |M|) % 2 = 0).card := by
      refine Finset.card_bij (fun c _ => (c : ℤ)) ?_ (fun _ _ _ _ h => by exact_mod_cast h) ?_
      · intro c hc
        simp only [Finset.mem_filter, mem_coupled, couple_cases, mem_projections] at hc
        simp only [Finset.mem_filter, Finset.mem_Icc, max_le_iff, abs_le]
        rcases abs_cases ((a : ℤ) - b) with ⟨e1, _⟩ | ⟨e1, _⟩ <;> rcases abs_cases M with ⟨e2, _⟩ | ⟨e2, _⟩ <;>
          rw [e1, e2] <;> omega
      · intro x hx
        simp only [Finset.mem_filter, Finset.mem_Icc, max_le_iff] at hx
        have h0 : 0 ≤ x := le_trans (abs_nonneg _) hx.1.1.1
        refine ⟨x.toNat, ?_, by omega⟩
        simp only [Finset.mem_filter, mem_coupled, couple_cases, mem_projections]
        rcases abs_cases ((a : ℤ) - b) with ⟨e1, _⟩ | ⟨e1, _⟩ <;> rcases abs_cases M with ⟨e2, _⟩ | ⟨e2, _⟩ <;>
          rw [e1, e2] at hx <;> omega
    rw [h1, h2, card_step, card_step]
    congr 2
    rcases abs_cases ((a : ℤ) - b) with ⟨e1, _⟩ | ⟨e1, _⟩ <;> rcases abs_cases M with ⟨e2, _⟩ | ⟨e2, _⟩ <;>
      rw [e1, e2] <;> omega
  · have h1 : pairStates a b M = ∅ := by
      rw [Finset.eq_empty_iff_forall_notMem]
      intro x hx
      simp only [pairStates, Finset.mem_filter, mem_projections] at hx
      omega
    have h2 : ((coupled a b).filter fun c => M ∈ projections c) = ∅ := by
      rw [Finset.eq_empty_iff_forall_notMem]
      intro c hc
      simp only [Finset.mem_filter, mem_coupled, couple_cases, mem_projections] at hc
      omega
    rw [h1, h2]
    rfl

/-! ## Multiplicities -/

theorem productStates_cons (a : ℕ) (js : Multiset ℕ) (M : ℤ) :
    productStates (a ::ₘ js) M = ∑ x ∈ projections a, productStates js (M - x) := by
  unfold productStates
  rw [Multiset.map_cons, Multiset.sections_cons, Multiset.filter_bind, Multiset.card_bind]
  rw [Finset.sum_eq_multiset_sum]
  congr 1
  refine Multiset.map_congr rfl fun x _ => ?_
  simp only [Function.comp]
  rw [Multiset.filter_map, Multiset.card_map]
  congr 1
  refine Multiset.filter_congr fun ms _ => ?_
  simp only [Function.comp, Multiset.sum_cons]
  omega

theorem productStates_zero (M : ℤ) : productStates 0 M = if M = 0 then 1 else 0 := by
  unfold productStates
  simp only [Multiset.map_zero, Multiset.sections_zero]
  by_cases h : M = 0
  · subst h
    rw [Multiset.filter_singleton]
    simp
  · rw [if_neg h, Multiset.filter_singleton, if_neg (by simpa using fun e => h e.symm)]
    rfl

theorem productStates_one (b : ℕ) (M : ℤ) : productStates {b} M = if M ∈ projections b then 1 else 0 := by
  rw [← Multiset.cons_zero, productStates_cons]
  simp only [productStates_zero, sub_eq_zero, Finset.sum_ite_eq]

theorem productStates_two (a b : ℕ) (M : ℤ) : productStates {a, b} M = (pairStates a b M).card := by
  rw [Multiset.insert_eq_cons, productStates_cons]
  simp only [productStates_one]
  rw [pairStates, Finset.card_filter]

theorem productStates_three (a b c : ℕ) (M : ℤ) :
    productStates {c, a, b} M = ∑ J1 ∈ coupled a b, productStates {c, J1} M := by
  rw [Multiset.insert_eq_cons, productStates_cons]
  simp only [productStates_two, pairStates_card, Finset.card_filter]
  rw [Finset.sum_comm]
  refine Finset.sum_congr rfl fun J1 _ => ?_
  rw [← Finset.card_filter, ← Finset.card_filter, ← pairStates_card, pairStates]

theorem multiplicity_two (a b J : ℕ) : multiplicity {a, b} J = if triangle a b J then 1 else 0 := by
  unfold multiplicity
  rw [productStates_two, productStates_two, pairStates_card, pairStates_card]
  have h : ((coupled a b).filter fun c => ((J : ℤ)) ∈ projections c) =
      ((coupled a b).filter fun c => ((J : ℤ) + 2) ∈ projections c) ∪ ((coupled a b).filter fun c => c = J) := by
    ext c
    simp only [Finset.mem_union, Finset.mem_filter, mem_projections]
    constructor
    · rintro ⟨h1, h2⟩
      by_cases hc : c = J
      · exact Or.inr ⟨h1, hc⟩
      · exact Or.inl ⟨h1, by omega⟩
    · rintro (⟨h1, h2⟩ | ⟨h1, rfl⟩)
      · exact ⟨h1, by omega⟩
      · exact ⟨h1, by omega⟩
  rw [h, Finset.card_union_of_disjoint]
  · rw [Finset.filter_eq']
    by_cases hc : triangle a b J = true
    · rw [if_pos hc, if_pos (mem_coupled.mpr (triangle_iff.mp hc))]
      simp
    · rw [if_neg hc, if_neg (fun h => hc (triangle_iff.mpr (mem_coupled.mp h)))]
      simp
  · rw [Finset.disjoint_left]
    intro c h1 h2
    simp only [Finset.mem_filter, mem_projections] at h1 h2
    omega

theorem multiplicity_three (a b c J : ℕ) :
    multiplicity {a, b, c} J = ((coupled a b).filter fun J1 : ℕ => triangle J1 c J).card := by
  have hperm : ({a, b, c} : Multiset ℕ) = {c, a, b} := by
    simp only [Multiset.insert_eq_cons]
    rw [Multiset.cons_swap c a, ← Multiset.insert_eq_cons b, ← Multiset.insert_eq_cons c, Multiset.pair_comm]
  have hsw : ∀ J1 : ℕ, ({c, J1} : Multiset ℕ) = {J1, c} := fun J1 => Multiset.pair_comm _ _
  rw [hperm]
  unfold multiplicity
  rw [productStates_three, productStates_three]
  push_cast
  rw [← Finset.sum_sub_distrib, Finset.card_filter]
  push_cast
  refine Finset.sum_congr rfl fun J1 _ => ?_
  rw [hsw]
  exact multiplicity_two J1 c J

end Verif.Count
