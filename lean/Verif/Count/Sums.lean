import Verif.Count.Lemmas
import Mathlib.Data.List.Sort
import Mathlib.Data.Sym.Basic
import Mathlib.Data.Multiset.Sort

/-!
# Sums over increasing positions and over unordered sets of orbitals
-/

namespace Verif.Count
open Verif

def Enumeration.orb (e : Enumeration) (k : ℕ) : ℕ × ℕ := (e.N k, e.tj k)

theorem mem_orbitals {N : ℕ} {o : ℕ × ℕ} : o ∈ orbitals N ↔ o.1 ≤ N ∧ o.2 % 2 = 1 ∧ o.2 ≤ 2 * o.1 + 1 := by
  simp only [orbitals, Finset.mem_filter, Finset.mem_product, Finset.mem_range]
  omega

theorem Enumerates.orb_mem {e : Enumeration} (h : Enumerates e) {N k : ℕ} (hk : e.N k ≤ N) : e.orb k ∈ orbitals N :=
  mem_orbitals.mpr ⟨hk, h.range k⟩

theorem Enumerates.orb_onto {e : Enumeration} (h : Enumerates e) {N : ℕ} {o : ℕ × ℕ} (ho : o ∈ orbitals N) :
    ∃ k, e.orb k = o ∧ e.N k ≤ N := by
  obtain ⟨h1, h2, h3⟩ := mem_orbitals.mp ho
  obtain ⟨k, e1, e2⟩ := h.onto _ _ h2 h3
  exact ⟨k, Prod.ext e1 e2, by omega⟩

theorem Enumerates.orb_inj {e : Enumeration} (h : Enumerates e) : Function.Injective e.orb := fun i j hij =>
  h.inj i j (congrArg Prod.fst hij) (congrArg Prod.snd hij)

/-- Two increasing lists of positions with the same orbitals are the same. -/
theorem sorted_eq {e : Enumeration} (h : Enumerates e) {l l' : List ℕ} (hl : l.Pairwise (· ≤ ·)) (hl' : l'.Pairwise (· ≤ ·))
    (hm : (l.map e.orb : Multiset (ℕ × ℕ)) = (l'.map e.orb : Multiset (ℕ × ℕ))) : l = l' := by
  have : (l : Multiset ℕ) = (l' : Multiset ℕ) := by
    apply Multiset.map_injective h.orb_inj
    simpa using hm
  exact List.Perm.eq_of_pairwise' (r := (· ≤ ·)) hl hl' (Multiset.coe_eq_coe.mp this)

/-- Pairs of increasing positions are the unordered pairs of orbitals. -/
theorem sum_pairs {e : Enumeration} (h : Enumerates e) {N t : ℕ} (ht : ∀ k, e.N k ≤ N ↔ k < t)
    (P : Multiset (ℕ × ℕ) → Prop) [DecidablePred P] (w : Multiset (ℕ × ℕ) → ℤ) :
    ∑ p ∈ (Finset.range t ×ˢ Finset.range t).filter (fun p => p.1 ≤ p.2 ∧ P {e.orb p.1, e.orb p.2}),
      w {e.orb p.1, e.orb p.2} = ∑ m ∈ ((orbitals N).sym 2).filter (fun m => P m.1), w m.1 := by
  refine Finset.sum_bij (fun p _ => ⟨{e.orb p.1, e.orb p.2}, by simp⟩) ?_ ?_ ?_ ?_
  · intro p hp
    simp only [Finset.mem_filter, Finset.mem_product, Finset.mem_range] at hp
    refine Finset.mem_filter.mpr ⟨Finset.mem_sym_iff.mpr ?_, hp.2.2⟩
    intro o ho
    have ho' : o ∈ ({e.orb p.1, e.orb p.2} : Multiset (ℕ × ℕ)) := ho
    simp only [Multiset.insert_eq_cons, Multiset.mem_cons, Multiset.mem_singleton] at ho'
    rcases ho' with rfl | rfl
    · exact h.orb_mem ((ht _).mpr hp.1.1)
    · exact h.orb_mem ((ht _).mpr hp.1.2)
  · intro p hp q hq hpq
    simp only [Finset.mem_filter] at hp hq
    have := sorted_eq h (l := [p.1, p.2]) (l' := [q.1, q.2]) (by simpa using hp.2.1) (by simpa using hq.2.1)
      (congrArg Subtype.val hpq)
    simp only [List.cons.injEq, and_true] at this
    exact Prod.ext this.1 this.2
  · intro m hm
    simp only [Finset.mem_filter, Finset.mem_sym_iff] at hm
    obtain ⟨x, y, hxy⟩ := Multiset.card_eq_two.mp m.2
    have mem : ∀ o, o ∈ m.1 → ∃ k, e.orb k = o ∧ k < t := fun o ho => by
      obtain ⟨k, h1, h2⟩ := h.orb_onto (hm.1 o ho)
      exact ⟨k, h1, (ht k).mp h2⟩
    obtain ⟨i, rfl, hi⟩ := mem x (by rw [hxy]; simp)
    obtain ⟨j, rfl, hj⟩ := mem y (by rw [hxy]; simp)
    rcases le_total i j with hle | hle
    · refine ⟨(i, j), ?_, Subtype.ext hxy.symm⟩
      simp only [Finset.mem_filter, Finset.mem_product, Finset.mem_range]
      exact ⟨⟨hi, hj⟩, hle, hxy ▸ hm.2⟩
    · rw [Multiset.pair_comm] at hxy
      refine ⟨(j, i), ?_, Subtype.ext hxy.symm⟩
      simp only [Finset.mem_filter, Finset.mem_product, Finset.mem_range]
      exact ⟨⟨hj, hi⟩, hle, hxy ▸ hm.2⟩
  · intro p _
    rfl

/-- Triples of increasing positions are the unordered triples of orbitals. -/
theorem sum_triples {e : Enumeration} (h : Enumerates e) {N t : ℕ} (ht : ∀ k, e.N k ≤ N ↔ k < t)
    (P : Multiset (ℕ × ℕ) → Prop) [DecidablePred P] (w : Multiset (ℕ × ℕ) → ℤ) :
    ∑ p ∈ (Finset.range t ×ˢ Finset.range t ×ˢ Finset.range t).filter (fun p => p.1 ≤ p.2.1 ∧ p.2.1 ≤ p.2.2 ∧
        P {e.orb p.1, e.orb p.2.1, e.orb p.2.2}),
      w {e.orb p.1, e.orb p.2.1, e.orb p.2.2} = ∑ m ∈ ((orbitals N).sym 3).filter (fun m => P m.1), w m.1 := by
  refine Finset.sum_bij (fun p _ => ⟨{e.orb p.1, e.orb p.2.1, e.orb p.2.2}, by simp⟩) ?_ ?_ ?_ ?_
  · intro p hp
    simp only [Finset.mem_filter, Finset.mem_product, Finset.mem_range] at hp
    refine Finset.mem_filter.mpr ⟨Finset.mem_sym_iff.mpr ?_, hp.2.2.2⟩
    intro o ho
    have ho' : o ∈ ({e.orb p.1, e.orb p.2.1, e.orb p.2.2} : Multiset (ℕ × ℕ)) := ho
    simp only [Multiset.insert_eq_cons, Multiset.mem_cons, Multiset.mem_singleton] at ho'
    rcases ho' with rfl | rfl | rfl
    · exact h.orb_mem ((ht _).mpr hp.1.1)
    · exact h.orb_mem ((ht _).mpr hp.1.2.1)
    · exact h.orb_mem ((ht _).mpr hp.1.2.2)
  · intro p hp q hq hpq
    simp only [Finset.mem_filter] at hp hq
    have := sorted_eq h (l := [p.1, p.2.1, p.2.2]) (l' := [q.1, q.2.1, q.2.2])
      (by simp; exact ⟨⟨hp.2.1, hp.2.1.trans hp.2.2.1⟩, hp.2.2.1⟩)
      (by simp; exact ⟨⟨hq.2.1, hq.2.1.trans hq.2.2.1⟩, hq.2.2.1⟩) (congrArg Subtype.val hpq)
    simp only [List.cons.injEq, and_true] at this
    exact Prod.ext this.1 (Prod.ext this.2.1 this.2.2)
  · intro m hm
    simp only [Finset.mem_filter, Finset.mem_sym_iff] at hm
    have mem : ∀ o, o ∈ m.1 → ∃ k, e.orb k = o ∧ k < t := fun o ho => by
      obtain ⟨k, h1, h2⟩ := h.orb_onto (hm.1 o ho)
      exact ⟨k, h1, (ht k).mp h2⟩
    have hl : ∃ l : List ℕ, l.Pairwise (· ≤ ·) ∧ (l.map e.orb : Multiset (ℕ × ℕ)) = m.1 ∧ ∀ k ∈ l, k < t := by
      choose f hf1 hf2 using mem
      let ks : Multiset ℕ := m.1.attach.map fun o => f o.1 o.2
      have hks : ks.map e.orb = m.1 := by
        simp only [ks, Multiset.map_map, Function.comp, hf1]
        exact Multiset.attach_map_val _
      refine ⟨ks.sort (· ≤ ·), Multiset.pairwise_sort _ _, ?_, ?_⟩
      · rw [← hks, ← Multiset.map_coe, Multiset.sort_eq]
      · intro k hk
        rw [Multiset.mem_sort] at hk
        simp only [ks, Multiset.mem_map] at hk
        obtain ⟨o, -, rfl⟩ := hk
        exact hf2 _ _
    obtain ⟨l, h1, h2, h3⟩ := hl
    have hlen : l.length = 3 := by
      have := congrArg Multiset.card h2
      simpa [m.2] using this
    obtain ⟨i, j, k, rfl⟩ := List.length_eq_three.mp hlen
    simp only [List.pairwise_cons, List.mem_cons, List.not_mem_nil, or_false, forall_eq_or_imp, forall_eq] at h1 h3
    have h2' : ({e.orb i, e.orb j, e.orb k} : Multiset (ℕ × ℕ)) = m.1 := h2
    refine ⟨(i, j, k), ?_, Subtype.ext h2'⟩
    simp only [Finset.mem_filter, Finset.mem_product, Finset.mem_range]
    exact ⟨h3, h1.1.1, h1.2.1, h2' ▸ hm.2⟩
  · intro p _
    rfl

end Verif.Count
