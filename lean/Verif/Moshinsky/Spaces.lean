import Verif.Moshinsky.ChainJT

/-!
# The two-body spaces exist

For every truncation there are lists of subspaces as required of the four spaces.
-/

namespace Verif.Moshinsky
open Verif
open Verif.H2 hiding Mat

open Classical in
/-- Members of a list with a property. -/
noncomputable def having {α : Type} (l : List α) (P : α → Prop) : List α := l.filter fun a => decide (P a)

theorem mem_having {α : Type} {l : List α} {P : α → Prop} {a : α} : a ∈ having l P ↔ a ∈ l ∧ P a := by simp [having]

theorem having_nodup {α : Type} {l : List α} (h : l.Nodup) (P : α → Prop) : (having l P).Nodup := h.filter _

theorem having_sublist {α : Type} (l : List α) (P : α → Prop) : (having l P).Sublist l := List.filter_sublist

theorem having_map {α β : Type} (l : List α) (f : α → β) (P : β → Prop) : having (l.map f) P = (having l fun a => P (f a)).map f := by
  simp only [having, List.filter_map]
  rfl

theorem having_mono {α : Type} (l : List α) {P Q : α → Prop} (h : ∀ a ∈ l, P a → Q a) : (having l P).Sublist (having l Q) := by
  have : having l P = having (having l Q) P := by
    simp only [having, List.filter_filter]
    refine List.filter_congr fun a ha => ?_
    by_cases hp : P a
    · simp [hp, h a ha hp]
    · simp [hp]
  rw [this]
  exact having_sublist _ _

/-! ## Lists of labels and states -/

/-- All quadruples below a bound. -/
def quads (n : ℕ) : List LSPair := (List.range n).product ((List.range n).product ((List.range n).product (List.range n)))

theorem mem_quads {n : ℕ} {p : LSPair} : p ∈ quads n ↔ p.1 < n ∧ p.2.1 < n ∧ p.2.2.1 < n ∧ p.2.2.2 < n := by
  obtain ⟨a, b, c, d⟩ := p
  simp [quads, List.product.eq_def]

theorem quads_nodup (n : ℕ) : (quads n).Nodup :=
  List.Nodup.product List.nodup_range (List.Nodup.product List.nodup_range (List.Nodup.product List.nodup_range List.nodup_range))

/-- Labels `(L,S,J,T,N)`, with `g = N mod 2`. -/
def lsLabels (Nmax : ℕ) : List (ℕ × ℕ × ℕ × ℕ × ℕ) :=
  (List.range (Nmax + 1)).product ((List.range 2).product ((List.range (Nmax + 2)).product ((List.range 2).product (List.range (Nmax + 1)))))

theorem mem_lsLabels {Nmax : ℕ} {l : ℕ × ℕ × ℕ × ℕ × ℕ} : l ∈ lsLabels Nmax ↔
    l.1 < Nmax + 1 ∧ l.2.1 < 2 ∧ l.2.2.1 < Nmax + 2 ∧ l.2.2.2.1 < 2 ∧ l.2.2.2.2 < Nmax + 1 := by
  obtain ⟨a, b, c, d, e⟩ := l
  simp [lsLabels, List.product.eq_def]

theorem lsLabels_nodup (Nmax : ℕ) : (lsLabels Nmax).Nodup :=
  List.Nodup.product List.nodup_range (List.Nodup.product List.nodup_range (List.Nodup.product List.nodup_range
    (List.Nodup.product List.nodup_range List.nodup_range)))

/-- The relative-cm subspace of given labels. -/
noncomputable def rcSub (l : ℕ × ℕ × ℕ × ℕ × ℕ) : LSSub :=
  ⟨l.1, l.2.1, l.2.2.1, l.2.2.2.1, l.2.2.2.2 % 2, l.2.2.2.2, having (quads (l.2.2.2.2 + 1)) (IsRC l.2.2.2.2 l.1 l.2.1 l.2.2.2.1)⟩

/-- The LS subspace of given labels. -/
noncomputable def lsSub (t : Trunc) (l : ℕ × ℕ × ℕ × ℕ × ℕ) : LSSub :=
  ⟨l.1, l.2.1, l.2.2.1, l.2.2.2.1, l.2.2.2.2 % 2, l.2.2.2.2, having (quads (l.2.2.2.2 + 1)) fun p =>
    Admissible ⟨l.1, l.2.1, l.2.2.1, l.2.2.2.1, l.2.2.2.2 % 2, l.2.2.2.2, []⟩ p ∧ InTrunc t p.1 p.2.2.1⟩

/-- The labels of subspaces which have states. -/
def Occupied (f : ℕ × ℕ × ℕ × ℕ × ℕ → LSSub) (l : ℕ × ℕ × ℕ × ℕ × ℕ) : Prop := Tri l.1 l.2.1 l.2.2.1 ∧ (f l).states ≠ []

noncomputable def rcSpace (Nmax : ℕ) : List LSSub := (having (lsLabels Nmax) (Occupied rcSub)).map rcSub

noncomputable def lsSpace (t : Trunc) : List LSSub := (having (lsLabels t.N2max) (Occupied (lsSub t))).map (lsSub t)

/-- The labels with the parity. -/
def withParity (l : ℕ × ℕ × ℕ × ℕ × ℕ) : ℕ × ℕ × ℕ × ℕ × ℕ × ℕ := (l.1, l.2.1, l.2.2.1, l.2.2.2.1, l.2.2.2.2 % 2, l.2.2.2.2)

theorem withParity_injective : Function.Injective withParity := by
  rintro ⟨a, b, c, d, e⟩ ⟨a', b', c', d', e'⟩ h
  simp only [withParity, Prod.mk.injEq] at h
  simp [h]

theorem rcSpace_ok (Nmax : ℕ) : RCSpace Nmax (rcSpace Nmax) where
  labels := by
    rw [rcSpace, List.map_map]
    exact (having_nodup (lsLabels_nodup _) _).map withParity_injective
  valid := by
    intro s hs
    obtain ⟨l, hl, rfl⟩ := List.mem_map.mp hs
    obtain ⟨h1, h2, _⟩ := mem_having.mp hl
    rw [mem_lsLabels] at h1
    exact ⟨by simp only [rcSub]; omega, by simp only [rcSub]; omega, h2, rfl, by simp only [rcSub]; omega⟩
  nodup := by
    intro s hs
    obtain ⟨l, _, rfl⟩ := List.mem_map.mp hs
    exact having_nodup (quads_nodup _) _
  states := by
    intro s hs p
    obtain ⟨l, _, rfl⟩ := List.mem_map.mp hs
    simp only [rcSub, mem_having, mem_quads, and_iff_right_iff_imp]
    unfold IsRC Osc
    omega

theorem admissible_labels {s u : LSSub} (h : s.labels = u.labels) (p : LSPair) : Admissible s p ↔ Admissible u p := by
  simp only [LSSub.labels, Prod.mk.injEq] at h
  unfold Admissible
  rw [h.1, h.2.1, h.2.2.2.1, h.2.2.2.2.2]

theorem mem_lsSub {t : Trunc} {l : ℕ × ℕ × ℕ × ℕ × ℕ} {p : LSPair} :
    p ∈ (lsSub t l).states ↔ Admissible (lsSub t l) p ∧ InTrunc t p.1 p.2.2.1 := by
  simp only [lsSub, mem_having, mem_quads]
  constructor
  · rintro ⟨_, h1, h2⟩
    exact ⟨(admissible_labels rfl p).mp h1, h2⟩
  · rintro ⟨h1, h2⟩
    refine ⟨?_, (admissible_labels rfl p).mp h1, h2⟩
    have := admissible_osc h1
    unfold Osc at this
    simp only [] at this
    omega

theorem lsSpace_ok (t : Trunc) : LSSpace t (lsSpace t) where
  labels := by
    rw [lsSpace, List.map_map]
    exact (having_nodup (lsLabels_nodup _) _).map withParity_injective
  valid := by
    intro s hs
    obtain ⟨l, hl, rfl⟩ := List.mem_map.mp hs
    obtain ⟨h1, h2, _⟩ := mem_having.mp hl
    rw [mem_lsLabels] at h1
    exact ⟨by simp only [lsSub]; omega, by simp only [lsSub]; omega, h2, rfl, by simp only [lsSub]; omega⟩
  nodup := by
    intro s hs
    obtain ⟨l, _, rfl⟩ := List.mem_map.mp hs
    exact having_nodup (quads_nodup _) _
  states := by
    intro s hs p
    obtain ⟨l, _, rfl⟩ := List.mem_map.mp hs
    exact mem_lsSub
  complete := by
    intro s p hv ha ht
    obtain ⟨h1, h2, h3, h4⟩ := admissible_osc ha
    obtain ⟨v1, v2, v3, v4, v5⟩ := hv
    rw [lsSpace, List.map_map]
    refine List.mem_map.mpr ⟨(s.L, s.S, s.J, s.T, s.N), mem_having.mpr ⟨mem_lsLabels.mpr ?_, v3, ?_⟩, ?_⟩
    · unfold Tri at h4 v3
      unfold Osc at h1 h2
      simp only []
      omega
    · refine List.ne_nil_of_mem (a := p) (mem_lsSub.mpr ⟨(admissible_labels ?_ p).mp ha, ht⟩)
      simp [LSSub.labels, lsSub, v4]
    · simp [LSSub.labels, lsSub, v4]

/-- Where there are two-body states there are states of relative and centre-of-mass motion. -/
theorem rc_of_ls {s : LSSub} {p : LSPair} (hS : s.S ≤ 1) (hT : s.T ≤ 1) (h : Admissible s p) : ∃ r, IsRC s.N s.L s.S s.T r := by
  obtain ⟨N1, l1, N2, l2⟩ := p
  obtain ⟨L, S, J, T, g, N, st⟩ := s
  unfold Admissible at h
  simp only [Prod.mk.injEq, lexLE] at h hS hT ⊢
  obtain ⟨⟨h1, h2, h3, h4⟩, rfl, ⟨h6, h7, h8⟩, h9, h10⟩ := h
  have h11 : (N1 ≠ N2 ∨ l1 ≠ l2) ∨ (L + S + T) % 2 = 1 := by
    by_cases e : N1 = N2 ∧ l1 = l2
    · exact Or.inr (h10 e)
    · exact Or.inl (by omega)
  clear h10
  by_cases hσ : (S + T) % 2 = 0
  · -- odd relative angular momentum
    by_cases hn : (L + N1 + N2) % 2 = 0
    · by_cases hL : L = 0
      · exact ⟨(1, 1, N1 + N2 - 1, 1), by unfold IsRC Osc Tri; refine ⟨⟨?_, ?_⟩, ⟨?_, ?_⟩, ?_, ⟨?_, ?_, ?_⟩, ?_⟩ <;> simp only [] <;> omega⟩
      · exact ⟨(1, 1, N1 + N2 - 1, L - 1), by unfold IsRC Osc Tri; refine ⟨⟨?_, ?_⟩, ⟨?_, ?_⟩, ?_, ⟨?_, ?_, ?_⟩, ?_⟩ <;> simp only [] <;> omega⟩
    · exact ⟨(1, 1, N1 + N2 - 1, L), by unfold IsRC Osc Tri; refine ⟨⟨?_, ?_⟩, ⟨?_, ?_⟩, ?_, ⟨?_, ?_, ?_⟩, ?_⟩ <;> simp only [] <;> omega⟩
  · by_cases hn : (L + N1 + N2) % 2 = 0
    · exact ⟨(0, 0, N1 + N2, L), by unfold IsRC Osc Tri; refine ⟨⟨?_, ?_⟩, ⟨?_, ?_⟩, ?_, ⟨?_, ?_, ?_⟩, ?_⟩ <;> simp only [] <;> omega⟩
    · by_cases hL : L = 1
      · exact ⟨(2, 2, N1 + N2 - 2, 2), by unfold IsRC Osc Tri; refine ⟨⟨?_, ?_⟩, ⟨?_, ?_⟩, ?_, ⟨?_, ?_, ?_⟩, ?_⟩ <;> simp only [] <;> omega⟩
      · exact ⟨(2, 2, N1 + N2 - 2, L - 1), by unfold IsRC Osc Tri; refine ⟨⟨?_, ?_⟩, ⟨?_, ?_⟩, ?_, ⟨?_, ?_, ?_⟩, ?_⟩ <;> simp only [] <;> omega⟩

theorem spaces_sublist (t : Trunc) : ((lsSpace t).map LSSub.labels).Sublist ((rcSpace t.N2max).map LSSub.labels) := by
  rw [lsSpace, rcSpace, List.map_map, List.map_map]
  have e1 : LSSub.labels ∘ lsSub t = withParity := rfl
  have e2 : LSSub.labels ∘ rcSub = withParity := rfl
  rw [e1, e2]
  refine (having_mono _ ?_).map _
  rintro l hl ⟨h1, h2⟩
  refine ⟨h1, ?_⟩
  obtain ⟨p, hp⟩ := List.exists_mem_of_ne_nil _ h2
  rw [mem_lsLabels] at hl
  obtain ⟨r, hr⟩ := rc_of_ls (by simp only [lsSub]; omega) (by simp only [lsSub]; omega) (mem_lsSub.mp hp).1
  refine List.ne_nil_of_mem (a := r) ?_
  simp only [rcSub, mem_having, mem_quads]
  refine ⟨?_, hr⟩
  unfold IsRC Osc at hr
  simp only [lsSub] at hr
  omega

/-! ## The `jj` spaces -/

/-- All pairs of orbitals up to a number of quanta. -/
def pairsUpTo (n : ℕ) : List (Lab × Lab) :=
  ((List.range (n + 1)).product (List.range (2 * n + 2))).product ((List.range (n + 1)).product (List.range (2 * n + 2)))

theorem mem_pairsUpTo {n : ℕ} {x : Lab × Lab} : x ∈ pairsUpTo n ↔
    (x.1.1 < n + 1 ∧ x.1.2 < 2 * n + 2) ∧ x.2.1 < n + 1 ∧ x.2.2 < 2 * n + 2 := by
  obtain ⟨⟨a, b⟩, c, d⟩ := x
  simp [pairsUpTo, List.product.eq_def]

theorem pairsUpTo_nodup (n : ℕ) : (pairsUpTo n).Nodup :=
  List.Nodup.product (List.Nodup.product List.nodup_range List.nodup_range) (List.Nodup.product List.nodup_range List.nodup_range)

/-- Labels `(J,T,g)`. -/
def qnList (Nmax : ℕ) : List QN :=
  ((List.range (Nmax + 2)).product ((List.range 2).product (List.range 2))).map fun l => ⟨l.1, l.2.1, l.2.2⟩

theorem mem_qnList {Nmax : ℕ} {q : QN} : q ∈ qnList Nmax ↔ q.J < Nmax + 2 ∧ q.T < 2 ∧ q.g < 2 := by
  obtain ⟨a, b, c⟩ := q
  simp [qnList, List.product.eq_def]

theorem qnList_nodup (Nmax : ℕ) : (qnList Nmax).Nodup := by
  refine List.Nodup.map ?_ (List.Nodup.product List.nodup_range (List.Nodup.product List.nodup_range List.nodup_range))
  rintro ⟨a, b, c⟩ ⟨a', b', c'⟩ h
  simp only [QN.mk.injEq] at h
  simp [h]

theorem pair_bounds {t : Trunc} {q : QN} {a b : Lab} (h : IsPair t q a b) : q ∈ qnList t.N2max ∧ (a, b) ∈ pairsUpTo t.N2max ∧
    a.1 + b.1 ≤ t.N2max := by
  obtain ⟨h1, h2, h3, h4, h5, h6, h7, h8, _, _⟩ := h
  rw [mem_qnList, mem_pairsUpTo]
  unfold InTrunc at h5
  unfold Tri at h8
  simp only []
  omega

noncomputable def jjSub (t : Trunc) (l : QN × ℕ) : JJSub :=
  ⟨l.1.J, l.1.T, l.1.g, l.2, (having (pairsUpTo t.N2max) fun x => IsPair t l.1 x.1 x.2 ∧ l.2 = x.1.1 + x.2.1).map fun x => jjOf x.1 x.2⟩

noncomputable def jtSub (t : Trunc) (q : QN) : JTSub := ⟨q.J, q.T, q.g, having (pairsUpTo t.N2max) fun x => IsPair t q x.1 x.2⟩

noncomputable def jjSpace (t : Trunc) : List JJSub := ((qnList t.N2max).product (List.range (t.N2max + 1))).map (jjSub t)

noncomputable def jtSpace (t : Trunc) : List JTSub := (qnList t.N2max).map (jtSub t)

theorem jjOf_injective {x y : Lab × Lab} (h : jjOf x.1 x.2 = jjOf y.1 y.2) : x = y := by
  obtain ⟨⟨a, b⟩, c, d⟩ := x
  obtain ⟨⟨a', b'⟩, c', d'⟩ := y
  simp only [jjOf, JJState.mk.injEq] at h
  simp [h]

theorem jjSpace_ok (t : Trunc) : JJSpace t (jjSpace t) where
  labels := by
    rw [jjSpace, List.map_map]
    have : (fun s : JJSub => (s.qn, s.N)) ∘ jjSub t = id := rfl
    rw [this, List.map_id]
    exact List.Nodup.product (qnList_nodup _) List.nodup_range
  nodup := by
    intro s hs
    obtain ⟨l, _, rfl⟩ := List.mem_map.mp hs
    exact (having_nodup (pairsUpTo_nodup _) _).map fun x y h => jjOf_injective h
  states := by
    intro s hs x
    obtain ⟨l, _, rfl⟩ := List.mem_map.mp hs
    simp only [jjSub, List.mem_map, mem_having]
    constructor
    · rintro ⟨y, ⟨_, h1, h2⟩, rfl⟩
      exact ⟨y.1, y.2, rfl, h1, h2⟩
    · rintro ⟨a, b, rfl, h1, h2⟩
      exact ⟨(a, b), ⟨(pair_bounds h1).2.1, h1, h2⟩, rfl⟩
  complete := by
    intro q a b h
    obtain ⟨h1, _, h2⟩ := pair_bounds h
    rw [jjSpace, List.map_map]
    have : (fun s : JJSub => (s.qn, s.N)) ∘ jjSub t = id := rfl
    rw [this, List.map_id]
    refine List.mem_product.mpr ?_
    exact ⟨h1, List.mem_range.mpr (by omega)⟩

theorem jtSpace_ok (t : Trunc) : JTSpace t (jtSpace t) where
  labels := by
    rw [jtSpace, List.map_map]
    have : JTSub.qn ∘ jtSub t = id := rfl
    rw [this, List.map_id]
    exact qnList_nodup _
  isospin := by
    intro s hs
    obtain ⟨l, hl, rfl⟩ := List.mem_map.mp hs
    exact Nat.le_of_lt_succ (mem_qnList.mp hl).2.1
  nodup := by
    intro s hs
    obtain ⟨l, _, rfl⟩ := List.mem_map.mp hs
    exact having_nodup (pairsUpTo_nodup _) _
  states := by
    intro s hs x
    obtain ⟨l, _, rfl⟩ := List.mem_map.mp hs
    simp only [jtSub, mem_having]
    exact ⟨fun h => h.2, fun h => ⟨(pair_bounds h).2.1, h⟩⟩
  complete := by
    intro q a b h
    rw [jtSpace, List.map_map]
    have : JTSub.qn ∘ jtSub t = id := rfl
    rw [this, List.map_id]
    exact (pair_bounds h).1

end Verif.Moshinsky
