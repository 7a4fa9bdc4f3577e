import Verif.Relative.Labels
import Mathlib.Data.List.Sort
import Mathlib.Data.List.Nodup
import Mathlib.Data.List.Infix

/-!
# The relative space and its sectors

What the absent `basis` library provides to `relative-gen`: `basis::RelativeSpaceLSJT(Nmax,Jmax)` and
`basis::RelativeSectorsLSJT(space,J0,T0,g0)`, by their documentation: subspaces in the order of `L`, `S`, `J`, with the
isospin fixed by antisymmetry, sectors of allowed pairs of subspaces in canonical order (bra not after ket).
-/

namespace Verif.Relative

/-- `basis::RelativeSpaceLSJT(Nmax,Jmax)`. -/
def relSpace (Nmax Jmax : ℕ) : List RelSub :=
  (List.range (Nmax + 1)).flatMap fun L => [0, 1].flatMap fun S =>
    ((List.range (Jmax + 1)).filter fun J => tri L S J).map fun J => ⟨L, S, J, (L + S + 1) % 2, Nmax, (Nmax - L) / 2 + 1⟩

/-- Pairs of entries of a list, the first not after the second. -/
def upper {α : Type} (l : List α) : List (α × α) := l.tails.flatMap fun t => match t with
  | [] => []
  | a :: r => (a :: r).map fun b => (a, b)

/-- The selection rules of a sector. -/
def allowed (o : OpLabels) (T0 : ℕ) (p : RSec) : Bool :=
  tri p.1.J o.J0 p.2.J && tri p.1.T T0 p.2.T && decide ((p.1.L + p.2.L + o.g0) % 2 = 0)

/-- The sectors of component `T0`; components outside the range of the operator have none. -/
def relSectors (o : OpLabels) (sp : List RelSub) (T0 : ℕ) : List RSec :=
  if o.T0min ≤ T0 ∧ T0 ≤ o.T0max then (upper sp).filter (allowed o T0) else []

/-! ## Members -/

theorem mem_space {Nmax Jmax : ℕ} {s : RelSub} :
    s ∈ relSpace Nmax Jmax ↔ s.L ≤ Nmax ∧ s.S ≤ 1 ∧ s.J ≤ Jmax ∧ tri s.L s.S s.J ∧ (s.L + s.S + s.T) % 2 = 1 ∧ s.T ≤ 1 ∧
      s.Nmax = Nmax ∧ s.size = (Nmax - s.L) / 2 + 1 := by
  obtain ⟨L, S, J, T, N, z⟩ := s
  simp only [relSpace, List.mem_flatMap, List.mem_range, List.mem_map, List.mem_filter, RelSub.mk.injEq,
    List.mem_cons, List.not_mem_nil, or_false]
  constructor
  · rintro ⟨L', h1, S', h2, J', ⟨h3, h4⟩, rfl, rfl, rfl, rfl, rfl, rfl⟩
    refine ⟨by omega, by omega, by omega, h4, by omega, by omega, rfl, rfl⟩
  · rintro ⟨h1, h2, h3, h4, h5, h6, rfl, rfl⟩
    exact ⟨L, by omega, S, by omega, J, ⟨by omega, h4⟩, rfl, rfl, rfl, by omega, rfl, rfl⟩

theorem mem_upper {α : Type} {l : List α} {a b : α} :
    (a, b) ∈ upper l ↔ ∃ i j : ℕ, i ≤ j ∧ l[i]? = some a ∧ l[j]? = some b := by
  simp only [upper, List.mem_flatMap, List.mem_tails]
  constructor
  · rintro ⟨t, ht, hm⟩
    cases t with
    | nil => simp at hm
    | cons x r =>
      simp only [List.mem_map, Prod.mk.injEq] at hm
      obtain ⟨y, hy, rfl, rfl⟩ := hm
      obtain ⟨p, rfl⟩ := ht
      obtain ⟨k, hk⟩ := List.getElem?_of_mem hy
      refine ⟨p.length, p.length + k, by omega, ?_, ?_⟩
      · simp
      · rw [List.getElem?_append_right (by omega)]
        simpa using hk
  · rintro ⟨i, j, hij, hi, hj⟩
    obtain ⟨hi', rfl⟩ := List.getElem?_eq_some_iff.mp hi
    refine ⟨l.drop i, List.drop_suffix _ _, ?_⟩
    rw [List.drop_eq_getElem_cons hi']
    simp only [List.mem_map, Prod.mk.injEq, true_and, exists_eq_right]
    rw [← List.drop_eq_getElem_cons hi']
    refine List.mem_of_getElem? (i := j - i) ?_
    rw [List.getElem?_drop, show i + (j - i) = j by omega, hj]

/-! ## Order -/

/-- Order of the labels `L`, `S`, `J`. -/
def SubLt (s t : RelSub) : Prop := s.L < t.L ∨ s.L = t.L ∧ (s.S < t.S ∨ s.S = t.S ∧ s.J < t.J)

theorem space_sorted (Nmax Jmax : ℕ) : (relSpace Nmax Jmax).Pairwise SubLt := by
  refine List.pairwise_flatMap.mpr ⟨fun L _ => List.pairwise_flatMap.mpr ⟨fun S _ => ?_, ?_⟩, ?_⟩
  · rw [List.pairwise_map]
    refine List.Pairwise.filter _ (List.pairwise_lt_range.imp fun h => ?_)
    exact .inr ⟨rfl, .inr ⟨rfl, h⟩⟩
  · refine List.pairwise_pair.mpr ?_
    intro a ha b hb
    simp only [List.mem_map] at ha hb
    obtain ⟨_, _, rfl⟩ := ha
    obtain ⟨_, _, rfl⟩ := hb
    exact .inr ⟨rfl, .inl (by simp)⟩
  · refine List.pairwise_lt_range.imp fun h a ha b hb => ?_
    simp only [List.mem_flatMap, List.mem_map] at ha hb
    obtain ⟨_, _, _, _, rfl⟩ := ha
    obtain ⟨_, _, _, _, rfl⟩ := hb
    exact .inl h

theorem space_nodup (Nmax Jmax : ℕ) : (relSpace Nmax Jmax).Nodup := by
  refine (space_sorted Nmax Jmax).imp fun h e => ?_
  subst e
  rcases h with h | ⟨_, h | ⟨_, h⟩⟩ <;> omega

/-- In a strictly sorted list the places are those of the order. -/
theorem upper_order {Nmax Jmax : ℕ} {a b : RelSub} :
    (a, b) ∈ upper (relSpace Nmax Jmax) ↔ a ∈ relSpace Nmax Jmax ∧ b ∈ relSpace Nmax Jmax ∧ (a = b ∨ SubLt a b) := by
  rw [mem_upper]
  have hs := List.pairwise_iff_getElem.mp (space_sorted Nmax Jmax)
  constructor
  · rintro ⟨i, j, hij, hi, hj⟩
    refine ⟨List.mem_of_getElem? hi, List.mem_of_getElem? hj, ?_⟩
    obtain ⟨hi', rfl⟩ := List.getElem?_eq_some_iff.mp hi
    obtain ⟨hj', rfl⟩ := List.getElem?_eq_some_iff.mp hj
    rcases Nat.eq_or_lt_of_le hij with h | h
    · subst h
      exact .inl rfl
    · exact .inr (hs i j hi' hj' h)
  · rintro ⟨ha, hb, h⟩
    obtain ⟨i, hi', rfl⟩ := List.getElem_of_mem ha
    obtain ⟨j, hj', rfl⟩ := List.getElem_of_mem hb
    refine ⟨i, j, ?_, List.getElem?_eq_getElem hi', List.getElem?_eq_getElem hj'⟩
    by_contra hlt
    push Not at hlt
    have := hs j i hj' hi' hlt
    rcases h with h | h
    · rw [h] at this
      rcases this with h | ⟨_, h | ⟨_, h⟩⟩ <;> omega
    · rcases this with h1 | ⟨e1, h1 | ⟨e2, h1⟩⟩ <;> rcases h with h | ⟨e3, h | ⟨e4, h⟩⟩ <;> omega

theorem mem_sectors {o : OpLabels} {Nmax Jmax T0 : ℕ} {p : RSec} :
    p ∈ relSectors o (relSpace Nmax Jmax) T0 ↔ (o.T0min ≤ T0 ∧ T0 ≤ o.T0max) ∧ p.1 ∈ relSpace Nmax Jmax ∧
      p.2 ∈ relSpace Nmax Jmax ∧ (p.1 = p.2 ∨ SubLt p.1 p.2) ∧ allowed o T0 p = true := by
  rw [relSectors]
  split
  · rename_i h
    obtain ⟨a, b⟩ := p
    rw [List.mem_filter, upper_order]
    simp only [h, and_self, true_and]
    tauto
  · rename_i h
    simp [h]

theorem sectors_nodup (o : OpLabels) (Nmax Jmax T0 : ℕ) : (relSectors o (relSpace Nmax Jmax) T0).Nodup := by
  rw [relSectors]
  split
  · refine List.Nodup.filter _ ?_
    have : ∀ l : List RelSub, l.Nodup → (upper l).Nodup := by
      intro l hl
      induction l with
      | nil => simp [upper]
      | cons x r ih =>
        have e : upper (x :: r) = ((x :: r).map fun b => (x, b)) ++ upper r := by simp [upper]
        rw [e, List.nodup_append']
        refine ⟨hl.map fun _ _ h => (Prod.mk.inj h).2, ih hl.of_cons, ?_⟩
        intro p hp hp'
        simp only [List.mem_map] at hp
        obtain ⟨b, _, rfl⟩ := hp
        obtain ⟨i, _, _, hi, _⟩ := mem_upper.mp hp'
        exact (List.nodup_cons.mp hl).1 (List.mem_of_getElem? hi)
    exact this _ (space_nodup _ _)
  · exact List.nodup_nil

end Verif.Relative
