import Verif.Relative.Space
import Verif.Relative.PN
import Verif.Relative.RelXform
import Verif.Relative.IsospinProps

/-!
# Look-ups in the relative space

`LookUpSubspaceIndex`, `LookUpSectorIndex` of the absent `basis` library, for the space and the sectors of `Space.lean`.
The parity `g` of a relative subspace is that of `L`.
-/

namespace Verif.Relative
open Verif Verif.H2

/-- The subspace of labels `L`, `S`, `J` in the space of truncation `Nmax`. -/
def relSub (Nmax L S J : ℕ) : RelSub := ⟨L, S, J, (L + S + 1) % 2, Nmax, (Nmax - L) / 2 + 1⟩

/-- `RelativeSpaceLSJT::LookUpSubspaceIndex`. -/
def subIndex (sp : List RelSub) (L S J T g : Int) : Option ℕ :=
  sp.findIdx? fun s => decide ((s.L : Int) = L ∧ (s.S : Int) = S ∧ (s.J : Int) = J ∧ (s.T : Int) = T ∧ ((s.L % 2 : ℕ) : Int) = g)

/-- `RelativeSectorsLSJT::LookUpSectorIndex`. -/
def secIndex (sp : List RelSub) (secs : List RSec) (b k : ℕ) : Option ℕ :=
  match sp[b]?, sp[k]? with
  | some x, some y => secs.findIdx? fun p => decide (p = (x, y))
  | _, _ => none

/-- The labels of the operator with components `0..T0max` that is scalar and of positive parity. -/
def scalarLabels (T0max : ℕ) : OpLabels := ⟨0, 0, 0, T0max⟩

/-- The indexing seen by the readers of foreign formats: that of component 0. -/
def jspace (Nmax Jmax T0max : ℕ) : JSpace where
  Jmax := Jmax
  sub := subIndex (relSpace Nmax Jmax)
  size := fun k => ((relSpace Nmax Jmax)[k]?.map RelSub.size).getD 0
  sector := secIndex (relSpace Nmax Jmax) (relSectors (scalarLabels T0max) (relSpace Nmax Jmax) 0)

/-! ## Facts -/

theorem relSub_eq {Nmax Jmax : ℕ} {s : RelSub} (h : s ∈ relSpace Nmax Jmax) : s = relSub Nmax s.L s.S s.J := by
  obtain ⟨_, _, _, _, h5, h6, h7, h8⟩ := mem_space.mp h
  obtain ⟨L, S, J, T, N, z⟩ := s
  simp only at *
  subst h7 h8
  simp only [relSub, RelSub.mk.injEq, true_and, and_true]
  omega

theorem relSub_mem {Nmax Jmax L S J : ℕ} :
    relSub Nmax L S J ∈ relSpace Nmax Jmax ↔ L ≤ Nmax ∧ S ≤ 1 ∧ J ≤ Jmax ∧ tri L S J := by
  rw [mem_space]
  simp only [relSub]
  constructor
  · rintro ⟨h1, h2, h3, h4, -⟩
    exact ⟨h1, h2, h3, h4⟩
  · rintro ⟨h1, h2, h3, h4⟩
    exact ⟨h1, h2, h3, h4, by omega, by omega, by simp, by simp⟩

theorem space_index_unique {Nmax Jmax i j : ℕ} {s : RelSub} (hi : (relSpace Nmax Jmax)[i]? = some s)
    (hj : (relSpace Nmax Jmax)[j]? = some s) : i = j := by
  obtain ⟨h1, h2⟩ := List.getElem?_eq_some_iff.mp hi
  obtain ⟨h3, h4⟩ := List.getElem?_eq_some_iff.mp hj
  exact ((space_nodup Nmax Jmax).getElem_inj_iff).mp (h2.trans h4.symm)

/-- A subspace is found under its labels. -/
theorem subIndex_at {Nmax Jmax i : ℕ} {s : RelSub} (h : (relSpace Nmax Jmax)[i]? = some s) :
    subIndex (relSpace Nmax Jmax) s.L s.S s.J s.T ((s.L % 2 : ℕ) : Int) = some i := by
  refine findIdx?_unique h (by simp) ?_
  intro j b hj hb
  simp only [decide_eq_true_eq, Nat.cast_inj] at hb
  obtain ⟨e1, e2, e3, -⟩ := hb
  have : b = s := by
    rw [relSub_eq (List.mem_of_getElem? hj), relSub_eq (List.mem_of_getElem? h), e1, e2, e3]
  subst this
  exact space_index_unique hj h

theorem subIndex_some {sp : List RelSub} {L S J T g : Int} {i : ℕ} (h : subIndex sp L S J T g = some i) :
    ∃ s, sp[i]? = some s ∧ (s.L : Int) = L ∧ (s.S : Int) = S ∧ (s.J : Int) = J ∧ (s.T : Int) = T ∧ ((s.L % 2 : ℕ) : Int) = g := by
  unfold subIndex at h
  rw [List.findIdx?_eq_some_iff_getElem] at h
  obtain ⟨h1, h2, -⟩ := h
  exact ⟨_, List.getElem?_eq_getElem h1, by simpa using h2⟩

/-- Places in the space are in the order of the labels. -/
theorem index_order {Nmax Jmax b k : ℕ} {x y : RelSub} (hb : (relSpace Nmax Jmax)[b]? = some x)
    (hk : (relSpace Nmax Jmax)[k]? = some y) : b ≤ k ↔ x = y ∨ SubLt x y := by
  have hs := List.pairwise_iff_getElem.mp (space_sorted Nmax Jmax)
  have irr : ∀ x y : RelSub, SubLt x y → ¬ (y = x ∨ SubLt y x) := by
    rintro x y h (rfl | h')
    · rcases h with h | ⟨_, h | ⟨_, h⟩⟩ <;> omega
    · rcases h with h | ⟨_, h | ⟨_, h⟩⟩ <;> rcases h' with h' | ⟨_, h' | ⟨_, h'⟩⟩ <;> omega
  obtain ⟨h1, rfl⟩ := List.getElem?_eq_some_iff.mp hb
  obtain ⟨h3, rfl⟩ := List.getElem?_eq_some_iff.mp hk
  constructor
  · intro h
    rcases Nat.eq_or_lt_of_le h with h | h
    · subst h; exact .inl rfl
    · exact .inr (hs b k h1 h3 h)
  · intro h
    by_contra hlt
    push Not at hlt
    exact irr _ _ (hs k b h3 h1 hlt) h

/-- A sector is found under the places of its subspaces. -/
theorem secIndex_at {o : OpLabels} {Nmax Jmax T0 idx b k : ℕ} {x y : RelSub} (hb : (relSpace Nmax Jmax)[b]? = some x)
    (hk : (relSpace Nmax Jmax)[k]? = some y) (h : (relSectors o (relSpace Nmax Jmax) T0)[idx]? = some (x, y)) :
    secIndex (relSpace Nmax Jmax) (relSectors o (relSpace Nmax Jmax) T0) b k = some idx := by
  simp only [secIndex, hb, hk]
  refine findIdx?_unique h (by simp) ?_
  intro j p hj hp
  simp only [decide_eq_true_eq] at hp
  subst hp
  obtain ⟨h1, h2⟩ := List.getElem?_eq_some_iff.mp hj
  obtain ⟨h3, h4⟩ := List.getElem?_eq_some_iff.mp h
  exact ((sectors_nodup o Nmax Jmax T0).getElem_inj_iff).mp (h2.trans h4.symm)

theorem secIndex_some {sp : List RelSub} {secs : List RSec} {b k idx : ℕ} (h : secIndex sp secs b k = some idx) :
    ∃ x y, sp[b]? = some x ∧ sp[k]? = some y ∧ secs[idx]? = some (x, y) := by
  unfold secIndex at h
  cases hb : sp[b]? with
  | none => simp [hb] at h
  | some x =>
    cases hk : sp[k]? with
    | none => simp [hb, hk] at h
    | some y =>
      simp only [hb, hk, List.findIdx?_eq_some_iff_getElem] at h
      obtain ⟨h1, h2, -⟩ := h
      refine ⟨x, y, rfl, rfl, ?_⟩
      rw [List.getElem?_eq_getElem h1]
      simpa using h2

/-- The sectors of a scalar operator of positive parity. -/
theorem scalar_allowed {T0max T0 : ℕ} {x y : RelSub} : allowed (scalarLabels T0max) T0 (x, y) = true ↔
    x.J = y.J ∧ tri x.T T0 y.T = true ∧ (x.L + y.L) % 2 = 0 := by
  have e : allowed (scalarLabels T0max) T0 (x, y) = (tri x.J 0 y.J && tri x.T T0 y.T && decide ((x.L + y.L + 0) % 2 = 0)) := rfl
  rw [e, Bool.and_eq_true, Bool.and_eq_true, decide_eq_true_iff, and_assoc]
  refine and_congr ?_ Iff.rfl
  rw [tri, decide_eq_true_iff]
  omega

end Verif.Relative
