import Verif.Obme.Spec
import Verif.H2.Lemmas
import Verif.Relative.IsospinProps
import Mathlib.Algebra.BigOperators.Ring.Finset
import Mathlib.Data.List.ProdSigma
import Mathlib.Data.List.Nodup

/-!
# Helper lemmas for the one-body operators
-/

namespace Verif.Obme
open Verif Verif.Mapping Verif.Xform
open Verif.H2 hiding Mat

theorem getE_ok {α : Type} {l : List α} {i : ℕ} {a : α} (h : l[i]? = some a) : getE l i = .ok a := by
  simp [getE, h]

theorem getE_eq_ok {α : Type} {l : List α} {i : ℕ} {a : α} : getE l i = .ok a ↔ l[i]? = some a := by
  unfold getE
  cases l[i]? <;> simp

theorem mapM_forall₂ {α β : Type} {f : α → Except Err β} {P : α → β → Prop} :
    ∀ {l : List α}, (∀ a ∈ l, ∃ b, f a = .ok b ∧ P a b) → ∃ bs, l.mapM f = .ok bs ∧ List.Forall₂ P l bs
  | [], _ => ⟨[], rfl, .nil⟩
  | a :: l, h => by
    obtain ⟨b, hb, hP⟩ := h a (by simp)
    obtain ⟨bs, hbs, hPs⟩ := mapM_forall₂ (l := l) fun a' ha' => h a' (by simp [ha'])
    refine ⟨b :: bs, ?_, .cons hP hPs⟩
    rw [List.mapM_cons, hb, hbs]
    rfl

theorem forall₂_getElem? {α β : Type} {P : α → β → Prop} {l : List α} {bs : List β}
    (h : List.Forall₂ P l bs) : ∀ {x : ℕ} {a : α}, l[x]? = some a → ∃ b, bs[x]? = some b ∧ P a b := by
  induction h with
  | nil => intro x a h; simp at h
  | cons hP hPs ih =>
    intro x a h
    cases x with
    | zero =>
      simp only [List.getElem?_cons_zero, Option.some.injEq] at h
      subst h
      exact ⟨_, by simp, hP⟩
    | succ x =>
      simp only [List.getElem?_cons_succ] at h ⊢
      exact ih h

theorem idxOf?_getElem? {α : Type} [BEq α] [LawfulBEq α] {l : List α} {a : α} {x : ℕ}
    (h : l.idxOf? a = some x) : l[x]? = some a := by
  have h' := h
  rw [List.idxOf?, List.findIdx?_eq_some_iff_getElem] at h'
  obtain ⟨hx, hp, _⟩ := h'
  rw [List.getElem?_eq_getElem hx]
  simpa using hp

theorem idxOf?_none {α : Type} [BEq α] [LawfulBEq α] {l : List α} {a : α} : l.idxOf? a = none ↔ a ∉ l := by
  rw [List.idxOf?, List.findIdx?_eq_none_iff]
  constructor
  · intro h ha
    simpa using h a ha
  · intro h x hx
    simp only [beq_eq_false_iff_ne, ne_eq]
    rintro rfl
    exact h hx

theorem idxOf?_mem {α : Type} [BEq α] [LawfulBEq α] {l : List α} {a : α} (h : a ∈ l) :
    ∃ x, l.idxOf? a = some x := by
  rcases hx : l.idxOf? a with _ | x
  · exact absurd h (idxOf?_none.mp hx)
  · exact ⟨x, rfl⟩

theorem mem_of_idxOf? {α : Type} [BEq α] [LawfulBEq α] {l : List α} {a : α} {x : ℕ}
    (h : l.idxOf? a = some x) : a ∈ l := by
  by_contra hn
  rw [idxOf?_none.mpr hn] at h
  simp at h

theorem fits_block {s : Sectors} {mats : List Mat} {bra ket : Space} (h : Fits s mats bra ket) {i k x : ℕ}
    (hx : s.pairs.idxOf? (i, k) = some x) :
    ∃ m, mats[x]? = some m ∧ m.rows = dim bra i ∧ m.cols = dim ket k ∧
      ∀ a c, a < dim bra i → c < dim ket k → m.val a c = elem s mats i a k c := by
  have hp := idxOf?_getElem? hx
  have hlt : x < mats.length := by
    rw [h.length]
    by_contra hn
    rw [List.getElem?_eq_none (by omega)] at hp
    simp at hp
  have hm : mats[x]? = some mats[x] := List.getElem?_eq_getElem hlt
  obtain ⟨hr, hc⟩ := h.size x i k _ hp hm
  refine ⟨mats[x], hm, hr, hc, ?_⟩
  intro a c ha hc'
  simp only [elem, hx, hm]
  rw [if_pos ⟨hr ▸ ha, hc ▸ hc'⟩]

theorem elem_absent {s : Sectors} {mats : List Mat} {i k : ℕ} (h : (i, k) ∉ s.pairs) (a c : ℕ) :
    elem s mats i a k c = 0 := by
  simp [elem, idxOf?_none.mpr h]

/-- Elements outside the dimensions are zero. -/
theorem elem_outside {s : Sectors} {mats : List Mat} {bra ket : Space} (h : Fits s mats bra ket) {i a k c : ℕ}
    (hn : ¬ (a < dim bra i ∧ c < dim ket k)) : elem s mats i a k c = 0 := by
  rcases hx : s.pairs.idxOf? (i, k) with _ | x
  · simp [elem, hx]
  obtain ⟨m, hm, hr, hc, _⟩ := fits_block h hx
  simp only [elem, hx, hm]
  rw [if_neg (by rw [hr, hc]; exact hn)]

theorem dim_some {s : Space} {i : ℕ} {b : Sub} (h : s[i]? = some b) : dim s i = b.ns.length := by
  simp [dim, h]

theorem sectors_some {s : Sectors} {bra ket : Space} (h : SectorsOf s bra ket) {p : ℕ × ℕ} (hp : p ∈ s.pairs) :
    ∃ b k, bra[p.1]? = some b ∧ ket[p.2]? = some k ∧ Allowed s.qn b.labels k.labels :=
  (h.mem p.1 p.2).mp hp

/-- A result assembled sector by sector. -/
theorem assemble {s : Sectors} {bra ket : Space} (f : ℕ × ℕ → Except Err Mat) (v : ℕ → ℕ → ℕ → ℕ → ℝ)
    (h : ∀ p ∈ s.pairs, ∃ m, f p = .ok m ∧ m.rows = dim bra p.1 ∧ m.cols = dim ket p.2 ∧
      ∀ a c, a < dim bra p.1 → c < dim ket p.2 → m.val a c = v p.1 a p.2 c) :
    ∃ mats, s.pairs.mapM f = .ok mats ∧ Fits s mats bra ket ∧
      ∀ i k, (i, k) ∈ s.pairs → ∀ a c, a < dim bra i → c < dim ket k → elem s mats i a k c = v i a k c := by
  obtain ⟨mats, hm, h2⟩ := mapM_forall₂ h
  refine ⟨mats, hm, ⟨h2.length_eq.symm, ?_⟩, ?_⟩
  · intro x i k m hx hmx
    obtain ⟨m', hm', hr, hc, _⟩ := forall₂_getElem? h2 hx
    rw [hmx] at hm'
    simp only [Option.some.injEq] at hm'
    subst hm'
    exact ⟨hr, hc⟩
  · intro i k hik a c ha hc
    obtain ⟨x, hx⟩ := idxOf?_mem hik
    obtain ⟨m, hmx, hr, hcm, hv⟩ := forall₂_getElem? h2 (idxOf?_getElem? hx)
    simp only [elem, hx, hmx]
    rw [if_pos ⟨by rw [hr]; exact ha, by rw [hcm]; exact hc⟩]
    exact hv a c ha hc

theorem mul_ok {a b : Mat} (h : a.cols = b.rows) : Mat.mul a b = .ok ⟨a.rows, b.cols, fun i j =>
    ∑ k ∈ Finset.range a.cols, a.val i k * b.val k j⟩ := by
  simp [Mat.mul, h]

/-- Fold of the product loop. -/
theorem foldlM_sum {step : Mat → ℕ → Except Err Mat} {rows cols : ℕ} (t : ℕ → ℕ → ℕ → ℝ)
    (hstep : ∀ acc j, acc.rows = rows → acc.cols = cols → ∃ m, step acc j = .ok m ∧ m.rows = rows ∧
      m.cols = cols ∧ ∀ a c, a < rows → c < cols → m.val a c = acc.val a c + t j a c) (n : ℕ) :
    ∀ acc : Mat, acc.rows = rows → acc.cols = cols → ∃ m, (List.range n).foldlM step acc = .ok m ∧
      m.rows = rows ∧ m.cols = cols ∧
      ∀ a c, a < rows → c < cols → m.val a c = acc.val a c + ∑ j ∈ Finset.range n, t j a c := by
  intro acc hr hc
  induction n with
  | zero => exact ⟨acc, rfl, hr, hc, by simp⟩
  | succ n ih =>
    obtain ⟨m, hm, hmr, hmc, hmv⟩ := ih
    obtain ⟨m', hm', hmr', hmc', hmv'⟩ := hstep m n hmr hmc
    refine ⟨m', ?_, hmr', hmc', ?_⟩
    · rw [List.range_succ, List.foldlM_append, hm]
      simp [hm']
    · intro a c ha hc
      rw [hmv' a c ha hc, hmv a c ha hc, Finset.sum_range_succ, add_assoc]

theorem scalar_allowed {b k : Sub} {sb sk : Space} (hb : GoodSpace sb) (hk : GoodSpace sk) (mb : b ∈ sb)
    (mk : k ∈ sk) {q : QN} (hq : q = scalarQN) : Allowed q b.labels k.labels ↔ b.labels = k.labels := by
  subst hq
  have h1 := hb.half b mb
  have h2 := hk.half k mk
  obtain ⟨⟨l, tj, sp⟩, ns⟩ := b
  obtain ⟨⟨l', tj', sp'⟩, ns'⟩ := k
  simp only [Allowed, scalarQN, Labels.tz, Labels.mk.injEq] at h1 h2 ⊢
  constructor
  · rintro ⟨⟨h3, h4⟩, h5, h6⟩
    rw [abs_le'] at h3
    refine ⟨by omega, by omega, ?_⟩
    cases sp <;> cases sp' <;> simp_all
  · rintro ⟨rfl, rfl, rfl⟩
    simp only [mul_zero, sub_zero, add_zero, sub_self]
    refine ⟨⟨by rw [abs_of_nonneg (by omega)], le_refl _⟩, by omega, trivial⟩

theorem mem_of_getElem? {α : Type} {l : List α} {i : ℕ} {a : α} (h : l[i]? = some a) : a ∈ l :=
  List.mem_of_getElem? h

/-- Labels identify a subspace. -/
theorem sub_unique {s : Space} (h : GoodSpace s) {i j : ℕ} {a b : Sub} (hi : s[i]? = some a)
    (hj : s[j]? = some b) (hl : a.labels = b.labels) : i = j := by
  have h1 : (s.map Sub.labels)[i]? = some a.labels := by simp [hi]
  have h2 : (s.map Sub.labels)[j]? = some a.labels := by simp [hj, hl]
  obtain ⟨hi', _⟩ := List.getElem?_eq_some_iff.mp h1
  exact (List.getElem?_inj hi' h.nodup).mp (h1.trans h2.symm)

theorem lookUpSub_some {s : Space} (h : GoodSpace s) {i : ℕ} {a : Sub} (hi : s[i]? = some a) :
    lookUpSub s a.labels = some i := by
  rcases hx : lookUpSub s a.labels with _ | j
  · rw [lookUpSub, List.findIdx?_eq_none_iff] at hx
    have := hx a (List.mem_of_getElem? hi)
    simp at this
  · have hx' := hx
    rw [lookUpSub, List.findIdx?_eq_some_iff_getElem] at hx'
    obtain ⟨hj, hp, _⟩ := hx'
    simp only [decide_eq_true_eq] at hp
    rw [sub_unique h (List.getElem?_eq_getElem hj) hi hp]

theorem lookUpSub_eq_some {s : Space} {x : Labels} {i : ℕ} (h : lookUpSub s x = some i) :
    ∃ b, s[i]? = some b ∧ b.labels = x := by
  rw [lookUpSub, List.findIdx?_eq_some_iff_getElem] at h
  obtain ⟨hj, hp, _⟩ := h
  exact ⟨s[i], List.getElem?_eq_getElem hj, by simpa using hp⟩

theorem lookUpSub_eq_none {s : Space} {x : Labels} (h : lookUpSub s x = none) :
    ∀ (i : ℕ) (b : Sub), s[i]? = some b → b.labels ≠ x := by
  intro i b hi
  rw [lookUpSub, List.findIdx?_eq_none_iff] at h
  simpa using h b (List.mem_of_getElem? hi)

instance (q : QN) (b k : Labels) : Decidable (Allowed q b k) := by unfold Allowed; infer_instance

/-- Enumeration of all allowed pairs, as `basis::OrbitalSectorsLJPN(bra,ket,J0,g0,Tz0)` does it. -/
def allSectors (q : QN) (bra ket : Space) : Sectors :=
  ⟨q, (List.range bra.length ×ˢ List.range ket.length).filter fun p =>
    match bra[p.1]?, ket[p.2]? with
    | some b, some k => decide (Allowed q b.labels k.labels)
    | _, _ => false⟩

theorem allSectors_spec (q : QN) (bra ket : Space) : SectorsOf (allSectors q bra ket) bra ket := by
  constructor
  · exact ((List.nodup_range).product (List.nodup_range)).filter _
  · intro i k
    simp only [allSectors, List.mem_filter, List.mem_product, List.mem_range]
    constructor
    · rintro ⟨⟨hi, hk⟩, h⟩
      rw [List.getElem?_eq_getElem hi, List.getElem?_eq_getElem hk] at h ⊢
      exact ⟨_, _, rfl, rfl, by simpa using h⟩
    · rintro ⟨b, k', hb, hk, h⟩
      refine ⟨⟨(List.getElem?_eq_some_iff.mp hb).1, (List.getElem?_eq_some_iff.mp hk).1⟩, ?_⟩
      simp [hb, hk, h]

end Verif.Obme
