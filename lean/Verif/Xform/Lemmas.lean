import Verif.Xform.Spec
import Verif.Mapping.Lemmas
import Mathlib.Algebra.BigOperators.Fin
import Mathlib.Algebra.BigOperators.Ring.Finset
import Mathlib.Tactic.Ring
import Mathlib.Tactic.LinearCombination
import Mathlib.Tactic.FieldSimp
import Mathlib.Tactic.Push

/-! # Lemmas on two-body overlaps -/

namespace Verif.Xform
open Verif Verif.Mapping

theorem oneBodyOverlap_eq (ov : Overlap) (s : Species1) (a b : Orb) : oneBodyOverlap ov s a b = lj ov s a b := by
  simp [oneBodyOverlap, lj]

theorem product_eq (ov : Overlap) (s1 s2 : Species1) (a1 a2 b1 b2 : Orb) :
    twoBodyOverlapProduct ov s1 s2 a1 a2 b1 b2 = lj ov s1 a1 b1 * lj ov s2 a2 b2 := by
  unfold twoBodyOverlapProduct
  rw [oneBodyOverlap_eq, oneBodyOverlap_eq]
  split
  · rfl
  · rename_i h
    unfold lj
    rw [not_and_or] at h
    rcases h with h | h
    · rw [if_neg h, zero_mul]
    · rw [if_neg h, mul_zero]

/-- The exchange sign `-(-1)^(J-j1-j2)`. -/
def eps (J : Nat) (t : Nat) : ℤ := - powNegOne ((2 * (J : Int) - t) / 2)

theorem eps_sq (J t : Nat) : ((eps J t : ℤ) : ℝ) * (eps J t : ℤ) = 1 := by
  unfold eps powNegOne
  split <;> simp

theorem twoBodyOverlap_like (ov : Overlap) {sp : Species2} (h : sp ≠ .pn) (J : Nat) (a1 a2 b1 b2 : Orb) :
    twoBodyOverlap ov sp J a1 a2 b1 b2 = lj ov sp.first a1 b1 * lj ov sp.first a2 b2 +
      (eps J (a1.twiceJ + a2.twiceJ) : ℤ) * (lj ov sp.first a1 b2 * lj ov sp.first a2 b1) := by
  have hs : sp.second = sp.first := by cases sp <;> first | rfl | exact absurd rfl h
  simp only [twoBodyOverlap, h, ne_eq, not_false_eq_true, if_true, product_eq, hs, zero_add]
  have e : 2 * (J : Int) - a1.twiceJ - a2.twiceJ = 2 * (J : Int) - ((a1.twiceJ + a2.twiceJ : Nat) : Int) := by
    push_cast; ring
  simp only [paritySign, eps, e]

theorem twoBodyOverlap_pn (ov : Overlap) (J : Nat) (a1 a2 b1 b2 : Orb) :
    twoBodyOverlap ov .pn J a1 a2 b1 b2 = lj ov .p a1 b1 * lj ov .n a2 b2 := by
  simp [twoBodyOverlap, product_eq, Species2.first, Species2.second]

theorem lj_ne {ov : Overlap} {s : Species1} {a b : Orb} (h : lj ov s a b ≠ 0) : a.l = b.l ∧ a.twiceJ = b.twiceJ := by
  unfold lj at h
  by_contra hc
  rw [if_neg hc] at h
  exact h rfl

theorem xformElement_eq (ov : Overlap) (sp : Species2) (J : Nat) (b k : St) :
    xformElement ov sp J b k = norm sp b * norm sp k * twoBodyOverlap ov sp J b.a1 b.a2 k.a1 k.a2 := by
  unfold xformElement norm
  by_cases hsp : sp = .pn
  · simp [hsp]
  · by_cases h1 : b.i1 = b.i2 <;> by_cases h2 : k.i1 = k.i2 <;> simp [hsp, h1, h2] <;> ring

theorem inv_sqrt_two_sq : (1 / Real.sqrt 2) * (1 / Real.sqrt 2) = 1 / 2 := by
  rw [div_mul_div_comm, one_mul, Real.mul_self_sqrt (by norm_num)]

theorem norm_sq (sp : Species2) (x : St) : norm sp x * norm sp x = if sp ≠ .pn ∧ x.i1 = x.i2 then 1 / 2 else 1 := by
  unfold norm
  split
  · exact inv_sqrt_two_sq
  · ring

/-- Sum over canonical pairs against the sum over all pairs. -/
theorem sum_canonical {V : Type} [AddCommGroup V] [Module ℝ V] {n : Nat} {F : Nat → Nat → V}
    (hF : ∀ i < n, ∀ j < n, F i j = F j i) :
    ∑ i ∈ Finset.range n, ∑ j ∈ Finset.range n,
      (if i ≤ j then (if i = j then (1 / 2 : ℝ) else 1) • F i j else 0) =
      (1 / 2 : ℝ) • ∑ i ∈ Finset.range n, ∑ j ∈ Finset.range n, F i j := by
  have h1 : ∀ i j, F i j = (if i ≤ j then F i j else 0) + (if j < i then F i j else 0) := by
    intro i j
    by_cases h : i ≤ j
    · simp [h, not_lt.2 h]
    · simp [h, not_le.1 h]
  have h2 : ∑ i ∈ Finset.range n, ∑ j ∈ Finset.range n, (if j < i then F i j else 0) =
      ∑ i ∈ Finset.range n, ∑ j ∈ Finset.range n, (if i < j then F i j else 0) := by
    rw [Finset.sum_comm]
    refine Finset.sum_congr rfl fun i hi => Finset.sum_congr rfl fun j hj => ?_
    rw [hF j (Finset.mem_range.1 hj) i (Finset.mem_range.1 hi)]
  have h3 : ∑ i ∈ Finset.range n, ∑ j ∈ Finset.range n, F i j =
      ∑ i ∈ Finset.range n, ∑ j ∈ Finset.range n, ((if i ≤ j then F i j else 0) + (if i < j then F i j else 0)) := by
    simp only [Finset.sum_add_distrib]
    rw [← h2]
    simp only [← Finset.sum_add_distrib]
    exact Finset.sum_congr rfl fun i _ => Finset.sum_congr rfl fun j _ => h1 i j
  rw [h3, Finset.smul_sum]
  refine Finset.sum_congr rfl fun i _ => ?_
  rw [Finset.smul_sum]
  refine Finset.sum_congr rfl fun j _ => ?_
  rcases lt_trichotomy i j with h | h | h
  · simp only [h, le_of_lt h, ne_of_lt h, if_true, if_false]
    rw [← two_smul ℝ, smul_smul]
    norm_num
  · simp [h]
  · simp [not_le.2 h, not_lt.2 (le_of_lt h)]

/-- Orbital sum as a sum over indices. -/
theorem orbSum_eq {V : Type} [AddCommGroup V] (o : Orbitals) (s : Species1) (f : Orb → V) (d : Orb) :
    orbSum o s f = ∑ i ∈ Finset.range (o.of s).length, f ((o.of s).getD i d) := by
  unfold orbSum
  rw [Finset.sum_range, ← List.sum_ofFn]
  congr 1
  apply List.ext_getElem
  · simp
  · intro i h1 h2
    simp at h1
    simp [List.getD_eq_getElem?_getD, h1]

/-- A sum over matrix indices is a sum over states. -/
theorem sum_states {V : Type} [AddCommGroup V] (xs : List St) (hn : xs.Nodup) (f : Nat → V) (g : St → V)
    (h : ∀ i st, xs[i]? = some st → f i = g st) :
    ∑ i ∈ Finset.range xs.length, f i = ∑ st ∈ xs.toFinset, g st := by
  rw [List.sum_toFinset _ hn, Finset.sum_range, ← List.sum_ofFn]
  congr 1
  apply List.ext_getElem
  · simp
  · intro i h1 h2
    simp at h2
    simp
    exact h i _ (List.getElem?_eq_getElem h2)

end Verif.Xform
namespace Verif.Xform
open Verif Verif.Mapping

/-- The `(-1)` power form of the exchange sign. -/
theorem eps_eq {J t1 t2 : Nat} (h1 : t1 % 2 = 1) (h2 : t2 % 2 = 1) :
    ((eps J (t1 + t2) : ℤ) : ℝ) = (-1) ^ ((t1 + t2) / 2 + J + 1) := by
  have e : powNegOne ((2 * (J : Int) - ((t1 + t2 : Nat) : Int)) / 2) = powNegOne (((t1 + t2) / 2 + J : Nat) : Int) := by
    unfold powNegOne
    congr 1
    apply propext
    omega
  unfold eps
  rw [e, powNegOne_eq, pow_succ]
  push_cast
  ring

/-- The core identity: a sum over canonical pairs, with the antisymmetrised coefficients, is the
sum over all pairs with the plain ones. -/
theorem antisym_sum {V : Type} [AddCommGroup V] [Module ℝ V] {n : Nat} {A1 A2 : Nat → ℝ} {G : Nat → Nat → V}
    {e : ℝ} (he : e * e = 1)
    (hG : ∀ i < n, ∀ j < n, A1 i * A2 j ≠ 0 ∨ A1 j * A2 i ≠ 0 → G j i = e • G i j) :
    ∑ i ∈ Finset.range n, ∑ j ∈ Finset.range n,
      (if i ≤ j then (if i = j then (1 / 2 : ℝ) else 1) • ((A1 i * A2 j + e * (A1 j * A2 i)) • G i j) else 0) =
      ∑ i ∈ Finset.range n, ∑ j ∈ Finset.range n, (A1 i * A2 j) • G i j := by
  have hterm : ∀ i < n, ∀ j < n, (e * (A1 j * A2 i)) • G i j = (A1 j * A2 i) • G j i := by
    intro i hi j hj
    by_cases hz : A1 j * A2 i = 0
    · simp [hz]
    · rw [hG i hi j hj (.inr hz), smul_smul, mul_comm]
  rw [sum_canonical]
  · have h1 : ∑ i ∈ Finset.range n, ∑ j ∈ Finset.range n, (A1 i * A2 j + e * (A1 j * A2 i)) • G i j =
        ∑ i ∈ Finset.range n, ∑ j ∈ Finset.range n, (A1 i * A2 j) • G i j +
        ∑ i ∈ Finset.range n, ∑ j ∈ Finset.range n, (A1 j * A2 i) • G j i := by
      rw [← Finset.sum_add_distrib]
      refine Finset.sum_congr rfl fun i hi => ?_
      rw [← Finset.sum_add_distrib]
      refine Finset.sum_congr rfl fun j hj => ?_
      rw [add_smul, hterm i (Finset.mem_range.1 hi) j (Finset.mem_range.1 hj)]
    have h2 : ∑ i ∈ Finset.range n, ∑ j ∈ Finset.range n, (A1 j * A2 i) • G j i =
        ∑ i ∈ Finset.range n, ∑ j ∈ Finset.range n, (A1 i * A2 j) • G i j := Finset.sum_comm
    rw [h1, h2, ← two_smul ℝ, smul_smul]
    norm_num
  · intro i hi j hj
    rw [add_smul, add_smul, hterm i hi j hj, hterm j hj i hi, add_comm]

/-- The state of an index pair. -/
def mkSt (o : Orbitals) (sp : Species2) (d : Orb) (p : Nat × Nat) : St :=
  ⟨p.1, p.2, (o.of sp.first).getD p.1 d, (o.of sp.second).getD p.2 d⟩

/-- Sum over the states of an untruncated subspace as a sum over index pairs. -/
theorem sum_full {V : Type} [AddCommGroup V] {o : Orbitals} {g : Nat} {x : Sub} (hx : FullSub o g x) (d : Orb)
    (f : St → V)
    (hz : ∀ i < (o.of x.species.first).length, ∀ j < (o.of x.species.second).length,
      (x.species ≠ .pn → i ≤ j) → mkSt o x.species d (i, j) ∉ x.states → f (mkSt o x.species d (i, j)) = 0) :
    ∑ st ∈ x.states.toFinset, f st =
      ∑ i ∈ Finset.range (o.of x.species.first).length, ∑ j ∈ Finset.range (o.of x.species.second).length,
        if x.species ≠ .pn → i ≤ j then f (mkSt o x.species d (i, j)) else 0 := by
  classical
  rw [← Finset.sum_product', ← Finset.sum_filter]
  have hinj : Function.Injective (mkSt o x.species d) := by
    intro p q h
    have h1 : (mkSt o x.species d p).i1 = (mkSt o x.species d q).i1 := by rw [h]
    have h2 : (mkSt o x.species d p).i2 = (mkSt o x.species d q).i2 := by rw [h]
    exact Prod.ext h1 h2
  rw [← Finset.sum_image (f := f) (g := mkSt o x.species d) (fun p _ q _ h => hinj h)]
  apply Finset.sum_subset
  · intro st hst
    have ha := hx.allowed st (List.mem_toFinset.1 hst)
    obtain ⟨h1, e1⟩ := List.getElem?_eq_some_iff.1 ha.orb1
    obtain ⟨h2, e2⟩ := List.getElem?_eq_some_iff.1 ha.orb2
    refine Finset.mem_image.2 ⟨(st.i1, st.i2), ?_, ?_⟩
    · simp only [Finset.mem_filter, Finset.mem_product, Finset.mem_range]
      exact ⟨⟨h1, h2⟩, ha.canonical⟩
    · obtain ⟨i1, i2, a1, a2⟩ := st
      simp only at h1 h2 e1 e2
      simp [mkSt, List.getD_eq_getElem?_getD, h1, h2, e1, e2]
  · intro st hst hn
    obtain ⟨p, hp, rfl⟩ := Finset.mem_image.1 hst
    simp only [Finset.mem_filter, Finset.mem_product, Finset.mem_range] at hp
    exact hz p.1 hp.1.1 p.2 hp.1.2 hp.2 (fun h => hn (List.mem_toFinset.2 h))

theorem getD_mem {xs : List Orb} {i : Nat} {d : Orb} (h : i < xs.length) : xs.getD i d ∈ xs := by
  simp [List.getD_eq_getElem?_getD, h]

theorem getElem?_getD {xs : List Orb} {i : Nat} {d : Orb} (h : i < xs.length) : xs[i]? = some (xs.getD i d) := by
  simp [List.getD_eq_getElem?_getD, h]

theorem second_eq_first {sp : Species2} (h : sp ≠ .pn) : sp.second = sp.first := by
  cases sp <;> first | rfl | exact absurd rfl h

end Verif.Xform
