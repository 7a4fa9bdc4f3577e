import Verif.Xform.Props
import Mathlib.Tactic.Positivity
import Mathlib.Tactic.IntervalCases
import Mathlib.Tactic.Linarith

/-! # Properties C22, C23, C25, C26: transformed matrices -/

namespace Verif.Xform
open Verif Verif.Mapping

/-- Subspaces of one `J`, species and their transformation matrix. -/
theorem transformationMatrix_ok {ov : Overlap} {x y : Sub} (hsp : x.species = y.species) (hJ : x.J = y.J) :
    ∃ U, transformationMatrix ov x y = .ok U ∧ U.rows = x.states.length ∧ U.cols = y.states.length ∧
      (∀ (i j : Nat) (a b : St), x.states[i]? = some a → y.states[j]? = some b →
        U.val i j = xformElement ov y.species y.J a b) ∧
      (∀ (i j : Nat), x.states[i]? = none ∨ y.states[j]? = none → U.val i j = 0) := by
  refine ⟨_, by rw [transformationMatrix, if_neg (by simp [hsp]), if_neg (by simp [hJ])], rfl, rfl, ?_, ?_⟩
  · intro i j a b ha hb
    simp [ha, hb]
  · rintro i j (h | h)
    · simp [h]
    · cases hx : x.states[i]? <;> simp [h]

theorem mul_ok {a b : Mat} (h : a.cols = b.rows) :
    ∃ P, Mat.mul a b = .ok P ∧ P.rows = a.rows ∧ P.cols = b.cols ∧
      ∀ i j, P.val i j = ∑ k ∈ Finset.range a.cols, a.val i k * b.val k j :=
  ⟨⟨a.rows, b.cols, fun i j => ∑ k ∈ Finset.range a.cols, a.val i k * b.val k j⟩,
    by rw [Mat.mul, if_pos h], rfl, rfl, fun _ _ => rfl⟩

/-- A sector between subspaces of the given orbitals. -/
structure SectorWF (o : Orbitals) (gb gk : Nat) (s : Sector) : Prop where
  bra : SubWF o gb s.bra
  ket : SubWF o gk s.ket
  diag : s.braIndex = s.ketIndex → s.bra = s.ket

/-- Source and target sector carry the same labels. -/
structure SameLabels (s t : Sector) : Prop where
  braSpecies : s.bra.species = t.bra.species
  ketSpecies : s.ket.species = t.ket.species
  braJ : s.bra.J = t.bra.J
  ketJ : s.ket.J = t.ket.J
  diag : s.braIndex = s.ketIndex → s.bra = s.ket ∧ t.bra = t.ket

/-- The transformed matrix, element by element: the sum over source bra and ket states. -/
theorem transformed_elements (ov : Overlap) {s t : Sector} (h : SameLabels s t) {m : Mat}
    (hr : m.rows = s.bra.states.length) (hc : m.cols = s.ket.states.length) :
    ∃ T, transformedMatrix ov s t m = .ok T ∧ T.rows = t.bra.states.length ∧ T.cols = t.ket.states.length ∧
      ∀ (i j : Nat) (b k : St), t.bra.states[i]? = some b → t.ket.states[j]? = some k →
        T.val i j = ∑ q ∈ Finset.range s.ket.states.length, ∑ p ∈ Finset.range s.bra.states.length,
          (match s.bra.states[p]?, s.ket.states[q]? with
           | some b', some k' => xformElement ov t.bra.species t.bra.J b' b * m.val p q *
              xformElement ov t.ket.species t.ket.J k' k
           | _, _ => 0) := by
  obtain ⟨uk, hk, k1, k2, k3, k4⟩ := transformationMatrix_ok (ov := ov) h.ketSpecies h.ketJ
  obtain ⟨ub, hb, b1, b2, b3, b4⟩ := transformationMatrix_ok (ov := ov) h.braSpecies h.braJ
  have hmul : transformedMatrix ov s t m = (Mat.mul (Mat.transpose ub) m).bind fun t => Mat.mul t uk := by
    unfold transformedMatrix
    rw [hk]
    by_cases hd : s.braIndex = s.ketIndex
    · obtain ⟨e1, e2⟩ := h.diag hd
      rw [e1, e2, hk] at hb
      cases hb
      simp only [hd, if_true]
      rfl
    · simp only [hd, if_false, hb]
      rfl
  rw [hmul]
  have e1 : (Mat.transpose ub).cols = m.rows := by rw [hr, ← b1]; rfl
  obtain ⟨P, p1, p2, p3, p4⟩ := mul_ok e1
  have e2 : P.cols = uk.rows := by rw [p3, hc, k1]
  obtain ⟨T, t1, t2, t3, t4⟩ := mul_ok e2
  refine ⟨T, by rw [p1]; exact t1, by rw [t2, p2]; exact b2, by rw [t3, k2], ?_⟩
  intro i j b k hbi hkj
  rw [t4, e2, k1]
  refine Finset.sum_congr rfl fun q hq => ?_
  rw [p4, e1, hr, Finset.sum_mul]
  refine Finset.sum_congr rfl fun p hp => ?_
  have hq' := List.getElem?_eq_getElem (Finset.mem_range.1 hq)
  have hp' := List.getElem?_eq_getElem (Finset.mem_range.1 hp)
  rw [hq', hp']
  simp only
  show ub.val p i * m.val p q * uk.val q j = _
  rw [b3 p i _ _ hp' hbi, k3 q j _ _ hq' hkj]

/-- **C22.** Transforming with identity overlaps within one basis returns the matrix. -/
theorem identity_transformation {o : Orbitals} {gb gk : Nat} {s : Sector} (h : SectorWF o gb gk s)
    (ho : OrbNodup o) (hs : HalfOdd o) {ov : Overlap} (hid : IsIdentity o ov) {m : Mat}
    (hr : m.rows = s.bra.states.length) (hc : m.cols = s.ket.states.length) :
    ∃ T, transformedMatrix ov s s m = .ok T ∧ T.rows = m.rows ∧ T.cols = m.cols ∧
      ∀ i < m.rows, ∀ j < m.cols, T.val i j = m.val i j := by
  obtain ⟨T, h1, h2, h3, h4⟩ := transformed_elements ov (s := s) (t := s)
    ⟨rfl, rfl, rfl, rfl, fun hd => ⟨h.diag hd, h.diag hd⟩⟩ hr hc
  refine ⟨T, h1, by rw [h2, hr], by rw [h3, hc], ?_⟩
  intro i hi j hj
  rw [hr] at hi
  rw [hc] at hj
  rw [h4 i j _ _ (List.getElem?_eq_getElem hi) (List.getElem?_eq_getElem hj)]
  rw [Finset.sum_eq_single j, Finset.sum_eq_single i]
  · rw [List.getElem?_eq_getElem hi, List.getElem?_eq_getElem hj]
    simp only
    rw [xform_identity h.bra h.bra rfl ho hs hid (List.getElem_mem hi) (List.getElem_mem hi),
      xform_identity h.ket h.ket rfl ho hs hid (List.getElem_mem hj) (List.getElem_mem hj)]
    simp
  · intro p hp hne
    have hp := Finset.mem_range.1 hp
    rw [List.getElem?_eq_getElem hp, List.getElem?_eq_getElem hj]
    simp only
    rw [xform_identity h.bra h.bra rfl ho hs hid (List.getElem_mem hp) (List.getElem_mem hi), if_neg]
    · ring
    · intro hc
      exact hne ((h.bra.nodup.getElem_inj_iff).1 hc)
  · intro hn
    exact absurd (Finset.mem_range.2 hi) hn
  · intro q hq hne
    have hq := Finset.mem_range.1 hq
    apply Finset.sum_eq_zero
    intro p hp
    have hp := Finset.mem_range.1 hp
    rw [List.getElem?_eq_getElem hp, List.getElem?_eq_getElem hq]
    simp only
    rw [xform_identity h.ket h.ket rfl ho hs hid (List.getElem_mem hq) (List.getElem_mem hj), if_neg]
    · ring
    · intro hc
      exact hne ((h.ket.nodup.getElem_inj_iff).1 hc)
  · intro hn
    exact absurd (Finset.mem_range.2 hj) hn

/-- **C23.** The transformation is linear in the source matrix. -/
theorem transformation_linear (ov : Overlap) {s t : Sector} (h : SameLabels s t) (c1 c2 : ℝ) {m1 m2 : Mat}
    (hr1 : m1.rows = s.bra.states.length) (hc1 : m1.cols = s.ket.states.length)
    (hr2 : m2.rows = s.bra.states.length) (hc2 : m2.cols = s.ket.states.length) :
    ∃ T1 T2 T, transformedMatrix ov s t m1 = .ok T1 ∧ transformedMatrix ov s t m2 = .ok T2 ∧
      transformedMatrix ov s t ⟨m1.rows, m1.cols, fun i j => c1 * m1.val i j + c2 * m2.val i j⟩ = .ok T ∧
      ∀ i < t.bra.states.length, ∀ j < t.ket.states.length, T.val i j = c1 * T1.val i j + c2 * T2.val i j := by
  obtain ⟨T1, a1, -, -, a4⟩ := transformed_elements ov h hr1 hc1
  obtain ⟨T2, b1, -, -, b4⟩ := transformed_elements ov h hr2 hc2
  obtain ⟨T, d1, -, -, d4⟩ := transformed_elements ov h
    (m := ⟨m1.rows, m1.cols, fun i j => c1 * m1.val i j + c2 * m2.val i j⟩) hr1 hc1
  refine ⟨T1, T2, T, a1, b1, d1, ?_⟩
  intro i hi j hj
  have hi' := List.getElem?_eq_getElem hi
  have hj' := List.getElem?_eq_getElem hj
  rw [d4 i j _ _ hi' hj', a4 i j _ _ hi' hj', b4 i j _ _ hi' hj', Finset.mul_sum, Finset.mul_sum,
    ← Finset.sum_add_distrib]
  refine Finset.sum_congr rfl fun q hq => ?_
  rw [Finset.mul_sum, Finset.mul_sum, ← Finset.sum_add_distrib]
  refine Finset.sum_congr rfl fun p hp => ?_
  rw [List.getElem?_eq_getElem (Finset.mem_range.1 hq), List.getElem?_eq_getElem (Finset.mem_range.1 hp)]
  simp only
  ring

/-- **C23.** The transform of a symmetric matrix of a diagonal sector is symmetric. -/
theorem transformation_symmetric (ov : Overlap) {s t : Sector} (h : SameLabels s t) (hd : s.braIndex = s.ketIndex)
    {m : Mat} (hr : m.rows = s.bra.states.length) (hc : m.cols = s.ket.states.length)
    (hm : ∀ i < m.rows, ∀ j < m.rows, m.val i j = m.val j i) :
    ∃ T, transformedMatrix ov s t m = .ok T ∧
      ∀ i < t.bra.states.length, ∀ j < t.bra.states.length, T.val i j = T.val j i := by
  obtain ⟨T, a1, -, -, a4⟩ := transformed_elements ov h hr hc
  refine ⟨T, a1, ?_⟩
  obtain ⟨e1, e2⟩ := h.diag hd
  intro i hi j hj
  have hi' := List.getElem?_eq_getElem hi
  have hj' := List.getElem?_eq_getElem hj
  have hik : t.ket.states[i]? = some t.bra.states[i] := by rw [← e2]; exact hi'
  have hjk : t.ket.states[j]? = some t.bra.states[j] := by rw [← e2]; exact hj'
  rw [a4 i j _ _ hi' hjk, a4 j i _ _ hj' hik, Finset.sum_comm, e1,
    show t.bra.species = t.ket.species by rw [e2], show t.bra.J = t.ket.J by rw [e2]]
  rw [e1] at hr
  refine Finset.sum_congr rfl fun q hq => Finset.sum_congr rfl fun p hp => ?_
  have hq := Finset.mem_range.1 hq
  have hp := Finset.mem_range.1 hp
  rw [List.getElem?_eq_getElem hq, List.getElem?_eq_getElem hp]
  simp only
  rw [hm q (by omega) p (by omega)]
  ring

/-- **C25.** The matrix of a product is the product of the matrices. -/
theorem xform_matrix_composition {o1 o2 o3 : Orbitals} {g : Nat} {x y z : Sub} (hx : SubWF o1 g x)
    (hy : FullSub o2 g y) (hz : SubWF o3 g z) (hxy : x.species = y.species) (hzy : z.species = y.species)
    (hJx : x.J = y.J) (hJz : z.J = y.J) (h1 : HalfOdd o1) (h2 : HalfOdd o2) {ov12 ov23 ov13 : Overlap}
    (hp : IsProduct o1 o2 o3 ov12 ov23 ov13) :
    ∃ U12 U23 U13 P, transformationMatrix ov12 x y = .ok U12 ∧ transformationMatrix ov23 y z = .ok U23 ∧
      transformationMatrix ov13 x z = .ok U13 ∧ Mat.mul U12 U23 = .ok P ∧
      P.rows = U13.rows ∧ P.cols = U13.cols ∧
      ∀ i < U13.rows, ∀ j < U13.cols, P.val i j = U13.val i j := by
  obtain ⟨U12, a1, a2, a3, a4, -⟩ := transformationMatrix_ok (ov := ov12) hxy hJx
  obtain ⟨U23, b1, b2, b3, b4, -⟩ := transformationMatrix_ok (ov := ov23) hzy.symm hJz.symm
  obtain ⟨U13, c1, c2, c3, c4, -⟩ := transformationMatrix_ok (ov := ov13) (hxy.trans hzy.symm) (hJx.trans hJz.symm)
  obtain ⟨P, p1, p2, p3, p4⟩ := mul_ok (a3.trans b2.symm)
  refine ⟨U12, U23, U13, P, a1, b1, c1, p1, p2.trans (a2.trans c2.symm), p3.trans (b3.trans c3.symm), ?_⟩
  intro i hi j hj
  rw [c2] at hi
  rw [c3] at hj
  have hi' := List.getElem?_eq_getElem hi
  have hj' := List.getElem?_eq_getElem hj
  rw [c4 i j _ _ hi' hj', hzy, hJz,
    xform_composition hx hy hz hxy hzy hJz h1 h2 hp (List.getElem_mem hi) (List.getElem_mem hj)]
  rw [p4, a3]
  apply sum_states _ hy.nodup
  intro k st hk
  rw [a4 i k _ _ hi' hk, b4 k j _ _ hk hj', hzy, hJz]

/-- **C25.** Orthonormal orbital transformations give orthonormal pair transformations: the rows of
the matrix are orthonormal (like and unlike particles). -/
theorem xform_orthogonal {o1 o2 : Orbitals} {g : Nat} {x y : Sub} (hx : SubWF o1 g x) (hy : FullSub o2 g y)
    (hxy : x.species = y.species) (hJx : x.J = y.J) (n1 : OrbNodup o1) (h1 : HalfOdd o1) (h2 : HalfOdd o2)
    {ov : Overlap} (ho : RowsOrthonormal o1 o2 ov) :
    ∃ U P, transformationMatrix ov x y = .ok U ∧ Mat.mul U (Mat.transpose U) = .ok P ∧
      P.rows = x.states.length ∧ P.cols = x.states.length ∧
      ∀ i < x.states.length, ∀ j < x.states.length, P.val i j = if i = j then 1 else 0 := by
  obtain ⟨U, a1, a2, a3, a4, -⟩ := transformationMatrix_ok (ov := ov) hxy hJx
  obtain ⟨P, p1, p2, p3, p4⟩ := mul_ok (a := U) (b := Mat.transpose U) rfl
  refine ⟨U, P, a1, p1, p2.trans a2, p3.trans a2, ?_⟩
  intro i hi j hj
  have hi' := List.getElem?_eq_getElem hi
  have hj' := List.getElem?_eq_getElem hj
  set idn : Overlap := fun _ a b => if a = b then 1 else 0
  have hidl : ∀ s a b, lj idn s a b = if a = b then 1 else 0 := by
    intro s a b
    unfold lj
    by_cases h : a = b
    · subst h; simp [idn]
    · simp [idn, h]
  have hprod : IsProduct o1 o2 o1 ov (flip ov) idn := by
    intro s a ha c hc
    rw [hidl, ← ho s a ha c hc]
    congr 1
    funext b
    rw [lj_flip]
  have hcomp := xform_composition hx hy hx hxy hxy hJx h1 h2 hprod (List.getElem_mem hi) (List.getElem_mem hj)
  rw [← hxy, ← hJx, xform_identity hx hx rfl n1 h1 (fun s a _ b _ _ _ => rfl) (List.getElem_mem hi)
    (List.getElem_mem hj)] at hcomp
  have hij : (x.states[i] = x.states[j]) ↔ i = j := hx.nodup.getElem_inj_iff
  simp only [hij] at hcomp
  rw [hcomp, p4, a3]
  apply sum_states _ hy.nodup
  intro k st hk
  show U.val i k * U.val j k = _
  rw [a4 i k _ _ hi' hk, a4 j k _ _ hj' hk, xform_flip, hxy, hJx]

/-- **C26.** The identity operator: `2/(A(A-1))` on the diagonal, zero elsewhere; the `A(A-1)/2`
pairs add up to 1; a non-diagonal sector is rejected. -/
theorem identity_operator {s : Sector} {A : Nat} (hA : 2 ≤ A) (hA' : A ≤ 46341) :
    (s.braIndex = s.ketIndex → ∃ M, identityOperatorMatrix s A = .ok M ∧
      M.rows = s.ket.states.length ∧ M.cols = s.ket.states.length ∧
      (∀ i j, i ≠ j → M.val i j = 0) ∧ ∀ i, ((A : ℝ) * (A - 1) / 2) * M.val i i = 1) ∧
    (s.braIndex ≠ s.ketIndex → identityOperatorMatrix s A = .error .assertFail) := by
  constructor
  · intro hd
    have hb : -(2 ^ 31) ≤ (A : Int) * ((A : Int) - 1) ∧ (A : Int) * ((A : Int) - 1) < 2 ^ 31 := by
      have h1 : (2 : Int) ≤ A := by exact_mod_cast hA
      have h2 : (A : Int) ≤ 46341 := by exact_mod_cast hA'
      constructor
      · nlinarith
      · nlinarith
    refine ⟨_, by rw [identityOperatorMatrix, if_neg (not_not.2 hd), if_neg (not_not.2 hb)], rfl, rfl, ?_, ?_⟩
    · intro i j hij
      simp [hij]
    · intro i
      have h1 : (2 : ℝ) ≤ A := by exact_mod_cast hA
      have h2 : (A : ℝ) ≠ 0 := by positivity
      have h3 : (A : ℝ) - 1 ≠ 0 := by linarith
      simp only [if_true]
      push_cast
      field_simp
  · intro hd
    rw [identityOperatorMatrix, if_pos hd]

/-- **C26**, limit of the `int` product: from `A = 46342` on it overflows. -/
theorem identity_operator_overflow {s : Sector} (hd : s.braIndex = s.ketIndex) {A : Nat} (hA : 46342 ≤ A) :
    identityOperatorMatrix s A = .error .undefinedBehaviour := by
  rw [identityOperatorMatrix, if_neg (not_not.2 hd), if_pos]
  have h1 : (46342 : Int) ≤ A := by exact_mod_cast hA
  intro h
  have := h.2
  nlinarith

/-! ### Concrete cases -/

namespace Ex

/-- 0s1/2 -/
def s0 : Orb := ⟨0, 0, 1⟩
/-- 1s1/2 -/
def s1 : Orb := ⟨1, 0, 1⟩
/-- Two orbitals of each species. -/
def o : Orbitals := ⟨[s0, s1], [s0, s1]⟩
/-- pp, J=0: (0s)², 0s1s, (1s)². -/
def x : Sub := ⟨.pp, 0, [⟨0, 0, s0, s0⟩, ⟨0, 1, s0, s1⟩, ⟨1, 1, s1, s1⟩]⟩

theorem nodup : OrbNodup o := by intro s; cases s <;> decide
theorem odd : HalfOdd o := by intro s; cases s <;> decide

theorem full : FullSub o 0 x := by
  refine ⟨⟨by decide, ?_⟩, ?_⟩
  · intro st hst
    simp only [x, List.mem_cons, List.not_mem_nil, or_false] at hst
    rcases hst with rfl | rfl | rfl <;>
      exact ⟨by decide, by decide, by decide, by decide, by decide, by decide⟩
  · rintro ⟨i1, i2, a1, a2⟩ h
    have h1 := h.orb1
    have h2 := h.orb2
    have h3 := h.canonical (by decide)
    simp only [x, Species2.first, Species2.second, Orbitals.of, o] at h1 h2 h3
    have l1 := (List.getElem?_eq_some_iff.1 h1).1
    have l2 := (List.getElem?_eq_some_iff.1 h2).1
    simp only [List.length_cons, List.length_nil] at l1 l2
    interval_cases i1 <;> interval_cases i2 <;> simp_all [x]

/-- A rotation by an arbitrary angle given by `c² + s² = 1`. -/
noncomputable def rot (c s : ℝ) : Overlap := fun _ a b =>
  if a = b then c else if a.n < b.n then s else -s

/-- The hypotheses of `xform_orthogonal` are met by a non-trivial rotation. -/
theorem rot_orthonormal : RowsOrthonormal o o (rot (3/5) (4/5)) := by
  intro s a ha a' ha'
  have e : o.of s = [s0, s1] := by cases s <;> rfl
  rw [e] at ha ha'
  simp only [List.mem_cons, List.not_mem_nil, or_false] at ha ha'
  unfold orbSum
  rw [e]
  rcases ha with rfl | rfl <;> rcases ha' with rfl | rfl <;>
    simp [lj, rot, s0, s1] <;> norm_num

example : FullSub o 0 x ∧ OrbNodup o ∧ HalfOdd o ∧ RowsOrthonormal o o (rot (3/5) (4/5)) :=
  ⟨full, nodup, odd, rot_orthonormal⟩

/-- The identity satisfies `IsIdentity`; a sector satisfies `SectorWF`. -/
example : IsIdentity o (rot 1 0) ∧ SectorWF o 0 0 ⟨0, 0, x, x⟩ :=
  ⟨fun _ a _ b _ _ _ => by by_cases h : a = b <;> simp [rot, h], full.toSubWF, full.toSubWF, fun _ => rfl⟩

/-- An overlap between pair states: `<(0s)²|(0s')²> = c²`. -/
example : xformElement (rot (3/5) (4/5)) .pp 0 ⟨0, 0, s0, s0⟩ ⟨0, 0, s0, s0⟩ = 9 / 25 := by
  rw [xformElement_eq, norm_sq, if_pos ⟨by decide, rfl⟩, twoBodyOverlap_like _ (by decide)]
  simp [lj, rot, eps, s0, powNegOne]
  norm_num

end Ex

end Verif.Xform
