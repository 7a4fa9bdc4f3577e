import Verif.Xform.Model
import Verif.H2.Lemmas
import Mathlib.Algebra.BigOperators.Ring.Finset

/-!
# Transformation of relative operators (C42)

Model of `PopulateRelativeXformMatrix` and `TransformRelativeOperatorLSJT`
(`libraries/relative/relative_xform.cpp` 25-269).

Simplifications: a space is the list of its subspaces, each with labels (of any type) and size;
a set of sectors is the list of its index pairs; the overlap integrals for `b_ratio ≠ 1`, computed
by quadrature, are a parameter; their NaN check is not represented.
-/

namespace Verif.Relative
open Verif Verif.Mapping Verif.Xform
open Verif.H2 hiding Mat

/-- A space: labels and sizes of its subspaces. -/
abbrev RSpace (α : Type) := List (α × ℕ)

/-- `LookUpSubspaceIndex`. -/
def lookUpSubspace {α : Type} [DecidableEq α] (sp : RSpace α) (a : α) : Option ℕ :=
  sp.findIdx? (fun p => p.1 = a)

/-- `LookUpSectorIndex`; a missing subspace (`kNone`) is in no sector. -/
def lookUpSector (secs : List (ℕ × ℕ)) (b k : Option ℕ) : Option ℕ :=
  match b, k with
  | some b, some k => secs.findIdx? (fun p => p = (b, k))
  | _, _ => none

/-- `PopulateRelativeXformMatrix` (`relative_xform.cpp` 25-90). `overlap` stands for the quadrature. -/
noncomputable def populateXform {α : Type} (overlap : α → ℝ → ℕ → ℕ → ℝ) (sourceDim targetDim : ℕ) (lab : α)
    (bRatio : ℝ) : Except Err Mat :=
  if bRatio = 1 then .ok ⟨sourceDim, targetDim, fun i j => if i = j then 1 else 0⟩
  else if 0 < bRatio then .ok ⟨sourceDim, targetDim, fun i j => overlap lab bRatio i j⟩
  else .error .assertFail

/-- Entry of `xform_matrix_map` for one target subspace (`relative_xform.cpp` 172-193). -/
noncomputable def xformEntry {α : Type} [DecidableEq α] (overlap : α → ℝ → ℕ → ℕ → ℝ) (src : RSpace α)
    (sub : α × ℕ) (bRatio : ℝ) : Except Err (Option ℕ × Mat) :=
  match lookUpSubspace src sub.1 with
  | none => .ok (none, ⟨0, 0, fun _ _ => 0⟩)
  | some k =>
    match src[k]? with
    | none => .error .undefinedBehaviour
    | some s => do
      let m ← populateXform overlap s.2 sub.2 sub.1 bRatio
      pure (some k, m)

/-- Body of the loop over target sectors (`relative_xform.cpp` 214-252). -/
noncomputable def transformSector {α : Type} [DecidableEq α] (overlap : α → ℝ → ℕ → ℕ → ℝ)
    (src tgt : RSpace α) (srcSecs : List (ℕ × ℕ)) (blocks : ℕ → Mat) (sec : ℕ × ℕ) (bRatio : ℝ) : Except Err Mat :=
  match tgt[sec.1]?, tgt[sec.2]? with
  | some tb, some tk => do
    let eb ← xformEntry overlap src tb bRatio
    let ek ← xformEntry overlap src tk bRatio
    match lookUpSector srcSecs eb.1 ek.1 with
    | none => pure ⟨tb.2, tk.2, fun _ _ => 0⟩
    | some idx =>
      match srcSecs[idx]? with
      | none => throw .undefinedBehaviour
      | some ss => do
        let b := if ss.1 = ss.2 then completeLowerTriangle (blocks idx) else blocks idx
        let t ← Mat.mul (Mat.transpose eb.2) b
        Mat.mul t ek.2
  | _, _ => throw .undefinedBehaviour

/-- Parameters of a relative operator. -/
structure RParams where
  J0 : Int
  g0 : Int
  T0min : Int
  T0max : Int
  Jmax : Int

/-- `TransformRelativeOperatorLSJT` (`relative_xform.cpp` 92-269) for one isospin component, with the
compatibility checks (141-145). -/
noncomputable def transformComponent {α : Type} [DecidableEq α] (overlap : α → ℝ → ℕ → ℕ → ℝ)
    (ps pt : RParams) (src tgt : RSpace α) (srcSecs tgtSecs : List (ℕ × ℕ)) (blocks : ℕ → Mat) (bRatio : ℝ) :
    Except Err (List Mat) := do
  assertE (decide (pt.J0 = ps.J0))
  assertE (decide (pt.g0 = ps.g0))
  assertE (decide (pt.T0max ≤ ps.T0max))
  assertE (decide (pt.T0min ≥ ps.T0min))
  assertE (decide (pt.Jmax ≤ ps.Jmax))
  tgtSecs.mapM fun sec => transformSector overlap src tgt srcSecs blocks sec bRatio

/-! ## Specification -/

/-- `M` holds the source operator between subspaces labelled `a` and `b`: the value at `(i,j)` for
`i`, `j` inside the source, zero outside; a diagonal sector is given by its upper triangle. -/
def RepresentsSource {α : Type} (src : RSpace α) (srcSecs : List (ℕ × ℕ)) (blocks : ℕ → Mat) (a b : α)
    (value : ℕ → ℕ → ℝ) : Prop :=
  ∃ idx ib ik nb nk, srcSecs[idx]? = some (ib, ik) ∧ src[ib]? = some (a, nb) ∧ src[ik]? = some (b, nk) ∧
    (blocks idx).rows = nb ∧ (blocks idx).cols = nk ∧
    (∀ i j, i < nb → j < nk → (ib = ik → i ≤ j) → value i j = (blocks idx).val i j) ∧
    (ib = ik → ∀ i j, value i j = value j i) ∧
    (∀ i j, nb ≤ i ∨ nk ≤ j → value i j = 0)

/-! ## Lemmas -/

theorem findIdx?_unique {α : Type} {l : List α} {p : α → Bool} {k : ℕ} {a : α} (h : l[k]? = some a)
    (ha : p a = true) (hu : ∀ k' a', l[k']? = some a' → p a' = true → k' = k) : l.findIdx? p = some k := by
  rw [List.findIdx?_eq_some_iff_getElem]
  obtain ⟨hk, rfl⟩ := List.getElem?_eq_some_iff.mp h
  refine ⟨hk, ha, ?_⟩
  intro j hj
  by_contra hc
  have := hu j l[j] (List.getElem?_eq_getElem (by omega)) (by simpa using hc)
  omega

theorem lookUp_of_nodup {α : Type} [DecidableEq α] {sp : RSpace α} (hn : (sp.map Prod.fst).Nodup) {k n : ℕ} {a : α}
    (h : sp[k]? = some (a, n)) : lookUpSubspace sp a = some k := by
  refine findIdx?_unique h (by simp) ?_
  intro k' a' h' ha'
  have e : a'.1 = a := by simpa using ha'
  have h1 : (sp.map Prod.fst)[k']? = some a := by rw [List.getElem?_map, h']; simp [e]
  have h2 : (sp.map Prod.fst)[k]? = some a := by rw [List.getElem?_map, h]; rfl
  obtain ⟨l1, e1⟩ := List.getElem?_eq_some_iff.mp h1
  obtain ⟨l2, e2⟩ := List.getElem?_eq_some_iff.mp h2
  exact (List.Nodup.getElem_inj_iff hn).mp (e1.trans e2.symm)

theorem sector_of_nodup {secs : List (ℕ × ℕ)} (hn : secs.Nodup) {idx b k : ℕ} (h : secs[idx]? = some (b, k)) :
    lookUpSector secs (some b) (some k) = some idx := by
  refine findIdx?_unique h (by simp) ?_
  intro k' a' h' ha'
  have e : a' = (b, k) := by simpa using ha'
  subst e
  obtain ⟨l1, e1⟩ := List.getElem?_eq_some_iff.mp h'
  obtain ⟨l2, e2⟩ := List.getElem?_eq_some_iff.mp h
  exact (List.Nodup.getElem_inj_iff hn).mp (e1.trans e2.symm)

theorem sum_identity_right (f : ℕ → ℝ) (n j : ℕ) :
    (∑ k ∈ Finset.range n, f k * (if k = j then 1 else 0)) = if j < n then f j else 0 := by
  simp only [mul_ite, mul_one, mul_zero]
  rw [Finset.sum_ite_eq']
  simp

theorem sum_identity_left (f : ℕ → ℝ) (n i : ℕ) :
    (∑ k ∈ Finset.range n, (if k = i then 1 else 0) * f k) = if i < n then f i else 0 := by
  simp only [ite_mul, one_mul, zero_mul]
  rw [Finset.sum_ite_eq']
  simp

/-! ## Property C42 -/

/-- **C42**: with `b_ratio = 1`, for every pair of truncations, every target sector holds the source
operator on the common states and zero on states the source does not have. -/
theorem unit_ratio_is_truncation {α : Type} [DecidableEq α] (overlap : α → ℝ → ℕ → ℕ → ℝ) (src tgt : RSpace α)
    (srcSecs : List (ℕ × ℕ)) (blocks : ℕ → Mat) (hsrc : (src.map Prod.fst).Nodup) (hsec : srcSecs.Nodup)
    (tb tk : ℕ) (a b : α) (na nb : ℕ) (htb : tgt[tb]? = some (a, na)) (htk : tgt[tk]? = some (b, nb))
    (value : ℕ → ℕ → ℝ) (hrep : RepresentsSource src srcSecs blocks a b value) :
    ∃ M, transformSector overlap src tgt srcSecs blocks (tb, tk) 1 = .ok M ∧ M.rows = na ∧ M.cols = nb ∧
      ∀ i j, i < na → j < nb → M.val i j = value i j := by
  obtain ⟨idx, ib, ik, db, dk, h1, h2, h3, h4, h5, h6, h7, h8⟩ := hrep
  have hlb := lookUp_of_nodup hsrc h2
  have hlk := lookUp_of_nodup hsrc h3
  have hls := sector_of_nodup hsec h1
  simp only [transformSector, htb, htk, xformEntry, hlb, hlk, h2, h3, populateXform, if_true, Except.ok_bind',
    Except.pure_ok, hls, h1]
  set B := if ib = ik then completeLowerTriangle (blocks idx) else blocks idx with hB
  have hBr : B.rows = db := by rw [hB]; split <;> simp [completeLowerTriangle, h4]
  have hBc : B.cols = dk := by rw [hB]; split <;> simp [completeLowerTriangle, h5]
  have hBv : ∀ i j, i < db → j < dk → B.val i j = value i j := by
    intro i j hi hj
    rw [hB]
    by_cases hd : ib = ik
    · rw [if_pos hd]
      simp only [completeLowerTriangle]
      have hdim : db = dk := by
        subst hd
        rw [h2] at h3
        simp only [Option.some.injEq, Prod.mk.injEq] at h3
        exact h3.2
      by_cases hji : j < i
      · rw [if_pos hji, h7 hd i j, h6 j i (by omega) (by omega) (by omega)]
      · rw [if_neg hji, h6 i j hi hj (by omega)]
    · rw [if_neg hd, h6 i j hi hj (by omega)]
  have hr : (Mat.transpose ⟨db, na, fun i j => if i = j then (1 : ℝ) else 0⟩).cols = B.rows := by
    rw [hBr]; rfl
  simp only [Mat.mul, hr, if_true, Except.ok_bind', hBc]
  refine ⟨_, rfl, rfl, rfl, ?_⟩
  intro i j hi hj
  simp only [Mat.transpose, hBr]
  rw [sum_identity_right]
  by_cases hjk : j < dk
  · rw [if_pos hjk, sum_identity_left]
    by_cases hib : i < db
    · rw [if_pos hib, hBv i j hib hjk]
    · rw [if_neg hib, h8 i j (by omega)]
  · rw [if_neg hjk, h8 i j (by omega)]

/-- **C42**: a target sector whose subspaces, or whose sector, the source lacks stays zero, for every
positive ratio. -/
theorem missing_source_is_zero {α : Type} [DecidableEq α] (overlap : α → ℝ → ℕ → ℕ → ℝ) (src tgt : RSpace α)
    (srcSecs : List (ℕ × ℕ)) (blocks : ℕ → Mat) (tb tk : ℕ) (a b : α) (na nb : ℕ)
    (htb : tgt[tb]? = some (a, na)) (htk : tgt[tk]? = some (b, nb)) (r : ℝ) (hr : 0 < r)
    (hmiss : ∀ ib ik x y, src[ib]? = some (a, x) → src[ik]? = some (b, y) → (ib, ik) ∉ srcSecs) :
    ∃ M, transformSector overlap src tgt srcSecs blocks (tb, tk) r = .ok M ∧ M.rows = na ∧ M.cols = nb ∧
      ∀ i j, M.val i j = 0 := by
  have hpop : ∀ d e lab, ∃ m, populateXform overlap d e lab r = .ok m := by
    intro d e lab
    unfold populateXform
    by_cases h1 : r = 1
    · exact ⟨_, by rw [if_pos h1]⟩
    · exact ⟨_, by rw [if_neg h1, if_pos hr]⟩
  have hentry : ∀ (x : α) (n : ℕ), ∃ o m, xformEntry overlap src (x, n) r = .ok (o, m) ∧
      ∀ k, o = some k → ∃ d, src[k]? = some (x, d) := by
    intro x n
    unfold xformEntry
    cases hl : lookUpSubspace src x with
    | none => exact ⟨none, _, rfl, by simp⟩
    | some k =>
      obtain ⟨hk, hp, _⟩ := List.findIdx?_eq_some_iff_getElem.mp hl
      have hk' : src[k]? = some src[k] := List.getElem?_eq_getElem hk
      simp only [hk']
      obtain ⟨m, hm⟩ := hpop src[k].2 n x
      refine ⟨some k, m, by rw [hm]; rfl, ?_⟩
      intro k' e
      cases e
      refine ⟨src[k].2, ?_⟩
      rw [hk']
      have : src[k].1 = x := by simpa using hp
      rw [← this]
  obtain ⟨ob, mb, eb, pb⟩ := hentry a na
  obtain ⟨ok', mk, ek, pk⟩ := hentry b nb
  simp only [transformSector, htb, htk, eb, ek, Except.ok_bind']
  have hno : lookUpSector srcSecs ob ok' = none := by
    unfold lookUpSector
    cases ob with
    | none => rfl
    | some ib =>
      cases ok' with
      | none => rfl
      | some ik =>
        obtain ⟨x, hx⟩ := pb ib rfl
        obtain ⟨y, hy⟩ := pk ik rfl
        have := hmiss ib ik x y hx hy
        simp only [List.findIdx?_eq_none_iff, decide_eq_false_iff_not]
        intro p hp e
        exact this (e ▸ hp)
  simp only [hno]
  exact ⟨_, rfl, rfl, rfl, fun _ _ => rfl⟩

/-- For every ratio, a diagonal target sector of a transformed operator is symmetric (the source
block is symmetrised before it is transformed). -/
theorem transform_diagonal_symmetric {α : Type} [DecidableEq α] (overlap : α → ℝ → ℕ → ℕ → ℝ) (src tgt : RSpace α)
    (srcSecs : List (ℕ × ℕ)) (blocks : ℕ → Mat) (t : ℕ) (r : ℝ) (M : Mat)
    (h : transformSector overlap src tgt srcSecs blocks (t, t) r = .ok M) (i j : ℕ) : M.val i j = M.val j i := by
  unfold transformSector at h
  simp only at h
  cases ht : tgt[t]? with
  | none => rw [ht] at h; cases h
  | some s =>
  rw [ht] at h
  simp only at h
  cases he : xformEntry overlap src s r with
  | error e => rw [he] at h; cases h
  | ok en =>
  rw [he] at h
  simp only [Except.ok_bind'] at h
  cases hl : lookUpSector srcSecs en.1 en.1 with
  | none =>
    rw [hl] at h
    simp only [Except.pure_ok, Except.ok.injEq] at h
    subst h
    rfl
  | some idx =>
    rw [hl] at h
    simp only at h
    unfold lookUpSector at hl
    cases ho : en.1 with
    | none => rw [ho] at hl; cases hl
    | some k =>
    rw [ho] at hl
    simp only at hl
    obtain ⟨hk, hp, _⟩ := List.findIdx?_eq_some_iff_getElem.mp hl
    have hkk : srcSecs[idx] = (k, k) := by simpa using hp
    rw [List.getElem?_eq_getElem hk] at h
    simp only [hkk, if_true] at h
    unfold Mat.mul at h
    split at h
    · simp only [Except.ok_bind'] at h
      split at h
      · rename_i h1 h2
        simp only [Except.ok.injEq] at h
        subst h
        simp only [Mat.transpose, completeLowerTriangle] at h1 h2 ⊢
        rw [h2]
        -- the block is square: both sides run over the same states
        have hs : ∀ p q, (if q < p then (blocks idx).val q p else (blocks idx).val p q)
            = (if p < q then (blocks idx).val p q else (blocks idx).val q p) := by
          intro p q
          rcases lt_trichotomy p q with hlt | rfl | hgt
          · rw [if_neg (by omega), if_pos hlt]
          · rfl
          · rw [if_pos hgt, if_neg (by omega)]
        simp only [Finset.sum_mul]
        rw [Finset.sum_comm]
        refine Finset.sum_congr rfl fun x _ => Finset.sum_congr rfl fun y _ => ?_
        rw [hs x y]
        ring
      · cases h
    · cases h

/-! ## Example -/

/-- Source truncated at size 2, target at size 3; two subspaces; an off-diagonal sector. -/
example : ∃ M, transformSector (fun _ _ _ _ => 0) [("S", 2), ("D", 1)] [("S", 3), ("D", 2)] [(0, 0), (0, 1)]
    (fun k => if k = 0 then ⟨2, 2, fun i j => 10 + i + 3 * j⟩ else ⟨2, 1, fun i _ => i⟩) (0, 0) 1 = .ok M ∧
    M.val 0 1 = 13 ∧ M.val 1 0 = 13 ∧ M.val 2 1 = 0 := by
  obtain ⟨M, h1, _, _, h4⟩ := unit_ratio_is_truncation (fun _ _ _ _ => 0) [("S", 2), ("D", 1)] [("S", 3), ("D", 2)]
    [(0, 0), (0, 1)] (fun k => if k = 0 then ⟨2, 2, fun i j => 10 + i + 3 * j⟩ else ⟨2, 1, fun i _ => i⟩)
    (by decide) (by decide) 0 0 "S" "S" 3 3 rfl rfl
    (fun i j => if i < 2 ∧ j < 2 then (if j < i then 10 + j + 3 * i else 10 + i + 3 * j) else 0)
    ⟨0, 0, 0, 2, 2, rfl, rfl, rfl, rfl, rfl, by
      intro i j hi hj h
      have := h rfl
      beta_reduce
      rw [if_pos ⟨hi, hj⟩, if_neg (by omega)]
      rfl, by
      intro _ i j
      beta_reduce
      by_cases h : i < 2 ∧ j < 2
      · rw [if_pos h, if_pos h.symm]
        rcases lt_trichotomy i j with hlt | rfl | hgt
        · rw [if_neg (by omega), if_pos hlt]
        · rfl
        · rw [if_pos hgt, if_neg (by omega)]
      · rw [if_neg h, if_neg (fun h' => h h'.symm)], by
      intro i j h
      beta_reduce
      rw [if_neg (by omega)]⟩
  refine ⟨M, h1, ?_, ?_, ?_⟩
  · rw [h4 0 1 (by omega) (by omega)]; norm_num
  · rw [h4 1 0 (by omega) (by omega)]; norm_num
  · rw [h4 2 1 (by omega) (by omega)]; norm_num

end Verif.Relative
