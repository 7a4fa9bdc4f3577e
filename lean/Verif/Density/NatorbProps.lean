import Verif.Density.Natorb
import Verif.Density.ObscalcProps
import Mathlib.Analysis.Matrix.Spectrum

/-!
# Properties of `natorb-gen`
-/

namespace Verif.Density
open Verif Verif.Mapping Verif.Obme
open Verif.H2 (Except.ok_bind' Except.error_bind' Except.pure_ok Except.bind_eq_ok assertE_ok)
open Verif.Mixer.Control (CLine Numbers word int num atEnd)

/-! ## Laws of the libraries -/

/-- The symmetric matrix that `SelfAdjointEigenSolver` sees: the lower triangle decides. -/
noncomputable def lower (m : Mat) (a b : ℕ) : ℝ := m.val (max a b) (min a b)

/-- `SelfAdjointEigenSolver`: orthonormal eigenvectors, ascending eigenvalues. -/
structure EigLaw {Orb : Type} (e : Ext Orb) : Prop where
  orthonormal : ∀ m : Mat, ∀ i < m.rows, ∀ j < m.rows,
    ∑ a ∈ Finset.range m.rows, e.vectors m a i * e.vectors m a j = if i = j then 1 else 0
  eigen : ∀ m : Mat, ∀ a < m.rows, ∀ i < m.rows,
    ∑ b ∈ Finset.range m.rows, lower m a b * e.vectors m b i = e.values m i * e.vectors m a i
  ascending : ∀ m : Mat, ∀ i j, i ≤ j → j < m.rows → e.values m i ≤ e.values m j

/-- `std::sort` permutes. -/
structure SortLaw {Orb : Type} (e : Ext Orb) : Prop where
  orb : ∀ os, (e.sortOrb os).Perm os
  occ : ∀ os, (e.sortOcc os).Perm os

/-- The orbitals of a space in another order make a space with the same orbitals. -/
def SpaceLaw {Orb : Type} (lib : Lib Orb) : Prop :=
  ∀ (space : Space) (os : List Orb), GoodSpace space → Built lib.toLib space → os.Perm (lib.info space) →
    GoodSpace (lib.mkSpace os) ∧ Built lib.toLib (lib.mkSpace os) ∧ ∀ x, InSpace (lib.mkSpace os) x ↔ InSpace space x

/-! ## Specification -/

/-- Natural orbitals of `ρ`: an orthonormal set that mixes only orbitals with the same labels, in which `ρ` is diagonal
with occupations that do not increase. -/
structure NaturalOrbitals (space out : Space) (ρ : Full → Full → ℝ) (U : ℕ → ℕ → ℕ → ℕ → ℝ) (occ : ℕ → ℕ → ℝ) :
    Prop where
  block : ∀ p ∈ states space, ∀ q ∈ states out, U p.1 p.2 q.1 q.2 ≠ 0 →
    (orbital space p).labels = (orbital out q).labels
  orthonormal : ∀ q ∈ states out, ∀ q' ∈ states out,
    ∑ p ∈ states space, U p.1 p.2 q.1 q.2 * U p.1 p.2 q'.1 q'.2 = if q = q' then 1 else 0
  complete : ∀ p ∈ states space, ∀ p' ∈ states space,
    ∑ q ∈ states out, U p.1 p.2 q.1 q.2 * U p'.1 p'.2 q.1 q.2 = if p = p' then 1 else 0
  diagonal : ∀ q ∈ states out, ∀ q' ∈ states out,
    ∑ p ∈ states space, ∑ p' ∈ states space,
      U p.1 p.2 q.1 q.2 * ρ (orbital space p) (orbital space p') * U p'.1 p'.2 q'.1 q'.2 =
      if q = q' then occ q.1 q.2 else 0
  descending : ∀ k c c', c ≤ c' → c' < dim out k → occ k c' ≤ occ k c

/-! ## Two orders of the same orbitals -/

theorem inSpace_sub {s : Space} (hs : GoodSpace s) {i : ℕ} {b : Obme.Sub} (hi : s[i]? = some b) (n : ℕ) :
    InSpace s ⟨b.labels.sp, n, b.labels.l, b.labels.tj⟩ ↔ n ∈ b.ns := by
  constructor
  · rintro ⟨j, a, b', hj, hl, ha⟩
    have hij := sub_unique hs hi hj (by rw [hl]; rfl)
    subst hij
    rw [hi] at hj
    cases hj
    exact List.mem_of_getElem? ha
  · intro h
    obtain ⟨a, ha⟩ := List.mem_iff_getElem?.mp h
    exact ⟨i, a, b, hi, rfl, ha⟩

theorem partner {s t : Space} (hs : GoodSpace s) (ht : GoodSpace t) (hne : ∀ b ∈ s, b.ns ≠ [])
    (h : ∀ x, InSpace t x ↔ InSpace s x) {i : ℕ} {b : Obme.Sub} (hi : s[i]? = some b) :
    ∃ (k : ℕ) (b' : Obme.Sub), t[k]? = some b' ∧ b'.labels = b.labels ∧ b'.ns.Perm b.ns := by
  obtain ⟨n, hn⟩ := List.exists_mem_of_ne_nil _ (hne b (mem_of_getElem? hi))
  obtain ⟨k, a, b', hk, hl, _⟩ := (h _).mpr ((inSpace_sub hs hi n).mpr hn)
  have hl' : b'.labels = b.labels := hl
  refine ⟨k, b', hk, hl', ?_⟩
  rw [List.perm_ext_iff_of_nodup (ht.ns _ (mem_of_getElem? hk)) (hs.ns _ (mem_of_getElem? hi))]
  intro m
  rw [← inSpace_sub ht hk, ← inSpace_sub hs hi, ← h, hl']

/-- The subspace of `t` with the labels of a subspace of `s`. -/
theorem exists_partner {s t : Space} (hs : GoodSpace s) (ht : GoodSpace t) (hne : ∀ b ∈ s, b.ns ≠ [])
    (hne' : ∀ b ∈ t, b.ns ≠ []) (h : ∀ x, InSpace t x ↔ InSpace s x) : ∃ π : ℕ → ℕ,
      (∀ i b, s[i]? = some b → ∃ b', t[π i]? = some b' ∧ b'.labels = b.labels ∧ b'.ns.length = b.ns.length) ∧
      (∀ k b', t[k]? = some b' → ∃ i < s.length, π i = k) ∧
      (∀ i j, i < s.length → j < s.length → π i = π j → i = j) := by
  have hp : ∀ i : ℕ, ∃ k : ℕ, ∀ b : Obme.Sub, s[i]? = some b → ∃ b' : Obme.Sub, t[k]? = some b' ∧ b'.labels = b.labels ∧ b'.ns.length = b.ns.length := by
    intro i
    rcases hi : s[i]? with _ | b
    · exact ⟨0, by simp⟩
    · obtain ⟨k, b', h1, h2, h3⟩ := partner hs ht hne h hi
      refine ⟨k, fun b0 hb0 => ?_⟩
      cases hb0
      exact ⟨b', h1, h2, h3.length_eq⟩
  choose π hπ using hp
  refine ⟨π, hπ, ?_, ?_⟩
  · intro k b' hk
    obtain ⟨i, b, h1, h2, _⟩ := partner ht hs hne' (fun x => (h x).symm) hk
    obtain ⟨b'', h3, h4, _⟩ := hπ i b h1
    exact ⟨i, (List.getElem?_eq_some_iff.mp h1).1, sub_unique ht h3 hk (h4.trans h2)⟩
  · intro i j hi hj hij
    obtain ⟨b1, h1, h2, _⟩ := hπ i _ (List.getElem?_eq_getElem hi)
    obtain ⟨b2, h3, h4, _⟩ := hπ j _ (List.getElem?_eq_getElem hj)
    rw [hij, h3] at h1
    cases h1
    exact sub_unique hs (List.getElem?_eq_getElem hi) (List.getElem?_eq_getElem hj) (h2.symm.trans h4)

theorem filter_eq_singleton {α : Type} {l : List α} {p : α → Bool} {a : α} (hn : l.Nodup) (ha : a ∈ l)
    (h : ∀ x ∈ l, p x = true ↔ x = a) : l.filter p = [a] := by
  induction l with
  | nil => simp at ha
  | cons x l ih =>
    rw [List.nodup_cons] at hn
    by_cases hx : x = a
    · subst hx
      rw [List.filter_cons_of_pos ((h x (by simp)).mpr rfl)]
      congr 1
      rw [List.filter_eq_nil_iff]
      intro y hy hpy
      exact hn.1 (((h y (by simp [hy])).mp hpy) ▸ hy)
    · rw [List.filter_cons_of_neg (by rw [h x (by simp)]; exact hx)]
      refine ih hn.2 ?_ fun y hy => h y (by simp [hy])
      rcases List.mem_cons.mp ha with h' | h'
      · exact absurd h'.symm hx
      · exact h'

/-- Scalar sectors connect each subspace with its partner, in the order of the bra subspaces. -/
theorem scalar_pairs {s t : Space} (hs : GoodSpace s) (ht : GoodSpace t) {π : ℕ → ℕ}
    (hπ : ∀ i b, s[i]? = some b → ∃ b', t[π i]? = some b' ∧ b'.labels = b.labels ∧ b'.ns.length = b.ns.length) :
    (allSectors ⟨0, 0, 0⟩ s t).pairs = (List.range s.length).map fun i => (i, π i) := by
  have hin : ∀ i < s.length, ((List.range t.length).map fun k => (i, k)).filter (fun p : ℕ × ℕ =>
      match s[p.1]?, t[p.2]? with
      | some b, some k => decide (Allowed ⟨0, 0, 0⟩ b.labels k.labels)
      | _, _ => false) = [(i, π i)] := by
    intro i hi
    have hsi : s[i]? = some s[i] := List.getElem?_eq_getElem hi
    obtain ⟨b', h1, h2, _⟩ := hπ i _ hsi
    refine filter_eq_singleton (List.nodup_range.map fun a b h => by simpa using h) ?_ ?_
    · exact List.mem_map.mpr ⟨π i, List.mem_range.mpr (List.getElem?_eq_some_iff.mp h1).1, rfl⟩
    · intro x hx
      obtain ⟨k, hk, rfl⟩ := List.mem_map.mp hx
      have hk' := List.mem_range.mp hk
      have htk : t[k]? = some t[k] := List.getElem?_eq_getElem hk'
      simp only [hsi, htk, decide_eq_true_eq, Prod.mk.injEq, true_and]
      rw [scalar_allowed hs ht (mem_of_getElem? hsi) (mem_of_getElem? htk) (q := ⟨0, 0, 0⟩) rfl]
      constructor
      · intro hl
        exact sub_unique ht htk h1 (by rw [h2, hl])
      · rintro rfl
        rw [htk] at h1
        cases h1
        exact h2.symm
  simp only [allSectors]
  show List.filter _ ((List.range s.length).flatMap fun i => (List.range t.length).map fun k => (i, k)) = _
  rw [List.filter_flatMap, List.map_eq_flatMap]
  refine List.flatMap_congr fun i hi => ?_
  exact hin i (List.mem_range.mp hi)

/-! ## One sector -/

section block
variable {Orb : Type} {e : Ext Orb} (law : EigLaw e) (m : Mat)

/-- The reversed eigenvectors. -/
def rev (e : Ext Orb) (m : Mat) (a i : ℕ) : ℝ := e.vectors m a (m.rows - 1 - i)

/-- The reversed eigenvalues. -/
def revValue (e : Ext Orb) (m : Mat) (i : ℕ) : ℝ := e.values m (m.rows - 1 - i)

include law

theorem rev_orthonormal {i j : ℕ} (hi : i < m.rows) (hj : j < m.rows) :
    ∑ a ∈ Finset.range m.rows, rev e m a i * rev e m a j = if i = j then 1 else 0 := by
  have := law.orthonormal m (m.rows - 1 - i) (by omega) (m.rows - 1 - j) (by omega)
  simp only [rev, this]
  exact if_congr (by omega) rfl rfl

theorem rev_complete {a b : ℕ} (ha : a < m.rows) (hb : b < m.rows) :
    ∑ i ∈ Finset.range m.rows, rev e m a i * rev e m b i = if a = b then 1 else 0 := by
  let R : Matrix (Fin m.rows) (Fin m.rows) ℝ := Matrix.of fun a i => rev e m a i
  have h1 : R.transpose * R = 1 := by
    ext i j
    rw [Matrix.mul_apply, Matrix.one_apply]
    have := rev_orthonormal law m i.2 j.2
    rw [Finset.sum_range] at this
    simp only [Matrix.transpose_apply, R, Matrix.of_apply]
    rw [this]
    exact if_congr (by rw [Fin.ext_iff]) rfl rfl
  have h2 : R * R.transpose = 1 := mul_eq_one_comm.mp h1
  have h3 := congrFun (congrFun h2 ⟨a, ha⟩) ⟨b, hb⟩
  rw [Matrix.mul_apply, Matrix.one_apply] at h3
  rw [Finset.sum_range]
  simp only [Matrix.transpose_apply, R, Matrix.of_apply] at h3
  rw [h3]
  exact if_congr (by rw [Fin.ext_iff]) rfl rfl

theorem rev_diagonal (hs : ∀ a < m.rows, ∀ b < m.rows, m.val a b = m.val b a) {i j : ℕ} (hi : i < m.rows)
    (hj : j < m.rows) : ∑ a ∈ Finset.range m.rows, ∑ b ∈ Finset.range m.rows,
      rev e m a i * m.val a b * rev e m b j = if i = j then revValue e m i else 0 := by
  have hl : ∀ a < m.rows, ∀ b < m.rows, lower m a b = m.val a b := by
    intro a ha b hb
    rcases le_total a b with h | h
    · rw [lower, max_eq_right h, min_eq_left h, hs b hb a ha]
    · rw [lower, max_eq_left h, min_eq_right h]
  have h1 : ∀ a ∈ Finset.range m.rows, ∑ b ∈ Finset.range m.rows, rev e m a i * m.val a b * rev e m b j =
      revValue e m j * (rev e m a i * rev e m a j) := by
    intro a ha
    have ha' := Finset.mem_range.mp ha
    have := law.eigen m a ha' (m.rows - 1 - j) (by omega)
    rw [Finset.sum_congr rfl fun b hb => by rw [hl a ha' b (Finset.mem_range.mp hb)]] at this
    simp only [mul_assoc, ← Finset.mul_sum]
    rw [show ∑ b ∈ Finset.range m.rows, m.val a b * rev e m b j = revValue e m j * rev e m a j from this]
    ring
  rw [Finset.sum_congr rfl h1, ← Finset.mul_sum, rev_orthonormal law m hi hj]
  by_cases h : i = j
  · subst h; simp
  · simp [h]

theorem rev_descending {i j : ℕ} (hij : i ≤ j) (hj : j < m.rows) : revValue e m j ≤ revValue e m i :=
  law.ascending m _ _ (by omega) (by omega)

end block

/-! ## The transformation -/

theorem idxOf?_map_range {n i k : ℕ} {π : ℕ → ℕ} :
    ((List.range n).map fun i => (i, π i)).idxOf? (i, k) = if i < n ∧ k = π i then some i else none := by
  split
  · rename_i h
    obtain ⟨h1, rfl⟩ := h
    have hm : (i, π i) ∈ (List.range n).map fun i => (i, π i) := List.mem_map.mpr ⟨i, List.mem_range.mpr h1, rfl⟩
    obtain ⟨x, hx⟩ := idxOf?_mem hm
    have := idxOf?_getElem? hx
    rw [List.getElem?_map, List.getElem?_range] at this
    · rw [hx]; simp at this; simp [this]
    · by_contra hn
      rw [List.getElem?_eq_none (by simpa using hn)] at this
      cases this
  · rename_i h
    rw [idxOf?_none]
    intro hm
    obtain ⟨j, hj, he⟩ := List.mem_map.mp hm
    simp only [Prod.mk.injEq] at he
    obtain ⟨rfl, rfl⟩ := he
    exact h ⟨List.mem_range.mp hj, rfl⟩

/-- The blocks of the transformation make natural orbitals. -/
theorem blocks_natural {Orb : Type} {e : Ext Orb} (law : EigLaw e) {space out : Space} (hs : GoodSpace space)
    (ho : GoodSpace out) (hne : ∀ b ∈ space, b.ns ≠ []) (hne' : ∀ b ∈ out, b.ns ≠ [])
    (hx : ∀ x, InSpace out x ↔ InSpace space x) {dmats : List Mat}
    (hfit : Fits (allSectors ⟨0, 0, 0⟩ space space) dmats space space) {ρ : Full → Full → ℝ}
    (hsym : ∀ x y, ρ x y = ρ y x)
    (hρ : ∀ i a x k c y, HasState space i a x → HasState space k c y →
      elem (allSectors ⟨0, 0, 0⟩ space space) dmats i a k c = ρ x y) {mats : List Mat}
    (hm : mats = dmats.map fun m => ⟨m.rows, m.rows, rev e m⟩) :
    Fits (allSectors ⟨0, 0, 0⟩ space out) mats space out ∧
    ∃ occ : ℕ → ℕ → ℝ, NaturalOrbitals space out ρ (elem (allSectors ⟨0, 0, 0⟩ space out) mats) occ ∧
      ∀ (i k : ℕ) (b b' : Obme.Sub) (m : Mat), space[i]? = some b → out[k]? = some b' → b'.labels = b.labels → dmats[i]? = some m →
        ∀ c < m.rows, occ k c = revValue e m c := by
  obtain ⟨π, hπ, hsurj, hinj⟩ := exists_partner hs ho hne hne' hx
  have hpo := scalar_pairs hs ho hπ
  have hps : (allSectors ⟨0, 0, 0⟩ space space).pairs = (List.range space.length).map fun i => (i, i) :=
    scalar_pairs hs hs (π := id) fun i b hb => ⟨b, hb, rfl, rfl⟩
  have hlen : dmats.length = space.length := by rw [hfit.length, hps]; simp
  -- the density of a subspace
  have hget : ∀ (i : ℕ) (h : i < space.length), dmats[i]? = some (dmats[i]'(by omega)) := fun i h =>
    List.getElem?_eq_getElem _
  have hdim : ∀ (i : ℕ) (m : Mat), dmats[i]? = some m → m.rows = dim space i ∧ m.cols = dim space i := by
    intro i m hi
    have h := (List.getElem?_eq_some_iff.mp hi).1
    exact hfit.size i i i m (by rw [hps, List.getElem?_map, List.getElem?_range (by omega)]; rfl) hi
  have hdimo : ∀ i < space.length, dim out (π i) = dim space i := by
    intro i hi
    obtain ⟨b', h1, _, h3⟩ := hπ i _ (List.getElem?_eq_getElem hi)
    rw [dim_some h1, h3, dim_some (List.getElem?_eq_getElem hi)]
  have hmats : ∀ i : ℕ, mats[i]? = (dmats[i]?).map fun m => (⟨m.rows, m.rows, rev e m⟩ : Mat) := by
    intro i; rw [hm, List.getElem?_map]
  have hfo : Fits (allSectors ⟨0, 0, 0⟩ space out) mats space out := by
    refine ⟨by rw [hm, hpo]; simp [hlen], ?_⟩
    intro x i k m hx hmx
    rw [hpo, List.getElem?_map] at hx
    have hxl : x < space.length := by
      by_contra hn
      rw [List.getElem?_eq_none (by simpa using hn)] at hx
      cases hx
    rw [List.getElem?_range hxl] at hx
    simp only [Option.map_some, Option.some.injEq, Prod.mk.injEq] at hx
    obtain ⟨rfl, rfl⟩ := hx
    rw [hmats, hget x hxl] at hmx
    cases hmx
    have := hdim x _ (hget x hxl)
    exact ⟨this.1, by rw [hdimo x hxl]; exact this.1⟩
  -- the elements of the transformation
  have hU : ∀ i a k c : ℕ, elem (allSectors ⟨0, 0, 0⟩ space out) mats i a k c =
      match dmats[i]? with
      | some m => if k = π i ∧ a < m.rows ∧ c < m.rows then rev e m a c else 0
      | none => 0 := by
    intro i a k c
    simp only [elem, hpo, idxOf?_map_range]
    by_cases hi : i < space.length
    · rw [hget i hi]
      by_cases hk : k = π i
      · rw [if_pos ⟨hi, hk⟩]
        simp only [hmats, hget i hi, Option.map_some, hk, true_and]
      · rw [if_neg (fun h => hk h.2)]
        simp [hk]
    · rw [if_neg (fun h => hi h.1), List.getElem?_eq_none (by omega)]
  -- the elements of the density
  have hD : ∀ (i : ℕ) (m : Mat), dmats[i]? = some m → ∀ a < m.rows, ∀ c < m.rows,
      m.val a c = ρ (orbital space ⟨i, a⟩) (orbital space ⟨i, c⟩) := by
    intro i m hi a ha c hc
    have hil : i < space.length := by rw [← hlen]; exact (List.getElem?_eq_some_iff.mp hi).1
    have hd := hdim i m hi
    have hpa : (⟨i, a⟩ : (_ : ℕ) × ℕ) ∈ states space := mem_states.mpr ⟨hil, by simp only; omega⟩
    have hpc : (⟨i, c⟩ : (_ : ℕ) × ℕ) ∈ states space := mem_states.mpr ⟨hil, by simp only; omega⟩
    rw [← hρ i a _ i c _ (orbital_hasState hpa) (orbital_hasState hpc)]
    have hidx := idxOf?_map_range (n := space.length) (i := i) (k := i) (π := id)
    simp only [id, hil, and_self, if_true] at hidx
    simp only [elem, hps, hidx, hi]
    rw [if_pos ⟨ha, by rw [hd.2, ← hd.1]; exact hc⟩]
  have hUin : ∀ (i : ℕ) (m : Mat), dmats[i]? = some m → ∀ a < m.rows, ∀ c < m.rows,
      elem (allSectors ⟨0, 0, 0⟩ space out) mats i a (π i) c = rev e m a c := by
    intro i m hi a ha c hc
    rw [hU, hi]
    simp [ha, hc]
  have hUout : ∀ i a k c, k ≠ π i → elem (allSectors ⟨0, 0, 0⟩ space out) mats i a k c = 0 := by
    intro i a k c hk
    rw [hU]
    cases dmats[i]? <;> simp [hk]
  have hD0 : ∀ i a k c, i ≠ k → ⟨i, a⟩ ∈ states space → ⟨k, c⟩ ∈ states space →
      ρ (orbital space ⟨i, a⟩) (orbital space ⟨k, c⟩) = 0 := by
    intro i a k c hik hp hq
    rw [← hρ i a _ k c _ (orbital_hasState hp) (orbital_hasState hq)]
    refine elem_absent ?_ _ _
    rw [hps]
    intro hmem
    obtain ⟨j, _, hj⟩ := List.mem_map.mp hmem
    simp only [Prod.mk.injEq] at hj
    exact hik (hj.1.symm.trans hj.2)
  have hσ : ∀ k, ∃ i, k < out.length → i < space.length ∧ π i = k := by
    intro k
    by_cases hk : k < out.length
    · obtain ⟨i, h1, h2⟩ := hsurj k _ (List.getElem?_eq_getElem hk)
      exact ⟨i, fun _ => ⟨h1, h2⟩⟩
    · exact ⟨0, fun h => absurd h hk⟩
  choose σ hσ using hσ
  have hπl : ∀ i < space.length, π i < out.length := by
    intro i hi
    obtain ⟨b', h1, _⟩ := hπ i _ (List.getElem?_eq_getElem hi)
    exact (List.getElem?_eq_some_iff.mp h1).1
  have hσπ : ∀ i < space.length, σ (π i) = i := fun i hi => by
    obtain ⟨h1, h2⟩ := hσ (π i) (hπl i hi)
    exact hinj _ _ h1 hi h2
  refine ⟨hfo, fun k c => (dmats[σ k]?).elim 0 fun m => revValue e m c, ⟨?_, ?_, ?_, ?_, ?_⟩, ?_⟩
  · rintro ⟨i, a⟩ hp ⟨k, c⟩ hq hn
    have hk : k = π i := by
      by_contra hk
      exact hn (hUout i a k c hk)
    subst hk
    have hi := (mem_states.mp hp).1
    obtain ⟨b', h1, h2, _⟩ := hπ i _ (List.getElem?_eq_getElem hi)
    obtain ⟨b1, e1, e2, _⟩ := orbital_hasState hp
    obtain ⟨b2, e3, e4, _⟩ := orbital_hasState hq
    simp only at e1 e3
    rw [List.getElem?_eq_getElem hi] at e1
    rw [h1] at e3
    cases e1
    cases e3
    rw [← e2, ← e4, h2]
  · rintro ⟨k, c⟩ hq ⟨k', c'⟩ hq'
    obtain ⟨hk, hc⟩ := mem_states.mp hq
    obtain ⟨hk', hc'⟩ := mem_states.mp hq'
    simp only at hk hc hk' hc' ⊢
    obtain ⟨hi, hik⟩ := hσ k hk
    obtain ⟨m, hm'⟩ : ∃ m, dmats[σ k]? = some m := ⟨_, hget _ hi⟩
    have hd := hdim _ m hm'
    have hdo := hdimo _ hi
    rw [hik] at hdo
    rw [states, Finset.sum_sigma, Finset.sum_eq_single (σ k)]
    · simp only
      by_cases hkk : k = k'
      · subst hkk
        rw [← hd.1, Finset.sum_congr rfl fun a ha => ?_, rev_orthonormal law m (i := c) (j := c') (by omega) (by omega)]
        · exact if_congr (by simp) rfl rfl
        · have ha' := Finset.mem_range.mp ha
          have h1 := hUin _ m hm' a ha' c (by omega)
          have h2 := hUin _ m hm' a ha' c' (by omega)
          rw [hik] at h1 h2
          rw [h1, h2]
      · rw [if_neg (by rintro h; cases h; exact hkk rfl)]
        refine Finset.sum_eq_zero fun a _ => ?_
        rw [hUout (σ k) a k' c' (by rw [hik]; exact fun h => hkk h.symm), mul_zero]
    · intro i hi' hne
      refine Finset.sum_eq_zero fun a _ => ?_
      simp only
      rw [hUout i a k c, zero_mul]
      rintro rfl
      exact hne (hσπ i (Finset.mem_range.mp hi')).symm
    · intro h
      exact absurd (Finset.mem_range.mpr hi) h
  · rintro ⟨i, a⟩ hp ⟨i', a'⟩ hp'
    obtain ⟨hi, ha⟩ := mem_states.mp hp
    obtain ⟨hi', ha'⟩ := mem_states.mp hp'
    simp only at hi ha hi' ha' ⊢
    obtain ⟨m, hm'⟩ : ∃ m, dmats[i]? = some m := ⟨_, hget _ hi⟩
    have hd := hdim _ m hm'
    rw [states, Finset.sum_sigma, Finset.sum_eq_single (π i)]
    · simp only
      by_cases hii : i = i'
      · subst hii
        rw [hdimo i hi, ← hd.1, Finset.sum_congr rfl fun c hc => ?_,
          rev_complete law m (a := a) (b := a') (by omega) (by omega)]
        · exact if_congr (by simp) rfl rfl
        · have hc' := Finset.mem_range.mp hc
          rw [hUin _ m hm' a (by omega) c hc', hUin _ m hm' a' (by omega) c hc']
      · rw [if_neg (by rintro h; cases h; exact hii rfl)]
        refine Finset.sum_eq_zero fun c _ => ?_
        rw [hUout i' a' (π i) c (fun h => hii (hinj _ _ hi hi' h)), mul_zero]
    · intro k _ hne
      refine Finset.sum_eq_zero fun c _ => ?_
      simp only
      rw [hUout i a k c hne, zero_mul]
    · intro h
      exact absurd (Finset.mem_range.mpr (hπl i hi)) h
  · rintro ⟨k, c⟩ hq ⟨k', c'⟩ hq'
    obtain ⟨hk, hc⟩ := mem_states.mp hq
    obtain ⟨hk', hc'⟩ := mem_states.mp hq'
    simp only at hk hc hk' hc' ⊢
    obtain ⟨hi, hik⟩ := hσ k hk
    obtain ⟨hi', hik'⟩ := hσ k' hk'
    obtain ⟨m, hm'⟩ : ∃ m, dmats[σ k]? = some m := ⟨_, hget _ hi⟩
    have hd := hdim _ m hm'
    have hdo := hdimo _ hi
    rw [hik] at hdo
    -- only the two blocks count
    have hred : ∀ i a, ∑ p' ∈ states space, elem (allSectors ⟨0, 0, 0⟩ space out) mats i a k c *
        ρ (orbital space ⟨i, a⟩) (orbital space p') * elem (allSectors ⟨0, 0, 0⟩ space out) mats p'.1 p'.2 k' c' =
        ∑ b ∈ Finset.range (dim space (σ k')), elem (allSectors ⟨0, 0, 0⟩ space out) mats i a k c *
        ρ (orbital space ⟨i, a⟩) (orbital space ⟨σ k', b⟩) *
          elem (allSectors ⟨0, 0, 0⟩ space out) mats (σ k') b k' c' := by
      intro i a
      rw [states, Finset.sum_sigma, Finset.sum_eq_single (σ k')]
      · intro j hj hne
        refine Finset.sum_eq_zero fun b _ => ?_
        simp only
        rw [hUout j b k' c', mul_zero]
        rintro rfl
        exact hne (hσπ j (Finset.mem_range.mp hj)).symm
      · intro h
        exact absurd (Finset.mem_range.mpr hi') h
    rw [Finset.sum_congr rfl fun p _ => hred p.1 p.2, states, Finset.sum_sigma, Finset.sum_eq_single (σ k)]
    · simp only
      by_cases hkk : k = k'
      · subst hkk
        have hsm : ∀ a < m.rows, ∀ b < m.rows, m.val a b = m.val b a := by
          intro a ha b hb
          rw [hD _ m hm' a ha b hb, hD _ m hm' b hb a ha, hsym]
        rw [← hd.1, Finset.sum_congr rfl fun a ha => Finset.sum_congr rfl fun b hb => ?_,
          rev_diagonal law m hsm (i := c) (j := c') (by omega) (by omega)]
        · rw [hm']
          exact if_congr (by simp) rfl rfl
        · have ha' := Finset.mem_range.mp ha
          have hb' := Finset.mem_range.mp hb
          have h1 := hUin _ m hm' a ha' c (by omega)
          have h2 := hUin _ m hm' b hb' c' (by omega)
          rw [hik] at h1 h2
          rw [h1, h2, ← hD _ m hm' a ha' b hb']
      · rw [if_neg (by rintro h; cases h; exact hkk rfl)]
        refine Finset.sum_eq_zero fun a ha => Finset.sum_eq_zero fun b hb => ?_
        rw [hD0 (σ k) a (σ k') b (fun h => hkk (by rw [← hik, ← hik', h]))
          (mem_states.mpr ⟨hi, Finset.mem_range.mp ha⟩) (mem_states.mpr ⟨hi', Finset.mem_range.mp hb⟩)]
        ring
    · intro i hi' hne
      refine Finset.sum_eq_zero fun a _ => Finset.sum_eq_zero fun b _ => ?_
      simp only
      rw [hUout i a k c, zero_mul, zero_mul]
      rintro rfl
      exact hne (hσπ i (Finset.mem_range.mp hi')).symm
    · intro h
      exact absurd (Finset.mem_range.mpr hi) h
  · intro k c c' hcc hc'
    have hk : k < out.length := by
      by_contra hk
      rw [dim, List.getElem?_eq_none (by omega)] at hc'
      simp at hc'
    obtain ⟨hi, hik⟩ := hσ k hk
    have hdo := hdimo _ hi
    rw [hik] at hdo
    have hd := hdim _ _ (hget _ hi)
    rw [hget _ hi]
    exact rev_descending law _ hcc (by omega)
  · intro i k b b' m hb hb' hl hmi c hc
    have hi := (List.getElem?_eq_some_iff.mp hb).1
    obtain ⟨b'', h1, h2, _⟩ := hπ i b hb
    have : k = π i := sub_unique ho hb' h1 (hl.trans h2.symm)
    subst this
    simp only
    rw [hσπ i hi, hmi]
    rfl

theorem mapM_all {α β : Type} {f : α → Except Err β} {g : α → β} {xs : List α}
    (h : ∀ x ∈ xs, f x = .ok (g x)) : xs.mapM f = .ok (xs.map g) := by
  induction xs with
  | nil => rfl
  | cons x xs ih =>
    rw [List.mapM_cons, h x (by simp), ih fun y hy => h y (by simp [hy])]
    rfl

theorem diagonalize_ok {Orb : Type} (e : Ext Orb) {m : Mat} (h : m.rows = m.cols) :
    diagonalize e m = .ok ((List.range m.rows).map (revValue e m), ⟨m.rows, m.rows, rev e m⟩) := by
  have : assertE (decide (m.rows = m.cols)) = .ok () := by simp [assertE, h]
  simp only [diagonalize, this, Except.ok_bind', Except.pure_ok]
  rfl

theorem occupations_range (b : Obme.Sub) (n : ℕ) (v : ℕ → ℝ) : occupations b ((List.range n).map v) =
    (List.range n).map fun c => (⟨b.labels.sp, c, b.labels.l, b.labels.tj⟩, v c) := by
  refine List.ext_getElem? fun c => ?_
  simp only [occupations, List.getElem?_map, List.getElem?_zipIdx, Option.map_map]
  by_cases hc : c < n
  · rw [List.getElem?_range hc]; simp
  · rw [List.getElem?_eq_none (by simpa using hc)]; rfl

/-- The lines of the info file as they come out: labels of the subspace, number within it, occupation. -/
noncomputable def occList (out : Space) (occ : ℕ → ℕ → ℝ) : List (Full × ℝ) :=
  out.zipIdx.flatMap fun bk => (List.range bk.1.ns.length).map fun c =>
    (⟨bk.1.labels.sp, c, bk.1.labels.l, bk.1.labels.tj⟩, occ bk.2 c)

theorem zipIdx_flatMap {α β : Type} (l : List α) (f : α × ℕ → List β) (d : α) :
    l.zipIdx.flatMap f = (List.range l.length).flatMap fun i => f (l.getD i d, i) := by
  have : l.zipIdx = (List.range l.length).map fun i => (l.getD i d, i) := by
    refine List.ext_getElem? fun i => ?_
    rw [List.getElem?_zipIdx, List.getElem?_map]
    by_cases hi : i < l.length
    · rw [List.getElem?_range hi]
      simp [hi]
    · rw [List.getElem?_eq_none (by omega), List.getElem?_eq_none (by simpa using hi)]
      rfl
  rw [this, List.flatMap_map]

/-- What comes out of a sector. -/
noncomputable def natPart {Orb : Type} (e : Ext Orb) (space : Space) (dmats : List Mat) (occ : ℕ → ℕ → ℝ) (π : ℕ → ℕ)
    (i : ℕ) : List (Full × ℝ) × Mat :=
  ((List.range (dim space i)).map fun c =>
    (⟨(space.getD i ⟨⟨0, 0, .p⟩, []⟩).labels.sp, c, (space.getD i ⟨⟨0, 0, .p⟩, []⟩).labels.l,
      (space.getD i ⟨⟨0, 0, .p⟩, []⟩).labels.tj⟩, occ (π i) c),
    ⟨(dmats.getD i ⟨0, 0, fun _ _ => 0⟩).rows, (dmats.getD i ⟨0, 0, fun _ _ => 0⟩).rows,
      rev e (dmats.getD i ⟨0, 0, fun _ _ => 0⟩)⟩)

/-- C103: for a scalar density that is symmetric, the program ends; its file reads back as a transformation from the
orbitals of the run to the same orbitals in the order of the orbital file, which up to rounding takes them to the
natural orbitals; the info file lists the occupations. -/
theorem natural_orbitals {Orb : Type} {lib : Lib Orb} (laws : LibLaws lib.toLib) (slaw : SpaceLaw lib) {e : Ext Orb}
    (law : EigLaw e) (sort : SortLaw e) {rnd : ℝ → ℝ} (h0 : rnd 0 = 0) {space : Space} (hg : GoodSpace space)
    (hb : Built lib.toLib space) {bra ket : State} {Zb Nb Zk Nk tMb tMk lo hi : Int} {d : Density} {es : List Entry}
    (hd : Means space bra ket Zb Nb Zk Nk tMb tMk lo hi d es) (hp : g0 bra ket = 0) (ht : tz0 Zb Nb Zk Nk = 0)
    (hJ : lo ≤ 0 ∧ 0 ≤ hi) (hsym : ∀ x y, finalValue es 0 x y = finalValue es 0 y x) :
    ∃ o out mats U occ, natorb lib e rnd space space d = .ok o ∧ out = lib.mkSpace o.orbitals ∧
      o.orbitals.Perm (lib.info space) ∧ (∀ x, InSpace out x ↔ InSpace space x) ∧
      NaturalOrbitals space out (finalValue es 0) U occ ∧
      readFile lib.toLib o.xform = .ok (⟨some 'R', space, out, allSectors ⟨0, 0, 0⟩ space out⟩, mats) ∧
      (∀ i a k c, elem (allSectors ⟨0, 0, 0⟩ space out) mats i a k c = rnd (chop (U i a k c))) ∧
      o.info.Perm (occList out occ) := by
  obtain ⟨dmats, hget, hfit, hv⟩ := hd.elements.inside 0 hJ.1 hJ.2
  rw [hp, ht] at hget hfit hv
  obtain ⟨ho, hbo, hx⟩ := slaw space (e.sortOrb (lib.info space)) hg hb (sort.orb _)
  obtain ⟨hfo, occ, hnat, hocc⟩ := blocks_natural law hg ho hb.nonempty hbo.nonempty hx hfit hsym hv rfl
  obtain ⟨π, hπ, hsurj, hinj⟩ := exists_partner hg ho hb.nonempty hbo.nonempty hx
  have hps : (allSectors ⟨0, 0, 0⟩ space space).pairs = (List.range space.length).map fun i => (i, i) :=
    scalar_pairs hg hg (π := id) fun i b hb => ⟨b, hb, rfl, rfl⟩
  have hlen : dmats.length = space.length := by rw [hfit.length, hps]; simp
  have hdim : ∀ (i : ℕ) (m : Mat), dmats[i]? = some m → m.rows = dim space i ∧ m.cols = dim space i := by
    intro i m hi
    have h := (List.getElem?_eq_some_iff.mp hi).1
    exact hfit.size i i i m (by rw [hps, List.getElem?_map, List.getElem?_range (by omega)]; rfl) hi
  -- all sectors are diagonalised
  have hzip : (allSectors ⟨0, 0, 0⟩ space space).pairs.zip dmats = (List.range space.length).map fun i =>
      ((i, i), dmats.getD i ⟨0, 0, fun _ _ => 0⟩) := by
    refine List.ext_getElem (by simp [hps, hlen]) fun i h1 h2 => ?_
    · simp only [List.length_zip, List.length_map, List.length_range] at h1 h2
      have hi : i < dmats.length := by omega
      simp [hps, hi]
  have hsec : ((allSectors ⟨0, 0, 0⟩ space space).pairs.zip dmats).mapM (natSector e space) =
      .ok ((List.range space.length).map (natPart e space dmats occ π)) := by
    rw [hzip, mapM_all (g := fun p => ((List.range (dim space p.1.1)).map fun c =>
        ((⟨(space.getD p.1.1 ⟨⟨0, 0, .p⟩, []⟩).labels.sp, c, (space.getD p.1.1 ⟨⟨0, 0, .p⟩, []⟩).labels.l,
          (space.getD p.1.1 ⟨⟨0, 0, .p⟩, []⟩).labels.tj⟩ : Full), occ (π p.1.1) c),
        (⟨p.2.rows, p.2.rows, rev e p.2⟩ : Mat))), List.map_map]
    · rfl
    · intro p hp
      obtain ⟨i, hi, rfl⟩ := List.mem_map.mp hp
      have hi' := List.mem_range.mp hi
      have hsi : space[i]? = some space[i] := List.getElem?_eq_getElem hi'
      have hmi : dmats[i]? = some (dmats[i]'(by omega)) := List.getElem?_eq_getElem _
      have hd' := hdim _ _ hmi
      have hmd : dmats.getD i ⟨0, 0, fun _ _ => 0⟩ = dmats[i]'(by omega) := by simp [List.getD, hmi]
      have hsd : space.getD i ⟨⟨0, 0, .p⟩, []⟩ = space[i] := by simp [List.getD, hsi]
      obtain ⟨b', e1, e2, _⟩ := hπ i _ hsi
      simp only [natSector, getE_ok hsi, Except.ok_bind', hmd, hsd, diagonalize_ok e (hd'.1.trans hd'.2.symm),
        Except.pure_ok, occupations_range, hd'.1]
      congr 2
      refine List.map_congr_left fun c hc => ?_
      rw [hocc i (π i) _ b' _ hsi e1 e2 hmi c (by rw [hd'.1]; exact List.mem_range.mp hc)]
  obtain ⟨file, mats, hw, hr, _, hel⟩ := file_round_trip laws h0 true 'R' ⟨0, 0, 0⟩ hb hbo hfo []
  have hsnd : ((List.range space.length).map (natPart e space dmats occ π)).map Prod.snd =
      dmats.map fun m => ⟨m.rows, m.rows, rev e m⟩ := by
    refine List.ext_getElem (by simp [hlen]) fun i h1 h2 => ?_
    simp only [List.length_map, List.length_range] at h1 h2
    simp [h2, natPart]
  refine ⟨⟨e.sortOrb (lib.info space),
    (e.sortOcc (((List.range space.length).map (natPart e space dmats occ π)).flatMap Prod.fst)).reverse, file⟩, _, mats, _, occ, ?_, rfl, sort.orb _, hx, hnat, ?_, hel, ?_⟩
  · simp only [natorb, hget, Except.ok_bind', hsec, hsnd, hw, Except.pure_ok]
  · simpa using hr
  · refine (List.reverse_perm _).trans ((sort.occ _).trans ?_)
    rw [List.flatMap_map, occList, zipIdx_flatMap _ _ ⟨⟨0, 0, .p⟩, []⟩]
    have hperm : ((List.range space.length).map π).Perm
        (List.range (lib.mkSpace (e.sortOrb (lib.info space))).length) := by
      rw [List.perm_ext_iff_of_nodup ?_ List.nodup_range]
      · intro k
        rw [List.mem_range, List.mem_map]
        constructor
        · rintro ⟨i, hi, rfl⟩
          obtain ⟨b', e1, _⟩ := hπ i _ (List.getElem?_eq_getElem (List.mem_range.mp hi))
          exact (List.getElem?_eq_some_iff.mp e1).1
        · intro hk
          obtain ⟨i, h1, h2⟩ := hsurj k _ (List.getElem?_eq_getElem hk)
          exact ⟨i, List.mem_range.mpr h1, h2⟩
      · refine List.Nodup.map_on (fun i hi j hj h => hinj i j (List.mem_range.mp hi) (List.mem_range.mp hj) h)
          List.nodup_range
    refine List.Perm.trans (List.Perm.of_eq ?_) (hperm.flatMap_right _)
    rw [List.flatMap_map]
    refine List.flatMap_congr fun i hi => ?_
    have hsi : space[i]? = some (space[i]'(List.mem_range.mp hi)) := List.getElem?_eq_getElem _
    obtain ⟨b', e1, e2, e3⟩ := hπ i _ hsi
    have hsd : space.getD i ⟨⟨0, 0, .p⟩, []⟩ = space[i]'(List.mem_range.mp hi) := by simp [List.getD, hsi]
    have hod : (lib.mkSpace (e.sortOrb (lib.info space))).getD (π i) ⟨⟨0, 0, .p⟩, []⟩ = b' := by simp [List.getD, e1]
    simp only [natPart, hsd, hod, e2, e3, dim_some hsi]

/-- The occupations add up to the trace of the density. -/
theorem occupation_sum {space out : Space} {ρ : Full → Full → ℝ} {U : ℕ → ℕ → ℕ → ℕ → ℝ} {occ : ℕ → ℕ → ℝ}
    (h : NaturalOrbitals space out ρ U occ) :
    ∑ q ∈ states out, occ q.1 q.2 = ∑ p ∈ states space, ρ (orbital space p) (orbital space p) := by
  have h1 : ∀ q ∈ states out, occ q.1 q.2 = ∑ p ∈ states space, ∑ p' ∈ states space,
      U p.1 p.2 q.1 q.2 * ρ (orbital space p) (orbital space p') * U p'.1 p'.2 q.1 q.2 := by
    intro q hq
    rw [h.diagonal q hq q hq, if_pos rfl]
  rw [Finset.sum_congr rfl h1, Finset.sum_comm]
  refine Finset.sum_congr rfl fun p hp => ?_
  rw [Finset.sum_comm]
  have h2 : ∀ p' ∈ states space, ∑ q ∈ states out,
      U p.1 p.2 q.1 q.2 * ρ (orbital space p) (orbital space p') * U p'.1 p'.2 q.1 q.2 =
      if p = p' then ρ (orbital space p) (orbital space p') else 0 := by
    intro p' hp'
    have h3 := h.complete p hp p' hp'
    calc _ = ρ (orbital space p) (orbital space p') * ∑ q ∈ states out, U p.1 p.2 q.1 q.2 * U p'.1 p'.2 q.1 q.2 := by
          rw [Finset.mul_sum]
          exact Finset.sum_congr rfl fun q _ => by ring
      _ = _ := by rw [h3]; split <;> simp
  rw [Finset.sum_congr rfl h2, Finset.sum_ite_eq, if_pos hp]

/-! ## The info file -/

/-- The orbitals of a space with their occupations. -/
noncomputable def occSpec (out : Space) (occ : ℕ → ℕ → ℝ) : List (Full × ℝ) :=
  (List.range out.length).flatMap fun k => (List.range (dim out k)).map fun c => (orbital out ⟨k, c⟩, occ k c)

/-- C104, the part that holds: when the orbitals of each subspace come as `n = 0, 1, …`, the info file lists the
natural orbitals under the names they have in the transformation.  Missing: other spaces. -/
theorem info_labels_partial {out : Space} {occ : ℕ → ℕ → ℝ} (h : ∀ b ∈ out, b.ns = List.range b.ns.length) :
    occList out occ = occSpec out occ := by
  rw [occList, zipIdx_flatMap _ _ ⟨⟨0, 0, .p⟩, []⟩, occSpec]
  refine List.flatMap_congr fun k hk => ?_
  have hk' : out[k]? = some (out[k]'(List.mem_range.mp hk)) := List.getElem?_eq_getElem _
  have hd : out.getD k ⟨⟨0, 0, .p⟩, []⟩ = out[k]'(List.mem_range.mp hk) := by simp [List.getD, hk']
  simp only [hd, dim_some hk']
  refine List.map_congr_left fun c hc => ?_
  have hc' := List.mem_range.mp hc
  have hn := h _ (mem_of_getElem? hk')
  simp only [orbital, hk', Prod.mk.injEq, and_true, Full.mk.injEq, true_and]
  rw [hn, List.getD, List.getElem?_range (by simpa using hc')]
  rfl

/-- Where the numbers of a subspace are not `0, 1, …`, the info file names an orbital that does not exist. -/
theorem info_label_missing {out : Space} (hg : GoodSpace out) (occ : ℕ → ℕ → ℝ) {b : Obme.Sub} (hb : b ∈ out) {c : ℕ}
    (hc : c < b.ns.length) (hn : c ∉ b.ns) : ∃ x ∈ occList out occ, ¬ InSpace out x.1 := by
  obtain ⟨k, hk⟩ := List.mem_iff_getElem?.mp hb
  refine ⟨(⟨b.labels.sp, c, b.labels.l, b.labels.tj⟩, occ k c), ?_, ?_⟩
  · refine List.mem_flatMap.mpr ⟨(b, k), ?_, List.mem_map.mpr ⟨c, List.mem_range.mpr hc, rfl⟩⟩
    exact List.mem_iff_getElem?.mpr ⟨k, by simp [List.getElem?_zipIdx, hk]⟩
  · rw [inSpace_sub hg hk]
    exact hn

/-! ## An eigensolver -/

theorem lower_hermitian (m : Mat) :
    (Matrix.of fun a b : Fin m.rows => lower m a b : Matrix (Fin m.rows) (Fin m.rows) ℝ).IsHermitian := by
  ext a b
  simp [Matrix.conjTranspose_apply, lower, max_comm, min_comm]

/-- The number of an eigenvector in Mathlib, counting from the smallest eigenvalue. -/
noncomputable def eigIndex (n i : ℕ) (h : i < n) : Fin n :=
  Fintype.equivOfCardEq (Fintype.card_fin _) (⟨n - 1 - i, by simp; omega⟩ : Fin (Fintype.card (Fin n)))

/-- Eigenvalues and eigenvectors from the spectral theorem. -/
noncomputable def solver (Orb : Type) (so : List Orb → List Orb) (sc : List (Full × ℝ) → List (Full × ℝ)) : Ext Orb where
  values m i := if h : i < m.rows then (lower_hermitian m).eigenvalues (eigIndex m.rows i h) else 0
  vectors m a i := if h : a < m.rows ∧ i < m.rows then
    (lower_hermitian m).eigenvectorBasis (eigIndex m.rows i h.2) ⟨a, h.1⟩ else 0
  sortOrb := so
  sortOcc := sc

theorem solver_law (Orb : Type) (so : List Orb → List Orb) (sc : List (Full × ℝ) → List (Full × ℝ)) :
    EigLaw (solver Orb so sc) := by
  refine ⟨?_, ?_, ?_⟩
  · intro m i hi j hj
    have h1 := (lower_hermitian m).eigenvectorBasis.orthonormal
    rw [orthonormal_iff_ite] at h1
    have h2 := h1 (eigIndex m.rows i hi) (eigIndex m.rows j hj)
    rw [Finset.sum_range]
    simp only [solver, Fin.is_lt, hi, hj, and_self, dif_pos]
    rw [PiLp.inner_apply] at h2
    simp only [RCLike.inner_apply, conj_trivial] at h2
    rw [Finset.sum_congr rfl fun a _ => mul_comm _ _, h2]
    refine if_congr ?_ rfl rfl
    simp only [eigIndex, EmbeddingLike.apply_eq_iff_eq, Fin.mk.injEq]
    omega
  · intro m a ha i hi
    have h1 := (lower_hermitian m).mulVec_eigenvectorBasis (eigIndex m.rows i hi)
    have h2 := congrFun h1 ⟨a, ha⟩
    rw [Finset.sum_range]
    simp only [solver, Fin.is_lt, ha, hi, and_self, dif_pos]
    simpa [Matrix.mulVec, dotProduct] using h2
  · intro m i j hij hj
    simp only [solver, hj, lt_of_le_of_lt hij hj, dif_pos]
    simp only [Matrix.IsHermitian.eigenvalues, eigIndex, Equiv.symm_apply_apply]
    refine (lower_hermitian m).eigenvalues₀_antitone ?_
    simp only [Fin.mk_le_mk]
    omega

/-! ## Control lines and the run -/

/-- The lines of the control file and what they ask for; any other keyword is passed over. -/
inductive NLineMeans (nm : Numbers) : CLine → NCmd → Prop
  | output (o x) : NLineMeans nm ⟨["set-output-xform", o, x], false⟩ (.output o x none)
  | outputInfo (o x i rest t) : NLineMeans nm ⟨"set-output-xform" :: o :: x :: i :: rest, t⟩ (.output o x (some i))
  | indexing (f rest t) : NLineMeans nm ⟨"set-indexing" :: f :: rest, t⟩ (.indexing f)
  | single (wJ wg wn f) (J : ℝ) (g n : Int) (h : nm.num? wJ = some J ∧ nm.int? wg = some g ∧ nm.int? wn = some n) :
      NLineMeans nm ⟨["define-densities", wJ, wg, wn, f], false⟩ (.densities ⟨twice J, g, n⟩ f none)
  | multi (wJ wg wn f i rest t) (J : ℝ) (g n : Int)
      (h : nm.num? wJ = some J ∧ nm.int? wg = some g ∧ nm.int? wn = some n) :
      NLineMeans nm ⟨"define-densities" :: wJ :: wg :: wn :: f :: i :: rest, t⟩ (.densities ⟨twice J, g, n⟩ f (some i))
  | empty (t) : NLineMeans nm ⟨[], t⟩ .nothing
  | unknown (k ws t) (h : k ≠ "set-output-xform" ∧ k ≠ "set-indexing" ∧ k ≠ "define-densities") :
      NLineMeans nm ⟨k :: ws, t⟩ .nothing

/-- Exactly the lines of the table are accepted. -/
theorem natorb_line {nm : Numbers} {l : CLine} {c : NCmd} : parseN nm l = .ok c ↔ NLineMeans nm l c := by
  constructor
  · intro h
    obtain ⟨ws, t⟩ := l
    cases ws with
    | nil => cases h; exact .empty t
    | cons k ws =>
      simp only [parseN] at h
      split at h
      · rename_i hk
        subst hk
        simp only [parseNOutput, Except.bind_eq_ok] at h
        obtain ⟨⟨o, r⟩, ho, ⟨x, r'⟩, hx, h⟩ := h
        obtain rfl := word_ok ho
        obtain rfl := word_ok hx
        split at h
        · rename_i he
          obtain ⟨rfl, rfl⟩ := atEnd_true he
          cases h
          exact .output o x
        · simp only [Except.bind_eq_ok, Except.pure_ok, Except.ok.injEq] at h
          obtain ⟨⟨m, r''⟩, hm, rfl⟩ := h
          obtain rfl := word_ok hm
          exact .outputInfo o x m r'' t
      · rename_i hk1
        split at h
        · rename_i hk
          subst hk
          simp only [parseNIndexing, Except.bind_eq_ok, Except.pure_ok, Except.ok.injEq] at h
          obtain ⟨⟨f, r⟩, hf, rfl⟩ := h
          obtain rfl := word_ok hf
          exact .indexing f r t
        · rename_i hk2
          split at h
          · rename_i hk
            subst hk
            simp only [parseNDensities, Except.bind_eq_ok] at h
            obtain ⟨⟨J, r1⟩, h1, ⟨g, r2⟩, h2, ⟨n, r3⟩, h3, ⟨f, r7⟩, h7, h⟩ := h
            obtain ⟨w1, rfl, e1⟩ := num_ok h1
            obtain ⟨w2, rfl, e2⟩ := int_ok h2
            obtain ⟨w3, rfl, e3⟩ := int_ok h3
            obtain rfl := word_ok h7
            split at h
            · rename_i he
              obtain ⟨rfl, rfl⟩ := atEnd_true he
              cases h
              exact .single _ _ _ _ _ _ _ ⟨e1, e2, e3⟩
            · simp only [Except.bind_eq_ok, Except.pure_ok, Except.ok.injEq] at h
              obtain ⟨⟨i, r8⟩, h8, rfl⟩ := h
              obtain rfl := word_ok h8
              exact .multi _ _ _ _ _ _ _ _ _ _ ⟨e1, e2, e3⟩
          · rename_i hk3
            cases h
            exact .unknown _ _ _ ⟨hk1, hk2, hk3⟩
  · intro h
    cases h with
    | output o x => rfl
    | outputInfo o x i rest t => simp [parseN, parseNOutput, word, atEnd, Except.ok_bind', Except.pure_ok]
    | indexing f rest t => simp [parseN, parseNIndexing, word, Except.ok_bind', Except.pure_ok]
    | single _ _ _ _ _ _ _ h =>
      obtain ⟨e1, e2, e3⟩ := h
      simp [parseN, parseNDensities, word, num, int, atEnd, Except.ok_bind', Except.pure_ok, e1, e2, e3]
    | multi _ _ _ _ _ _ _ _ _ _ h =>
      obtain ⟨e1, e2, e3⟩ := h
      simp [parseN, parseNDensities, word, num, int, atEnd, Except.ok_bind', Except.pure_ok, e1, e2, e3]
    | empty t => rfl
    | unknown k ws t h => simp [parseN, h.1, h.2.1, h.2.2]

/-- A line with an unknown keyword has no effect, wherever it is and whatever follows the keyword. -/
theorem unknown_line_ignored {Orb : Type} (lib : Lib Orb) (e : Ext Orb) (rnd : ℝ → ℝ) (nm : Numbers) (disk : Disk)
    (ls ls' : List CLine) {k : String} (ws : List String) (t : Bool)
    (h : k ≠ "set-output-xform" ∧ k ≠ "set-indexing" ∧ k ≠ "define-densities") :
    natorbRun lib e rnd nm disk (ls ++ ⟨k :: ws, t⟩ :: ls') = natorbRun lib e rnd nm disk (ls ++ ls') := by
  have hp := (natorb_line (nm := nm)).mpr (.unknown k ws t h)
  have : readN lib nm disk (ls ++ ⟨k :: ws, t⟩ :: ls') = readN lib nm disk (ls ++ ls') := by
    simp only [readN, List.foldlM_append, List.foldlM_cons, hp, Except.ok_bind', execN]
  simp only [natorbRun, this]

/-- The orbitals in force after some lines. -/
def NSpaceAfter (disk : Disk) (cs : List NCmd) (s : Space) : Prop :=
  ((∀ f, NCmd.indexing f ∉ cs) ∧ s = []) ∨
    ∃ pre f post, cs = pre ++ .indexing f :: post ∧ (∀ f, NCmd.indexing f ∉ post) ∧ disk.orbitals f = .ok s

/-- The density in force after some lines: the last one, read with the orbitals in force there. -/
def NDensityAfter {Orb : Type} (lib : Lib Orb) (disk : Disk) (cs : List NCmd) (d : Option (Space × Density)) : Prop :=
  ((∀ q f i, NCmd.densities q f i ∉ cs) ∧ d = none) ∨
    ∃ pre q f i post s x, cs = pre ++ .densities q f i :: post ∧ (∀ q f i, NCmd.densities q f i ∉ post) ∧
      NSpaceAfter disk pre s ∧ openDensity lib disk s q q f i = .ok x ∧ d = some (s, x)

/-- The output files in force after some lines. -/
def NFilesAfter (cs : List NCmd) (o : Option (String × String × Option String)) : Prop :=
  ((∀ a b i, NCmd.output a b i ∉ cs) ∧ o = none) ∨
    ∃ pre a b i post, cs = pre ++ .output a b i :: post ∧ (∀ a b i, NCmd.output a b i ∉ post) ∧ o = some (a, b, i)

theorem NSpaceAfter.skip {disk : Disk} {cs : List NCmd} {s : Space} (h : NSpaceAfter disk cs s) {c : NCmd}
    (hc : ∀ f, c ≠ .indexing f) : NSpaceAfter disk (cs ++ [c]) s := by
  rcases h with ⟨h1, h2⟩ | ⟨pre, f, post, rfl, h1, h2⟩
  · refine Or.inl ⟨fun f hf => ?_, h2⟩
    rcases List.mem_append.mp hf with h | h
    · exact h1 f h
    · exact hc f (List.mem_singleton.mp h).symm
  · refine Or.inr ⟨pre, f, post ++ [c], by simp, fun g hg => ?_, h2⟩
    rcases List.mem_append.mp hg with h | h
    · exact h1 g h
    · exact hc g (List.mem_singleton.mp h).symm

theorem NDensityAfter.skip {Orb : Type} {lib : Lib Orb} {disk : Disk} {cs : List NCmd} {d : Option (Space × Density)}
    (h : NDensityAfter lib disk cs d) {c : NCmd} (hc : ∀ q f i, c ≠ .densities q f i) :
    NDensityAfter lib disk (cs ++ [c]) d := by
  rcases h with ⟨h1, h2⟩ | ⟨pre, q, f, i, post, s, x, rfl, h1, h2⟩
  · refine Or.inl ⟨fun q f i hf => ?_, h2⟩
    rcases List.mem_append.mp hf with h | h
    · exact h1 q f i h
    · exact hc q f i (List.mem_singleton.mp h).symm
  · refine Or.inr ⟨pre, q, f, i, post ++ [c], s, x, by simp, fun q f i hg => ?_, h2⟩
    rcases List.mem_append.mp hg with h | h
    · exact h1 q f i h
    · exact hc q f i (List.mem_singleton.mp h).symm

theorem NFilesAfter.skip {cs : List NCmd} {o : Option (String × String × Option String)} (h : NFilesAfter cs o)
    {c : NCmd} (hc : ∀ a b i, c ≠ .output a b i) : NFilesAfter (cs ++ [c]) o := by
  rcases h with ⟨h1, h2⟩ | ⟨pre, a, b, i, post, rfl, h1, h2⟩
  · refine Or.inl ⟨fun a b i hf => ?_, h2⟩
    rcases List.mem_append.mp hf with h | h
    · exact h1 a b i h
    · exact hc a b i (List.mem_singleton.mp h).symm
  · refine Or.inr ⟨pre, a, b, i, post ++ [c], by simp, fun a b i hg => ?_, h2⟩
    rcases List.mem_append.mp hg with h | h
    · exact h1 a b i h
    · exact hc a b i (List.mem_singleton.mp h).symm

theorem readN_all {Orb : Type} {lib : Lib Orb} {nm : Numbers} {disk : Disk} (ls : List CLine) :
    ∀ (pre : List NCmd) (r r' : NRun), NSpaceAfter disk pre r.space → NDensityAfter lib disk pre r.density →
      NFilesAfter pre r.files → ls.foldlM (fun r l => do
        let c ← parseN nm l
        execN lib disk r c) r = .ok r' →
      ∃ cs, ls.mapM (parseN nm) = .ok cs ∧ NSpaceAfter disk (pre ++ cs) r'.space ∧
        NDensityAfter lib disk (pre ++ cs) r'.density ∧ NFilesAfter (pre ++ cs) r'.files := by
  induction ls with
  | nil =>
    intro pre r r' h1 h2 h3 h
    simp only [List.foldlM_nil, Except.pure_ok, Except.ok.injEq] at h
    subst h
    exact ⟨[], rfl, by simpa using h1, by simpa using h2, by simpa using h3⟩
  | cons l ls ih =>
    intro pre r r' h1 h2 h3 h
    simp only [List.foldlM_cons, Except.bind_eq_ok] at h
    obtain ⟨r1, ⟨c, hc, he⟩, h⟩ := h
    have step : NSpaceAfter disk (pre ++ [c]) r1.space ∧ NDensityAfter lib disk (pre ++ [c]) r1.density ∧
        NFilesAfter (pre ++ [c]) r1.files := by
      cases c with
      | output a b i =>
        simp only [execN, Except.ok.injEq] at he
        subst he
        exact ⟨h1.skip (by simp), h2.skip (by simp), Or.inr ⟨pre, a, b, i, [], by simp, by simp, rfl⟩⟩
      | indexing f =>
        simp only [execN, Except.bind_eq_ok, Except.pure_ok, Except.ok.injEq] at he
        obtain ⟨s, hs, rfl⟩ := he
        exact ⟨Or.inr ⟨pre, f, [], by simp, by simp, hs⟩, h2.skip (by simp), h3.skip (by simp)⟩
      | densities q f i =>
        simp only [execN, Except.bind_eq_ok, Except.pure_ok, Except.ok.injEq] at he
        obtain ⟨d, hd, rfl⟩ := he
        exact ⟨h1.skip (by simp), Or.inr ⟨pre, q, f, i, [], r.space, d, by simp, by simp, h1, hd, rfl⟩,
          h3.skip (by simp)⟩
      | nothing =>
        simp only [execN, Except.ok.injEq] at he
        subst he
        exact ⟨h1.skip (by simp), h2.skip (by simp), h3.skip (by simp)⟩
    obtain ⟨cs, k1, k2, k3, k4⟩ := ih (pre ++ [c]) r1 r' step.1 step.2.1 step.2.2 h
    refine ⟨c :: cs, ?_, by simpa using k2, by simpa using k3, by simpa using k4⟩
    rw [List.mapM_cons, hc, k1]
    rfl

/-- C105: a run that ends well used the last density, read with the orbitals in force there, the last orbitals and the
last names of the output files. -/
theorem natorb_run {Orb : Type} {lib : Lib Orb} {e : Ext Orb} {rnd : ℝ → ℝ} {nm : Numbers} {disk : Disk}
    {ls : List CLine} {f : String × String × Option String} {o : NatOut Orb}
    (h : natorbRun lib e rnd nm disk ls = .ok (f, o)) :
    ∃ cs space dspace d, ls.mapM (parseN nm) = .ok cs ∧ NFilesAfter cs (some f) ∧ NSpaceAfter disk cs space ∧
      NDensityAfter lib disk cs (some (dspace, d)) ∧ natorb lib e rnd space dspace d = .ok o := by
  simp only [natorbRun, Except.bind_eq_ok, Except.pure_ok, Except.ok.injEq, Prod.mk.injEq] at h
  obtain ⟨r, hr, ⟨ds, d⟩, hd, o', ho, f', hf, rfl, rfl⟩ := h
  obtain ⟨cs, h1, h2, h3, h4⟩ := readN_all ls [] _ r (Or.inl ⟨by simp, rfl⟩) (Or.inl ⟨by simp, rfl⟩)
    (Or.inl ⟨by simp, rfl⟩) hr
  simp only [List.nil_append] at h2 h3 h4
  have hd' : r.density = some (ds, d) := by
    cases hh : r.density with
    | none => rw [hh] at hd; cases hd
    | some x => rw [hh] at hd; cases hd; rfl
  have hf' : r.files = some f' := by
    cases hh : r.files with
    | none => rw [hh] at hf; cases hf
    | some x => rw [hh] at hf; cases hf; rfl
  exact ⟨cs, r.space, ds, d, h1, hf' ▸ h4, h2, hd' ▸ h3, ho⟩

/-! ## Examples -/

namespace Ex

theorem mem_info {s : Space} {x : Full} : x ∈ lib.info s ↔ InSpace s x := by
  simp only [lib, List.mem_flatMap, List.mem_map]
  constructor
  · rintro ⟨b, hb, n, hn, rfl⟩
    obtain ⟨i, hi⟩ := List.mem_iff_getElem?.mp hb
    obtain ⟨a, ha⟩ := List.mem_iff_getElem?.mp hn
    exact ⟨i, a, b, hi, rfl, ha⟩
  · rintro ⟨i, a, b, hi, hl, ha⟩
    refine ⟨b, mem_of_getElem? hi, x.n, List.mem_of_getElem? ha, ?_⟩
    rw [hl]
    rfl

theorem info_nodup {s : Space} (hs : GoodSpace s) : (lib.info s).Nodup := by
  have h1 := hs.nodup
  have h2 := hs.ns
  clear hs
  simp only [lib]
  induction s with
  | nil => simp
  | cons b s ih =>
    rw [List.map_cons, List.nodup_cons] at h1
    rw [List.flatMap_cons, List.nodup_append]
    refine ⟨(h2 b (by simp)).map fun x y h => (Full.mk.inj h).2.1, ih h1.2 fun c hc => h2 c (by simp [hc]), ?_⟩
    intro x hx y hy hxy
    subst hxy
    obtain ⟨n, _, rfl⟩ := List.mem_map.mp hx
    obtain ⟨c, hc, hy⟩ := List.mem_flatMap.mp hy
    obtain ⟨m, _, hm⟩ := List.mem_map.mp hy
    refine h1.1 (List.mem_map.mpr ⟨c, hc, ?_⟩)
    have := congrArg Full.labels hm
    exact this

theorem full_eq {x y : Full} (h : x.labels = y.labels) (hn : x.n = y.n) : x = y := by
  obtain ⟨a, b, c, d⟩ := x
  obtain ⟨a', b', c', d'⟩ := y
  simp only [Full.labels, Obme.Labels.mk.injEq] at h
  obtain ⟨h1, h2, h3⟩ := h
  cases hn
  subst h1 h2 h3
  rfl

/-- Grouping what is already grouped changes nothing. -/
theorem rebuild {s : Space} (h1 : (s.map Obme.Sub.labels).Nodup) (h2 : ∀ b ∈ s, b.ns ≠ []) :
    lib.mkSpace (lib.info s) = s := by
  have hd : ∀ t : Space, (t.map Obme.Sub.labels).Nodup → (∀ b ∈ t, b.ns ≠ []) →
      ((lib.info t).map Full.labels).dedup = t.map Obme.Sub.labels := by
    intro t ht hne
    induction t with
    | nil => rfl
    | cons b t ih =>
      rw [List.map_cons, List.nodup_cons] at ht
      have ih' := ih ht.2 fun c hc => hne c (by simp [hc])
      have hi : (lib.info (b :: t)).map Full.labels = List.replicate b.ns.length b.labels ++ (lib.info t).map Full.labels := by
        simp only [lib, List.flatMap_cons, List.map_append, List.map_map]
        congr 1
        rw [List.eq_replicate_iff]
        refine ⟨by simp, fun x hx => ?_⟩
        obtain ⟨n, _, rfl⟩ := List.mem_map.mp hx
        rfl
      rw [hi]
      have hnot : b.labels ∉ (lib.info t).map Full.labels := by
        rw [← List.mem_dedup, ih']
        exact ht.1
      obtain ⟨k, hk⟩ : ∃ k, b.ns.length = k + 1 := ⟨b.ns.length - 1, by
        have := List.length_pos_iff.mpr (hne b (by simp)); omega⟩
      rw [hk]
      clear hk hi
      induction k with
      | zero => simp [List.dedup_cons_of_notMem hnot, ih']
      | succ k ihk =>
        rw [List.replicate_succ, List.cons_append, List.dedup_cons_of_mem, ihk]
        simp [List.replicate_succ]
  have hf : ∀ b ∈ s, ((lib.info s).filter fun o => o.labels = b.labels).map Full.n = b.ns := by
    have : ∀ t : Space, (t.map Obme.Sub.labels).Nodup → ∀ x : Obme.Labels,
        ((lib.info t).filter fun o => o.labels = x).map Full.n = (t.filter fun b => b.labels = x).flatMap Obme.Sub.ns := by
      intro t _ x
      induction t with
      | nil => rfl
      | cons b t ih =>
        have hi : lib.info (b :: t) = (b.ns.map fun n => (⟨b.labels.sp, n, b.labels.l, b.labels.tj⟩ : Full)) ++ lib.info t := by
          simp [lib]
        rename_i ht
        rw [List.map_cons, List.nodup_cons] at ht
        rw [hi, List.filter_append, List.map_append, ih ht.2]
        by_cases hx : b.labels = x
        · rw [List.filter_cons_of_pos (by simpa using hx), List.flatMap_cons]
          congr 1
          rw [List.filter_eq_self.mpr]
          · rw [List.map_map]
            simp [Function.comp_def]
          · intro y hy
            obtain ⟨n, _, rfl⟩ := List.mem_map.mp hy
            exact decide_eq_true hx
        · rw [List.filter_cons_of_neg (by simpa using hx)]
          rw [List.filter_eq_nil_iff.mpr]
          · rfl
          · intro y hy
            obtain ⟨n, _, rfl⟩ := List.mem_map.mp hy
            rw [decide_eq_true_eq]
            exact hx
    intro b hb
    rw [this s h1, filter_eq_singleton (a := b) h1.of_map hb]
    · simp
    · intro c hc
      simp only [decide_eq_true_eq]
      exact ⟨fun h => List.inj_on_of_nodup_map h1 hc hb h, fun h => by rw [h]⟩
  have : lib.mkSpace (lib.info s) = ((lib.info s).map Full.labels).dedup.map fun x =>
      ⟨x, ((lib.info s).filter fun o => o.labels = x).map Full.n⟩ := rfl
  rw [this, hd s h1 h2, List.map_map]
  conv_rhs => rw [← List.map_id s]
  refine List.map_congr_left fun b hb => ?_
  simp only [Function.comp_apply, hf b hb, id]

/-- The toy library meets `SpaceLaw`. -/
theorem space_law : SpaceLaw lib := by
  intro s os hs hb hp
  have hn : os.Nodup := hp.nodup_iff.mpr (info_nodup hs)
  have hm : ∀ x, x ∈ os ↔ InSpace s x := fun x => by rw [hp.mem_iff, mem_info]
  have hsub : ∀ b ∈ lib.mkSpace os, ∃ x ∈ os, b.labels = x.labels ∧
      b.ns = (os.filter fun o => o.labels = b.labels).map Full.n := by
    intro b hb
    obtain ⟨x, hx, rfl⟩ := List.mem_map.mp hb
    obtain ⟨o, ho, rfl⟩ := List.mem_map.mp (List.mem_dedup.mp hx)
    exact ⟨o, ho, rfl, rfl⟩
  have hlab : ((lib.mkSpace os).map Obme.Sub.labels) = (os.map Full.labels).dedup := by
    simp [lib, Function.comp_def]
  have hnd : ((lib.mkSpace os).map Obme.Sub.labels).Nodup := by
    rw [hlab]
    exact List.nodup_dedup _
  have hne : ∀ b ∈ lib.mkSpace os, b.ns ≠ [] := by
    intro b hb
    obtain ⟨x, hx, hl, hns⟩ := hsub b hb
    rw [hns]
    refine List.ne_nil_of_mem (a := x.n) (List.mem_map.mpr ⟨x, List.mem_filter.mpr ⟨hx, by simp [hl]⟩, rfl⟩)
  have hg : GoodSpace (lib.mkSpace os) := by
    refine ⟨hnd, ?_, ?_⟩
    · intro b hb
      obtain ⟨x, hx, hl, _⟩ := hsub b hb
      obtain ⟨i, a, c, hc, hcl, _⟩ := (hm x).mp hx
      rw [hl, ← hcl]
      exact hs.half c (mem_of_getElem? hc)
    · intro b hb
      obtain ⟨x, hx, hl, hns⟩ := hsub b hb
      rw [hns]
      refine List.Nodup.map_on ?_ (hn.filter _)
      intro y hy z hz hyz
      have h1 := (List.mem_filter.mp hy).2
      have h2 := (List.mem_filter.mp hz).2
      simp only [decide_eq_true_eq] at h1 h2
      exact full_eq (h1.trans h2.symm) hyz
  refine ⟨hg, ⟨rebuild hnd hne, hne⟩, ?_⟩
  intro x
  rw [← hm]
  constructor
  · rintro ⟨i, a, b, hi, hl, ha⟩
    obtain ⟨y, _, _, hns⟩ := hsub b (mem_of_getElem? hi)
    have := List.mem_of_getElem? ha
    rw [hns] at this
    obtain ⟨z, hz, hzn⟩ := List.mem_map.mp this
    obtain ⟨hz1, hz2⟩ := List.mem_filter.mp hz
    simp only [decide_eq_true_eq] at hz2
    rw [← full_eq (hz2.trans hl) hzn]
    exact hz1
  · intro hx
    have hb : (⟨x.labels, (os.filter fun o => o.labels = x.labels).map Full.n⟩ : Obme.Sub) ∈ lib.mkSpace os :=
      List.mem_map.mpr ⟨x.labels, List.mem_dedup.mpr (List.mem_map_of_mem hx), rfl⟩
    obtain ⟨i, hi⟩ := List.mem_iff_getElem?.mp hb
    obtain ⟨a, ha⟩ := List.mem_iff_getElem?.mp (show x.n ∈ (os.filter fun o => o.labels = x.labels).map Full.n from
      List.mem_map.mpr ⟨x, List.mem_filter.mpr ⟨hx, by simp⟩, rfl⟩)
    exact ⟨i, a, _, hi, rfl, ha⟩

/-- Eigenvectors from Mathlib, orbitals put in reverse order. -/
noncomputable def ext : Ext Full := solver Full List.reverse id

theorem ext_sort : SortLaw ext := ⟨fun os => List.reverse_perm os, fun os => List.Perm.refl os⟩

theorem entries_symmetric (x y : Full) : finalValue entries 0 x y = finalValue entries 0 y x := by
  by_cases h1 : s0 = x <;> by_cases h2 : s0 = y <;> simp [finalValue, entries, h1, h2]

/-- The hypotheses of `natural_orbitals` are met by the density of `full_file`, the orbitals being put in another
order. -/
example : ∃ d o, readSingle lib sampleSpace state state ⟨header ++ data, true⟩ = .ok d ∧
    natorb lib ext id sampleSpace sampleSpace d = .ok o ∧ o.orbitals = (lib.info sampleSpace).reverse := by
  obtain ⟨d, h1, h2⟩ := full_file
  have hb : Built lib.toLib sampleSpace := ⟨rebuild sampleSpace_good.nodup (by decide), by decide⟩
  obtain ⟨o, out, mats, U, occ, h3, _⟩ := natural_orbitals laws space_law (solver_law _ _ _) ext_sort (rnd := id) rfl
    sampleSpace_good hb h2 rfl (by decide) (by decide) entries_symmetric
  refine ⟨d, o, h1, h3, ?_⟩
  simp only [natorb, Except.bind_eq_ok, Except.pure_ok, Except.ok.injEq] at h3
  obtain ⟨_, _, _, _, _, _, rfl⟩ := h3
  rfl

/-- C104 fails: with the single orbital `1s1/2` the info file gives the occupation of `0s1/2`. -/
example (occ : ℕ → ℕ → ℝ) : ∃ x ∈ occList [⟨⟨0, 1, .p⟩, [1]⟩] occ, ¬ InSpace [⟨⟨0, 1, .p⟩, [1]⟩] x.1 :=
  info_label_missing ⟨by decide, by decide, by decide⟩ occ (List.mem_singleton.mpr rfl) (c := 0) (by decide) (by decide)

example (occ : ℕ → ℕ → ℝ) : occList sampleSpace occ = occSpec sampleSpace occ := info_labels_partial (by decide)

/-- C105 fails: a misspelt keyword is passed over. -/
example (nm : Numbers) (disk : Disk) (ls : List CLine) :
    natorbRun lib ext id nm disk (⟨["set-indexng", "orbitals.dat"], false⟩ :: ls) = natorbRun lib ext id nm disk ls :=
  unknown_line_ignored lib ext id nm disk [] ls _ _ (by decide)

end Ex

end Verif.Density
