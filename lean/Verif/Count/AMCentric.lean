import Verif.Count.Props

/-!
# C98: the counts ordered by angular momentum

`statecount.cpp` says of these functions that they approximate the ordering of the orbitals by the ordering of `j`.
-/

namespace Verif.Count
open Verif
open Verif.H2 (Except.ok_bind' Except.error_bind' Except.pure_ok Except.bind_eq_ok)

/-! ## An enumeration -/

/-- The orbital after a given one. -/
def nextOrbital (o : ℕ × ℕ) : ℕ × ℕ := if o.2 = 2 * o.1 + 1 then (o.1 + 1, 1) else (o.1, o.2 + 2)

/-- Shell by shell, by increasing `j`. -/
def shells : Enumeration := ⟨fun k => (nextOrbital^[k] (0, 1)).1, fun k => (nextOrbital^[k] (0, 1)).2⟩

theorem shells_position (k : ℕ) : shells.tj k % 2 = 1 ∧ shells.tj k ≤ 2 * shells.N k + 1 ∧
    2 * k + 1 = shells.N k * (shells.N k + 1) + shells.tj k := by
  induction k with
  | zero => exact ⟨rfl, le_rfl, rfl⟩
  | succ k ih =>
    simp only [shells, Function.iterate_succ_apply'] at ih ⊢
    generalize nextOrbital^[k] (0, 1) = o at ih ⊢
    obtain ⟨h1, h2, h3⟩ := ih
    unfold nextOrbital
    split
    · rename_i h
      refine ⟨rfl, by simp, ?_⟩
      simp only
      rw [h] at h3
      nlinarith
    · rename_i h
      exact ⟨by simp only; omega, by simp only; omega, by simp only; omega⟩

theorem position_unique {N M t u : ℕ} (ht : t ≤ 2 * N + 1) (hu : u ≤ 2 * M + 1) (h1 : 0 < t) (h2 : 0 < u)
    (h : N * (N + 1) + t = M * (M + 1) + u) : N = M ∧ t = u := by
  have : N = M := by
    rcases lt_trichotomy N M with h' | h' | h'
    · have : (N + 1) * (N + 2) ≤ M * (M + 1) := Nat.mul_le_mul h' (by omega)
      nlinarith
    · exact h'
    · have : (M + 1) * (M + 2) ≤ N * (N + 1) := Nat.mul_le_mul h' (by omega)
      nlinarith
  subst this
  exact ⟨rfl, by omega⟩

theorem shells_enumerates : Enumerates shells where
  mono i j hij := by
    obtain ⟨a1, a2, a3⟩ := shells_position i
    obtain ⟨b1, b2, b3⟩ := shells_position j
    by_contra hc
    have : (shells.N j + 1) * (shells.N j + 2) ≤ shells.N i * (shells.N i + 1) :=
      Nat.mul_le_mul (by omega) (by omega)
    nlinarith
  range k := ⟨(shells_position k).1, (shells_position k).2.1⟩
  onto N t h1 h2 := by
    have hev : (N * (N + 1)) % 2 = 0 := by
      rcases Nat.even_or_odd N with h | h
      · exact Nat.even_iff.mp (h.mul_right _)
      · exact Nat.even_iff.mp ((h.add_one).mul_left _)
    obtain ⟨a1, a2, a3⟩ := shells_position ((N * (N + 1) + t - 1) / 2)
    obtain ⟨e1, e2⟩ := position_unique a2 h2 (by omega) (by omega) (a3.symm.trans (show 2 * ((N * (N + 1) + t - 1) / 2) + 1 =
      N * (N + 1) + t by omega))
    exact ⟨_, e1, e2⟩
  inj i j h1 h2 := by
    obtain ⟨a1, a2, a3⟩ := shells_position i
    obtain ⟨b1, b2, b3⟩ := shells_position j
    rw [h1, h2] at a3
    omega

/-- The hypotheses of the counting theorems are met, and the counts of two orbitals `0s1/2` are `1` for `J = 0` and
`J = 1`. -/
example : TwoBodyOne shells 0 0 1 ∧ TwoBodyOne shells 0 2 1 ∧ TwoBodyTwo shells 1 2 3 ∧ ThreeBodyOne shells 0 1 2 := by
  refine ⟨(two_body_one_cut shells_enumerates (J := 0)).mpr ?_, (two_body_one_cut shells_enumerates (J := 2)).mpr ?_,
    (two_body_two_cut shells_enumerates (J := 2)).mpr ?_,
    (three_body_one_cut shells_enumerates (J := 1) rfl).mpr ?_⟩
  all_goals decide +kernel

/-! ## Symmetric sums -/

theorem sum_ordered_pairs (G : ℕ → ℕ → ℤ) (hs : ∀ i j, G i j = G j i) (t : ℕ) :
    2 * ∑ i ∈ Finset.Ico 0 t, ∑ j ∈ Finset.Ico i t, G i j =
      ∑ i ∈ Finset.range t, ∑ j ∈ Finset.range t, G i j + ∑ i ∈ Finset.range t, G i i := by
  rw [Finset.sum_Ico_Ico_comm]
  simp only [← Finset.range_eq_Ico]
  induction t with
  | zero => simp
  | succ t ih =>
    rw [Finset.sum_range_succ, mul_add, ih]
    simp only [Finset.sum_range_succ, Finset.sum_add_distrib]
    have : ∑ i ∈ Finset.range t, G i t = ∑ i ∈ Finset.range t, G t i := Finset.sum_congr rfl fun i _ => hs i t
    rw [this]
    ring

theorem sum_ordered_triples (G : ℕ → ℕ → ℕ → ℤ) (h1 : ∀ i j k, G i j k = G j i k) (h2 : ∀ i j k, G i j k = G i k j)
    (t : ℕ) :
    6 * ∑ i ∈ Finset.Ico 0 t, ∑ j ∈ Finset.Ico i t, ∑ k ∈ Finset.Ico j t, G i j k =
      ∑ i ∈ Finset.range t, ∑ j ∈ Finset.range t, ∑ k ∈ Finset.range t, G i j k +
      3 * ∑ i ∈ Finset.range t, ∑ k ∈ Finset.range t, G i i k + 2 * ∑ i ∈ Finset.range t, G i i i := by
  have e : ∑ i ∈ Finset.Ico 0 t, ∑ j ∈ Finset.Ico i t, ∑ k ∈ Finset.Ico j t, G i j k =
      ∑ k ∈ Finset.range t, ∑ i ∈ Finset.Ico 0 (k + 1), ∑ j ∈ Finset.Ico i (k + 1), G i j k := by
    rw [Finset.sum_Ico_Ico_comm]
    have : ∀ j ∈ Finset.Ico 0 t, ∑ i ∈ Finset.Ico 0 (j + 1), ∑ k ∈ Finset.Ico j t, G i j k =
        ∑ k ∈ Finset.Ico j t, ∑ i ∈ Finset.Ico 0 (j + 1), G i j k := fun j _ => Finset.sum_comm
    rw [Finset.sum_congr rfl this, Finset.sum_Ico_Ico_comm, Finset.range_eq_Ico]
    refine Finset.sum_congr rfl fun k _ => ?_
    rw [Finset.sum_Ico_Ico_comm]
  rw [e]
  clear e
  induction t with
  | zero => simp
  | succ t ih =>
    rw [Finset.sum_range_succ, mul_add, ih]
    have hp := sum_ordered_pairs (fun i j => G i j t) (fun i j => h1 i j t) (t + 1)
    have s1 : ∀ i j, G i t j = G i j t := fun i j => h2 i t j
    have s2 : ∀ i j, G t i j = G i j t := fun i j => by rw [h1, h2]
    have s3 : ∀ i, G t t i = G i t t := fun i => by rw [h2, h1]
    simp only [Finset.sum_range_succ, Finset.sum_add_distrib] at hp ⊢
    simp only [s1, s2] at hp ⊢
    linarith

/-! ## Grouping the orbitals by `j` -/

/-- A sum over orbitals of a function of `j`. -/
theorem sum_by_j {e : Enumeration} (h : Enumerates e) {N t : ℕ} (ht : ∀ k, e.N k ≤ N ↔ k < t) (g : ℕ → ℤ) :
    ∑ i ∈ Finset.range t, g (e.tj i) = ∑ x ∈ Finset.range (N + 1), ((N : ℤ) - x + 1) * g (2 * x + 1) := by
  have hmaps : ∀ i ∈ Finset.range t, (e.tj i - 1) / 2 ∈ Finset.range (N + 1) := by
    intro i hi
    have := h.range i
    have := (ht i).mpr (Finset.mem_range.mp hi)
    rw [Finset.mem_range]
    omega
  rw [← Finset.sum_fiberwise_of_maps_to hmaps]
  refine Finset.sum_congr rfl fun x hx => ?_
  rw [Finset.mem_range] at hx
  have hg : ∀ i ∈ (Finset.range t).filter (fun i => (e.tj i - 1) / 2 = x), g (e.tj i) = g (2 * x + 1) := by
    intro i hi
    have := h.range i
    have := (Finset.mem_filter.mp hi).2
    congr 1
    omega
  rw [Finset.sum_congr rfl hg, Finset.sum_const, nsmul_eq_mul]
  congr 1
  have hc : ((Finset.range t).filter (fun i => (e.tj i - 1) / 2 = x)).card =
      ((orbitals N).filter fun o => o.2 = 2 * x + 1).card := by
    refine Finset.card_bij (fun i _ => e.orb i) ?_ (fun i _ j _ hij => h.orb_inj hij) ?_
    · intro i hi
      simp only [Finset.mem_filter, Finset.mem_range] at hi
      have := h.range i
      refine Finset.mem_filter.mpr ⟨h.orb_mem ((ht i).mpr hi.1), ?_⟩
      simp only [Enumeration.orb]
      omega
    · intro o ho
      simp only [Finset.mem_filter] at ho
      obtain ⟨k, rfl, h2⟩ := h.orb_onto ho.1
      refine ⟨k, ?_, rfl⟩
      simp only [Finset.mem_filter, Finset.mem_range]
      have h3 : e.tj k = 2 * x + 1 := ho.2
      exact ⟨(ht k).mp h2, by omega⟩
  have := orbitals_of_j (N := N) (t := 2 * x + 1) (by omega) (by omega)
  rw [hc]
  push_cast at this
  linarith

theorem dimension_value {N x : ℕ} : orbitalDimension N (2 * x + 1) = .ok ((N : ℤ) - x + 1) := by
  unfold orbitalDimension ivalue
  rw [if_pos (by omega)]
  congr 1
  omega

theorem pairProduct_iff {N : ℕ} {J : ℤ} {x y : ℕ} {v : ℤ} : pairProduct N J x y v ↔
    v = ((N : ℤ) - x + 1) * ((N - y + 1) * if triangle ((2 * x + 1 : ℕ) : ℤ) ((2 * y + 1 : ℕ) : ℤ) J then 1 else 0) := by
  unfold pairProduct
  simp only [dimension_value, Except.ok.injEq]
  push_cast
  split
  · simp
  · simp

theorem tripleProduct_iff {N : ℕ} {J1 J : ℤ} {x y z : ℕ} {v : ℤ} : tripleProduct N J1 J x y z v ↔
    v = ((N : ℤ) - x + 1) * ((N - y + 1) * ((N - z + 1) *
      if triangle ((2 * x + 1 : ℕ) : ℤ) ((2 * y + 1 : ℕ) : ℤ) J1 && triangle J1 ((2 * z + 1 : ℕ) : ℤ) J then 1 else 0)) := by
  unfold tripleProduct
  simp only [dimension_value, Except.ok.injEq]
  push_cast
  split
  · simp [mul_assoc]
  · simp

/-- **C98.** `TwoBodyDimensionOneBodyCutAMCentric` ends, and counts `d(d-1)/2` pairs too many for each `j` with `d`
orbitals that couples with itself to `J`. -/
theorem two_body_am {N J : ℕ} : (∃! total, TwoBodyAM N J total) ∧ ∀ total, TwoBodyAM N J total →
    2 * total = 2 * oneBodyCut 2 N J + ∑ x ∈ Finset.range (N + 1),
      ((N : ℤ) - x + 1) * (N - x) * if triangle ((2 * x + 1 : ℕ) : ℤ) ((2 * x + 1 : ℕ) : ℤ) J then 1 else 0 := by
  have hloop : ∀ {total}, TwoBodyAM N J total ↔ total = ∑ x ∈ Finset.Ico 0 (N + 1), ∑ y ∈ Finset.Ico x (N + 1),
      ((N : ℤ) - x + 1) * ((N - y + 1) * if triangle ((2 * x + 1 : ℕ) : ℤ) ((2 * y + 1 : ℕ) : ℤ) J then 1 else 0) := by
    intro total
    refine double_loop (c1 := fun x => 2 * x + 1 ≤ jmax N) (c2 := fun _ y => 2 * y + 1 ≤ jmax N)
      (body := pairProduct N J) (f := fun x y => ((N : ℤ) - x + 1) * ((N - y + 1) *
        if triangle ((2 * x + 1 : ℕ) : ℤ) ((2 * y + 1 : ℕ) : ℤ) J then 1 else 0)) (t := N + 1) (T := fun _ => N + 1) (fun x => ?_) (fun _ y => ?_) (fun _ _ _ _ _ => pairProduct_iff)
    · unfold jmax
      omega
    · unfold jmax
      omega
  refine ⟨⟨_, hloop.mpr rfl, fun v hv => hloop.mp hv⟩, ?_⟩
  intro total htot
  rw [hloop] at htot
  obtain ⟨t, -, -, ht, -, -⟩ := shells_enumerates.cuts N
  have hex : oneBodyCut 2 N J = ∑ a ∈ Finset.Ico 0 t, ∑ b ∈ Finset.Ico a t,
      if triangle (shells.tj a) (shells.tj b) J then 1 else 0 := by
    symm
    rw [← two_body_one_cut shells_enumerates]
    exact (double_loop ht (fun _ b => ht b) (fun _ _ _ _ _ => Iff.rfl)).mpr rfl
  have sym : ∀ a b : ℤ, triangle a b J = triangle b a J := by
    intro a b
    rw [Bool.eq_iff_iff, triangle_iff, triangle_iff, couple_cases, couple_cases]
    omega
  rw [hex, htot, sum_ordered_pairs _ (fun i j => by rw [sym]; ring),
    sum_ordered_pairs _ (fun i j => by rw [sym])]
  have e1 : ∑ i ∈ Finset.range t, ∑ j ∈ Finset.range t,
      (if triangle (shells.tj i) (shells.tj j) J then (1 : ℤ) else 0) =
      ∑ x ∈ Finset.range (N + 1), ∑ y ∈ Finset.range (N + 1), ((N : ℤ) - x + 1) * ((N - y + 1) *
        if triangle ((2 * x + 1 : ℕ) : ℤ) ((2 * y + 1 : ℕ) : ℤ) J then 1 else 0) := by
    rw [Finset.sum_congr rfl fun i _ => sum_by_j shells_enumerates ht fun u => if triangle (shells.tj i) u J then 1 else 0]
    rw [sum_by_j shells_enumerates ht fun s => ∑ x ∈ Finset.range (N + 1), ((N : ℤ) - x + 1) *
      if triangle s ((2 * x + 1 : ℕ) : ℤ) J then 1 else 0]
    simp only [Finset.mul_sum]
  have e2 := sum_by_j shells_enumerates ht fun u => if triangle u u J then 1 else 0
  rw [e1, e2, add_assoc, ← Finset.sum_add_distrib (s := Finset.range (N + 1)) (f := fun x => ((N : ℤ) - x + 1) * _)]
  congr 1
  refine Finset.sum_congr rfl fun x _ => ?_
  ring

/-- **C98.** It is never too small. -/
theorem two_body_am_ge {N J : ℕ} {total : ℤ} (h : TwoBodyAM N J total) : oneBodyCut 2 N J ≤ total := by
  have h1 := two_body_am.2 total h
  have h2 : 0 ≤ ∑ x ∈ Finset.range (N + 1),
      ((N : ℤ) - x + 1) * (N - x) * if triangle ((2 * x + 1 : ℕ) : ℤ) ((2 * x + 1 : ℕ) : ℤ) J then 1 else 0 := by
    refine Finset.sum_nonneg fun x hx => ?_
    rw [Finset.mem_range] at hx
    have : (x : ℤ) ≤ N := by omega
    refine mul_nonneg (mul_nonneg (by linarith) (by linarith)) ?_
    split <;> simp
  linarith

/-- **C98.** `ThreeBodyDimensionOneBodyCutAMCentric` ends, and counts too many triples only where two or three angular
momenta are equal. -/
theorem three_body_am {N J : ℕ} (hJ : J % 2 = 1) : (∃! total, ThreeBodyAM N J total) ∧ ∀ total, ThreeBodyAM N J total →
    6 * total = 6 * oneBodyCut 3 N J +
      3 * ∑ x ∈ Finset.range (N + 1), ∑ z ∈ Finset.range (N + 1),
        ((N : ℤ) - x + 1) * (N - x) * (N - z + 1) * multiplicity {2 * x + 1, 2 * x + 1, 2 * z + 1} J +
      2 * ∑ x ∈ Finset.range (N + 1),
        ((N : ℤ) - x + 2) * (N - x + 1) * (N - x) * multiplicity {2 * x + 1, 2 * x + 1, 2 * x + 1} J := by
  have hj1 : ∀ (J1 : ℕ) {total}, ThreeBodyAMJ1 N (2 * J1) J total ↔
      total = ∑ x ∈ Finset.Ico 0 (N + 1), ∑ y ∈ Finset.Ico x (N + 1), ∑ z ∈ Finset.Ico y (N + 1),
        ((N : ℤ) - x + 1) * ((N - y + 1) * ((N - z + 1) * if triangle ((2 * x + 1 : ℕ) : ℤ) ((2 * y + 1 : ℕ) : ℤ) (2 * J1) &&
          triangle (2 * J1) ((2 * z + 1 : ℕ) : ℤ) J then 1 else 0)) := by
    intro J1 total
    refine triple_loop (c1 := fun x => 2 * x + 1 ≤ jmax N) (c2 := fun _ y => 2 * y + 1 ≤ jmax N)
      (c3 := fun _ _ z => 2 * z + 1 ≤ jmax N) (body := tripleProduct N (2 * J1) J)
      (f := fun x y z => ((N : ℤ) - x + 1) * ((N - y + 1) * ((N - z + 1) *
        if triangle ((2 * x + 1 : ℕ) : ℤ) ((2 * y + 1 : ℕ) : ℤ) (2 * J1) &&
          triangle (2 * J1) ((2 * z + 1 : ℕ) : ℤ) J then 1 else 0))) (t := N + 1) (T := fun _ => N + 1) (U := fun _ _ => N + 1) (fun x => ?_) (fun _ y => ?_)
      (fun _ _ z => ?_) (fun _ _ _ _ _ _ _ => tripleProduct_iff)
    all_goals
      unfold jmax
      omega
  have hloop : ∀ {total}, ThreeBodyAM N J total ↔ total = ∑ J1 ∈ Finset.Ico 0 (2 * N + 2), ∑ x ∈ Finset.Ico 0 (N + 1),
      ∑ y ∈ Finset.Ico x (N + 1), ∑ z ∈ Finset.Ico y (N + 1),
        ((N : ℤ) - x + 1) * ((N - y + 1) * ((N - z + 1) * if triangle ((2 * x + 1 : ℕ) : ℤ) ((2 * y + 1 : ℕ) : ℤ) (2 * J1) &&
          triangle (2 * J1) ((2 * z + 1 : ℕ) : ℤ) J then 1 else 0)) := by
    intro total
    refine forSum_iff (f := fun J1 => ∑ x ∈ Finset.Ico 0 (N + 1), ∑ y ∈ Finset.Ico x (N + 1), ∑ z ∈ Finset.Ico y (N + 1),
        ((N : ℤ) - x + 1) * ((N - y + 1) * ((N - z + 1) * if triangle ((2 * x + 1 : ℕ) : ℤ) ((2 * y + 1 : ℕ) : ℤ) (2 * J1) &&
          triangle (2 * J1) ((2 * z + 1 : ℕ) : ℤ) J then 1 else 0))) (b := 2 * N + 2) (fun x _ => ?_) (fun x v _ _ => hj1 x)
    unfold jmax
    omega
  refine ⟨⟨_, hloop.mpr rfl, fun v hv => hloop.mp hv⟩, ?_⟩
  intro total htot
  rw [hloop] at htot
  have hval : total = ∑ x ∈ Finset.Ico 0 (N + 1), ∑ y ∈ Finset.Ico x (N + 1), ∑ z ∈ Finset.Ico y (N + 1),
      ((N : ℤ) - x + 1) * ((N - y + 1) * ((N - z + 1) * multiplicity {2 * x + 1, 2 * y + 1, 2 * z + 1} J)) := by
    rw [htot, Finset.sum_comm]
    refine Finset.sum_congr rfl fun x hx => ?_
    rw [Finset.sum_comm]
    refine Finset.sum_congr rfl fun y hy => ?_
    rw [Finset.sum_comm]
    refine Finset.sum_congr rfl fun z _ => ?_
    simp only [Finset.mem_Ico] at hx hy
    simp only [← Finset.mul_sum]
    rw [multiplicity_sum (M := 2 * N + 1) (by omega) (by omega) (by omega), ← Finset.range_eq_Ico]
    push_cast
    rfl
  obtain ⟨t, -, -, ht, -, -⟩ := shells_enumerates.cuts N
  have hex : oneBodyCut 3 N J = ∑ a ∈ Finset.Ico 0 t, ∑ b ∈ Finset.Ico a t, ∑ c ∈ Finset.Ico b t,
      multiplicity {shells.tj a, shells.tj b, shells.tj c} J := by
    symm
    rw [← three_body_one_cut shells_enumerates hJ]
    refine (triple_loop ht (fun _ b => ht b) (fun _ _ c => ht c) (fun a b c v _ _ _ => ?_)).mpr rfl
    have r := shells_enumerates.range
    rw [couplings_multiplicity (r a).1 (r b).1 (r c).1 hJ]
    exact ⟨fun e => (Except.ok.inj e).symm, fun e => e ▸ rfl⟩
  have s1 : ∀ a b c : ℕ, ({a, b, c} : Multiset ℕ) = {b, a, c} := fun a b c => by
    simp only [Multiset.insert_eq_cons]
    rw [Multiset.cons_swap]
  have s2 : ∀ a b c : ℕ, ({a, b, c} : Multiset ℕ) = {a, c, b} := fun a b c => by
    rw [Multiset.insert_eq_cons, Multiset.insert_eq_cons a, Multiset.pair_comm]
  rw [hex, hval, sum_ordered_triples _ (fun i j k => by rw [s1]; ring) (fun i j k => by rw [s2]; ring),
    sum_ordered_triples _ (fun i j k => by rw [s1]) (fun i j k => by rw [s2])]
  have by_j := fun g => sum_by_j shells_enumerates ht g
  have e1 : ∑ i ∈ Finset.range t, ∑ j ∈ Finset.range t, ∑ k ∈ Finset.range t,
      multiplicity {shells.tj i, shells.tj j, shells.tj k} J =
      ∑ x ∈ Finset.range (N + 1), ∑ y ∈ Finset.range (N + 1), ∑ z ∈ Finset.range (N + 1),
        ((N : ℤ) - x + 1) * ((N - y + 1) * ((N - z + 1) * multiplicity {2 * x + 1, 2 * y + 1, 2 * z + 1} J)) := by
    rw [Finset.sum_congr rfl fun i _ => Finset.sum_congr rfl fun j _ =>
      by_j fun u => multiplicity {shells.tj i, shells.tj j, u} J]
    rw [Finset.sum_congr rfl fun i _ => by_j fun u => ∑ z ∈ Finset.range (N + 1), ((N : ℤ) - z + 1) *
      multiplicity {shells.tj i, u, 2 * z + 1} J]
    rw [by_j fun u => ∑ y ∈ Finset.range (N + 1), ((N : ℤ) - y + 1) * ∑ z ∈ Finset.range (N + 1), ((N : ℤ) - z + 1) *
      multiplicity {u, 2 * y + 1, 2 * z + 1} J]
    simp only [Finset.mul_sum]
  have e2 : ∑ i ∈ Finset.range t, ∑ k ∈ Finset.range t, multiplicity {shells.tj i, shells.tj i, shells.tj k} J =
      ∑ x ∈ Finset.range (N + 1), ∑ z ∈ Finset.range (N + 1),
        ((N : ℤ) - x + 1) * ((N - z + 1) * multiplicity {2 * x + 1, 2 * x + 1, 2 * z + 1} J) := by
    rw [Finset.sum_congr rfl fun i _ => by_j fun u => multiplicity {shells.tj i, shells.tj i, u} J]
    rw [by_j fun u => ∑ z ∈ Finset.range (N + 1), ((N : ℤ) - z + 1) * multiplicity {u, u, 2 * z + 1} J]
    simp only [Finset.mul_sum]
  have e3 := by_j fun u => multiplicity {u, u, u} J
  rw [e1, e2, e3]
  have f1 : ∑ x ∈ Finset.range (N + 1), ∑ z ∈ Finset.range (N + 1), ((N : ℤ) - x + 1) * ((N - x + 1) * ((N - z + 1) *
        multiplicity {2 * x + 1, 2 * x + 1, 2 * z + 1} J)) =
      ∑ x ∈ Finset.range (N + 1), ∑ z ∈ Finset.range (N + 1), ((N : ℤ) - x + 1) * ((N - z + 1) *
        multiplicity {2 * x + 1, 2 * x + 1, 2 * z + 1} J) +
      ∑ x ∈ Finset.range (N + 1), ∑ z ∈ Finset.range (N + 1),
        ((N : ℤ) - x + 1) * (N - x) * (N - z + 1) * multiplicity {2 * x + 1, 2 * x + 1, 2 * z + 1} J := by
    simp only [← Finset.sum_add_distrib]
    refine Finset.sum_congr rfl fun x _ => Finset.sum_congr rfl fun z _ => ?_
    ring
  have f2 : ∑ x ∈ Finset.range (N + 1), ((N : ℤ) - x + 1) * ((N - x + 1) * ((N - x + 1) *
        multiplicity {2 * x + 1, 2 * x + 1, 2 * x + 1} J)) =
      ∑ x ∈ Finset.range (N + 1), ((N : ℤ) - x + 1) * multiplicity {2 * x + 1, 2 * x + 1, 2 * x + 1} J +
      ∑ x ∈ Finset.range (N + 1),
        ((N : ℤ) - x + 2) * (N - x + 1) * (N - x) * multiplicity {2 * x + 1, 2 * x + 1, 2 * x + 1} J := by
    simp only [← Finset.sum_add_distrib]
    refine Finset.sum_congr rfl fun x _ => ?_
    ring
  rw [f1, f2]
  ring

/-- **C98.** It is never too small. -/
theorem three_body_am_ge {N J : ℕ} (hJ : J % 2 = 1) {total : ℤ} (h : ThreeBodyAM N J total) : oneBodyCut 3 N J ≤ total := by
  have h1 := (three_body_am hJ).2 total h
  have hm : ∀ a b c : ℕ, 0 ≤ multiplicity {a, b, c} J := fun a b c => by
    rw [multiplicity_three]
    exact Int.natCast_nonneg _
  have h2 : 0 ≤ ∑ x ∈ Finset.range (N + 1), ∑ z ∈ Finset.range (N + 1),
        ((N : ℤ) - x + 1) * (N - x) * (N - z + 1) * multiplicity {2 * x + 1, 2 * x + 1, 2 * z + 1} J := by
    refine Finset.sum_nonneg fun x hx => Finset.sum_nonneg fun z hz => ?_
    rw [Finset.mem_range] at hx hz
    have hx' : (x : ℤ) ≤ N := by omega
    have hz' : (z : ℤ) ≤ N := by omega
    exact mul_nonneg (mul_nonneg (mul_nonneg (by linarith) (by linarith)) (by linarith)) (hm _ _ _)
  have h3 : 0 ≤ ∑ x ∈ Finset.range (N + 1),
        ((N : ℤ) - x + 2) * (N - x + 1) * (N - x) * multiplicity {2 * x + 1, 2 * x + 1, 2 * x + 1} J := by
    refine Finset.sum_nonneg fun x hx => ?_
    rw [Finset.mem_range] at hx
    have hx' : (x : ℤ) ≤ N := by omega
    exact mul_nonneg (mul_nonneg (mul_nonneg (by linarith) (by linarith)) (by linarith)) (hm _ _ _)
  linarith

/-- It is too large already for the first two shells. -/
example : TwoBodyAM 1 0 5 ∧ oneBodyCut 2 1 0 = 4 := by
  obtain ⟨⟨t, h1, -⟩, h2⟩ := two_body_am (N := 1) (J := 0)
  have h3 := h2 t h1
  have h4 : oneBodyCut 2 1 0 = 4 := by decide +kernel
  rw [h4] at h3
  have : t = 5 := by
    have : 2 * t = 10 := h3.trans (by decide)
    omega
  exact ⟨this ▸ h1, h4⟩

end Verif.Count
