import Verif.Moshinsky.NucleonRel

/-!
# Orthonormality of the states of two nucleons

The states of relative and centre-of-mass motion are orthonormal, hence for any reduced elements there is an operator on the relative motion
that has them.
-/

namespace Verif.Moshinsky
open Verif MvPolynomial Osc
open Verif.SU2 hiding couple

theorem sum_proj {V : Type*} [AddCommMonoid V] (f : ℤ → V) : ∑ σ : Fin 2, f (proj σ) = ∑ μ ∈ projs 1, f μ := by
  have : projs 1 = {1, -1} := by
    ext μ
    rw [mem_projs]
    simp only [Finset.mem_insert, Finset.mem_singleton]
    push_cast
    omega
  rw [this, Finset.sum_insert (by simp), Finset.sum_singleton, Fin.sum_univ_two]
  rfl

theorem pairSpin_ortho {S S' : ℕ} {M M' : ℤ} (hS : S ≤ 1) (hM : |M| ≤ S) :
    ∑ σ, ∑ σ', pairSpin S M σ σ' * pairSpin S' M' σ σ' = if S = S' ∧ M = M' then 1 else 0 := by
  unfold pairSpin
  rw [sum_proj fun μ => ∑ σ', cgd 1 μ 1 (proj σ') (2 * S) (2 * M) * cgd 1 μ 1 (proj σ') (2 * S') (2 * M')]
  rw [Finset.sum_congr rfl fun μ _ => sum_proj fun μ' => cgd 1 μ 1 μ' (2 * S) (2 * M) * cgd 1 μ 1 μ' (2 * S') (2 * M')]
  rw [abs_le] at hM
  rw [cgd_ortho (by unfold Coupled; rw [abs_le]; omega) (by rw [mem_projs]; push_cast; omega)]
  refine if_congr ?_ rfl rfl
  omega

theorem inner_ten (u v : Two) (x y x' y' : Fin 2 → Fin 2 → ℝ) : inner (ten u x y) (ten v x' y') =
    (∑ σ, ∑ σ', x σ σ' * x' σ σ') * (∑ τ, ∑ τ', y τ τ' * y' τ τ') * fock u v := by
  unfold inner ten
  simp only [fock_smul_left, fock_smul_right, Fin.sum_univ_two]
  ring

theorem delta_mul (p q : Prop) [Decidable p] [Decidable q] : (if p then (1 : ℝ) else 0) * (if q then 1 else 0) = if p ∧ q then 1 else 0 := by
  by_cases hp : p
  · simp only [hp, if_true, one_mul, true_and]
  · simp only [hp, if_false, zero_mul, false_and]

/-- Product states of relative and centre-of-mass motion. -/
theorem motion_ortho {n1 l1 n2 l2 n1' l1' n2' l2' : ℕ} {m1 m2 m1' m2' : ℤ} (h1 : |m1| ≤ l1) (h2 : |m2| ≤ l2) :
    fock (single relative n1 l1 m1 * single centre n2 l2 m2) (single relative n1' l1' m1' * single centre n2' l2' m2') =
      if (n1 = n1' ∧ l1 = l1' ∧ m1 = m1') ∧ (n2 = n2' ∧ l2 = l2' ∧ m2 = m2') then 1 else 0 := by
  have e : ∀ (n1 l1 n2 l2 : ℕ) (m1 m2 : ℤ), single relative n1 l1 m1 * single centre n2 l2 m2 = turn 1 (pair n1 l1 m1 n2 l2 m2) := by
    intro n1 l1 n2 l2 m1 m2
    have h1 : ∀ i, turn 1 (first i) = relative i := fun i => by rw [first, turn_first, one_smul]; rfl
    have h2 : ∀ i, turn 1 (second i) = centre i := fun i => by rw [second, turn_second, one_smul, add_comm]; rfl
    rw [pair, map_mul, single, single, single, single, map_osc, map_osc]
    simp only [h1, h2]
  rw [e, e, fock_turn (by norm_num), pair_ortho h1 h2]

theorem cg_ortho {l1 l2 L L' : ℕ} {M M' : ℤ} (ht : Tri l1 l2 L) (hM : |M| ≤ L) :
    ∑ m1 ∈ Finset.Icc (-(l1 : ℤ)) l1, ∑ m2 ∈ Finset.Icc (-(l2 : ℤ)) l2, Osc.cg l1 m1 l2 m2 L M * Osc.cg l1 m1 l2 m2 L' M' =
      if L = L' ∧ M = M' then 1 else 0 := by
  simp only [cg_even]
  rw [← sum_even l1 fun m1 => ∑ m2 ∈ Finset.Icc (-(l2 : ℤ)) l2, cgd (2 * l1) m1 (2 * l2) (2 * m2) (2 * L) (2 * M) *
    cgd (2 * l1) m1 (2 * l2) (2 * m2) (2 * L') (2 * M')]
  rw [Finset.sum_congr rfl fun m1 _ => (sum_even l2 fun m2 => cgd (2 * l1) m1 (2 * l2) m2 (2 * L) (2 * M) *
    cgd (2 * l1) m1 (2 * l2) m2 (2 * L') (2 * M')).symm]
  rw [abs_le] at hM
  unfold Tri at ht
  rw [cgd_ortho (by unfold Coupled; rw [abs_le]; push_cast; omega) (by rw [mem_projs]; push_cast; omega)]
  refine if_congr ?_ rfl rfl
  omega

/-- States of relative and centre-of-mass motion are orthonormal. -/
theorem relCM_ortho {r r' : LSPair} {S Jr T S' Jr' T' : ℕ} {mr mc MT mr' mc' MT' : ℤ} (h : IsMotion r S Jr T) (h' : IsMotion r' S' Jr' T')
    (hmr : |mr| ≤ Jr) (hmc : |mc| ≤ r.2.2.2) (hMT : |MT| ≤ T) :
    inner (relCM r S Jr T mr mc MT) (relCM r' S' Jr' T' mr' mc' MT') =
      if (r, S, Jr, T, mr, mc, MT) = (r', S', Jr', T', mr', mc', MT') then 1 else 0 := by
  have e0 := element_couple LinearMap.id Osc.cg r.2.1 S Jr r'.2.1 S' Jr' mr mr'
    (fun m mS => ten (single relative ((r.1 - r.2.1) / 2) r.2.1 m * single centre ((r.2.2.1 - r.2.2.2) / 2) r.2.2.2 mc) (pairSpin S mS) (pairSpin T MT))
    (fun m mS => ten (single relative ((r'.1 - r'.2.1) / 2) r'.2.1 m * single centre ((r'.2.2.1 - r'.2.2.2) / 2) r'.2.2.2 mc') (pairSpin S' mS)
      (pairSpin T' MT'))
  simp only [LinearMap.id_apply] at e0
  rw [relCM, relCM, e0]
  have e : ∀ m ∈ Finset.Icc (-(r.2.1 : ℤ)) r.2.1, ∀ mS ∈ Finset.Icc (-(S : ℤ)) S, ∀ m' mS' : ℤ,
      inner (ten (single relative ((r.1 - r.2.1) / 2) r.2.1 m * single centre ((r.2.2.1 - r.2.2.2) / 2) r.2.2.2 mc) (pairSpin S mS) (pairSpin T MT))
        (ten (single relative ((r'.1 - r'.2.1) / 2) r'.2.1 m' * single centre ((r'.2.2.1 - r'.2.2.2) / 2) r'.2.2.2 mc') (pairSpin S' mS')
          (pairSpin T' MT')) =
      if (r, S, T, mc, MT) = (r', S', T', mc', MT') ∧ m = m' ∧ mS = mS' then 1 else 0 := by
    intro m hm mS hmS m' mS'
    rw [Finset.mem_Icc] at hm hmS
    rw [inner_ten, pairSpin_ortho h.spin (abs_le.mpr hmS), pairSpin_ortho h.isospin hMT, motion_ortho (abs_le.mpr hm) hmc, delta_mul, delta_mul]
    refine if_congr ?_ rfl rfl
    obtain ⟨a, b, c, d⟩ := r
    obtain ⟨a', b', c', d'⟩ := r'
    obtain ⟨⟨h1, h2⟩, ⟨h3, h4⟩, _⟩ := h
    obtain ⟨⟨h1', h2'⟩, ⟨h3', h4'⟩, _⟩ := h'
    simp only [Prod.mk.injEq]
    dsimp only at *
    constructor
    · rintro ⟨⟨⟨k1, k2⟩, k3, k4⟩, ⟨k5, k6, k7⟩, k8, k9, k10⟩
      exact ⟨⟨⟨by omega, k6, by omega, k9⟩, k1, k3, k10, k4⟩, k7, k2⟩
    · rintro ⟨⟨⟨k1, k2, k3, k4⟩, k5, k6, k7, k8⟩, k9, k10⟩
      exact ⟨⟨⟨k5, k10⟩, k6, k8⟩, ⟨by omega, k2, k9⟩, by omega, k4, k7⟩
  rw [Finset.sum_congr rfl fun m hm => Finset.sum_congr rfl fun mS hmS => Finset.sum_congr rfl fun m' _ => Finset.sum_congr rfl fun mS' _ => by
    rw [e m hm mS hmS m' mS']]
  by_cases hc : (r, S, T, mc, MT) = (r', S', T', mc', MT')
  · simp only [Prod.mk.injEq] at hc
    obtain ⟨rfl, rfl, rfl, rfl, rfl⟩ := hc
    trans if Jr = Jr' ∧ mr = mr' then (1 : ℝ) else 0
    · rw [← cg_ortho h.momentum hmr]
      refine Finset.sum_congr rfl fun m hm => Finset.sum_congr rfl fun mS hmS => ?_
      rw [Finset.sum_eq_single_of_mem m hm, Finset.sum_eq_single_of_mem mS hmS]
      · rw [if_pos ⟨rfl, rfl, rfl⟩, mul_one]
      · intro k _ hk
        rw [if_neg fun x => hk x.2.2.symm, mul_zero]
      · intro k _ hk
        refine Finset.sum_eq_zero fun _ _ => ?_
        rw [if_neg fun x => hk x.2.1.symm, mul_zero]
    · refine if_congr ?_ rfl rfl
      simp only [Prod.mk.injEq, true_and, and_true]
  · rw [if_neg]
    · refine Finset.sum_eq_zero fun m _ => Finset.sum_eq_zero fun mc _ => Finset.sum_eq_zero fun m' _ => Finset.sum_eq_zero fun mc' _ => ?_
      rw [if_neg fun x => hc x.1, mul_zero]
    · simp only [Prod.mk.injEq] at *
      tauto

/-- The labels of the states with up to `Nmax` quanta. -/
noncomputable def motionLabels (Nmax : ℕ) : Finset (LSPair × ℕ × ℕ × ℕ × ℤ × ℤ × ℤ) :=
  open Classical in
  ((Finset.range (Nmax + 1) ×ˢ Finset.range (Nmax + 1) ×ˢ Finset.range (Nmax + 1) ×ˢ Finset.range (Nmax + 1)) ×ˢ Finset.range 2 ×ˢ
    Finset.range (Nmax + 2) ×ˢ Finset.range 2 ×ˢ Finset.Icc (-((Nmax : ℤ) + 1)) (Nmax + 1) ×ˢ Finset.Icc (-((Nmax : ℤ) + 1)) (Nmax + 1) ×ˢ
    Finset.Icc (-(1 : ℤ)) 1).filter fun i => IsMotion i.1 i.2.1 i.2.2.1 i.2.2.2.1 ∧ i.1.1 + i.1.2.2.1 ≤ Nmax ∧ |i.2.2.2.2.1| ≤ i.2.2.1 ∧
      |i.2.2.2.2.2.1| ≤ i.1.2.2.2 ∧ |i.2.2.2.2.2.2| ≤ i.2.2.2.1

theorem mem_motionLabels {Nmax : ℕ} {i : LSPair × ℕ × ℕ × ℕ × ℤ × ℤ × ℤ} : i ∈ motionLabels Nmax ↔
    IsMotion i.1 i.2.1 i.2.2.1 i.2.2.2.1 ∧ i.1.1 + i.1.2.2.1 ≤ Nmax ∧ |i.2.2.2.2.1| ≤ i.2.2.1 ∧
      |i.2.2.2.2.2.1| ≤ i.1.2.2.2 ∧ |i.2.2.2.2.2.2| ≤ i.2.2.2.1 := by
  unfold motionLabels
  simp only [Finset.mem_filter, Finset.mem_product, Finset.mem_range, Finset.mem_Icc]
  constructor
  · exact fun h => h.2
  · intro h
    refine ⟨?_, h⟩
    obtain ⟨⟨⟨h1, h2⟩, ⟨h3, h4⟩, h5, h6, h7, h8⟩, h9, h10, h11, h12⟩ := h
    rw [abs_le] at h10 h11 h12
    unfold Tri at h7
    omega

/-- An operator with given elements between orthonormal states. -/
theorem exists_operator {ι : Type*} (S : Finset ι) (st : ι → Nucl) (norm : ∀ i ∈ S, inner (st i) (st i) = 1)
    (ortho : ∀ i ∈ S, ∀ k ∈ S, i ≠ k → inner (st i) (st k) = 0) (K : ι → ι → ℝ) : ∃ O : Nucl →ₗ[ℝ] Nucl, ∀ a ∈ S, ∀ b ∈ S, inner (st a) (O (st b)) = K a b := by
  let O : Nucl →ₗ[ℝ] Nucl := ∑ i ∈ S, ∑ k ∈ S, K i k • (innerL (st k)).smulRight (st i)
  refine ⟨O, fun a ha b hb => ?_⟩
  have e : O (st b) = ∑ i ∈ S, K i b • st i := by
    simp only [O, LinearMap.sum_apply, LinearMap.smul_apply, LinearMap.smulRight_apply, innerL_apply]
    refine Finset.sum_congr rfl fun i _ => ?_
    rw [Finset.sum_eq_single_of_mem b hb]
    · rw [norm b hb, one_smul]
    · intro k hk hne
      rw [ortho k hk b hb hne, zero_smul, smul_zero]
  rw [e, ← innerL_apply, map_sum, Finset.sum_eq_single_of_mem a ha]
  · rw [map_smul, innerL_apply, norm a ha, smul_eq_mul, mul_one]
  · intro i hi hne
    rw [map_smul, innerL_apply, ortho a ha i hi hne.symm, smul_zero]

/-- Any reduced elements are those of an operator. -/
theorem relative_exists (Nmax : ℕ) (Jmax : Int) (J0 T0 : ℕ) (M0 MT0 : ℤ) (R : RelRME) : ∃ O, IsRelative O Nmax Jmax J0 T0 M0 MT0 R := by
  let st : LSPair × ℕ × ℕ × ℕ × ℤ × ℤ × ℤ → Nucl := fun i => relCM i.1 i.2.1 i.2.2.1 i.2.2.2.1 i.2.2.2.2.1 i.2.2.2.2.2.1 i.2.2.2.2.2.2
  let K : LSPair × ℕ × ℕ × ℕ × ℤ × ℤ × ℤ → LSPair × ℕ × ℕ × ℕ × ℤ × ℤ × ℤ → ℝ := fun i k =>
    if (i.1.2.2, i.2.2.2.2.2.1) = (k.1.2.2, k.2.2.2.2.2.1) ∧ i.2.2.1 ≤ Jmax ∧ k.2.2.1 ≤ Jmax then
      Osc.cg k.2.2.1 k.2.2.2.2.1 J0 M0 i.2.2.1 i.2.2.2.2.1 * Osc.cg k.2.2.2.1 k.2.2.2.2.2.2 T0 MT0 i.2.2.2.1 i.2.2.2.2.2.2 *
        R (i.1.2.1, i.2.1, i.2.2.1, i.2.2.2.1) i.1.1 (k.1.2.1, k.2.1, k.2.2.1, k.2.2.2.1) k.1.1 else 0
  obtain ⟨O, hO⟩ := exists_operator (motionLabels Nmax) st (fun i hi => by
    rw [mem_motionLabels] at hi
    exact (relCM_ortho hi.1 hi.1 hi.2.2.1 hi.2.2.2.1 hi.2.2.2.2).trans (if_pos rfl)) (fun i hi k hk hne => by
    rw [mem_motionLabels] at hi hk
    exact (relCM_ortho hi.1 hk.1 hi.2.2.1 hi.2.2.2.1 hi.2.2.2.2).trans (if_neg hne)) K
  refine ⟨O, fun r r' S Jr T S' Jr' T' mr mc MT mr' mc' MT' h h' hN hN' k1 k2 k3 k4 k5 k6 => ?_⟩
  exact hO (r, S, Jr, T, mr, mc, MT) (mem_motionLabels.mpr ⟨h, hN, k1, k2, k3⟩) (r', S', Jr', T', mr', mc', MT')
    (mem_motionLabels.mpr ⟨h', hN', k4, k5, k6⟩)

/-! ## States with total orbital angular momentum -/

theorem motions_ortho {L L' : ℕ} {p p' : LSPair} (hp : IsOrb L p) (hp' : IsOrb L' p') {M M' : ℤ} (hM : |M| ≤ L) :
    fock (motions p L M) (motions p' L' M') = if (p, L, M) = (p', L', M') then 1 else 0 := by
  by_cases h : L = L' ∧ M = M'
  · obtain ⟨rfl, rfl⟩ := h
    rw [motions_norm hp hp' hM]
    simp only [Prod.mk.injEq, and_true]
  · rw [if_neg fun e => h ⟨(Prod.mk.inj (Prod.mk.inj e).2).1, (Prod.mk.inj (Prod.mk.inj e).2).2⟩]
    exact coupled_ortho rotates_relative rotates_centre rotates_relative rotates_centre (by tauto)

theorem ls_ortho {q q' : LSJT} {r r' : LSPair} {M MT M' MT' : ℤ} (hr : IsOrb q.L r) (hr' : IsOrb q'.L r') (hS : q.S ≤ 1) (hT : q.T ≤ 1)
    (hJ : Tri q.L q.S q.J) (hM : |M| ≤ q.J) (hMT : |MT| ≤ q.T) :
    inner (lsState (motions r q.L) q M MT) (lsState (motions r' q'.L) q' M' MT') =
      if (r, q.L, q.S, q.J, q.T, M, MT) = (r', q'.L, q'.S, q'.J, q'.T, M', MT') then 1 else 0 := by
  obtain ⟨L, S, J, T⟩ := q
  obtain ⟨L', S', J', T'⟩ := q'
  dsimp only at *
  have e0 := element_couple LinearMap.id Osc.cg L S J L' S' J' M M' (fun m mS => ten (motions r L m) (pairSpin S mS) (pairSpin T MT))
    (fun m mS => ten (motions r' L' m) (pairSpin S' mS) (pairSpin T' MT'))
  simp only [LinearMap.id_apply] at e0
  rw [lsState, lsState, e0]
  have e : ∀ m ∈ Finset.Icc (-(L : ℤ)) L, ∀ mS ∈ Finset.Icc (-(S : ℤ)) S, ∀ m' mS' : ℤ,
      inner (ten (motions r L m) (pairSpin S mS) (pairSpin T MT)) (ten (motions r' L' m') (pairSpin S' mS') (pairSpin T' MT')) =
      if (r, L, S, T, MT) = (r', L', S', T', MT') ∧ m = m' ∧ mS = mS' then 1 else 0 := by
    intro m hm mS hmS m' mS'
    rw [Finset.mem_Icc] at hm hmS
    rw [inner_ten, pairSpin_ortho hS (abs_le.mpr hmS), pairSpin_ortho hT hMT, motions_ortho hr hr' (abs_le.mpr hm), delta_mul, delta_mul]
    refine if_congr ?_ rfl rfl
    simp only [Prod.mk.injEq]
    tauto
  rw [Finset.sum_congr rfl fun m hm => Finset.sum_congr rfl fun mS hmS => Finset.sum_congr rfl fun m' _ => Finset.sum_congr rfl fun mS' _ => by
    rw [e m hm mS hmS m' mS']]
  by_cases hc : (r, L, S, T, MT) = (r', L', S', T', MT')
  · simp only [Prod.mk.injEq] at hc
    obtain ⟨rfl, rfl, rfl, rfl, rfl⟩ := hc
    trans if J = J' ∧ M = M' then (1 : ℝ) else 0
    · rw [← cg_ortho hJ hM]
      refine Finset.sum_congr rfl fun m hm => Finset.sum_congr rfl fun mS hmS => ?_
      rw [Finset.sum_eq_single_of_mem m hm, Finset.sum_eq_single_of_mem mS hmS]
      · rw [if_pos ⟨rfl, rfl, rfl⟩, mul_one]
      · intro k _ hk
        rw [if_neg fun x => hk x.2.2.symm, mul_zero]
      · intro k _ hk
        refine Finset.sum_eq_zero fun _ _ => ?_
        rw [if_neg fun x => hk x.2.1.symm, mul_zero]
    · refine if_congr ?_ rfl rfl
      simp only [Prod.mk.injEq, true_and, and_true]
  · rw [if_neg]
    · refine Finset.sum_eq_zero fun m _ => Finset.sum_eq_zero fun mc _ => Finset.sum_eq_zero fun m' _ => Finset.sum_eq_zero fun mc' _ => ?_
      rw [if_neg fun x => hc x.1, mul_zero]
    · simp only [Prod.mk.injEq] at *
      tauto

/-- The labels of these states with up to `Nmax` quanta. -/
noncomputable def coupledLabels (Nmax : ℕ) : Finset (LSPair × ℕ × ℕ × ℕ × ℕ × ℤ × ℤ) :=
  open Classical in
  ((Finset.range (Nmax + 1) ×ˢ Finset.range (Nmax + 1) ×ˢ Finset.range (Nmax + 1) ×ˢ Finset.range (Nmax + 1)) ×ˢ Finset.range (2 * Nmax + 1) ×ˢ
    Finset.range 2 ×ˢ Finset.range (2 * Nmax + 2) ×ˢ Finset.range 2 ×ˢ Finset.Icc (-(2 * (Nmax : ℤ) + 1)) (2 * Nmax + 1) ×ˢ
    Finset.Icc (-(1 : ℤ)) 1).filter fun i => IsOrb i.2.1 i.1 ∧ i.1.1 + i.1.2.2.1 ≤ Nmax ∧ i.2.2.1 ≤ 1 ∧ i.2.2.2.2.1 ≤ 1 ∧ Tri i.2.1 i.2.2.1 i.2.2.2.1 ∧
      |i.2.2.2.2.2.1| ≤ i.2.2.2.1 ∧ |i.2.2.2.2.2.2| ≤ i.2.2.2.2.1

theorem mem_coupledLabels {Nmax : ℕ} {i : LSPair × ℕ × ℕ × ℕ × ℕ × ℤ × ℤ} : i ∈ coupledLabels Nmax ↔
    IsOrb i.2.1 i.1 ∧ i.1.1 + i.1.2.2.1 ≤ Nmax ∧ i.2.2.1 ≤ 1 ∧ i.2.2.2.2.1 ≤ 1 ∧ Tri i.2.1 i.2.2.1 i.2.2.2.1 ∧
      |i.2.2.2.2.2.1| ≤ i.2.2.2.1 ∧ |i.2.2.2.2.2.2| ≤ i.2.2.2.2.1 := by
  unfold coupledLabels
  simp only [Finset.mem_filter, Finset.mem_product, Finset.mem_range, Finset.mem_Icc]
  constructor
  · exact fun h => h.2
  · intro h
    refine ⟨?_, h⟩
    obtain ⟨⟨⟨h1, h2⟩, ⟨h3, h4⟩, h5⟩, h6, h7, h8, h9, h10, h11⟩ := h
    rw [abs_le] at h10 h11
    unfold Tri at h5 h9
    omega

/-- Any elements between states of relative and centre-of-mass motion are those of an operator. -/
theorem elements_exist (Nmax J0 T0 : ℕ) (M0 MT0 : ℤ) (A : RCOp) : ∃ O, HasElements O Nmax J0 T0 M0 MT0 A := by
  let st : LSPair × ℕ × ℕ × ℕ × ℕ × ℤ × ℤ → Nucl := fun i =>
    lsState (motions i.1 i.2.1) ⟨i.2.1, i.2.2.1, i.2.2.2.1, i.2.2.2.2.1⟩ i.2.2.2.2.2.1 i.2.2.2.2.2.2
  let K : LSPair × ℕ × ℕ × ℕ × ℕ × ℤ × ℤ → LSPair × ℕ × ℕ × ℕ × ℕ × ℤ × ℤ → ℝ := fun i k =>
    Osc.cg k.2.2.2.1 k.2.2.2.2.2.1 J0 M0 i.2.2.2.1 i.2.2.2.2.2.1 * Osc.cg k.2.2.2.2.1 k.2.2.2.2.2.2 T0 MT0 i.2.2.2.2.1 i.2.2.2.2.2.2 *
      A (motion ⟨i.2.1, i.2.2.1, i.2.2.2.1, i.2.2.2.2.1⟩ i.1) (motion ⟨k.2.1, k.2.2.1, k.2.2.2.1, k.2.2.2.2.1⟩ k.1)
  have ortho : ∀ i ∈ coupledLabels Nmax, ∀ k ∈ coupledLabels Nmax, inner (st i) (st k) = if (i.1, i.2.1, i.2.2.1, i.2.2.2.1, i.2.2.2.2.1, i.2.2.2.2.2.1,
      i.2.2.2.2.2.2) = (k.1, k.2.1, k.2.2.1, k.2.2.2.1, k.2.2.2.2.1, k.2.2.2.2.2.1, k.2.2.2.2.2.2) then 1 else 0 := by
    intro i hi k hk
    rw [mem_coupledLabels] at hi hk
    exact @ls_ortho ⟨i.2.1, i.2.2.1, i.2.2.2.1, i.2.2.2.2.1⟩ ⟨k.2.1, k.2.2.1, k.2.2.2.1, k.2.2.2.2.1⟩ i.1 k.1 i.2.2.2.2.2.1 i.2.2.2.2.2.2 k.2.2.2.2.2.1
      k.2.2.2.2.2.2 hi.1 hk.1 hi.2.2.1 hi.2.2.2.1 hi.2.2.2.2.1 hi.2.2.2.2.2.1 hi.2.2.2.2.2.2
  obtain ⟨O, hO⟩ := exists_operator (coupledLabels Nmax) st (fun i hi => (ortho i hi i hi).trans (if_pos rfl))
    (fun i hi k hk hne => (ortho i hi k hk).trans (if_neg hne)) K
  have orb : ∀ {q : LSJT} {N : ℕ} {r : LSPair}, r ∈ rcStates N q.L q.S q.T → IsOrb q.L r ∧ r.1 + r.2.2.1 = N := fun h =>
    mem_orbStates.mp (mem_rc_orb.mp h).1
  have zero : ∀ (r : LSPair) (q : LSJT) (M MT : ℤ), ¬|M| ≤ q.J → lsState (motions r q.L) q M MT = 0 := by
    intro r q M MT h
    unfold lsState couple
    refine Finset.sum_eq_zero fun m _ => Finset.sum_eq_zero fun mS _ => ?_
    rw [cg_range' (not_le.mp h), zero_smul]
  refine ⟨O, fun q q' N N' r s M M' MT MT' hN hN' hS hT hS' hT' hJ hJ' h h' hMT hMT' => ?_⟩
  by_cases hM : |M| ≤ q.J
  swap
  · rw [zero r q M MT hM, cg_range' (not_le.mp hM), zero_mul, zero_mul, ← innerL_apply, map_zero, LinearMap.zero_apply]
  by_cases hM' : |M'| ≤ q'.J
  swap
  · rw [zero s q' M' MT' hM', cg_range (Or.inl (not_le.mp hM')), zero_mul, zero_mul, map_zero, ← innerL_apply, map_zero]
  exact hO (r, q.L, q.S, q.J, q.T, M, MT) (mem_coupledLabels.mpr ⟨(orb h).1, by rw [(orb h).2]; exact hN, hS, hT, hJ, hM, hMT⟩)
    (s, q'.L, q'.S, q'.J, q'.T, M', MT') (mem_coupledLabels.mpr ⟨(orb h').1, by rw [(orb h').2]; exact hN', hS', hT', hJ', hM', hMT'⟩)

end Verif.Moshinsky
