import Verif.Mixer.TwoNucleonsXform
import Verif.Mixer.BuiltinProps

/-!
# The states of two nucleons are orthonormal
-/

namespace Verif.Mixer
open Verif Verif.Mapping Verif.Xform Verif.Obme Verif.Separable Verif.SU2
open scoped TensorProduct

section
variable {V : Type} [AddCommGroup V] [Module ℝ V] {form : V →ₗ[ℝ] V →ₗ[ℝ] ℝ} {st : SpOrb → ℤ → V} {space : Space}

theorem pair_overlap (ho : Orthonormal form st space) {c d a b : SpOrb} (hc : InSpace space c) (hd : InSpace space d) (ha : InSpace space a) (hb : InSpace space b)
    {J : ℕ} (ht : Coupled c.tj d.tj (2 * J)) {M' M : ℤ} (hM' : M' ∈ projs (2 * J)) :
    elem2 form LinearMap.id (pairState st M' c d J) (pairState st M a b J) = if c = a ∧ d = b ∧ M' = M then 1 else 0 := by
  rw [elem2_pair, Relative.couple_cgD]
  have e : ∀ x' y' x y, elem2 form LinearMap.id (st c x' ⊗ₜ st d y') (st a x ⊗ₜ st b y) = form (st c x') (st a x) * form (st d y') (st b y) := by
    intro x' y' x y
    simp only [elem2, LinearMap.id_apply]
    rw [LinearMap.BilinForm.tensorDistrib_tmul, smul_eq_mul, mul_comm]
  simp only [e]
  by_cases h1 : c = a
  · by_cases h2 : d = b
    · subst h1 h2
      have step : ∀ x' ∈ projs c.tj, ∀ y' ∈ projs d.tj, ∑ x ∈ projs c.tj, ∑ y ∈ projs d.tj,
          cgd c.tj x' d.tj y' (2 * J) M' * cgd c.tj x d.tj y (2 * J) M * (form (st c x') (st c x) * form (st d y') (st d y)) =
          cgd c.tj x' d.tj y' (2 * J) M' * cgd c.tj x' d.tj y' (2 * J) M := by
        intro x' hx' y' hy'
        rw [Finset.sum_eq_single_of_mem x' hx', Finset.sum_eq_single_of_mem y' hy']
        · rw [ho c c hc hc _ hx' _ hx', ho d d hd hd _ hy' _ hy']
          simp
        · intro y hy hne
          rw [ho d d hd hd _ hy' _ hy, if_neg (fun h => hne h.2.symm)]
          ring
        · intro x hx hne
          refine Finset.sum_eq_zero fun y hy => ?_
          rw [ho c c hc hc _ hx' _ hx, if_neg (fun h => hne h.2.symm)]
          ring
      rw [Finset.sum_congr rfl fun x' hx' => Finset.sum_congr rfl fun y' hy' => step x' hx' y' hy', cgd_ortho ht hM']
      simp
    · rw [if_neg (fun h => h2 h.2.1)]
      refine Finset.sum_eq_zero fun x' hx' => Finset.sum_eq_zero fun y' hy' => Finset.sum_eq_zero fun x hx => Finset.sum_eq_zero fun y hy => ?_
      rw [ho d b hd hb _ hy' _ hy, if_neg (fun h => h2 h.1)]
      ring
  · rw [if_neg (fun h => h1 h.1)]
    refine Finset.sum_eq_zero fun x' hx' => Finset.sum_eq_zero fun y' hy' => Finset.sum_eq_zero fun x hx => Finset.sum_eq_zero fun y hy => ?_
    rw [ho c a hc ha _ hx' _ hx, if_neg (fun h => h1 h.1)]
    ring

/-- Antisymmetric states of two nucleons are orthonormal. -/
theorem nas_overlap (ho : Orthonormal form st space) {c d a b : SpOrb} (hc : InSpace space c) (hd : InSpace space d) (ha : InSpace space a) (hb : InSpace space b)
    (oc : c.HalfOdd) {J : ℕ} (ht : Coupled c.tj d.tj (2 * J)) (hp : c = d → J % 2 = 0) (hone : c = b → d = a → c = a ∧ d = b)
    {M' M : ℤ} (hM' : M' ∈ projs (2 * J)) :
    elem2 form LinearMap.id (nas (pairState st M') J (c, d)) (nas (pairState st M) J (a, b)) = if (c = a ∧ d = b) ∧ M' = M then 1 else 0 := by
  have ht' : Coupled d.tj c.tj (2 * J) := by
    obtain ⟨t1, t2, t3⟩ := ht
    exact ⟨by rw [abs_sub_comm]; exact t1, by omega, by omega⟩
  have k1 := pair_overlap ho hc hd ha hb ht (M := M) hM'
  have k2 := pair_overlap ho hc hd hb ha ht (M := M) hM'
  have k3 := pair_overlap ho hd hc ha hb ht' (M := M) hM'
  have k4 := pair_overlap ho hd hc hb ha ht' (M := M) hM'
  simp only [← elemForm_apply] at k1 k2 k3 k4 ⊢
  simp only [nas, map_smul, map_sub, LinearMap.smul_apply, LinearMap.sub_apply, smul_eq_mul, k1, k2, k3, k4]
  have hsq := sqrt2_half
  unfold SpOrb.HalfOdd at oc
  by_cases e : c = a ∧ d = b
  · obtain ⟨rfl, rfl⟩ := e
    by_cases ecd : c = d
    · subst ecd
      have hJ := hp rfl
      have hsig : exSign J c c = -1 := by
        unfold exSign
        rw [show J + (c.tj + c.tj) / 2 = 2 * (J / 2 + c.tj / 2) + 1 by omega, pow_succ, pow_mul]
        simp
      simp only [hsig, if_true, true_and]
      generalize (1 / Real.sqrt 2 : ℝ) = r at hsq ⊢
      split_ifs
      · linear_combination (4 * (r * r) + 2) * hsq
      · ring
    · have hsig : exSign J c d * exSign J c d = 1 := by
        unfold exSign
        rw [← pow_add, ← two_mul, pow_mul]; simp
      simp only [ecd, Ne.symm ecd, if_false, true_and, false_and, if_true, and_self]
      generalize (1 / Real.sqrt 2 : ℝ) = r at hsq ⊢
      split_ifs
      · linear_combination (1 + exSign J c d * exSign J c d) * hsq + 1 / 2 * hsig
      · ring
  · have h2 : ¬ (c = b ∧ d = a) := fun h => e (hone h.1 h.2)
    have n1 : ¬ (c = a ∧ d = b ∧ M' = M) := fun h => e ⟨h.1, h.2.1⟩
    have n2 : ¬ (c = b ∧ d = a ∧ M' = M) := fun h => h2 ⟨h.1, h.2.1⟩
    have n3 : ¬ (d = a ∧ c = b ∧ M' = M) := fun h => h2 ⟨h.2.1, h.1⟩
    have n4 : ¬ (d = b ∧ c = a ∧ M' = M) := fun h => e ⟨h.2.1, h.1⟩
    have n5 : ¬ ((c = a ∧ d = b) ∧ M' = M) := fun h => e h.1
    rw [if_neg n1, if_neg n2, if_neg n3, if_neg n4, if_neg n5]
    ring

/-- The elements of a number between states of two nucleons. -/
theorem identity_reduced (ho : Orthonormal form st space) {ix : TBIndexing} (hi : IndexOK ix) (hav : Available ix.orbitals space) {b : Subspace} (hb : b ∈ ix.space)
    (hf : FullSubspace ix.orbitals b) {i j : ℕ} {s t : ℕ × ℕ} (hs : b.states[i]? = some s) (ht : b.states[j]? = some t) {a1 a2 c1 c2 : Orb}
    (ha : IsPair ix.orbitals b.labels.species s a1 a2) (hc : IsPair ix.orbitals b.labels.species t c1 c2) :
    Reduced form 0 (fun _ => LinearMap.id) b.labels.J b.labels.J (pairOf st b.labels.species b.labels.J a1 a2) (pairOf st b.labels.species b.labels.J c1 c2)
      (if i = j then 1 else 0) := by
  have hal := hf.allowed s (List.mem_of_getElem? hs) a1 a2 ha
  have hal' := hf.allowed t (List.mem_of_getElem? ht) c1 c2 hc
  have m1 := List.mem_of_getElem? ha.1
  have m2 := List.mem_of_getElem? ha.2
  have m3 := List.mem_of_getElem? hc.1
  have m4 := List.mem_of_getElem? hc.2
  have o1 := hi.odd _ _ m1
  have o2 := hi.odd _ _ m2
  have inj : ∀ {sp : Species1} {x y : Orb}, spOrb sp x = spOrb sp y → x = y := by
    intro sp x y h
    simp only [spOrb, SpOrb.mk.injEq, true_and] at h
    cases x; cases y
    simp_all
  have idx : ∀ {sp : Species1} {n m : ℕ} {x : Orb}, (ix.orbitals.of sp)[n]? = some x → (ix.orbitals.of sp)[m]? = some x → n = m := by
    intro sp n m x h1 h2
    obtain ⟨l1, e1⟩ := List.getElem?_eq_some_iff.mp h1
    obtain ⟨l2, e2⟩ := List.getElem?_eq_some_iff.mp h2
    exact (List.Nodup.getElem_inj_iff (hi.orb.nodup sp)).mp (e1.trans e2.symm)
  have like : b.labels.species.first = b.labels.species.second → b.labels.species ≠ .pn := by
    intro h e
    rw [e] at h
    exact absurd h (by decide)
  have hsame : (spOrb b.labels.species.first a1 = spOrb b.labels.species.first c1 ∧ spOrb b.labels.species.second a2 = spOrb b.labels.species.second c2) ↔ i = j := by
    constructor
    · rintro ⟨h1, h2⟩
      have e1 := inj h1
      have e2 := inj h2
      subst e1 e2
      have : s = t := Prod.ext (idx ha.1 hc.1) (idx ha.2 hc.2)
      subst this
      obtain ⟨l1, e1⟩ := List.getElem?_eq_some_iff.mp hs
      obtain ⟨l2, e2⟩ := List.getElem?_eq_some_iff.mp ht
      exact (List.Nodup.getElem_inj_iff (hi.space.statesNodup b hb)).mp (e1.trans e2.symm)
    · rintro rfl
      cases Option.some.inj (hs.symm.trans ht)
      cases Option.some.inj (ha.1.symm.trans hc.1)
      cases Option.some.inj (ha.2.symm.trans hc.2)
      exact ⟨rfl, rfl⟩
  intro M' hM' q hq M hM
  have hq0 : q = 0 := by
    rw [mem_projs] at hq
    push_cast at hq
    omega
  subst hq0
  have htri : Coupled (spOrb b.labels.species.first a1).tj (spOrb b.labels.species.second a2).tj (2 * b.labels.J) := by
    obtain ⟨t1, t2, t3⟩ := hal.triangle
    dsimp only at t1 t2 t3
    refine ⟨?_, ?_, ?_⟩ <;> simp only [spOrb] <;> first | (rw [abs_le]; push_cast; omega) | (push_cast; omega) | omega
  rw [pairOf, pairOf, nas_overlap ho (hav _ _ m1) (hav _ _ m2) (hav _ _ m3) (hav _ _ m4) o1 htri ?_ ?_ hM']
  · by_cases e : i = j
    · rw [if_pos e, mul_one]
      by_cases eM : M' = M
      · subst eM
        rw [if_pos ⟨hsame.mpr e, rfl⟩, cgd_scalar hM']
      · rw [if_neg (fun h => eM h.2), cgd_of_ne (by omega)]
    · rw [if_neg (fun h => e (hsame.mp h.1)), if_neg e, mul_zero]
  · intro h
    have hsp : b.labels.species.first = b.labels.species.second := congrArg SpOrb.sp h
    have h2 := ha.2
    rw [← hsp] at h h2
    have := inj h
    subst this
    exact hal.pauli (like hsp) (idx ha.1 h2)
  · intro h1 h2
    have hsp : b.labels.species.first = b.labels.species.second := congrArg SpOrb.sp h1
    have k1 := hal.canonical (like hsp)
    have k2 := hal'.canonical (like hsp)
    dsimp only at k1 k2
    have p2 := ha.2
    have p4 := hc.2
    rw [← hsp] at h1 h2 p2 p4 ⊢
    have e1 := inj h1
    have e2 := inj h2
    subst e1 e2
    have q1 := idx ha.1 p4
    have q2 := idx p2 hc.1
    have : s.1 = t.1 := by omega
    have q3 := ha.1
    rw [this, hc.1] at q3
    cases q3
    exact ⟨rfl, rfl⟩

end

end Verif.Mixer
