import Verif.Moshinsky.NucleonPN

/-!
# Normalisation of the states of two nucleons of given species
-/

namespace Verif.Moshinsky
open Verif MvPolynomial Osc Program H2
open Verif.SU2 hiding couple

/-- One nucleon with orbital angular momentum `l` and spin coupled to `j`. -/
noncomputable def spin1 (n l tj : ℕ) (μ : ℤ) (σ : Fin 2) : One := ∑ m ∈ Finset.Icc (-(l : ℤ)) l, cgd (2 * l) (2 * m) 1 (proj σ) tj μ • one n l m

theorem spinor_first (n l tj : ℕ) (μ : ℤ) (σ : Fin 2) : spinor first n l tj μ σ = onFirst (spin1 n l tj μ σ) := by
  unfold spinor spin1
  rw [map_sum]
  exact Finset.sum_congr rfl fun m _ => by rw [map_smul, single_first]

theorem spinor_second (n l tj : ℕ) (μ : ℤ) (σ : Fin 2) : spinor second n l tj μ σ = onSecond (spin1 n l tj μ σ) := by
  unfold spinor spin1
  rw [map_sum]
  exact Finset.sum_congr rfl fun m _ => by rw [map_smul, single_second]

/-- States of one nucleon are orthonormal. -/
theorem spin1_ortho {n l tj n' l' tj' : ℕ} {μ μ' : ℤ} (h : Coupled (2 * l) 1 tj) (hμ : μ ∈ projs tj) :
    ∑ σ, fock (spin1 n l tj μ σ) (spin1 n' l' tj' μ' σ) = if n = n' ∧ l = l' ∧ tj = tj' ∧ μ = μ' then 1 else 0 := by
  have e : ∀ σ, fock (spin1 n l tj μ σ) (spin1 n' l' tj' μ' σ) = if n = n' ∧ l = l' then
      ∑ m ∈ Finset.Icc (-(l : ℤ)) l, cgd (2 * l) (2 * m) 1 (proj σ) tj μ * cgd (2 * l) (2 * m) 1 (proj σ) tj' μ' else 0 := by
    intro σ
    unfold spin1
    rw [fock_sum_left]
    have e1 : ∀ m ∈ Finset.Icc (-(l : ℤ)) l, fock (cgd (2 * l) (2 * m) 1 (proj σ) tj μ • one n l m)
        (∑ m' ∈ Finset.Icc (-(l' : ℤ)) l', cgd (2 * l') (2 * m') 1 (proj σ) tj' μ' • one n' l' m') =
        if n = n' ∧ l = l' then cgd (2 * l) (2 * m) 1 (proj σ) tj μ * cgd (2 * l) (2 * m) 1 (proj σ) tj' μ' else 0 := by
      intro m hm
      rw [fock_sum_right]
      simp only [fock_smul_left, fock_smul_right]
      have hm' := hm
      rw [Finset.mem_Icc] at hm'
      simp only [one_ortho (abs_le.mpr hm')]
      split_ifs with hc
      · obtain ⟨rfl, rfl⟩ := hc
        rw [Finset.sum_eq_single_of_mem m hm]
        · simp
          ring
        · intro k _ hk
          rw [if_neg fun h => hk h.2.2.symm, mul_zero, mul_zero]
      · refine Finset.sum_eq_zero fun k _ => ?_
        rw [if_neg fun h => hc ⟨h.1, h.2.1⟩, mul_zero, mul_zero]
    rw [Finset.sum_congr rfl e1]
    split_ifs
    · rfl
    · exact Finset.sum_const_zero
  rw [Finset.sum_congr rfl fun σ _ => e σ]
  by_cases hc : n = n' ∧ l = l'
  · simp only [hc, true_and, if_true]
    rw [← hc.2, sum_proj fun ν => ∑ m ∈ Finset.Icc (-(l : ℤ)) l, cgd (2 * l) (2 * m) 1 ν tj μ * cgd (2 * l) (2 * m) 1 ν tj' μ', Finset.sum_comm,
      ← sum_even l fun m => ∑ ν ∈ projs 1, cgd (2 * l) m 1 ν tj μ * cgd (2 * l) m 1 ν tj' μ', cgd_ortho h hμ]
  · simp only [hc, if_false, Finset.sum_const_zero]
    rw [if_neg fun h => hc ⟨h.1, h.2.1⟩]

theorem inner_kind (u v : Fin 2 → Fin 2 → Two) (p p' q q' : Bool) :
    inner (fun σ σ' τ τ' => if τ = kind p ∧ τ' = kind p' then u σ σ' else 0) (fun σ σ' τ τ' => if τ = kind q ∧ τ' = kind q' then v σ σ' else 0) =
      if p = q ∧ p' = q' then ∑ σ, ∑ σ', fock (u σ σ') (v σ σ') else 0 := by
  unfold inner
  have z : ∀ w : Two, fock 0 w = 0 := fun w => by rw [← zero_smul ℝ (0 : Two), fock_smul_left, zero_mul]
  have z' : ∀ w : Two, fock w 0 = 0 := fun w => by rw [← zero_smul ℝ (0 : Two), fock_smul_right, zero_mul]
  cases p <;> cases p' <;> cases q <;> cases q' <;> simp [kind, Fin.sum_univ_two, z, z']

/-- Labels of two orbitals with spin. -/
structure IsSpin (x : JJState) : Prop where
  osc : IsJJ x
  first : Coupled (2 * x.l1) 1 x.tj1
  second : Coupled (2 * x.l2) 1 x.tj2

/-- States of two nucleons of given species, before antisymmetrisation, are orthonormal. -/
theorem pn_ortho {x x' : JJState} (hx : IsSpin x) (hx' : IsSpin x') {J J' : ℕ} (hJ : Tri x.tj1 x.tj2 (2 * J)) {M M' : ℤ} (hM : |M| ≤ J) (p p' q q' : Bool) :
    inner (pnState x J M p p') (pnState x' J' M' q q') = if (x, J, M, p, p') = (x', J', M', q, q') then 1 else 0 := by
  unfold pnState
  rw [inner_kind]
  have e : ∀ σ σ', fock (∑ μ ∈ projs x.tj1, ∑ μ' ∈ projs x.tj2, cgd x.tj1 μ x.tj2 μ' (2 * J) (2 * M) •
      (spinor first ((x.N1 - x.l1) / 2) x.l1 x.tj1 μ σ * spinor second ((x.N2 - x.l2) / 2) x.l2 x.tj2 μ' σ'))
      (∑ ν ∈ projs x'.tj1, ∑ ν' ∈ projs x'.tj2, cgd x'.tj1 ν x'.tj2 ν' (2 * J') (2 * M') •
        (spinor first ((x'.N1 - x'.l1) / 2) x'.l1 x'.tj1 ν σ * spinor second ((x'.N2 - x'.l2) / 2) x'.l2 x'.tj2 ν' σ')) =
      ∑ μ ∈ projs x.tj1, ∑ μ' ∈ projs x.tj2, ∑ ν ∈ projs x'.tj1, ∑ ν' ∈ projs x'.tj2,
        cgd x.tj1 μ x.tj2 μ' (2 * J) (2 * M) * cgd x'.tj1 ν x'.tj2 ν' (2 * J') (2 * M') *
        (fock (spin1 ((x.N1 - x.l1) / 2) x.l1 x.tj1 μ σ) (spin1 ((x'.N1 - x'.l1) / 2) x'.l1 x'.tj1 ν σ) *
        fock (spin1 ((x.N2 - x.l2) / 2) x.l2 x.tj2 μ' σ') (spin1 ((x'.N2 - x'.l2) / 2) x'.l2 x'.tj2 ν' σ')) := by
    intro σ σ'
    simp only [fock_sum_left, fock_smul_left]
    simp only [fock_sum_right, fock_smul_right, spinor_first, spinor_second, fock_prod, Finset.mul_sum]
    refine Finset.sum_congr rfl fun _ _ => Finset.sum_congr rfl fun _ _ => Finset.sum_congr rfl fun _ _ => Finset.sum_congr rfl fun _ _ => ?_
    ring
  have e2 : ∑ σ, ∑ σ', fock (∑ μ ∈ projs x.tj1, ∑ μ' ∈ projs x.tj2, cgd x.tj1 μ x.tj2 μ' (2 * J) (2 * M) •
      (spinor first ((x.N1 - x.l1) / 2) x.l1 x.tj1 μ σ * spinor second ((x.N2 - x.l2) / 2) x.l2 x.tj2 μ' σ'))
      (∑ ν ∈ projs x'.tj1, ∑ ν' ∈ projs x'.tj2, cgd x'.tj1 ν x'.tj2 ν' (2 * J') (2 * M') •
        (spinor first ((x'.N1 - x'.l1) / 2) x'.l1 x'.tj1 ν σ * spinor second ((x'.N2 - x'.l2) / 2) x'.l2 x'.tj2 ν' σ')) =
      ∑ μ ∈ projs x.tj1, ∑ μ' ∈ projs x.tj2, ∑ ν ∈ projs x'.tj1, ∑ ν' ∈ projs x'.tj2,
        cgd x.tj1 μ x.tj2 μ' (2 * J) (2 * M) * cgd x'.tj1 ν x'.tj2 ν' (2 * J') (2 * M') *
        (if x = x' ∧ μ = ν ∧ μ' = ν' then 1 else 0) := by
    simp only [e]
    simp only [Fin.sum_univ_two, ← Finset.sum_add_distrib]
    refine Finset.sum_congr rfl fun μ hμ => Finset.sum_congr rfl fun μ' hμ' => Finset.sum_congr rfl fun ν _ => Finset.sum_congr rfl fun ν' _ => ?_
    have s1 := spin1_ortho (n := (x.N1 - x.l1) / 2) (n' := (x'.N1 - x'.l1) / 2) (l' := x'.l1) (tj' := x'.tj1) (μ' := ν) hx.first hμ
    have s2 := spin1_ortho (n := (x.N2 - x.l2) / 2) (n' := (x'.N2 - x'.l2) / 2) (l' := x'.l2) (tj' := x'.tj2) (μ' := ν') hx.second hμ'
    have s3 : (if x = x' ∧ μ = ν ∧ μ' = ν' then (1 : ℝ) else 0) = (if (x.N1 - x.l1) / 2 = (x'.N1 - x'.l1) / 2 ∧ x.l1 = x'.l1 ∧ x.tj1 = x'.tj1 ∧ μ = ν then 1 else 0) *
        (if (x.N2 - x.l2) / 2 = (x'.N2 - x'.l2) / 2 ∧ x.l2 = x'.l2 ∧ x.tj2 = x'.tj2 ∧ μ' = ν' then 1 else 0) := by
      rw [delta_mul]
      refine if_congr ?_ rfl rfl
      have o1 := hx.osc
      have o2 := hx'.osc
      unfold IsJJ Moshinsky.Osc at o1 o2
      have ext : x = x' ↔ x.N1 = x'.N1 ∧ x.l1 = x'.l1 ∧ x.tj1 = x'.tj1 ∧ x.N2 = x'.N2 ∧ x.l2 = x'.l2 ∧ x.tj2 = x'.tj2 := by
        cases x
        cases x'
        exact Iff.of_eq (JJState.mk.injEq ..)
      rw [ext]
      omega
    rw [s3, ← s1, ← s2, Fin.sum_univ_two, Fin.sum_univ_two]
    ring
  rw [e2]
  by_cases hxx : x = x'
  swap
  · simp only [hxx, false_and, if_false, mul_zero, Finset.sum_const_zero, Prod.mk.injEq, ite_self]
  subst hxx
  simp only [true_and, Prod.mk.injEq]
  have e3 : ∀ μ ∈ projs x.tj1, ∀ μ' ∈ projs x.tj2, ∑ ν ∈ projs x.tj1, ∑ ν' ∈ projs x.tj2, cgd x.tj1 μ x.tj2 μ' (2 * J) (2 * M) *
      cgd x.tj1 ν x.tj2 ν' (2 * J') (2 * M') * (if μ = ν ∧ μ' = ν' then (1 : ℝ) else 0) =
      cgd x.tj1 μ x.tj2 μ' (2 * J) (2 * M) * cgd x.tj1 μ x.tj2 μ' (2 * J') (2 * M') := by
    intro μ hμ μ' hμ'
    rw [Finset.sum_eq_single_of_mem μ hμ, Finset.sum_eq_single_of_mem μ' hμ']
    · simp only [and_self, if_true, mul_one]
    · intro ν' _ h
      rw [if_neg fun h' => h h'.2.symm, mul_zero]
    · intro ν _ h
      refine Finset.sum_eq_zero fun ν' _ => ?_
      rw [if_neg fun h' => h h'.1.symm, mul_zero]
  rw [Finset.sum_congr rfl fun μ hμ => Finset.sum_congr rfl fun μ' hμ' => e3 μ hμ μ' hμ']
  rw [abs_le] at hM
  have o1 := hx.first
  have o2 := hx.second
  unfold Tri at hJ
  unfold Coupled at o1 o2
  rw [cgd_ortho (by unfold Coupled; rw [abs_le]; push_cast; omega) (by rw [mem_projs]; push_cast; omega)]
  rw [← ite_and]
  refine if_congr ?_ rfl rfl
  constructor
  · rintro ⟨⟨h1, h2⟩, h3, h4⟩
    exact ⟨by omega, by omega, h1, h2⟩
  · rintro ⟨h1, h2, h3, h4⟩
    exact ⟨⟨h3, h4⟩, by omega, by omega⟩

/-- Exchange of the two nucleons. -/
theorem swapped_pn (x : JJState) (J : ℕ) (M : ℤ) (p p' : Bool) :
    swapped (pnState x J M p p') = sgn (((x.tj1 : ℤ) + x.tj2) / 2 - J) • pnState x.flip J M p' p := by
  funext σ σ' τ τ'
  have z : exchanged 0 = 0 := map_zero _
  simp only [swapped, pnState, Pi.smul_apply]
  by_cases h : τ' = kind p ∧ τ = kind p'
  · rw [if_pos h, if_pos h.symm]
    simp only [exchanged_sum, exchanged_smul, exchanged_mul, exchanged_spinor_first, exchanged_spinor_second, Finset.smul_sum, smul_smul, JJState.flip]
    rw [Finset.sum_comm]
    refine Finset.sum_congr rfl fun μ' _ => Finset.sum_congr rfl fun μ _ => ?_
    rw [mul_comm (spinor second _ _ _ _ _), cgd_exchange, show ((x.tj1 : ℤ) + x.tj2 - (2 * J : ℕ)) / 2 = ((x.tj1 : ℤ) + x.tj2) / 2 - J by push_cast; omega]
  · rw [if_neg h, if_neg fun h' => h h'.symm, z, smul_zero]

theorem inner_swapped (u v : Nucl) : inner (swapped u) v = inner u (swapped v) := by
  have e : ∀ u v : Two, fock (exchanged u) v = fock u (exchanged v) := fun u v => by rw [← fock_exchanged, exchanged_twice]
  unfold inner swapped
  simp only [e, Fin.sum_univ_two]
  ring

/-- The scalar product of antisymmetrised states. -/
theorem inner_asym (u v : Nucl) : inner (asym u) (asym v) = inner u v - inner u (swapped v) := by
  have h2 : √2 * √2 = (2 : ℝ) := Real.mul_self_sqrt (by norm_num)
  have h0 : √2 ≠ (0 : ℝ) := by positivity
  have s : ∀ a b c d : Nucl, inner (a - b) (c - d) = inner a c - inner a d - inner b c + inner b d := fun a b c d => by
    simp only [← innerL_apply, map_sub, LinearMap.sub_apply]
    ring
  unfold asym
  rw [inner_smul_smul, s, inner_swapped, inner_swapped, swapped_twice]
  field_simp
  linear_combination (inner u (swapped v) - inner u v) * h2

theorem isSpin_of {a b : Lab} (ha : IsOrbital a) (hb : IsOrbital b) : IsSpin (jjOf a b) where
  osc := isJJ_of ha hb
  first := by
    unfold IsOrbital at ha
    show Coupled (2 * orbL a) 1 a.2
    unfold Coupled orbL
    rw [abs_le]
    split_ifs <;> push_cast <;> omega
  second := by
    unfold IsOrbital at hb
    show Coupled (2 * orbL b) 1 b.2
    unfold Coupled orbL
    rw [abs_le]
    split_ifs <;> push_cast <;> omega

theorem jjOf_inj {a b c d : Lab} : jjOf a b = jjOf c d ↔ a = c ∧ b = d := by
  constructor
  · intro h
    unfold jjOf at h
    rw [JJState.mk.injEq] at h
    exact ⟨Prod.ext h.1 h.2.2.1, Prod.ext h.2.2.2.1 h.2.2.2.2.2⟩
  · rintro ⟨rfl, rfl⟩
    rfl

/-- A normalised antisymmetrised state of two nucleons. -/
noncomputable def nasState (a b : Lab) (J : ℕ) (M : ℤ) (sp : Species) : Nucl :=
  (1 / √(1 + if sp ≠ .pn ∧ a = b then 1 else 0) : ℝ) • asym (pnState (jjOf a b) J M (isProton sp).1 (isProton sp).2)

/-- Two orbitals of two nucleons coupled to `J`: like nucleons in canonical order, and in the same orbital coupled to an even `J`. -/
structure IsPnPair (a b : Lab) (J : ℕ) (sp : Species) : Prop where
  left : IsOrbital a
  right : IsOrbital b
  momentum : Tri a.2 b.2 (2 * J)
  order : sp ≠ .pn → labLE a b
  pauli : sp ≠ .pn → a = b → J % 2 = 0

/-- **C170.**  With the factors `1/√(1+δ)` with which elements are written to a file, the antisymmetrised states of two nucleons are orthonormal. -/
theorem states_orthonormal {a b c d : Lab} {J J' : ℕ} {sp sp' : Species} (h : IsPnPair a b J sp) (h' : IsPnPair c d J' sp') {M M' : ℤ} (hM : |M| ≤ J) :
    inner (nasState a b J M sp) (nasState c d J' M' sp') = if (a, b, J, M, sp) = (c, d, J', M', sp') then 1 else 0 := by
  unfold nasState
  rw [inner_smul_smul, inner_asym, swapped_pn]
  have sm : ∀ (c : ℝ) (u v : Nucl), inner u (c • v) = c * inner u v := fun c u v => by
    rw [← innerL_apply, map_smul]
    rfl
  rw [sm, pn_ortho (isSpin_of h.left h.right) (isSpin_of h'.left h'.right) h.momentum hM,
    show (jjOf c d).flip = jjOf d c from rfl, pn_ortho (isSpin_of h.left h.right) (isSpin_of h'.right h'.left) h.momentum hM]
  simp only [Prod.mk.injEq, jjOf_inj]
  by_cases e : a = c ∧ b = d ∧ J = J' ∧ M = M' ∧ sp = sp'
  · rw [if_pos e]
    obtain ⟨rfl, rfl, rfl, rfl, rfl⟩ := e
    have d1 : (a = a ∧ b = b) ∧ J = J ∧ M = M ∧ (isProton sp).1 = (isProton sp).1 ∧ (isProton sp).2 = (isProton sp).2 := by simp
    rw [if_pos d1]
    by_cases hs : sp ≠ .pn ∧ a = b
    · obtain ⟨h1, rfl⟩ := hs
      have h2 : √(1 + 1) * √(1 + 1) = (1 + 1 : ℝ) := Real.mul_self_sqrt (by norm_num)
      have h3 : (isProton sp).1 = (isProton sp).2 := by
        cases sp
        · rfl
        · rfl
        · exact absurd rfl h1
      have hp := h.pauli h1 rfl
      have hl := h.left.1
      have d2 : (a = a ∧ a = a) ∧ J = J ∧ M = M ∧ (isProton sp).1 = (isProton sp).2 ∧ (isProton sp).2 = (isProton sp).1 := ⟨⟨rfl, rfl⟩, rfl, rfl, h3, h3.symm⟩
      have d3 : sp ≠ .pn ∧ a = a := ⟨h1, rfl⟩
      rw [if_pos d3, if_pos d2, show sgn ((((jjOf a a).tj1 : ℤ) + (jjOf a a).tj2) / 2 - J) = -1 from sgn_odd (by
        show (((a.2 : ℤ) + a.2) / 2 - J) % 2 = 1
        omega)]
      field_simp
      rw [sq, h2]
      norm_num
    · have d2 : ¬((a = b ∧ b = a) ∧ J = J ∧ M = M ∧ (isProton sp).1 = (isProton sp).2 ∧ (isProton sp).2 = (isProton sp).1) := by
        rintro ⟨⟨h1, -⟩, -, -, h3, -⟩
        refine hs ⟨?_, h1⟩
        rintro rfl
        exact absurd h3 (by decide)
      rw [if_neg hs, if_neg d2, add_zero, Real.sqrt_one]
      norm_num
  · have d1 : ¬((a = c ∧ b = d) ∧ J = J' ∧ M = M' ∧ (isProton sp).1 = (isProton sp').1 ∧ (isProton sp).2 = (isProton sp').2) := by
      rintro ⟨⟨h1, h2⟩, h3, h4, h5, h6⟩
      exact e ⟨h1, h2, h3, h4, by revert h5 h6; cases sp <;> cases sp' <;> decide⟩
    have d2 : ¬((a = d ∧ b = c) ∧ J = J' ∧ M = M' ∧ (isProton sp).1 = (isProton sp').2 ∧ (isProton sp).2 = (isProton sp').1) := by
      rintro ⟨⟨h1, h2⟩, h3, h4, h5, h6⟩
      have hs : sp = sp' ∧ sp ≠ .pn := by revert h5 h6; cases sp <;> cases sp' <;> decide
      have o1 := h.order hs.2
      have o2 := h'.order (hs.1 ▸ hs.2)
      subst h1 h2
      have hab : a = b := by
        unfold labLE at o1 o2
        exact Prod.ext (by omega) (by omega)
      exact e ⟨hab, hab.symm, h3, h4, hs.1⟩
    rw [if_neg e, if_neg d1, if_neg d2]
    ring

/-- Protons in `0s1/2`. -/
example : IsPnPair (0, 1) (0, 1) 0 .pp := ⟨by unfold IsOrbital; decide, by unfold IsOrbital; decide, by decide, fun _ => by unfold labLE; decide, fun _ _ => rfl⟩

/-- A proton in `0s1/2` and a neutron in `0p3/2`. -/
example : IsPnPair (0, 1) (1, 3) 2 .pn := ⟨by unfold IsOrbital; decide, by unfold IsOrbital; decide, by decide, fun h => absurd rfl h, fun h => absurd rfl h⟩

end Verif.Moshinsky
