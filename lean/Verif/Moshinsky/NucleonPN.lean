import Verif.Moshinsky.NucleonJJ

/-!
# Protons and neutrons

The states of two nucleons of given species, and the elements that the program computes between them as elements of the operator between
antisymmetrised states.
-/

namespace Verif.Moshinsky
open Verif MvPolynomial Osc Program H2
open Verif.SU2 hiding couple

/-! ## Specification -/

/-- Isospin of a nucleon: the projection of a proton is positive. -/
def kind (proton : Bool) : Fin 2 := if proton then 0 else 1

/-- Two nucleons of given species in orbitals coupled to `J M`. -/
noncomputable def pnState (x : JJState) (J : ℕ) (M : ℤ) (p p' : Bool) : Nucl := fun σ σ' τ τ' =>
  if τ = kind p ∧ τ' = kind p' then
    ∑ μ ∈ projs x.tj1, ∑ μ' ∈ projs x.tj2, cgd x.tj1 μ x.tj2 μ' (2 * J) (2 * M) •
      (spinor first ((x.N1 - x.l1) / 2) x.l1 x.tj1 μ σ * spinor second ((x.N2 - x.l2) / 2) x.l2 x.tj2 μ' σ')
  else 0

/-! ## Coupling coefficients by Racah's formula -/

theorem term_racah (a b c β α : ℤ) (k : ℕ) (hk : (k : ℤ) ≤ a) (ha : 0 ≤ a) : tTerm a b c β α k =
    (((if 0 ≤ a - k ∧ 0 ≤ β - k ∧ 0 ≤ α - k ∧ 0 ≤ b - β + k ∧ 0 ≤ c - α + k then
      (-1) ^ k / ((Nat.factorial k : ℚ) * (Nat.factorial (a - k).toNat : ℚ) * (Nat.factorial (β - k).toNat : ℚ) *
        (Nat.factorial (α - k).toNat : ℚ) * (Nat.factorial (b - β + k).toNat : ℚ) * (Nat.factorial (c - α + k).toNat : ℚ)) else 0) : ℚ) : ℝ) := by
  unfold tTerm
  split_ifs with h
  · obtain ⟨h1, h2, h3, h4, h5⟩ := h
    rw [rf_of_nonneg h1, rf_of_nonneg h2, rf_of_nonneg h3, rf_of_nonneg h4, rf_of_nonneg h5, rf_of_nonneg (by omega : (0 : ℤ) ≤ k), ← neg_one_pow_sgn]
    unfold ff
    push_cast
    rw [Int.toNat_natCast]
    field_simp
  · rw [Rat.cast_zero]
    by_cases h2 : 0 ≤ β - k
    · by_cases h3 : 0 ≤ α - k
      · by_cases h4 : 0 ≤ b - β + k
        · rw [rf_neg (i := c - α + k) (by omega)]
          ring
        · rw [rf_neg (i := b - β + k) (by omega)]
          ring
      · rw [rf_neg (i := α - k) (by omega)]
        ring
    · rw [rf_neg (i := β - k) (by omega)]
      ring

theorem cg_racah (j1 : ℕ) (m1 : ℤ) (j2 : ℕ) (m2 : ℤ) (J : ℕ) (M : ℤ) : Moshinsky.cg j1 m1 j2 m2 J M = Osc.cg j1 m1 j2 m2 J M := by
  by_cases h : m1 + m2 = M ∧ |(j1 : ℤ) - j2| ≤ J ∧ (J : ℤ) ≤ j1 + j2 ∧ |m1| ≤ j1 ∧ |m2| ≤ j2 ∧ |M| ≤ J
  · rw [Moshinsky.cg, if_pos h, Osc.cg, if_pos h.1]
    obtain ⟨rfl, h2, h3, h4, h5, h6⟩ := h
    rw [abs_le] at h2 h4 h5 h6
    have e1 : (cgSum j1 m1 j2 m2 J : ℝ) = tSum (j1 + j2 - J) (J + j1 - j2) (J + j2 - j1) (j1 - m1) (j2 + m2) := by
      unfold cgSum tSum
      rw [Rat.cast_sum]
      refine Finset.sum_bij' (fun k _ => (k : ℤ)) (fun k _ => k.toNat) ?_ ?_ ?_ ?_ ?_
      · intro k hk
        rw [Finset.mem_range] at hk
        rw [Finset.mem_Icc]
        omega
      · intro k hk
        rw [Finset.mem_Icc] at hk
        rw [Finset.mem_range]
        omega
      · intro k _
        exact Int.toNat_natCast k
      · intro k hk
        rw [Finset.mem_Icc] at hk
        exact Int.toNat_of_nonneg hk.1
      · intro k hk
        rw [Finset.mem_range] at hk
        rw [term_racah _ _ _ _ _ k (by omega) (by omega)]
        simp only [show (J : ℤ) + j1 - j2 - (j1 - m1) + k = J - j2 + m1 + k by ring, show (J : ℤ) + j2 - j1 - (j2 + m2) + k = J - j1 - m2 + k by ring]
    have e2 : √(cgNorm j1 m1 j2 m2 J (m1 + m2) : ℝ) = tri3 j1 j2 J * pr j1 m1 * pr j2 m2 * pr J (m1 + m2) := by
      unfold tri3 pr
      have hf : ∀ i, 0 ≤ ff i := fun i => (ff_pos i).le
      rw [← Real.sqrt_mul' _ (mul_nonneg (hf _) (hf _)), ← Real.sqrt_mul' _ (mul_nonneg (hf _) (hf _)), ← Real.sqrt_mul' _ (mul_nonneg (hf _) (hf _))]
      unfold cgNorm ff
      push_cast
      rw [show (J : ℤ) - j1 + j2 = J + j2 - j1 by ring]
      congr 1
      ring
    rw [e1, e2]
    ring
  · rw [Moshinsky.cg, if_neg h, cg_even]
    by_cases hM : m1 + m2 = M
    · by_cases ht : Coupled (2 * j1) (2 * j2) (2 * J)
      · rw [cgd_range]
        intro hc
        simp only [mem_projs] at hc
        apply h
        unfold Coupled at ht
        rw [abs_le] at *
        rw [abs_le, abs_le, abs_le]
        push_cast at ht hc
        omega
      · rw [cgd_triangle ht]
    · rw [cgd_of_ne (by omega)]

/-! ## Isospin -/

/-- States of given species in states of given isospin. -/
theorem pairSpin_complete (s s' τ τ' : Fin 2) (MT : ℤ) (h : 2 * MT = proj s + proj s') :
    ∑ T ∈ Finset.range 2, pairSpin T MT s s' * pairSpin T MT τ τ' = if τ = s ∧ τ' = s' then 1 else 0 := by
  have e : sums 1 1 = {0, 2} := by
    ext J
    rw [mem_sums, Coupled, abs_le, Finset.mem_insert, Finset.mem_singleton]
    omega
  have c := cgd_complete (proj_mem s) (proj_mem s') (proj_mem τ) (proj_mem τ')
  rw [e, Finset.sum_pair (by decide), collapse, collapse, ← h] at c
  rw [Finset.sum_range_succ, Finset.sum_range_one]
  unfold pairSpin
  rw [c]
  have i : ∀ a b : Fin 2, proj a = proj b ↔ b = a := by decide
  simp only [i]

/-- The coefficients of the expansion. -/
theorem pairSpin_expansion {sp : Species} {T : ℕ} (hT : T ≤ 1) :
    pairSpin T (projection sp) (kind (isProton sp).1) (kind (isProton sp).2) = expansion T (projection sp) := by
  have h : T = 0 ∨ T = 1 := by omega
  have i : Finset.Icc (0 : ℤ) 1 = {0, 1} := by decide
  have j : (0 : ℤ) ∉ ({1} : Finset ℤ) := by decide
  rcases h with rfl | rfl <;> cases sp <;>
    simp [i, Finset.sum_insert j, pairSpin, projection, isProton, kind, proj, expansion, cgd, trid, prd, tSum, tTerm, rf, ff, sgn]
  all_goals
    have e : √(2 + 1) / √((Nat.factorial 3 : ℕ) : ℝ) = (√2)⁻¹ := by
      rw [← Real.sqrt_div (by norm_num), ← Real.sqrt_inv]
      norm_num [Nat.factorial]
    rw [e]
  all_goals exact inv_mul_cancel₀ (by positivity)

theorem projection_eq (sp : Species) : 2 * projection sp = proj (kind (isProton sp).1) + proj (kind (isProton sp).2) := by
  cases sp <;> decide

/-- States of given species in states of given isospin. -/
theorem pn_expand (x : JJState) (J : ℕ) (M : ℤ) (sp : Species) : pnState x J M (isProton sp).1 (isProton sp).2 =
    ∑ T ∈ Finset.range 2, expansion T (projection sp) • jjState x J T M (projection sp) := by
  funext σ σ' τ τ'
  have c := pairSpin_complete _ _ τ τ' _ (projection_eq sp)
  have e : ∀ T ∈ Finset.range 2, expansion T (projection sp) = pairSpin T (projection sp) (kind (isProton sp).1) (kind (isProton sp).2) :=
    fun T hT => (pairSpin_expansion (by rw [Finset.mem_range] at hT; omega)).symm
  rw [Finset.sum_congr rfl fun T hT => by rw [e T hT]]
  simp only [Finset.sum_apply, Pi.smul_apply, jjState, smul_smul]
  rw [← Finset.sum_smul, c]
  unfold pnState
  split_ifs
  · rw [one_smul]
  · rw [zero_smul]

theorem expansion_zero {T : ℕ} {sp : Species} (h : ¬|projection sp| ≤ T) : expansion T (projection sp) = 0 := by
  unfold expansion
  have : projection sp = 1 ∨ projection sp = 0 ∨ projection sp = -1 := by cases sp <;> decide
  rw [abs_le] at h
  rw [if_neg (by omega), if_neg (by omega)]

/-! ## Property -/

/-- The elements between states of given species are those of the operator between antisymmetrised states. -/
theorem species_operator {env : ChainEnv} (hn : IsNine env.nine) (ha : Angular env.mosh)
    {t : Trunc} {J0 T0min T0max : ℕ} {M0 : ℤ} {A : ℕ → RCOp} {sp sp' : Species} {O : ℕ → Nucl →ₗ[ℝ] Nucl}
    (hO : ∀ T0, T0min ≤ T0 → T0 ≤ T0max → HasElements (O T0) t.N2max J0 T0 M0 (projection sp - projection sp') (A T0))
    {a b c d : Lab} (h1 : IsOrbital a) (h2 : IsOrbital b) (h3 : IsOrbital c) (h4 : IsOrbital d) (h12 : InTrunc t a.1 b.1) (h34 : InTrunc t c.1 d.1)
    {J g J' g' : ℕ} (hg : g = (a.1 + b.1) % 2) (hg' : g' = (c.1 + d.1) % 2) (i1 i2 i3 i4 : ℕ) (M M' : ℤ) :
    ∑ T0 ∈ Finset.Icc T0min T0max, inner (asym (pnState (jjOf a b) J M (isProton sp).1 (isProton sp).2))
        (O T0 (asym (pnState (jjOf c d) J' M' (isProton sp').1 (isProton sp').2))) =
      Osc.cg J' M' J0 M0 J M * wignerEckart (twoBody env t A) T0min T0max
        ⟨projection sp, J, g, []⟩ ⟨projection sp', J', g', []⟩ ⟨i1, i2, a, b⟩ ⟨i3, i4, c, d⟩ := by
  have i : Finset.Icc (0 : ℤ) 1 = {0, 1} := by decide
  have tw : ∀ f : ℤ → ℝ, ∑ T ∈ Finset.Icc (0 : ℤ) 1, f T = ∑ T ∈ Finset.range 2, f T := fun f => by
    rw [i, Finset.sum_pair (by decide), Finset.sum_range_succ, Finset.sum_range_one]
    rfl
  have tz : ∀ f : ℤ → ℝ, ∑ T ∈ Finset.Icc (T0min : ℤ) T0max, f T = ∑ T ∈ Finset.Icc T0min T0max, f T := fun f => by
    refine Finset.sum_bij' (fun k _ => k.toNat) (fun k _ => (k : ℤ)) ?_ ?_ ?_ ?_ ?_
    · intro k hk
      rw [Finset.mem_Icc] at *
      omega
    · intro k hk
      rw [Finset.mem_Icc] at *
      omega
    · intro k hk
      rw [Finset.mem_Icc] at hk
      exact Int.toNat_of_nonneg (by omega)
    · intro k _
      exact Int.toNat_natCast k
    · intro k hk
      rw [Finset.mem_Icc] at hk
      rw [Int.toNat_of_nonneg (by omega)]
  unfold wignerEckart
  simp only [tz, tw]
  rw [Finset.mul_sum]
  refine Finset.sum_congr rfl fun T0 hT0 => ?_
  rw [Finset.mem_Icc] at hT0
  have as : ∀ (c : ℕ → ℝ) (f : ℕ → Nucl), asym (∑ T ∈ Finset.range 2, c T • f T) = ∑ T ∈ Finset.range 2, c T • asym (f T) := by
    intro c f
    rw [← asymL_apply, map_sum]
    exact Finset.sum_congr rfl fun T _ => map_smul _ _ _
  rw [pn_expand, pn_expand, as, as, element_sums, Finset.mul_sum]
  refine Finset.sum_congr rfl fun T hT => ?_
  rw [Finset.mul_sum]
  refine Finset.sum_congr rfl fun T' hT' => ?_
  rw [Finset.mem_range] at hT hT'
  by_cases hM : |projection sp| ≤ T
  swap
  · rw [expansion_zero hM]
    ring
  by_cases hM' : |projection sp'| ≤ T'
  swap
  · rw [expansion_zero hM']
    ring
  rw [twobody_operator hn ha (A := A) (hO T0 hT0.1 hT0.2) h1 h2 h3 h4 h12 h34 (by omega) (by omega) hg hg' M M' hM hM', cg_racah]
  ring

end Verif.Moshinsky
