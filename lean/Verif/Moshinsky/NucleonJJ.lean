import Verif.Moshinsky.NucleonSwap

/-!
# Two nucleons in orbitals

Exchange of the two orbitals, states without a pair in canonical order, and the elements of the two-body operator in the `jjJT` scheme as
elements between antisymmetrised states.
-/

namespace Verif.Moshinsky
open Verif MvPolynomial Osc Program
open Verif.SU2 hiding couple

/-! ## Exchange -/

/-- The orbitals of a `jj` state in the other order. -/
def JJState.flip (x : JJState) : JJState := ⟨x.N2, x.l2, x.tj2, x.N1, x.l1, x.tj1⟩

theorem exchanged_single_first (n l : ℕ) (m : ℤ) : exchanged (single first n l m) = single second n l m := by
  show rename swapE _ = _
  rw [single, map_osc]
  simp only [swap_first]
  rfl

theorem exchanged_single_second (n l : ℕ) (m : ℤ) : exchanged (single second n l m) = single first n l m := by
  show rename swapE _ = _
  rw [single, map_osc]
  simp only [swap_second]
  rfl

theorem exchanged_sum {ι : Type*} (s : Finset ι) (f : ι → Two) : exchanged (∑ i ∈ s, f i) = ∑ i ∈ s, exchanged (f i) := map_sum _ _ _

theorem exchanged_smul (c : ℝ) (u : Two) : exchanged (c • u) = c • exchanged u := map_smul _ _ _

theorem exchanged_mul (u v : Two) : exchanged (u * v) = exchanged u * exchanged v := map_mul _ _ _

theorem exchanged_spinor_first (n l tj : ℕ) (μ : ℤ) (σ : Fin 2) : exchanged (spinor first n l tj μ σ) = spinor second n l tj μ σ := by
  unfold spinor
  rw [exchanged_sum]
  exact Finset.sum_congr rfl fun m _ => by rw [exchanged_smul, exchanged_single_first]

theorem exchanged_spinor_second (n l tj : ℕ) (μ : ℤ) (σ : Fin 2) : exchanged (spinor second n l tj μ σ) = spinor first n l tj μ σ := by
  unfold spinor
  rw [exchanged_sum]
  exact Finset.sum_congr rfl fun m _ => by rw [exchanged_smul, exchanged_single_second]

/-- Exchange of the two nucleons. -/
theorem swapped_jj (x : JJState) (J T : ℕ) (M MT : ℤ) :
    swapped (jjState x J T M MT) = (sgn (T + 1) * sgn (((x.tj1 : ℤ) + x.tj2) / 2 - J)) • jjState x.flip J T M MT := by
  funext σ σ' τ τ'
  simp only [swapped, jjState, exchanged_smul, exchanged_sum, exchanged_mul, exchanged_spinor_first, exchanged_spinor_second, Pi.smul_apply]
  rw [pairSpin_exchange, neg_one_pow_sgn, smul_smul, Finset.sum_comm]
  simp only [Finset.smul_sum, smul_smul, JJState.flip]
  refine Finset.sum_congr rfl fun μ' _ => Finset.sum_congr rfl fun μ _ => ?_
  rw [mul_comm (spinor second _ _ _ _ _), cgd_exchange, show ((x.tj1 : ℤ) + x.tj2 - (2 * J : ℕ)) / 2 = ((x.tj1 : ℤ) + x.tj2) / 2 - J by push_cast; omega]
  congr 1
  push_cast
  ring

theorem swapped_twice (u : Nucl) : swapped (swapped u) = u := by
  funext σ σ' τ τ'
  exact exchanged_twice _

theorem asym_swapped (u : Nucl) : asym (swapped u) = -asym u := by
  unfold asym
  rw [swapped_twice, ← smul_neg, neg_sub]

/-- The antisymmetrised state of the orbitals in the other order. -/
theorem asym_flip (x : JJState) (J T : ℕ) (M MT : ℤ) :
    asym (jjState x.flip J T M MT) = sgn (((x.tj1 : ℤ) + x.tj2) / 2 + J + T) • asym (jjState x J T M MT) := by
  have h := asym_swapped (jjState x J T M MT)
  rw [swapped_jj, ← asymL_apply, map_smul, asymL_apply] at h
  have e : sgn (T + 1) * sgn (((x.tj1 : ℤ) + x.tj2) / 2 - J) = -sgn (((x.tj1 : ℤ) + x.tj2) / 2 + J + T) := by
    rw [sgn_add_one, sgn_parity (show (((x.tj1 : ℤ) + x.tj2) / 2 - J) % 2 = (((x.tj1 : ℤ) + x.tj2) / 2 + J) % 2 by omega), neg_mul, sgn_mul_sgn, add_comm (T : ℤ)]
  rw [e] at h
  rw [neg_smul, neg_inj] at h
  rw [← h, smul_smul, sgn_mul_self, one_smul]

/-- States of angular momenta that do not couple. -/
theorem jj_zero {x : JJState} {J : ℕ} (h : ¬Tri x.tj1 x.tj2 (2 * J)) (T : ℕ) (M MT : ℤ) : jjState x J T M MT = 0 := by
  funext σ σ' τ τ'
  show pairSpin T MT τ τ' • ∑ μ ∈ projs x.tj1, ∑ μ' ∈ projs x.tj2, cgd x.tj1 μ x.tj2 μ' (2 * J) (2 * M) • _ = (0 : Two)
  rw [Finset.sum_eq_zero, smul_zero]
  intro μ _
  refine Finset.sum_eq_zero fun μ' _ => ?_
  rw [cgd_triangle, zero_smul]
  intro hc
  apply h
  unfold Coupled at hc
  unfold Tri
  rw [abs_le] at hc
  omega

/-! ## Orbitals -/

/-- An orbital `(N,2j)` of the oscillator shell model. -/
def IsOrbital (a : Lab) : Prop := a.2 % 2 = 1 ∧ a.2 ≤ 2 * a.1 + 1

theorem isJJ_of {a b : Lab} (ha : IsOrbital a) (hb : IsOrbital b) : IsJJ (jjOf a b) := by
  unfold IsJJ jjOf Moshinsky.Osc orbL IsOrbital at *
  dsimp only
  constructor <;> split_ifs <;> omega

/-- Antisymmetrised states, in terms of the pair in canonical order. -/
theorem asym_ordered {t : Trunc} {a b : Lab} (ha : IsOrbital a) (hb : IsOrbital b) (ht : InTrunc t a.1 b.1) {J T g : ℕ} (hT : T ≤ 1)
    (hg : g = (a.1 + b.1) % 2) (M MT : ℤ) :
    asym (jjState (jjOf a b) J T M MT) = (ordered t (J, T, g) a b).1 • asym (jjState (ordered t (J, T, g) a b).2 J T M MT) := by
  classical
  unfold ordered
  simp only [Int.toNat_natCast]
  rw [if_neg (by omega)]
  split_ifs with h1 h2
  · rw [one_smul]
  · have := asym_flip (jjOf b a) J T M MT
    rw [show (jjOf b a).flip = jjOf a b from rfl] at this
    rw [this]
    rfl
  · rw [zero_smul]
    by_cases h : Tri a.2 b.2 (2 * J)
    swap
    · rw [jj_zero (x := jjOf a b) h, ← asymL_apply, map_zero]
    have h' : Tri b.2 a.2 (2 * J) := by unfold Tri at *; omega
    have ht' : InTrunc t b.1 a.1 := by unfold InTrunc at *; omega
    have hab : a = b ∧ (J + T) % 2 = 0 := by
      by_contra hc
      by_cases he : a = b
      · subst he
        exact h1 ⟨ha.1, hb.1, ha.2, hb.2, ht, hg, hT, h, by unfold labLE; omega, fun _ => by simp only [true_and] at hc; show (J + T) % 2 = 1; omega⟩
      · rcases labLE_total a b with ho | ho
        · exact h1 ⟨ha.1, hb.1, ha.2, hb.2, ht, hg, hT, h, ho, fun e => absurd e he⟩
        · exact h2 ⟨hb.1, ha.1, hb.2, ha.2, ht', by rw [add_comm]; exact hg, hT, h', ho, fun e => absurd e.symm he⟩
    obtain ⟨rfl, hp⟩ := hab
    have := asym_flip (jjOf a a) J T M MT
    rw [show (jjOf a a).flip = jjOf a a from rfl, show sgn ((((jjOf a a).tj1 : ℤ) + (jjOf a a).tj2) / 2 + J + T) = -1 from sgn_odd (by
      have := ha.1
      show (((a.2 : ℤ) + a.2) / 2 + J + T) % 2 = 1
      omega)] at this
    rw [neg_smul, one_smul] at this
    exact self_eq_neg.mp this

/-! ## The two-body operator -/

theorem ordered_cases (t : Trunc) (q : Int × Int × Int) (a b : Lab) : (ordered t q a b).2 = jjOf a b ∨ (ordered t q a b).2 = jjOf b a := by
  classical
  unfold ordered
  split_ifs
  exacts [.inl rfl, .inl rfl, .inr rfl, .inl rfl]

theorem inner_smul_smul (c d : ℝ) (u v : Nucl) : inner (c • u) (d • v) = c * d * inner u v := by
  unfold inner
  simp only [Pi.smul_apply, fock_smul_left, fock_smul_right, Finset.mul_sum]
  refine Finset.sum_congr rfl fun _ _ => Finset.sum_congr rfl fun _ _ => Finset.sum_congr rfl fun _ _ => Finset.sum_congr rfl fun _ _ => ?_
  ring

/-- The elements of the two-body operator in the `jjJT` scheme are those between antisymmetrised states, up to the coupling coefficients
of the Wigner-Eckart theorem. -/
theorem twobody_operator {env : ChainEnv} (hn : IsNine env.nine) (ha : Angular env.mosh)
    {O : Nucl →ₗ[ℝ] Nucl} {t : Trunc} {J0 T0 : ℕ} {M0 MT0 : ℤ} {A : ℕ → RCOp} (hO : HasElements O t.N2max J0 T0 M0 MT0 (A T0))
    {a b c d : Lab} (h1 : IsOrbital a) (h2 : IsOrbital b) (h3 : IsOrbital c) (h4 : IsOrbital d) (h12 : InTrunc t a.1 b.1) (h34 : InTrunc t c.1 d.1)
    {J T g J' T' g' : ℕ} (hT : T ≤ 1) (hT' : T' ≤ 1) (hg : g = (a.1 + b.1) % 2) (hg' : g' = (c.1 + d.1) % 2) (M M' : ℤ) {MT MT' : ℤ}
    (hM : |MT| ≤ T) (hM' : |MT'| ≤ T') :
    inner (asym (jjState (jjOf a b) J T M MT)) (O (asym (jjState (jjOf c d) J' T' M' MT'))) =
      Osc.cg J' M' J0 M0 J M * Osc.cg T' MT' T0 MT0 T MT *
        twoBody env t A T0 (J, T, g) a b (J', T', g') c d := by
  have key : ∀ {a b : Lab}, IsOrbital a → IsOrbital b → InTrunc t a.1 b.1 → ∀ q, IsJJ (ordered t q a b).2 ∧ (ordered t q a b).2.N1 + (ordered t q a b).2.N2 ≤ t.N2max := by
    intro a b ha hb hab q
    unfold InTrunc at hab
    rcases ordered_cases t q a b with h | h <;> rw [h]
    · exact ⟨isJJ_of ha hb, by show a.1 + b.1 ≤ _; omega⟩
    · exact ⟨isJJ_of hb ha, by show b.1 + a.1 ≤ _; omega⟩
  have spin : ∀ {J T : ℕ} {x : JJState} {c : ℕ × ℕ}, c ∈ lsOf J T x → c.2 ≤ 1 ∧ Tri c.1 c.2 J := by
    intro J T x c hc
    rw [lsOf, Finset.mem_filter, Finset.mem_product, Finset.mem_range, Finset.mem_range] at hc
    exact ⟨by omega, hc.2.2.1⟩
  have k1 := key h1 h2 h12 (J, T, g)
  have k2 := key h3 h4 h34 (J', T', g')
  rw [asym_ordered h1 h2 h12 hT hg, asym_ordered h3 h4 h34 hT' hg', map_smul, inner_smul_smul]
  unfold twoBody
  simp only [Int.toNat_natCast]
  rw [jj_operator (q := ⟨J, T, g⟩) (q' := ⟨J', T', g'⟩) hn ha O (A T0) (Osc.cg J' M' J0 M0 J M * Osc.cg T' MT' T0 MT0 T MT) k1.1 k2.1
    (fun e he f hf r hr' s hs => hO ⟨e.1, e.2, J, T⟩ ⟨f.1, f.2, J', T'⟩ _ _ r s M M' MT MT' k1.2 k2.2 (spin he).1 hT (spin hf).1 hT' (spin he).2 (spin hf).2 hr' hs hM hM')]
  ring

end Verif.Moshinsky
