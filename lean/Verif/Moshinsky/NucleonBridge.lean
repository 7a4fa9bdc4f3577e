import Verif.Relative.TrueReduced
import Verif.Moshinsky.NucleonNorm
import Verif.Moshinsky.NucleonRel

/-!
# Operators on relative motion, spins and isospins

An operator on the states of two nucleons that leaves the centre-of-mass motion as it is and has elements `A` between products of relative
motion, spins and isospins (`Cfg` of `Relative/States.lean`) is an operator on the relative motion with the reduced elements of `A`.
-/

namespace Verif.Moshinsky
open Verif MvPolynomial Osc Program
open Verif.SU2 hiding couple
open Verif.Relative (Cfg RelSub cgD couple_cgD Reduced IsTensor IsHermitian redValue)

/-! ## Specification -/

/-- Two spins, or isospins, with given projections. -/
def spins (σ σ' : Fin 2) (a b : Fin 2) : ℝ := if a = σ ∧ b = σ' then 1 else 0

/-- Relative motion `(Nr,lr,m)`, centre-of-mass motion `(Nc,lc,mc)`, spins `σ`, `σ'` and isospins `τ`, `τ'`. -/
noncomputable def prodState (r : LSPair) (m mc : ℤ) (σ σ' τ τ' : Fin 2) : Nucl :=
  ten (single relative ((r.1 - r.2.1) / 2) r.2.1 m * single centre ((r.2.2.1 - r.2.2.2) / 2) r.2.2.2 mc) (spins σ σ') (spins τ τ')

/-- The same, without the centre-of-mass motion. -/
def cfg (r : LSPair) (m : ℤ) (σ σ' τ τ' : Fin 2) : Cfg := ⟨(r.1 - r.2.1) / 2, r.2.1, 2 * m, proj σ, proj σ', proj τ, proj τ'⟩

/-- `O` has the elements `A` between states of up to `Nmax` quanta, and leaves the centre-of-mass motion as it is. -/
def ActsAs (O : Nucl →ₗ[ℝ] Nucl) (Nmax : ℕ) (A : Cfg → Cfg → ℝ) : Prop :=
  ∀ (r r' : LSPair) (m mc m' mc' : ℤ) (σ σ' τ τ' a a' b b' : Fin 2), Moshinsky.Osc r.1 r.2.1 → Moshinsky.Osc r.2.2.1 r.2.2.2 →
    Moshinsky.Osc r'.1 r'.2.1 → Moshinsky.Osc r'.2.2.1 r'.2.2.2 → r.1 + r.2.2.1 ≤ Nmax → r'.1 + r'.2.2.1 ≤ Nmax →
    |m| ≤ r.2.1 → |mc| ≤ r.2.2.2 → |m'| ≤ r'.2.1 → |mc'| ≤ r'.2.2.2 →
    inner (prodState r m mc σ σ' τ τ') (O (prodState r' m' mc' a a' b b')) =
      if (r.2.2, mc) = (r'.2.2, mc') then A (cfg r m σ σ' τ τ') (cfg r' m' a a' b b') else 0

/-- The reduced elements of an operator on the relative motion, by the labels of the program. -/
noncomputable def relElements (J0 T0 : ℕ) (A : Int → Int → Cfg → Cfg → ℝ) : RelRME := fun b N b' N' =>
  redValue J0 T0 A ⟨b.1.toNat, b.2.1.toNat, b.2.2.1.toNat, b.2.2.2.toNat, 0, 0⟩ ⟨b'.1.toNat, b'.2.1.toNat, b'.2.2.1.toNat, b'.2.2.2.toNat, 0, 0⟩
    ((N - b.1) / 2).toNat ((N' - b'.1) / 2).toNat

/-! ## Lemmas -/

/-- A state is linear in the amplitudes of the spins. -/
noncomputable def spinL (u : Two) (y : Fin 2 → Fin 2 → ℝ) : (Fin 2 → Fin 2 → ℝ) →ₗ[ℝ] Nucl where
  toFun x := ten u x y
  map_add' x x' := by
    funext σ σ' τ τ'
    simp only [ten, Pi.add_apply, add_mul, add_smul]
  map_smul' c x := by
    funext σ σ' τ τ'
    simp only [ten, Pi.smul_apply, smul_eq_mul, RingHom.id_apply, smul_smul, mul_assoc]

/-- A state is linear in the amplitudes of the isospins. -/
noncomputable def isoL (u : Two) (x : Fin 2 → Fin 2 → ℝ) : (Fin 2 → Fin 2 → ℝ) →ₗ[ℝ] Nucl where
  toFun y := ten u x y
  map_add' y y' := by
    funext σ σ' τ τ'
    simp only [ten, Pi.add_apply, mul_add, add_smul]
  map_smul' c y := by
    funext σ σ' τ τ'
    simp only [ten, Pi.smul_apply, smul_eq_mul, RingHom.id_apply, smul_smul]
    congr 1
    ring

theorem spins_expand (x : Fin 2 → Fin 2 → ℝ) : x = ∑ i : Fin 2 × Fin 2, x i.1 i.2 • spins i.1 i.2 := by
  funext a b
  rw [Finset.sum_apply, Finset.sum_apply, Finset.sum_eq_single_of_mem (a, b) (Finset.mem_univ _)]
  · simp [spins]
  · rintro ⟨c, d⟩ _ hne
    simp only [Pi.smul_apply, spins, smul_eq_mul]
    rw [if_neg, mul_zero]
    rintro ⟨rfl, rfl⟩
    exact hne rfl

/-- Elements between states with coupled spins. -/
theorem pair_stage (O : Nucl →ₗ[ℝ] Nucl) (f g : (Fin 2 → Fin 2 → ℝ) →ₗ[ℝ] Nucl) (S S' : ℕ) (m m' : ℤ) (F : ℤ → ℤ → ℤ → ℤ → ℝ)
    (hF : ∀ σ σ' a a', inner (f (spins σ σ')) (O (g (spins a a'))) = F (proj σ) (proj σ') (proj a) (proj a')) :
    inner (f (pairSpin S m)) (O (g (pairSpin S' m'))) = Relative.couple cgD 1 1 (2 * S) 1 1 (2 * S') F (2 * m) (2 * m') := by
  rw [spins_expand (pairSpin S m), spins_expand (pairSpin S' m'), map_sum f, map_sum g]
  simp only [map_smul f, map_smul g]
  rw [element_sums, couple_cgD]
  simp only [Fintype.sum_prod_type, hF, pairSpin]
  rw [← sum_proj]
  refine Finset.sum_congr rfl fun σ _ => ?_
  rw [← sum_proj]
  refine Finset.sum_congr rfl fun σ' _ => ?_
  rw [← sum_proj]
  refine Finset.sum_congr rfl fun a _ => ?_
  rw [← sum_proj]

/-- Elements between states of relative motion, coupled. -/
theorem acts_element {O : Nucl →ₗ[ℝ] Nucl} {Nmax : ℕ} {A : Cfg → Cfg → ℝ} (hO : ActsAs O Nmax A) {r r' : LSPair} {S Jr T S' Jr' T' : ℕ}
    {mr mc MT mr' mc' MT' : ℤ} (h1 : Moshinsky.Osc r.1 r.2.1) (h2 : Moshinsky.Osc r.2.2.1 r.2.2.2) (h3 : Moshinsky.Osc r'.1 r'.2.1)
    (h4 : Moshinsky.Osc r'.2.2.1 r'.2.2.2) (hN : r.1 + r.2.2.1 ≤ Nmax) (hN' : r'.1 + r'.2.2.1 ≤ Nmax) (hc : |mc| ≤ r.2.2.2) (hc' : |mc'| ≤ r'.2.2.2) :
    inner (relCM r S Jr T mr mc MT) (O (relCM r' S' Jr' T' mr' mc' MT')) = if (r.2.2, mc) = (r'.2.2, mc') then
      Relative.element cgD A ⟨r.2.1, S, Jr, T, 0, 0⟩ ⟨r'.2.1, S', Jr', T', 0, 0⟩ ((r.1 - r.2.1) / 2) ((r'.1 - r'.2.1) / 2) (2 * mr) (2 * mr') (2 * MT) (2 * MT')
      else 0 := by
  have key : ∀ m ∈ Finset.Icc (-(r.2.1 : ℤ)) r.2.1, ∀ mS : ℤ, ∀ m' ∈ Finset.Icc (-(r'.2.1 : ℤ)) r'.2.1, ∀ mS' : ℤ,
      inner (ten (single relative ((r.1 - r.2.1) / 2) r.2.1 m * single centre ((r.2.2.1 - r.2.2.2) / 2) r.2.2.2 mc) (pairSpin S mS) (pairSpin T MT))
        (O (ten (single relative ((r'.1 - r'.2.1) / 2) r'.2.1 m' * single centre ((r'.2.2.1 - r'.2.2.2) / 2) r'.2.2.2 mc') (pairSpin S' mS') (pairSpin T' MT'))) =
      if (r.2.2, mc) = (r'.2.2, mc') then Relative.couple cgD 1 1 (2 * S) 1 1 (2 * S') (fun a' b' a b => Relative.couple cgD 1 1 (2 * T) 1 1 (2 * T') (fun c' d' c d =>
        A ⟨(r.1 - r.2.1) / 2, r.2.1, 2 * m, a', b', c', d'⟩ ⟨(r'.1 - r'.2.1) / 2, r'.2.1, 2 * m', a, b, c, d⟩) (2 * MT) (2 * MT')) (2 * mS) (2 * mS') else 0 := by
    intro m hm mS m' hm' mS'
    rw [Finset.mem_Icc, ← abs_le] at hm hm'
    set u := single relative ((r.1 - r.2.1) / 2) r.2.1 m * single centre ((r.2.2.1 - r.2.2.2) / 2) r.2.2.2 mc with hu
    set v := single relative ((r'.1 - r'.2.1) / 2) r'.2.1 m' * single centre ((r'.2.2.1 - r'.2.2.2) / 2) r'.2.2.2 mc' with hv
    by_cases hh : (r.2.2, mc) = (r'.2.2, mc')
    · rw [if_pos hh]
      refine pair_stage O (spinL u (pairSpin T MT)) (spinL v (pairSpin T' MT')) S S' mS mS' _ fun σ σ' a a' => ?_
      refine pair_stage O (isoL u (spins σ σ')) (isoL v (spins a a')) T T' MT MT' _ fun τ τ' b b' => ?_
      refine (hO r r' m mc m' mc' σ σ' τ τ' a a' b b' h1 h2 h3 h4 hN hN' hm hc hm' hc').trans ?_
      rw [if_pos hh]
      rfl
    · rw [if_neg hh]
      refine (pair_stage O (spinL u (pairSpin T MT)) (spinL v (pairSpin T' MT')) S S' mS mS' (fun _ _ _ _ => 0) fun σ σ' a a' => ?_).trans (Relative.couple_zero _ _)
      refine (pair_stage O (isoL u (spins σ σ')) (isoL v (spins a a')) T T' MT MT' (fun _ _ _ _ => 0) fun τ τ' b b' => ?_).trans (Relative.couple_zero _ _)
      refine (hO r r' m mc m' mc' σ σ' τ τ' a a' b b' h1 h2 h3 h4 hN hN' hm hc hm' hc').trans ?_
      rw [if_neg hh]
  unfold relCM
  rw [element_couple]
  rw [Finset.sum_congr rfl fun m hm => Finset.sum_congr rfl fun mS _ => Finset.sum_congr rfl fun m' hm' => Finset.sum_congr rfl fun mS' _ => by
    rw [key m hm mS m' hm' mS']]
  by_cases hh : (r.2.2, mc) = (r'.2.2, mc')
  · simp only [if_pos hh]
    rw [Relative.element, couple_cgD, sum_even]
    refine Finset.sum_congr rfl fun m _ => ?_
    rw [sum_even]
    refine Finset.sum_congr rfl fun mS _ => ?_
    rw [sum_even]
    refine Finset.sum_congr rfl fun m' _ => ?_
    rw [sum_even]
    refine Finset.sum_congr rfl fun mS' _ => ?_
    rw [cg_even, cg_even]
  · simp only [if_neg hh, mul_zero, Finset.sum_const_zero]

/-! ## The operator on the relative motion -/

theorem relElements_nat (J0 T0 : ℕ) (A : Int → Int → Cfg → Cfg → ℝ) (l S J T N l' S' J' T' N' : ℕ) : relElements J0 T0 A (l, S, J, T) N (l', S', J', T') N' =
    redValue J0 T0 A ⟨l, S, J, T, 0, 0⟩ ⟨l', S', J', T', 0, 0⟩ ((N - l) / 2) ((N' - l') / 2) := by
  unfold relElements
  simp only [Int.toNat_natCast]
  congr 1 <;> omega

/-- Reduced elements of Hermitian operators follow by exchange of bra and ket. -/
theorem relElements_sym {J0 T0 : ℕ} {A : Int → Int → Cfg → Cfg → ℝ} (hA : IsHermitian J0 T0 A) (T : ℕ) : RelSym (fun _ => roseSwap) T (relElements J0 T0 A) := by
  intro l S J T N l' S' J' T' N'
  rw [relElements_nat, relElements_nat]
  exact Relative.redValue_turn hA _ _ _ _

/-- Component `M0`, `MT0` of the operator with components `A`. -/
def component (J0 T0 : ℕ) (A : Int → Int → Cfg → Cfg → ℝ) (M0 MT0 : ℤ) (c' c : Cfg) : ℝ := if |M0| ≤ J0 ∧ |MT0| ≤ T0 then A (2 * M0) (2 * MT0) c' c else 0

theorem acts_relative {O : Nucl →ₗ[ℝ] Nucl} {Nmax : ℕ} {J0 T0 : ℕ} {M0 MT0 : ℤ} {A : Int → Int → Cfg → Cfg → ℝ} (hA : IsTensor J0 T0 A)
    (hO : ActsAs O Nmax (component J0 T0 A M0 MT0)) {Jmax : Int} (hJ : (Nmax : Int) + 1 ≤ Jmax) :
    IsRelative O Nmax Jmax J0 T0 M0 MT0 (relElements J0 T0 A) := by
  intro r r' S Jr T S' Jr' T' mr mc MT mr' mc' MT' h h' hN hN' hm hc hMT hm' hc' hMT'
  rw [acts_element hO h.rel h.cm h'.rel h'.cm hN hN' hc hc']
  have j1 : (Jr : Int) ≤ Jmax := by
    have h1 := h.momentum
    have h2 := h.rel.1
    have h3 := h.spin
    unfold Tri at h1
    omega
  have j2 : (Jr' : Int) ≤ Jmax := by
    have h1 := h'.momentum
    have h2 := h'.rel.1
    have h3 := h'.spin
    unfold Tri at h1
    omega
  by_cases hh : (r.2.2, mc) = (r'.2.2, mc')
  swap
  · rw [if_neg hh, if_neg fun k => hh k.1]
  rw [if_pos hh, if_pos ⟨hh, j1, j2⟩, relElements_nat]
  by_cases hM : |M0| ≤ J0 ∧ |MT0| ≤ T0
  · have e : component J0 T0 A M0 MT0 = A (2 * M0) (2 * MT0) := by
      funext c' c
      exact if_pos hM
    have mem : ∀ {j : ℕ} {m : ℤ}, |m| ≤ j → 2 * m ∈ Relative.ms (2 * j) := fun hm => by
      rw [Relative.ms_eq, even_mem, Finset.mem_Icc, ← abs_le]
      exact hm
    have w := Relative.element_redValue (hA ⟨r.2.1, S, Jr, T, 0, 0⟩ ⟨r'.2.1, S', Jr', T', 0, 0⟩ h.spin h.isospin h'.spin h'.isospin ((r.1 - r.2.1) / 2) ((r'.1 - r'.2.1) / 2))
      (2 * mr) (mem hm) (2 * M0) (mem hM.1) (2 * mr') (mem hm') (2 * MT) (mem hMT) (2 * MT0) (mem hM.2) (2 * MT') (mem hMT')
    rw [e, w, Relative.cgD_nat, Relative.cgD_nat, cg_even, cg_even]
  · have e : component J0 T0 A M0 MT0 = fun _ _ => 0 := by
      funext c' c
      exact if_neg hM
    rw [e, Relative.element_zero]
    have out : ∀ {j k J : ℕ} {m q M : ℤ}, ¬ |q| ≤ k → Osc.cg j m k q J M = 0 := fun {j k J m q M} hq => by
      rw [cg_even, cgd_range]
      rintro ⟨-, h2, -⟩
      rw [even_mem, Finset.mem_Icc, ← abs_le] at h2
      exact hq h2
    rw [not_and_or] at hM
    rcases hM with h | h
    · rw [out h]
      ring
    · rw [out (j := T') h]
      ring

end Verif.Moshinsky
