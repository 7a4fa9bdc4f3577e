import Verif.Moshinsky.Nucleons

/-!
# Operators on two nucleons

`jjSpec` (`ChainSpec.lean`), the elements that `TwoBodyMatrixJJJTN` computes from those between states of relative and centre-of-mass motion
(`libraries/moshinsky/moshinsky_xform.cpp:213-371` and `:431-640`), are the elements of the operator between antisymmetrised states of two
nucleons coupled in the `jj` scheme.
-/

namespace Verif.Moshinsky
open Verif MvPolynomial Osc
open Verif.SU2 hiding couple

/-! ## Linearity -/

/-- The inner product as a bilinear map. -/
noncomputable def innerL : Nucl →ₗ[ℝ] Nucl →ₗ[ℝ] ℝ :=
  LinearMap.mk₂ ℝ inner
    (fun u u' v => by simp only [inner, Pi.add_apply, fock_add_left, Finset.sum_add_distrib])
    (fun c u v => by simp only [inner, Pi.smul_apply, fock_smul_left, Finset.mul_sum, smul_eq_mul])
    (fun u v v' => by simp only [inner, Pi.add_apply, fock_add_right, Finset.sum_add_distrib])
    (fun c u v => by simp only [inner, Pi.smul_apply, fock_smul_right, Finset.mul_sum, smul_eq_mul])

theorem innerL_apply (u v : Nucl) : innerL u v = inner u v := rfl

/-- The element of an operator between expanded states. -/
theorem element_sums {ι κ : Type*} (O : Nucl →ₗ[ℝ] Nucl) (S : Finset ι) (T : Finset κ) (c : ι → ℝ) (d : κ → ℝ) (f : ι → Nucl) (g : κ → Nucl) :
    inner (∑ i ∈ S, c i • f i) (O (∑ k ∈ T, d k • g k)) = ∑ i ∈ S, ∑ k ∈ T, c i * d k * inner (f i) (O (g k)) := by
  rw [← innerL_apply, map_sum, map_sum, LinearMap.sum_apply]
  refine Finset.sum_congr rfl fun i _ => ?_
  rw [map_sum]
  refine Finset.sum_congr rfl fun k _ => ?_
  rw [map_smul, map_smul, map_smul, LinearMap.smul_apply, smul_eq_mul, smul_eq_mul, innerL_apply]
  ring

/-- Exchange of particles as a linear map. -/
noncomputable def swapL : Nucl →ₗ[ℝ] Nucl where
  toFun := swapped
  map_add' u v := by
    funext σ σ' τ τ'
    simp only [swapped, exchanged, Pi.add_apply, map_add]
  map_smul' c u := by
    funext σ σ' τ τ'
    simp only [swapped, exchanged, Pi.smul_apply, map_smul, RingHom.id_apply]

/-- Antisymmetrisation as a linear map. -/
noncomputable def asymL : Nucl →ₗ[ℝ] Nucl := (1 / √2 : ℝ) • (LinearMap.id - swapL)

theorem asymL_apply (u : Nucl) : asymL u = asym u := rfl

/-- An orbital state as part of a state. -/
noncomputable def tenL (x y : Fin 2 → Fin 2 → ℝ) : Two →ₗ[ℝ] Nucl where
  toFun u := ten u x y
  map_add' u v := by
    funext σ σ' τ τ'
    simp only [ten, Pi.add_apply, smul_add]
  map_smul' c u := by
    funext σ σ' τ τ'
    simp only [ten, Pi.smul_apply, RingHom.id_apply]
    rw [smul_comm]

theorem tenL_apply (u : Two) (x y : Fin 2 → Fin 2 → ℝ) : tenL x y u = ten u x y := rfl

/-! ## Antisymmetrisation -/

theorem pairSpin_exchange (S : ℕ) (M : ℤ) (σ σ' : Fin 2) : pairSpin S M σ' σ = (-1) ^ (S + 1) * pairSpin S M σ σ' := by
  unfold pairSpin
  rw [cgd_exchange]
  congr 1
  unfold sgn
  rcases Nat.even_or_odd (S + 1) with h | h
  · rw [h.neg_one_pow, if_pos]
    rw [Nat.even_iff] at h
    push_cast
    omega
  · rw [h.neg_one_pow, if_neg]
    rw [Nat.odd_iff] at h
    push_cast
    omega

theorem swapped_ten (u : Two) (S T : ℕ) (mS MT : ℤ) : swapped (ten u (pairSpin S mS) (pairSpin T MT)) =
    ten (((-1 : ℝ) ^ (S + 1 + (T + 1))) • exchanged u) (pairSpin S mS) (pairSpin T MT) := by
  funext σ σ' τ τ'
  simp only [swapped, ten, exchanged, map_smul]
  rw [pairSpin_exchange S, pairSpin_exchange T, smul_smul, pow_add]
  congr 1
  ring

theorem asym_ten (u : Two) (S T : ℕ) (mS MT : ℤ) : asym (ten u (pairSpin S mS) (pairSpin T MT)) =
    ten (antisym S T u) (pairSpin S mS) (pairSpin T MT) := by
  unfold asym antisym
  rw [swapped_ten, ← tenL_apply, ← tenL_apply, ← map_sub, ← map_smul]
  rfl

theorem asym_ls (u : ℤ → Two) (q : LSJT) (M MT : ℤ) : asym (lsState u q M MT) = lsState (fun m => antisym q.S q.T (u m)) q M MT := by
  unfold lsState
  rw [← asymL_apply, couple_map]
  simp only [asymL_apply, asym_ten]

/-- A state whose orbital part is expanded. -/
theorem ls_sum {ι : Type*} (q : LSJT) (M MT : ℤ) (u : ℤ → Two) (S : Finset ι) (c : ι → ℝ) (w : ι → ℤ → Two)
    (h : ∀ m ∈ Finset.Icc (-(q.L : ℤ)) q.L, u m = ∑ i ∈ S, c i • w i m) :
    lsState u q M MT = ∑ i ∈ S, c i • lsState (w i) q M MT := by
  unfold lsState
  simp only [← couple_smul]
  rw [← couple_sum]
  unfold couple
  refine Finset.sum_congr rfl fun m hm => Finset.sum_congr rfl fun mS _ => ?_
  dsimp only
  rw [h m hm, ← tenL_apply, map_sum]
  simp only [map_smul, tenL_apply]

/-- Antisymmetrised states of two orbitals, in states of relative and centre-of-mass motion. -/
theorem antisym_expand {env : Env} (ha : Angular env) {L : ℕ} {p : LSPair} (hp : IsOrb L p) (S T : ℕ) {m : ℤ} (hm : |m| ≤ L) :
    antisym S T (orbitals p L m) = ∑ r ∈ rcStates (p.1 + p.2.2.1) L S T, (√2 * bracket env (brArgs r p L)) • motions r L m := by
  have hsub : rcStates (p.1 + p.2.2.1) L S T = (orbStates (p.1 + p.2.2.1) L).filter fun r => (r.2.1 + S + T) % 2 = 1 := by
    ext r
    rw [mem_rc_orb, Finset.mem_filter]
  rw [hsub, Finset.sum_filter]
  conv_lhs => rw [expand_motions (shell_antisym (mem_orbStates.mpr ⟨hp, rfl⟩) S T m)]
  refine Finset.sum_congr rfl fun r _ => ?_
  rw [fock_antisym]
  split_ifs
  · rw [bracket_orbitals ha r p hm]
  · rw [zero_smul]

/-- No amplitudes for a state that antisymmetry forbids. -/
theorem bracket_pauli {env : Env} (ha : Angular env) {L S T : ℕ} {p r : LSPair} (hr : (r.2.1 + S + T) % 2 = 1)
    (hd : (p.1, p.2.1) = (p.2.2.1, p.2.2.2)) (ho : (L + S + T) % 2 ≠ 1) : bracket env (brArgs r p L) = 0 := by
  have h := flip_bracket ha r p L
  rw [(flip_diag p).mpr hd] at h
  rw [Prod.mk.injEq] at hd
  have : sgn ((p.2.1 : ℤ) + p.2.2.2 - L) * (-1 : ℝ) ^ r.2.1 = -1 := by
    unfold sgn
    rcases Nat.even_or_odd r.2.1 with h | h
    · rw [h.neg_one_pow, if_neg]
      · norm_num
      · rw [Nat.even_iff] at h
        omega
    · rw [h.neg_one_pow, if_pos]
      · norm_num
      · rw [Nat.odd_iff] at h
        omega
  rw [this] at h
  linarith

/-- The orbitals of a `jj` state are oscillator orbitals. -/
def IsJJ (x : JJState) : Prop := Moshinsky.Osc x.N1 x.l1 ∧ Moshinsky.Osc x.N2 x.l2

/-- Antisymmetrised `jj` states, in states of relative and centre-of-mass motion. -/
theorem asym_expand {nine : NineJ} (hn : IsNine nine) {env : Env} (ha : Angular env) {x : JJState} (hx : IsJJ x) (J T : ℕ) (M MT : ℤ) :
    asym (jjState x J T M MT) = ∑ c ∈ lsOf J T x, nine x.l1 x.tj1 x.l2 x.tj2 c.1 c.2 J •
      ∑ r ∈ rcStates (x.N1 + x.N2) c.1 c.2 T, (√2 * bracket env (brArgs r x.pair c.1)) • lsState (motions r c.1) ⟨c.1, c.2, J, T⟩ M MT := by
  have hsub : lsOf J T x = (lsAll J x).filter fun c => (x.N1, x.l1) = (x.N2, x.l2) → (c.1 + c.2 + T) % 2 = 1 := by
    unfold lsOf lsAll
    rw [Finset.filter_filter]
    refine Finset.filter_congr fun c _ => ?_
    tauto
  rw [hsub, Finset.sum_filter, jj_expand hn, ← asymL_apply, map_sum]
  refine Finset.sum_congr rfl fun c hc => ?_
  have ho : IsOrb c.1 x.pair := by
    unfold lsAll at hc
    rw [Finset.mem_filter] at hc
    exact ⟨hx.1, hx.2, hc.2.1⟩
  have e : asymL (lsState (orbitals x.pair c.1) ⟨c.1, c.2, J, T⟩ M MT) = ∑ r ∈ rcStates (x.N1 + x.N2) c.1 c.2 T,
      (√2 * bracket env (brArgs r x.pair c.1)) • lsState (motions r c.1) ⟨c.1, c.2, J, T⟩ M MT := by
    rw [asymL_apply, asym_ls]
    refine ls_sum _ _ _ _ _ _ _ fun m hm => ?_
    rw [Finset.mem_Icc] at hm
    exact antisym_expand ha ho c.2 T (abs_le.mpr hm)
  rw [map_smul, e]
  split_ifs with h
  · rfl
  · rw [Classical.not_imp] at h
    rw [Finset.sum_eq_zero, smul_zero]
    intro r hr
    rw [bracket_pauli ha (mem_rc_orb.mp hr).2 (p := x.pair) h.1 h.2, mul_zero, zero_smul]

/-! ## Property -/

/-- **C167.**  If the elements given to the chain of transformations are, up to a factor `C`, those of a linear operator on the states of two
nucleons between states of relative and centre-of-mass motion, the elements it returns in the `jj` scheme are, up to the same factor, those of
the operator between antisymmetrised states. -/
theorem jj_operator {env : ChainEnv} (hn : IsNine env.nine) (ha : Angular env.mosh) (O : Nucl →ₗ[ℝ] Nucl) (A : RCOp) (C : ℝ)
    {q q' : QN} {x y : JJState} (hx : IsJJ x) (hy : IsJJ y) {M MT M' MT' : ℤ}
    (hA : ∀ c ∈ lsOf q.J q.T x, ∀ d ∈ lsOf q'.J q'.T y, ∀ r ∈ rcStates (x.N1 + x.N2) c.1 c.2 q.T, ∀ s ∈ rcStates (y.N1 + y.N2) d.1 d.2 q'.T,
      inner (lsState (motions r c.1) ⟨c.1, c.2, q.J, q.T⟩ M MT) (O (lsState (motions s d.1) ⟨d.1, d.2, q'.J, q'.T⟩ M' MT')) =
        C * A (motion ⟨c.1, c.2, q.J, q.T⟩ r) (motion ⟨d.1, d.2, q'.J, q'.T⟩ s)) :
    inner (asym (jjState x q.J q.T M MT)) (O (asym (jjState y q'.J q'.T M' MT'))) = C * jjSpec env A q x q' y := by
  have h2 : √2 * √2 = (2 : ℝ) := Real.mul_self_sqrt (by norm_num)
  rw [asym_expand hn ha hx, asym_expand hn ha hy, element_sums]
  unfold jjSpec
  rw [Finset.mul_sum]
  refine Finset.sum_congr rfl fun c hc => ?_
  rw [Finset.mul_sum]
  refine Finset.sum_congr rfl fun d hd => ?_
  rw [element_sums]
  unfold lsSpec
  rw [Finset.mul_sum, Finset.mul_sum, Finset.sum_mul, Finset.mul_sum]
  refine Finset.sum_congr rfl fun r hr => ?_
  rw [Finset.mul_sum, Finset.mul_sum, Finset.sum_mul, Finset.mul_sum]
  refine Finset.sum_congr rfl fun s hs => ?_
  rw [hA c hc d hd r hr s hs]
  linear_combination (env.nine x.l1 x.tj1 x.l2 x.tj2 c.1 c.2 q.J * env.nine y.l1 y.tj1 y.l2 y.tj2 d.1 d.2 q'.J *
    bracket env.mosh (brArgs r x.pair c.1) * bracket env.mosh (brArgs s y.pair d.1) * C *
    A (motion ⟨c.1, c.2, q.J, q.T⟩ r) (motion ⟨d.1, d.2, q'.J, q'.T⟩ s)) * h2

end Verif.Moshinsky
