import Verif.Moshinsky.NucleonOps

/-!
# Operators on the relative motion of two nucleons

`relCMSpec` (`RelCM.lean`), the elements that `RelativeCMMatrixLSJTN` computes from those of an operator on the relative motion
(`libraries/moshinsky/moshinsky_xform.cpp:24-211`), are the elements of the operator between states of two nucleons.
-/

namespace Verif.Moshinsky
open Verif MvPolynomial Osc
open Verif.SU2 hiding couple

/-! ## Specification -/

/-- Relative motion `(Nr,lr)` and spin coupled to `Jr mr`, centre-of-mass motion `(Nc,lc)` with projection `mc`, isospin `T MT`. -/
noncomputable def relCM (r : LSPair) (S Jr T : ℕ) (mr mc MT : ℤ) : Nucl :=
  couple Osc.cg r.2.1 S Jr mr fun m mS => ten (single relative ((r.1 - r.2.1) / 2) r.2.1 m * single centre ((r.2.2.1 - r.2.2.2) / 2) r.2.2.2 mc)
    (pairSpin S mS) (pairSpin T MT)

/-- `am::Unitary6JZ(lr,lc,L,J,S,Jr)`: the overlap of the states in which the orbital angular momenta, and in which relative orbital angular
momentum and spin, are coupled first. -/
def IsZ (z : Int → Int → Int → Int → Int → Int → ℝ) : Prop := ∀ (lr lc L J S Jr : ℕ) (M : ℤ), M ∈ projs (2 * J) →
  z lr lc L J S Jr = overlap3 (2 * lr) (2 * lc) (2 * S) (2 * L) (2 * Jr) (2 * J) M

/-- `am::RacahReductionFactor1Rose(j,l,J,j',l,J',J0)`: the reduced element, in Rose's convention, between coupled states of an operator with
reduced element one on the first of the two systems. -/
def IsRose (rose : Int → Int → Int → Int → Int → Int → Int → ℝ) : Prop := ∀ (j l J j' J' J0 : ℕ) (M M' M0 : ℤ),
  (∑ m ∈ Finset.Icc (-(j : ℤ)) j, ∑ mc ∈ Finset.Icc (-(l : ℤ)) l, ∑ m' ∈ Finset.Icc (-(j' : ℤ)) j',
    Osc.cg j m l mc J M * Osc.cg j' m' J0 M0 j m * Osc.cg j' m' l mc J' M') = rose j l J j' l J' J0 * Osc.cg J' M' J0 M0 J M

/-- Labels of relative and centre-of-mass motion of two nucleons. -/
structure IsMotion (r : LSPair) (S Jr T : ℕ) : Prop where
  rel : Moshinsky.Osc r.1 r.2.1
  cm : Moshinsky.Osc r.2.2.1 r.2.2.2
  spin : S ≤ 1
  isospin : T ≤ 1
  momentum : Tri r.2.1 S Jr
  parity : (r.2.1 + S + T) % 2 = 1

/-- `O` is component `M0`, `MT0` of an operator of angular momentum `J0` and isospin `T0` on the relative motion with reduced elements `R`,
in Rose's convention, up to angular momentum `Jmax`, in the space of states of up to `Nmax` quanta: the centre-of-mass motion is that of a
spectator. -/
def IsRelative (O : Nucl →ₗ[ℝ] Nucl) (Nmax : ℕ) (Jmax : Int) (J0 T0 : ℕ) (M0 MT0 : ℤ) (R : RelRME) : Prop :=
  ∀ (r r' : LSPair) (S Jr T S' Jr' T' : ℕ) (mr mc MT mr' mc' MT' : ℤ), IsMotion r S Jr T → IsMotion r' S' Jr' T' →
    r.1 + r.2.2.1 ≤ Nmax → r'.1 + r'.2.2.1 ≤ Nmax → |mr| ≤ Jr → |mc| ≤ r.2.2.2 → |MT| ≤ T → |mr'| ≤ Jr' → |mc'| ≤ r'.2.2.2 → |MT'| ≤ T' →
    inner (relCM r S Jr T mr mc MT) (O (relCM r' S' Jr' T' mr' mc' MT')) =
      if (r.2.2, mc) = (r'.2.2, mc') ∧ Jr ≤ Jmax ∧ Jr' ≤ Jmax then
        Osc.cg Jr' mr' J0 M0 Jr mr * Osc.cg T' MT' T0 MT0 T MT * R (r.2.1, S, Jr, T) r.1 (r'.2.1, S', Jr', T') r'.1
      else 0

/-- `O` is component `M0`, `MT0` of an operator of angular momentum `J0` and isospin `T0` on relative and centre-of-mass motion with reduced
elements `A`, in Rose's convention, in the space of states of up to `Nmax` quanta. -/
def HasElements (O : Nucl →ₗ[ℝ] Nucl) (Nmax J0 T0 : ℕ) (M0 MT0 : ℤ) (A : RCOp) : Prop :=
  ∀ (q q' : LSJT) (N N' : ℕ) (r s : LSPair) (M M' MT MT' : ℤ), N ≤ Nmax → N' ≤ Nmax → q.S ≤ 1 → q.T ≤ 1 → q'.S ≤ 1 → q'.T ≤ 1 →
    Tri q.L q.S q.J → Tri q'.L q'.S q'.J → r ∈ rcStates N q.L q.S q.T → s ∈ rcStates N' q'.L q'.S q'.T → |MT| ≤ q.T → |MT'| ≤ q'.T →
    inner (lsState (motions r q.L) q M MT) (O (lsState (motions s q'.L) q' M' MT')) =
      Osc.cg q'.J M' J0 M0 q.J M * Osc.cg q'.T MT' T0 MT0 q.T MT * A (motion q r) (motion q' s)

/-! ## Recoupling -/

theorem cg_even (l1 : ℕ) (m1 : ℤ) (l2 : ℕ) (m2 : ℤ) (L : ℕ) (M : ℤ) : Osc.cg l1 m1 l2 m2 L M =
    cgd (2 * l1) (2 * m1) (2 * l2) (2 * m2) (2 * L) (2 * M) := (cgd_even l1 m1 l2 m2 L M).symm

/-- The amplitudes of three coupled systems. -/
theorem couple3 {V : Type*} [AddCommGroup V] [Module ℝ V] (a b c ab J : ℕ) (M : ℤ) (w : ℤ → ℤ → ℤ → V) :
    couple Osc.cg ab c J M (fun mab mc => couple Osc.cg a b ab mab fun ma mb => w ma mb mc) =
      ∑ ma ∈ Finset.Icc (-(a : ℤ)) a, ∑ mb ∈ Finset.Icc (-(b : ℤ)) b, ∑ mc ∈ Finset.Icc (-(c : ℤ)) c,
        amp3 (2 * a) (2 * b) (2 * c) (2 * ab) (2 * J) (2 * M) (2 * ma) (2 * mb) (2 * mc) • w ma mb mc := by
  unfold couple
  simp only [Finset.smul_sum, smul_smul]
  rw [Finset.sum_congr rfl fun mab _ => Finset.sum_comm, Finset.sum_comm]
  refine Finset.sum_congr rfl fun ma _ => ?_
  rw [Finset.sum_congr rfl fun mab _ => Finset.sum_comm, Finset.sum_comm]
  refine Finset.sum_congr rfl fun mb _ => ?_
  rw [Finset.sum_comm]
  refine Finset.sum_congr rfl fun mc _ => ?_
  rw [← Finset.sum_smul]
  congr 1
  simp only [cg_even]
  rw [← sum_even ab fun mab => cgd (2 * ab) mab (2 * c) (2 * mc) (2 * J) (2 * M) * cgd (2 * a) (2 * ma) (2 * b) (2 * mb) (2 * ab) mab,
    Finset.sum_congr rfl fun mab _ => mul_comm _ _, collapse]
  rfl

/-- The relative angular momenta of a state. -/
def jrs (lr S lc J : ℕ) : Finset ℕ := (Finset.range (lr + S + 1)).filter fun Jr => Tri lr S Jr ∧ Tri Jr lc J

theorem sum_jrs (lr S lc J : ℕ) {V : Type*} [AddCommMonoid V] (F : ℕ → V) :
    ∑ ac ∈ (sums (2 * lr) (2 * S)).filter (fun ac => Coupled ac (2 * lc) (2 * J)), F ac = ∑ Jr ∈ jrs lr S lc J, F (2 * Jr) := by
  refine Finset.sum_bij' (fun c _ => c / 2) (fun c _ => 2 * c) ?_ ?_ ?_ ?_ ?_
  · intro c h
    simp only [Finset.mem_filter, mem_sums, Coupled, abs_le] at h
    unfold jrs Tri
    simp only [Finset.mem_filter, Finset.mem_range]
    omega
  · intro c h
    unfold jrs Tri at h
    simp only [Finset.mem_filter, Finset.mem_range] at h
    simp only [Finset.mem_filter, mem_sums, Coupled, abs_le]
    omega
  · intro c h
    simp only [Finset.mem_filter, mem_sums, Coupled, abs_le] at h
    omega
  · intro c h
    omega
  · intro c h
    simp only [Finset.mem_filter, mem_sums, Coupled, abs_le] at h
    congr 1
    omega

/-- Recoupling of three systems. -/
theorem couple3_expand {V : Type*} [AddCommGroup V] [Module ℝ V] {z : Int → Int → Int → Int → Int → Int → ℝ} (hz : IsZ z) (lr lc S L J : ℕ) (M : ℤ)
    (w : ℤ → ℤ → ℤ → V) : couple Osc.cg L S J M (fun mL mS => couple Osc.cg lr lc L mL fun m mc => w m mc mS) =
      ∑ Jr ∈ jrs lr S lc J, z lr lc L J S Jr • couple Osc.cg Jr lc J M (fun mr mc => couple Osc.cg lr S Jr mr fun m mS => w m mc mS) := by
  have e : ∀ Jr ∈ jrs lr S lc J, z lr lc L J S Jr • couple Osc.cg Jr lc J M (fun mr mc => couple Osc.cg lr S Jr mr fun m mS => w m mc mS) =
      ∑ m ∈ Finset.Icc (-(lr : ℤ)) lr, ∑ mc ∈ Finset.Icc (-(lc : ℤ)) lc, ∑ mS ∈ Finset.Icc (-(S : ℤ)) S,
        (overlap3 (2 * lr) (2 * lc) (2 * S) (2 * L) (2 * Jr) (2 * J) (2 * J : ℕ) *
          amp3 (2 * lr) (2 * S) (2 * lc) (2 * Jr) (2 * J) (2 * M) (2 * m) (2 * mS) (2 * mc)) • w m mc mS := by
    intro Jr _
    rw [couple3 lr S lc Jr J M fun m mS mc => w m mc mS, hz lr lc L J S Jr (2 * J : ℕ) (by rw [mem_projs]; push_cast; omega)]
    simp only [Finset.smul_sum, smul_smul]
    refine Finset.sum_congr rfl fun m _ => ?_
    rw [Finset.sum_comm]
  rw [couple3 lr lc S L J M w, Finset.sum_congr rfl e]
  conv_rhs => rw [Finset.sum_comm]
  refine Finset.sum_congr rfl fun m hm => ?_
  conv_rhs => rw [Finset.sum_comm]
  refine Finset.sum_congr rfl fun mc hmc => ?_
  conv_rhs => rw [Finset.sum_comm]
  refine Finset.sum_congr rfl fun mS hmS => ?_
  rw [← Finset.sum_smul]
  congr 1
  rw [recouple3 _ _ _ _ _ _ (even_mem.mpr hm) (even_mem.mpr hmc) (even_mem.mpr hmS)]
  exact sum_jrs lr S lc J fun ac => overlap3 (2 * lr) (2 * lc) (2 * S) (2 * L) ac (2 * J) (2 * J : ℕ) *
    amp3 (2 * lr) (2 * S) (2 * lc) ac (2 * J) (2 * M) (2 * m) (2 * mS) (2 * mc)

/-- Relative angular momentum `Jr` and centre-of-mass motion coupled to `J M`. -/
noncomputable def relCoupled (r : LSPair) (S Jr J T : ℕ) (M MT : ℤ) : Nucl :=
  couple Osc.cg Jr r.2.2.2 J M fun mr mc => relCM r S Jr T mr mc MT

theorem rc_expand {z : Int → Int → Int → Int → Int → Int → ℝ} (hz : IsZ z) (r : LSPair) (q : LSJT) (M MT : ℤ) :
    lsState (motions r q.L) q M MT = ∑ Jr ∈ jrs r.2.1 q.S r.2.2.2 q.J, z r.2.1 r.2.2.2 q.L q.J q.S Jr • relCoupled r q.S Jr q.J q.T M MT := by
  have e : lsState (motions r q.L) q M MT = couple Osc.cg q.L q.S q.J M fun mL mS => couple Osc.cg r.2.1 r.2.2.2 q.L mL fun m mc =>
      ten (single relative ((r.1 - r.2.1) / 2) r.2.1 m * single centre ((r.2.2.1 - r.2.2.2) / 2) r.2.2.2 mc) (pairSpin q.S mS) (pairSpin q.T MT) := by
    unfold lsState motions coupledState
    simp only [← tenL_apply, couple_map]
  rw [e, couple3_expand hz r.2.1 r.2.2.2 q.S q.L q.J M fun m mc mS =>
    ten (single relative ((r.1 - r.2.1) / 2) r.2.1 m * single centre ((r.2.2.1 - r.2.2.2) / 2) r.2.2.2 mc) (pairSpin q.S mS) (pairSpin q.T MT)]
  rfl

/-! ## Elements -/

theorem element_couple (O : Nucl →ₗ[ℝ] Nucl) (C : Coupling) (j l J j' l' J' : ℕ) (M M' : ℤ) (f g : ℤ → ℤ → Nucl) :
    inner (couple C j l J M f) (O (couple C j' l' J' M' g)) =
      ∑ m ∈ Finset.Icc (-(j : ℤ)) j, ∑ mc ∈ Finset.Icc (-(l : ℤ)) l, ∑ m' ∈ Finset.Icc (-(j' : ℤ)) j', ∑ mc' ∈ Finset.Icc (-(l' : ℤ)) l',
        C j m l mc J M * C j' m' l' mc' J' M' * inner (f m mc) (O (g m' mc')) := by
  unfold couple
  simp only [← Finset.sum_product' (f := fun m mc => C j m l mc J M • f m mc), ← Finset.sum_product' (f := fun m mc => C j' m l' mc J' M' • g m mc)]
  rw [element_sums, Finset.sum_product]
  refine Finset.sum_congr rfl fun m _ => Finset.sum_congr rfl fun mc _ => ?_
  rw [Finset.sum_product]

/-- The element of an operator on the relative motion between states of relative angular momentum and centre-of-mass motion. -/
theorem rel_element {rose : Int → Int → Int → Int → Int → Int → Int → ℝ} (hr : IsRose rose) {O : Nucl →ₗ[ℝ] Nucl} {Nmax : ℕ} {Jmax : Int} {J0 T0 : ℕ}
    {M0 MT0 : ℤ} {R : RelRME} (hO : IsRelative O Nmax Jmax J0 T0 M0 MT0 R) {r r' : LSPair} {S Jr T S' Jr' T' : ℕ} (h : IsMotion r S Jr T)
    (h' : IsMotion r' S' Jr' T') (hN : r.1 + r.2.2.1 ≤ Nmax) (hN' : r'.1 + r'.2.2.1 ≤ Nmax) (J J' : ℕ) (M M' : ℤ) {MT MT' : ℤ} (hT : |MT| ≤ T) (hT' : |MT'| ≤ T') :
    inner (relCoupled r S Jr J T M MT) (O (relCoupled r' S' Jr' J' T' M' MT')) = if r.2.2 = r'.2.2 ∧ Jr ≤ Jmax ∧ Jr' ≤ Jmax then
      Osc.cg J' M' J0 M0 J M * Osc.cg T' MT' T0 MT0 T MT *
        (rose Jr r.2.2.2 J Jr' r'.2.2.2 J' J0 * R (r.2.1, S, Jr, T) r.1 (r'.2.1, S', Jr', T') r'.1) else 0 := by
  unfold relCoupled
  rw [element_couple]
  have e : ∀ m ∈ Finset.Icc (-(Jr : ℤ)) Jr, ∀ mc ∈ Finset.Icc (-(r.2.2.2 : ℤ)) r.2.2.2, ∀ m' ∈ Finset.Icc (-(Jr' : ℤ)) Jr',
      ∀ mc' ∈ Finset.Icc (-(r'.2.2.2 : ℤ)) r'.2.2.2, inner (relCM r S Jr T m mc MT) (O (relCM r' S' Jr' T' m' mc' MT')) =
      if (r.2.2, mc) = (r'.2.2, mc') ∧ Jr ≤ Jmax ∧ Jr' ≤ Jmax then
        Osc.cg Jr' m' J0 M0 Jr m * Osc.cg T' MT' T0 MT0 T MT * R (r.2.1, S, Jr, T) r.1 (r'.2.1, S', Jr', T') r'.1
      else 0 := by
    intro m hm mc hmc m' hm' mc' hmc'
    rw [Finset.mem_Icc] at hm hmc hm' hmc'
    exact hO r r' S Jr T S' Jr' T' m mc MT m' mc' MT' h h' hN hN' (abs_le.mpr hm) (abs_le.mpr hmc) hT (abs_le.mpr hm') (abs_le.mpr hmc') hT'
  rw [Finset.sum_congr rfl fun m hm => Finset.sum_congr rfl fun mc hmc => Finset.sum_congr rfl fun m' hm' => Finset.sum_congr rfl fun mc' hmc' => by
    rw [e m hm mc hmc m' hm' mc' hmc']]
  by_cases hc : r.2.2 = r'.2.2 ∧ Jr ≤ Jmax ∧ Jr' ≤ Jmax
  · rw [if_pos hc]
    have hl : r.2.2.2 = r'.2.2.2 := by rw [hc.1]
    have hR := hr Jr r.2.2.2 J Jr' J' J0 M M' M0
    rw [← hl]
    trans (rose Jr r.2.2.2 J Jr' r.2.2.2 J' J0 * Osc.cg J' M' J0 M0 J M) * (Osc.cg T' MT' T0 MT0 T MT * R (r.2.1, S, Jr, T) r.1 (r'.2.1, S', Jr', T') r'.1)
    · rw [← hR, Finset.sum_mul]
      refine Finset.sum_congr rfl fun m _ => ?_
      rw [Finset.sum_mul]
      refine Finset.sum_congr rfl fun mc hmc => ?_
      rw [Finset.sum_mul]
      refine Finset.sum_congr rfl fun m' _ => ?_
      rw [Finset.sum_eq_single_of_mem mc hmc]
      · rw [if_pos ⟨by rw [hc.1], hc.2⟩]
        ring
      · intro mc' _ hne
        rw [if_neg, mul_zero]
        rintro ⟨h1, _⟩
        rw [Prod.mk.injEq] at h1
        exact hne h1.2.symm
    · ring
  · rw [if_neg hc]
    refine Finset.sum_eq_zero fun m _ => Finset.sum_eq_zero fun mc _ => Finset.sum_eq_zero fun m' _ => Finset.sum_eq_zero fun mc' _ => ?_
    rw [if_neg, mul_zero]
    rintro ⟨h1, h2⟩
    rw [Prod.mk.injEq] at h1
    exact hc ⟨h1.1, h2⟩

/-- Sums over the relative angular momenta of the program. -/
theorem sum_tri (lr S lc J : ℕ) (Jmax : Int) (P : Int → Prop) [DecidablePred P] (F : Int → ℝ) :
    ∑ x ∈ (Finset.Icc 0 Jmax).filter (fun x => (tri lr S x = true ∧ tri lc J x = true) ∧ P x), F x =
      ∑ Jr ∈ jrs lr S lc J, if (Jr : Int) ≤ Jmax ∧ P Jr then F Jr else 0 := by
  rw [← Finset.sum_filter]
  refine Finset.sum_bij' (fun x _ => x.toNat) (fun n _ => (n : Int)) ?_ ?_ ?_ ?_ ?_
  · intro x hx
    simp only [Finset.mem_filter, Finset.mem_Icc, tri, decide_eq_true_eq] at hx
    obtain ⟨⟨h0, h1⟩, h2, h3⟩ := hx
    rw [Finset.mem_filter, Int.toNat_of_nonneg h0]
    refine ⟨?_, h1, h3⟩
    rw [abs_le, abs_le] at h2
    unfold jrs Tri
    simp only [Finset.mem_filter, Finset.mem_range]
    omega
  · intro n hn
    rw [Finset.mem_filter] at hn
    obtain ⟨h1, h2, h3⟩ := hn
    unfold jrs Tri at h1
    simp only [Finset.mem_filter, Finset.mem_range] at h1
    simp only [Finset.mem_filter, Finset.mem_Icc, tri, decide_eq_true_eq]
    refine ⟨⟨by omega, h2⟩, ?_, h3⟩
    rw [abs_le, abs_le]
    omega
  · intro x hx
    simp only [Finset.mem_filter, Finset.mem_Icc] at hx
    exact Int.toNat_of_nonneg hx.1.1
  · intro n _
    exact Int.toNat_natCast n
  · intro x hx
    simp only [Finset.mem_filter, Finset.mem_Icc] at hx
    rw [Int.toNat_of_nonneg hx.1.1]

/-- The reduction factor and the coupling coefficient give nothing unless the operator connects the relative angular momenta. -/
theorem rose_triangle {rose : Int → Int → Int → Int → Int → Int → Int → ℝ} (hr : IsRose rose) {j j' J0 : ℕ} (h : ¬tri j J0 j') (l J J' : ℕ)
    (M M' M0 : ℤ) : Osc.cg J' M' J0 M0 J M * rose j l J j' l J' J0 = 0 := by
  rw [mul_comm, ← hr j l J j' J' J0 M M' M0]
  refine Finset.sum_eq_zero fun m _ => Finset.sum_eq_zero fun mc _ => Finset.sum_eq_zero fun m' _ => ?_
  rw [cg_even j' m', cgd_triangle, mul_zero, zero_mul]
  intro hc
  apply h
  unfold Coupled at hc
  unfold tri
  rw [decide_eq_true_eq]
  rw [abs_le] at *
  push_cast at hc
  omega

/-! ## Property -/

/-- **C168.**  The elements that the program computes between states of relative and centre-of-mass motion from the reduced elements of an
operator on the relative motion are those of the operator, up to the coupling coefficients of the Wigner-Eckart theorem. -/
theorem relcm_operator {env : RelEnv} (hz : IsZ env.z) (hr : IsRose env.rose) {O : Nucl →ₗ[ℝ] Nucl} {Nmax : ℕ} {Jmax : Int} {J0 T0 : ℕ} {M0 MT0 : ℤ}
    {R : RelRME} (hO : IsRelative O Nmax Jmax J0 T0 M0 MT0 R) {q q' : LSJT} {N N' : ℕ} (hN : N ≤ Nmax) (hN' : N' ≤ Nmax) {r s : LSPair} (hq : q.S ≤ 1 ∧ q.T ≤ 1) (hq' : q'.S ≤ 1 ∧ q'.T ≤ 1)
    (h : r ∈ rcStates N q.L q.S q.T) (h' : s ∈ rcStates N' q'.L q'.S q'.T) (M M' : ℤ) {MT MT' : ℤ} (hT : |MT| ≤ q.T) (hT' : |MT'| ≤ q'.T) :
    inner (lsState (motions r q.L) q M MT) (O (lsState (motions s q'.L) q' M' MT')) =
      Osc.cg q'.J M' J0 M0 q.J M * Osc.cg q'.T MT' T0 MT0 q.T MT * relCMSpec env Jmax J0 R (motion q r) (motion q' s) := by
  have mot : ∀ {q : LSJT} {N : ℕ} {r : LSPair} {Jr : ℕ}, q.S ≤ 1 ∧ q.T ≤ 1 → r ∈ rcStates N q.L q.S q.T → Jr ∈ jrs r.2.1 q.S r.2.2.2 q.J →
      IsMotion r q.S Jr q.T := by
    intro q N r Jr hq h hJ
    unfold jrs at hJ
    rw [rcStates, Finset.mem_filter] at h
    rw [Finset.mem_filter] at hJ
    exact ⟨h.2.1, h.2.2.1, hq.1, hq.2, hJ.2.1, h.2.2.2.2.2⟩
  have qu : ∀ {q : LSJT} {N : ℕ} {r : LSPair}, N ≤ Nmax → r ∈ rcStates N q.L q.S q.T → r.1 + r.2.2.1 ≤ Nmax := by
    intro q N r hN h
    rw [rcStates, Finset.mem_filter] at h
    exact h.2.2.2.1.trans_le hN
  rw [rc_expand hz, rc_expand hz, element_sums]
  unfold relCMSpec motion
  dsimp only
  by_cases hc : r.2.2 = s.2.2
  swap
  · rw [if_neg, mul_zero]
    · refine Finset.sum_eq_zero fun Jr hJ => Finset.sum_eq_zero fun Jr' hJ' => ?_
      rw [rel_element hr hO (mot hq h hJ) (mot hq' h' hJ') (qu hN h) (qu hN' h') _ _ _ _ hT hT', if_neg fun x => hc x.1, mul_zero]
    · intro e
      apply hc
      rw [Prod.mk.injEq] at e
      ext
      · exact_mod_cast e.1
      · exact_mod_cast e.2
  rw [if_pos (by rw [hc])]
  have e1 := sum_tri r.2.1 q.S r.2.2.2 q.J Jmax (fun _ => True)
  simp only [and_true] at e1
  rw [e1, Finset.mul_sum]
  refine Finset.sum_congr rfl fun Jr hJ => ?_
  have e2 := sum_tri s.2.1 q'.S s.2.2.2 q'.J Jmax (fun x => tri Jr J0 x = true)
  simp only [and_assoc] at e2
  rw [e2, mul_ite, mul_zero, Finset.mul_sum]
  have e3 : ∀ Jr' ∈ jrs s.2.1 q'.S s.2.2.2 q'.J, inner (relCoupled r q.S Jr q.J q.T M MT) (O (relCoupled s q'.S Jr' q'.J q'.T M' MT')) = _ :=
    fun Jr' hJ' => rel_element hr hO (mot hq h hJ) (mot hq' h' hJ') (qu hN h) (qu hN' h') _ _ _ _ hT hT'
  rw [Finset.sum_congr rfl fun Jr' hJ' => by rw [e3 Jr' hJ']]
  by_cases hm : (Jr : Int) ≤ Jmax
  swap
  · rw [if_neg hm]
    refine Finset.sum_eq_zero fun Jr' _ => ?_
    rw [if_neg fun x => hm x.2.1, mul_zero]
  rw [if_pos hm]
  refine Finset.sum_congr rfl fun Jr' _ => ?_
  by_cases hm' : (Jr' : Int) ≤ Jmax
  swap
  · rw [if_neg fun x => hm' x.2.2, if_neg fun x => hm' x.1, mul_zero, mul_zero]
  rw [if_pos ⟨hc, hm, hm'⟩]
  by_cases ht : tri Jr J0 Jr' = true
  · rw [if_pos ⟨hm', ht⟩]
    ring
  · rw [if_neg fun x => ht x.2, mul_zero]
    have := rose_triangle hr ht r.2.2.2 q.J q'.J M M' M0
    rw [← hc]
    linear_combination (env.z r.2.1 r.2.2.2 q.L q.J q.S Jr * env.z s.2.1 r.2.2.2 q'.L q'.J q'.S Jr' * Osc.cg q'.T MT' T0 MT0 q.T MT *
      R (r.2.1, q.S, Jr, q.T) r.1 (s.2.1, q'.S, Jr', q'.T) s.1) * this

theorem relative_elements {env : RelEnv} (hz : IsZ env.z) (hr : IsRose env.rose) {O : Nucl →ₗ[ℝ] Nucl} {Nmax : ℕ} {Jmax : Int} {J0 T0 : ℕ} {M0 MT0 : ℤ}
    {R : RelRME} (hO : IsRelative O Nmax Jmax J0 T0 M0 MT0 R) : HasElements O Nmax J0 T0 M0 MT0 (relCMSpec env Jmax J0 R) :=
  fun _ _ _ _ _ _ M M' _ _ hN hN' hS hT hS' hT' _ _ h h' hM hM' => relcm_operator hz hr hO hN hN' ⟨hS, hT⟩ ⟨hS', hT'⟩ h h' M M' hM hM'

end Verif.Moshinsky
