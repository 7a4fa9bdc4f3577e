import Verif.Moshinsky.NucleonAxial
import Verif.Relative.TrueMagnetic

/-!
# The magnetic dipole operator

The operator `LENPIC-NLOM1` of `relcm-gen` reaches the H2 file as the two-body magnetic dipole operator between states of two nucleons.
-/

namespace Verif.Moshinsky
open Verif MvPolynomial Osc Program
open Verif.SU2 hiding couple
open Verif.H2 (Mode Desc Sector Species Format openIn readHistory InState formatOfCode deducedIOMode Expressible)
open Verif.Relative (OpLabels cgD couple_cgD ms_eq cgD_nat)
open Verif.Relative.Relcm (Sub State Sec SubOK StateOK Conjugate harmK m1 ratio reduced_turn m1_conjugate)
open Verif.Relative.Gen (Input)

/-! ## Specification -/

/-- Relative motion, centre-of-mass motion, spins and isospins. -/
def cfgRC (r : LSPair) (m mc : ℤ) (σ σ' τ τ' : Fin 2) : Relative.Relcm.Cfg :=
  ⟨(r.1 - r.2.1) / 2, r.2.1, 2 * m, (r.2.2.1 - r.2.2.2) / 2, r.2.2.2, 2 * mc, proj σ, proj σ', proj τ, proj τ'⟩

/-- `O` has the elements `A` between states of up to `Nmax` quanta. -/
def ActsAsRC (O : Nucl →ₗ[ℝ] Nucl) (Nmax : ℕ) (A : Relative.Relcm.Cfg → Relative.Relcm.Cfg → ℝ) : Prop :=
  ∀ (r r' : LSPair) (m mc m' mc' : ℤ) (σ σ' τ τ' a a' b b' : Fin 2), Moshinsky.Osc r.1 r.2.1 → Moshinsky.Osc r.2.2.1 r.2.2.2 →
    Moshinsky.Osc r'.1 r'.2.1 → Moshinsky.Osc r'.2.2.1 r'.2.2.2 → r.1 + r.2.2.1 ≤ Nmax → r'.1 + r'.2.2.1 ≤ Nmax →
    |m| ≤ r.2.1 → |mc| ≤ r.2.2.2 → |m'| ≤ r'.2.1 → |mc'| ≤ r'.2.2.2 →
    inner (prodState r m mc σ σ' τ τ') (O (prodState r' m' mc' a a' b b')) = A (cfgRC r m mc σ σ' τ τ') (cfgRC r' m' mc' a a' b b')

/-- Component `M0`, `MT0` of the operator of rank one in angular momentum and isospin with components `A`. -/
def componentRC (A : Int → Int → Relative.Relcm.Cfg → Relative.Relcm.Cfg → ℝ) (M0 MT0 : ℤ) (c' c : Relative.Relcm.Cfg) : ℝ :=
  if |M0| ≤ 1 ∧ |MT0| ≤ 1 then A (2 * M0) (2 * MT0) c' c else 0

/-- Such operators exist. -/
theorem actsRC_exists (Nmax : ℕ) (A : Relative.Relcm.Cfg → Relative.Relcm.Cfg → ℝ) : ∃ O, ActsAsRC O Nmax A := by
  obtain ⟨O, hO⟩ := exists_operator (prodLabels Nmax) (fun i => prodState i.1 i.2.1 i.2.2.1 i.2.2.2.1 i.2.2.2.2.1 i.2.2.2.2.2.1 i.2.2.2.2.2.2)
    (fun i hi => (prod_ortho hi hi).trans (if_pos rfl)) (fun i hi k hk hne => (prod_ortho hi hk).trans (if_neg hne)) fun i k =>
    A (cfgRC i.1 i.2.1 i.2.2.1 i.2.2.2.1 i.2.2.2.2.1 i.2.2.2.2.2.1 i.2.2.2.2.2.2) (cfgRC k.1 k.2.1 k.2.2.1 k.2.2.2.1 k.2.2.2.2.1 k.2.2.2.2.2.1 k.2.2.2.2.2.2)
  refine ⟨O, fun r r' m mc m' mc' σ σ' τ τ' a a' b b' h1 h2 h3 h4 h5 h6 h7 h8 h9 h10 => ?_⟩
  exact hO (r, m, mc, σ, σ', τ, τ') (mem_prodLabels.mpr ⟨h1, h2, h5, h7, h8⟩) (r', m', mc', a, a', b, b') (mem_prodLabels.mpr ⟨h3, h4, h6, h9, h10⟩)

/-- What `ReadAndScatterRelativeCM` (`programs/relutils/moshinsky.cpp` 354-394) hands over: the elements of the file, sorted by the number of quanta. -/
structure Scattered (w : World) (out : Relative.Relcm.Output) (g : RCFile) : Prop where
  labels : g.labels = out.labels
  Nmax : g.Nmax = out.Nmax
  elements : ∀ T0, g.labels.T0min ≤ T0 → T0 ≤ g.labels.T0max → ∀ (n b k : ℕ) (x y : LSSub),
    (sectorPairs g.labels T0 ((w.rcs g.Nmax).map LSSub.qn))[n]? = some (b, k) → (w.rcs g.Nmax)[b]? = some x → (w.rcs g.Nmax)[k]? = some y →
    ∀ (i j : ℕ) (s t : LSPair), x.states[i]? = some s → y.states[j]? = some t →
    ∃ (κ i' j' : ℕ) (sec : Sec) (blk : Relative.Entries), (out.sectors T0)[κ]? = some sec ∧ (out.blocks T0)[κ]? = some blk ∧
      (sec.1.L, sec.1.S, sec.1.J, sec.1.T) = (x.L, x.S, x.J, x.T) ∧ (sec.2.L, sec.2.S, sec.2.J, sec.2.T) = (y.L, y.S, y.J, y.T) ∧
      sec.1.states[i']? = some ⟨s.1, s.2.1, s.2.2.1, s.2.2.2⟩ ∧ sec.2.states[j']? = some ⟨t.1, t.2.1, t.2.2.1, t.2.2.2⟩ ∧
      blk i' j' = .ok (entry (g.blocks T0) n i j)

/-! ## Elements between coupled states -/

/-- Labels of a subspace without its states. -/
def bare (q : LSJT) : Sub := ⟨q.L, q.S, q.J, q.T, 0, []⟩

/-- The two motions. -/
def stateOf (r : LSPair) : State := ⟨r.1, r.2.1, r.2.2.1, r.2.2.2⟩

/-- A state is linear in the orbital part. -/
noncomputable def orbL' (x y : Fin 2 → Fin 2 → ℝ) : Two →ₗ[ℝ] Nucl where
  toFun u := ten u x y
  map_add' u v := by
    funext σ σ' τ τ'
    simp only [ten, Pi.add_apply, smul_add]
  map_smul' c u := by
    funext σ σ' τ τ'
    simp only [ten, Pi.smul_apply, RingHom.id_apply, smul_smul]
    rw [mul_comm]

theorem acts_rc {O : Nucl →ₗ[ℝ] Nucl} {Nmax : ℕ} {A : Relative.Relcm.Cfg → Relative.Relcm.Cfg → ℝ} (hO : ActsAsRC O Nmax A) {r r' : LSPair} {q q' : LSJT}
    {M MT M' MT' : ℤ} (h1 : Moshinsky.Osc r.1 r.2.1) (h2 : Moshinsky.Osc r.2.2.1 r.2.2.2) (h3 : Moshinsky.Osc r'.1 r'.2.1)
    (h4 : Moshinsky.Osc r'.2.2.1 r'.2.2.2) (hN : r.1 + r.2.2.1 ≤ Nmax) (hN' : r'.1 + r'.2.2.1 ≤ Nmax) :
    inner (lsState (motions r q.L) q M MT) (O (lsState (motions r' q'.L) q' M' MT')) =
      Relative.Relcm.element cgD A (bare q) (bare q') (stateOf r) (stateOf r') (2 * M) (2 * M') (2 * MT) (2 * MT') := by
  have key : ∀ m ∈ Finset.Icc (-(r.2.1 : ℤ)) r.2.1, ∀ mc ∈ Finset.Icc (-(r.2.2.2 : ℤ)) r.2.2.2, ∀ mS : ℤ,
      ∀ m' ∈ Finset.Icc (-(r'.2.1 : ℤ)) r'.2.1, ∀ mc' ∈ Finset.Icc (-(r'.2.2.2 : ℤ)) r'.2.2.2, ∀ mS' : ℤ,
      inner (ten (single relative ((r.1 - r.2.1) / 2) r.2.1 m * single centre ((r.2.2.1 - r.2.2.2) / 2) r.2.2.2 mc) (pairSpin q.S mS) (pairSpin q.T MT))
        (O (ten (single relative ((r'.1 - r'.2.1) / 2) r'.2.1 m' * single centre ((r'.2.2.1 - r'.2.2.2) / 2) r'.2.2.2 mc') (pairSpin q'.S mS') (pairSpin q'.T MT'))) =
      Relative.couple cgD 1 1 (2 * q.S) 1 1 (2 * q'.S) (fun a' b' a b => Relative.couple cgD 1 1 (2 * q.T) 1 1 (2 * q'.T) (fun c' d' c d =>
        A ⟨(r.1 - r.2.1) / 2, r.2.1, 2 * m, (r.2.2.1 - r.2.2.2) / 2, r.2.2.2, 2 * mc, a', b', c', d'⟩
          ⟨(r'.1 - r'.2.1) / 2, r'.2.1, 2 * m', (r'.2.2.1 - r'.2.2.2) / 2, r'.2.2.2, 2 * mc', a, b, c, d⟩) (2 * MT) (2 * MT')) (2 * mS) (2 * mS') := by
    intro m hm mc hmc mS m' hm' mc' hmc' mS'
    rw [Finset.mem_Icc, ← abs_le] at hm hm' hmc hmc'
    set u := single relative ((r.1 - r.2.1) / 2) r.2.1 m * single centre ((r.2.2.1 - r.2.2.2) / 2) r.2.2.2 mc with hu
    set v := single relative ((r'.1 - r'.2.1) / 2) r'.2.1 m' * single centre ((r'.2.2.1 - r'.2.2.2) / 2) r'.2.2.2 mc' with hv
    refine pair_stage O (spinL u (pairSpin q.T MT)) (spinL v (pairSpin q'.T MT')) q.S q'.S mS mS' _ fun σ σ' a a' => ?_
    refine pair_stage O (isoL u (spins σ σ')) (isoL v (spins a a')) q.T q'.T MT MT' _ fun τ τ' b b' => ?_
    exact hO r r' m mc m' mc' σ σ' τ τ' a a' b b' h1 h2 h3 h4 hN hN' hm hmc hm' hmc'
  have orb : ∀ mL mS mL' mS' : ℤ, inner (ten (motions r q.L mL) (pairSpin q.S mS) (pairSpin q.T MT)) (O (ten (motions r' q'.L mL') (pairSpin q'.S mS') (pairSpin q'.T MT'))) =
      Relative.couple cgD (2 * r.2.1) (2 * r.2.2.2) (2 * q.L) (2 * r'.2.1) (2 * r'.2.2.2) (2 * q'.L) (fun x' z' x z =>
        Relative.couple cgD 1 1 (2 * q.S) 1 1 (2 * q'.S) (fun a' b' a b => Relative.couple cgD 1 1 (2 * q.T) 1 1 (2 * q'.T) (fun c' d' c d =>
        A ⟨(r.1 - r.2.1) / 2, r.2.1, x', (r.2.2.1 - r.2.2.2) / 2, r.2.2.2, z', a', b', c', d'⟩
          ⟨(r'.1 - r'.2.1) / 2, r'.2.1, x, (r'.2.2.1 - r'.2.2.2) / 2, r'.2.2.2, z, a, b, c, d⟩) (2 * MT) (2 * MT')) (2 * mS) (2 * mS')) (2 * mL) (2 * mL') := by
    intro mL mS mL' mS'
    have e : ∀ (r : LSPair) (L : ℕ) (mL : ℤ) (x y : Fin 2 → Fin 2 → ℝ), ten (motions r L mL) x y = couple Osc.cg r.2.1 r.2.2.2 L mL fun m mc =>
        ten (single relative ((r.1 - r.2.1) / 2) r.2.1 m * single centre ((r.2.2.1 - r.2.2.2) / 2) r.2.2.2 mc) x y := by
      intro r L mL x y
      change orbL' x y (couple Osc.cg r.2.1 r.2.2.2 L mL _) = _
      unfold couple
      simp only [map_sum, map_smul]
      rfl
    rw [e, e, element_couple]
    rw [Finset.sum_congr rfl fun m hm => Finset.sum_congr rfl fun mc hmc => Finset.sum_congr rfl fun m' hm' => Finset.sum_congr rfl fun mc' hmc' => by
      rw [key m hm mc hmc mS m' hm' mc' hmc' mS']]
    rw [couple_cgD, sum_even]
    refine Finset.sum_congr rfl fun m _ => ?_
    rw [sum_even]
    refine Finset.sum_congr rfl fun mS _ => ?_
    rw [sum_even]
    refine Finset.sum_congr rfl fun m' _ => ?_
    rw [sum_even]
    refine Finset.sum_congr rfl fun mS' _ => ?_
    rw [cg_even, cg_even]
  unfold lsState
  rw [element_couple]
  simp only [orb]
  rw [Relative.Relcm.element, couple_cgD]
  simp only [bare]
  rw [sum_even]
  refine Finset.sum_congr rfl fun m _ => ?_
  rw [sum_even]
  refine Finset.sum_congr rfl fun mS _ => ?_
  rw [sum_even]
  refine Finset.sum_congr rfl fun m' _ => ?_
  rw [sum_even]
  refine Finset.sum_congr rfl fun mS' _ => ?_
  rw [cg_even, cg_even]
  rfl

/-! ## Reduced elements -/

theorem tri_comm (a b c : ℕ) : Relative.tri a b c = Relative.tri c b a := by
  unfold Relative.tri
  refine decide_eq_decide.mpr ?_
  omega

theorem coefficient_exists {j' j : ℕ} (h : Relative.tri j' 1 j = true) : ∃ M' ∈ Relative.ms (2 * j'), ∃ q ∈ Relative.ms (2 * 1), ∃ M ∈ Relative.ms (2 * j),
    cgd (2 * j) M 2 q (2 * j') M' ≠ 0 := by
  have hc : Coupled (2 * j) 2 (2 * j') := by
    simp only [Relative.tri, decide_eq_true_eq] at h
    rw [Coupled, abs_le]
    omega
  have hM : (2 * j' : ℤ) ∈ projs (2 * j') := by
    rw [mem_projs]
    push_cast
    omega
  have n := cgd_norm hc hM
  by_contra hno
  push Not at hno
  rw [Finset.sum_eq_zero] at n
  · exact one_ne_zero n.symm
  · intro m1 h1
    refine Finset.sum_eq_zero fun m2 h2 => ?_
    rw [hno _ (by rw [ms_eq]; exact hM) m2 (by rw [ms_eq]; exact h2) m1 (by rw [ms_eq]; exact h1)]
    norm_num

/-- A reduced element is determined by the elements if the labels allow it. -/
theorem reduced_unique {A : Int → Int → Relative.Relcm.Cfg → Relative.Relcm.Cfg → ℝ} {s' s : Sub} {p' p : State} {x y : ℝ} (hJ : Relative.tri s'.J 1 s.J = true)
    (hT : Relative.tri s'.T 1 s.T = true) (hx : Relative.Relcm.Reduced cgD 1 1 A s' s p' p x) (hy : Relative.Relcm.Reduced cgD 1 1 A s' s p' p y) : x = y := by
  obtain ⟨M', hM', q, hq, M, hM, c1⟩ := coefficient_exists hJ
  obtain ⟨P', hP', v, hv, P, hP, c2⟩ := coefficient_exists hT
  have e := (hx M' hM' q hq M hM P' hP' v hv P hP).symm.trans (hy M' hM' q hq M hM P' hP' v hv P hP)
  simp only [cgD_nat, mul_one] at e
  exact mul_left_cancel₀ (mul_ne_zero c1 c2) e

open Classical in
/-- The reduced element of an operator of rank one in angular momentum and isospin; zero if the labels do not allow one. -/
noncomputable def valueRC (A : Int → Int → Relative.Relcm.Cfg → Relative.Relcm.Cfg → ℝ) (s' s : Sub) (p' p : State) : ℝ :=
  if h : (Relative.tri s'.J 1 s.J = true ∧ Relative.tri s'.T 1 s.T = true) ∧ ∃ x, Relative.Relcm.Reduced cgD 1 1 A s' s p' p x then h.2.choose else 0

theorem value_eq {A : Int → Int → Relative.Relcm.Cfg → Relative.Relcm.Cfg → ℝ} {s' s : Sub} {p' p : State} {x : ℝ} (hJ : Relative.tri s'.J 1 s.J = true)
    (hT : Relative.tri s'.T 1 s.T = true) (h : Relative.Relcm.Reduced cgD 1 1 A s' s p' p x) : valueRC A s' s p' p = x := by
  unfold valueRC
  have hh : (Relative.tri s'.J 1 s.J = true ∧ Relative.tri s'.T 1 s.T = true) ∧ ∃ x, Relative.Relcm.Reduced cgD 1 1 A s' s p' p x := ⟨⟨hJ, hT⟩, x, h⟩
  rw [dif_pos hh]
  exact reduced_unique hJ hT hh.2.choose_spec h

theorem value_turn {A : Int → Int → Relative.Relcm.Cfg → Relative.Relcm.Cfg → ℝ} (hA : Conjugate A) (s' s : Sub) (p' p : State) :
    valueRC A s s' p p' = ratio s'.J s.J * ratio s'.T s.T * valueRC A s' s p' p := by
  by_cases hh : (Relative.tri s'.J 1 s.J = true ∧ Relative.tri s'.T 1 s.T = true) ∧ ∃ x, Relative.Relcm.Reduced cgD 1 1 A s' s p' p x
  · obtain ⟨⟨hJ, hT⟩, x, hx⟩ := hh
    rw [value_eq hJ hT hx]
    exact value_eq (by rw [tri_comm]; exact hJ) (by rw [tri_comm]; exact hT) (reduced_turn hA hx)
  · have h2 : ¬((Relative.tri s.J 1 s'.J = true ∧ Relative.tri s.T 1 s'.T = true) ∧ ∃ x, Relative.Relcm.Reduced cgD 1 1 A s s' p p' x) := by
      rintro ⟨⟨hJ, hT⟩, x, hx⟩
      exact hh ⟨⟨by rw [tri_comm]; exact hJ, by rw [tri_comm]; exact hT⟩, _, reduced_turn hA hx⟩
    unfold valueRC
    rw [dif_neg hh, dif_neg h2, mul_zero]

/-- The reduced elements by the labels of the program. -/
noncomputable def rcElements (A : Int → Int → Relative.Relcm.Cfg → Relative.Relcm.Cfg → ℝ) : RCOp := fun b k =>
  valueRC A ⟨b.L.toNat, b.S.toNat, b.J.toNat, b.T.toNat, 0, []⟩ ⟨k.L.toNat, k.S.toNat, k.J.toNat, k.T.toNat, 0, []⟩
    ⟨b.Nr.toNat, b.lr.toNat, b.Nc.toNat, b.lc.toNat⟩ ⟨k.Nr.toNat, k.lr.toNat, k.Nc.toNat, k.lc.toNat⟩

theorem rcElements_nat (A : Int → Int → Relative.Relcm.Cfg → Relative.Relcm.Cfg → ℝ) (q q' : LSJT) (r s : LSPair) :
    rcElements A (motion q r) (motion q' s) = valueRC A (bare q) (bare q') (stateOf r) (stateOf s) := rfl

theorem ratio_swap (J T J' T' : ℕ) : ratio J' J * ratio T' T = roseSwap (J, T) (J', T') := by
  unfold ratio roseSwap
  have p1 : √(2 * (J : ℝ) + 1) ≠ 0 := by positivity
  have p2 : √(2 * (T : ℝ) + 1) ≠ 0 := by positivity
  dsimp only
  rw [Real.sqrt_mul (by positivity), Real.sqrt_mul (by positivity), ← Relative.sgn_pow,
    show sgn ((J + J' + T + T' : ℕ) : ℤ) = sgn ((J : ℤ) - J') * sgn ((T : ℤ) - T') by
      rw [sgn_mul_sgn]
      exact sgn_parity (by push_cast; omega)]
  field_simp

theorem rc_sym {A : Int → Int → Relative.Relcm.Cfg → Relative.Relcm.Cfg → ℝ} (hA : Conjugate A) (T0 : ℕ) : RCSym (fun _ => roseSwap) T0 (rcElements A) := by
  intro q q' r s
  rw [rcElements_nat, rcElements_nat, value_turn hA (bare q') (bare q)]
  exact congrArg (· * _) (ratio_swap q.J q.T q'.J q'.T)

/-- `A` has reduced elements between all states of two nucleons. -/
def TensorRC (Nmax : ℕ) (A : Int → Int → Relative.Relcm.Cfg → Relative.Relcm.Cfg → ℝ) : Prop :=
  ∀ (s' s : Sub) (p' p : State), s'.S ≤ 1 → s'.T ≤ 1 → s.S ≤ 1 → s.T ≤ 1 → StateOK Nmax p' → StateOK Nmax p → Relative.tri p.lr p.lc s.L = true →
    ∃ x, Relative.Relcm.Reduced cgD 1 1 A s' s p' p x

theorem has_elements {O : Nucl →ₗ[ℝ] Nucl} {Nmax : ℕ} {M0 MT0 : ℤ} {A : Int → Int → Relative.Relcm.Cfg → Relative.Relcm.Cfg → ℝ} (hA : TensorRC Nmax A)
    (hO : ActsAsRC O Nmax (componentRC A M0 MT0)) : HasElements O Nmax 1 1 M0 MT0 (rcElements A) := by
  intro q q' N N' r s M M' MT MT' hN hN' hS hT hS' hT' hJ hJ' hr hs hMT hMT'
  unfold rcStates at hr hs
  rw [Finset.mem_filter] at hr hs
  obtain ⟨r1, r2, r3, r4, -⟩ := hr.2
  obtain ⟨s1, s2, s3, s4, -⟩ := hs.2
  rw [acts_rc hO r1 r2 s1 s2 (by omega) (by omega), rcElements_nat]
  have mem : ∀ {j : ℕ} {m : ℤ}, |m| ≤ j → 2 * m ∈ Relative.ms (2 * j) := fun hm => by
    rw [ms_eq, even_mem, Finset.mem_Icc, ← abs_le]
    exact hm
  have out : ∀ {j k J : ℕ} {m q M : ℤ}, ¬ |q| ≤ k → Osc.cg j m k q J M = 0 := fun {j k J m q M} hq => by
    rw [cg_even, cgd_range]
    rintro ⟨-, h2, -⟩
    rw [even_mem, Finset.mem_Icc, ← abs_le] at h2
    exact hq h2
  have out3 : ∀ {j k J : ℕ} {m q M : ℤ}, ¬ |M| ≤ J → cgd j m k q (2 * J) (2 * M) = 0 := fun {j k J m q M} hq => by
    rw [cgd_range]
    rintro ⟨-, -, h2⟩
    rw [even_mem, Finset.mem_Icc, ← abs_le] at h2
    exact hq h2
  have out1 : ∀ {j k J : ℕ} {m q M : ℤ}, ¬ |m| ≤ j → Osc.cg j m k q J M = 0 := fun {j k J m q M} hq => by
    rw [cg_even, cgd_range]
    rintro ⟨h2, -, -⟩
    rw [even_mem, Finset.mem_Icc, ← abs_le] at h2
    exact hq h2
  by_cases hb : |M| ≤ q.J
  swap
  · rw [cg_even q'.J, out3 hb, Relative.Relcm.element, couple_cgD]
    simp only [bare, out3 hb, zero_mul, Finset.sum_const_zero]
  by_cases hk : |M'| ≤ q'.J
  swap
  · rw [out1 hk, Relative.Relcm.element, couple_cgD]
    simp only [bare, out3 hk, zero_mul, mul_zero, Finset.sum_const_zero]
  by_cases hM : |M0| ≤ 1 ∧ |MT0| ≤ 1
  · have e : componentRC A M0 MT0 = A (2 * M0) (2 * MT0) := by
      funext c' c
      exact if_pos hM
    obtain ⟨x, hx⟩ := hA (bare q) (bare q') (stateOf r) (stateOf s) hS hT hS' hT' ⟨r1.1, r2.1, r1.2.symm, r2.2.symm, by simp only [stateOf]; omega⟩
      ⟨s1.1, s2.1, s1.2.symm, s2.2.symm, by simp only [stateOf]; omega⟩ (decide_eq_true s4)
    have w := hx (2 * M) (mem hb) (2 * M0) (mem hM.1) (2 * M') (mem hk) (2 * MT) (mem hMT) (2 * MT0) (mem hM.2) (2 * MT') (mem hMT')
    rw [e, w]
    simp only [cgD_nat, bare]
    rw [cg_even, cg_even]
    by_cases hJ1 : Relative.tri q.J 1 q'.J = true
    · by_cases hT1 : Relative.tri q.T 1 q'.T = true
      · have := value_eq (s' := bare q) (s := bare q') hJ1 hT1 hx
        simp only [bare] at this
        rw [this]
      · rw [cgd_triangle (j1 := 2 * q'.T) (j2 := 2 * 1)]
        · ring
        · rw [tri_comm] at hT1
          simp only [Relative.tri, decide_eq_true_eq] at hT1
          rw [Coupled, abs_le]
          omega
    · rw [cgd_triangle (j1 := 2 * q'.J) (j2 := 2 * 1)]
      · ring
      · simp only [Relative.tri, decide_eq_true_eq] at hJ1
        rw [Coupled, abs_le]
        omega
  · have e : componentRC A M0 MT0 = fun _ _ => 0 := by
      funext c' c
      exact if_neg hM
    rw [e, Relative.Relcm.element]
    simp only [Relative.couple_zero]
    rw [not_and_or] at hM
    rcases hM with h | h
    · rw [out (j := q'.J) (k := 1) h]
      ring
    · rw [out (j := q'.T) (k := 1) h]
      ring

/-! ## The file -/

/-- The reduced elements do not depend on the list of states. -/
theorem reduced_bare {A : Int → Int → Relative.Relcm.Cfg → Relative.Relcm.Cfg → ℝ} {s' s : Sub} {q q' : LSJT} {p' p : State} {x : ℝ}
    (h' : (s'.L, s'.S, s'.J, s'.T) = (q.L, q.S, q.J, q.T)) (h : (s.L, s.S, s.J, s.T) = (q'.L, q'.S, q'.J, q'.T))
    (hx : Relative.Relcm.Reduced cgD 1 1 A s' s p' p x) : Relative.Relcm.Reduced cgD 1 1 A (bare q) (bare q') p' p x := by
  obtain ⟨L', S', J', T', g', st'⟩ := s'
  obtain ⟨L, S, J, T, g, st⟩ := s
  simp only [Prod.mk.injEq] at h h'
  obtain ⟨rfl, rfl, rfl, rfl⟩ := h
  obtain ⟨rfl, rfl, rfl, rfl⟩ := h'
  exact hx

/-- An operator in its component one, nothing in the others. -/
noncomputable def onlyOne (R : RCOp) : ℕ → RCOp := fun t => if t = 1 then R else fun _ _ => 0

theorem scattered_given {w : World} {out : Relative.Relcm.Output} {g : RCFile} (hw : Scattered w out g) {space : List Sub}
    (hsec : out.sectors = Relative.Relcm.sectorsOf out.labels space) (hJ : out.labels.J0 = 1) (h3 : out.labels.T0max ≤ 2)
    {A : Int → Int → Relative.Relcm.Cfg → Relative.Relcm.Cfg → ℝ} (hA : Conjugate A) (hs : Relative.Relcm.Stores cgD 1 1 A out.sectors out.blocks)
    (hsw : w.env.swap = fun _ => roseSwap) : GivenRC w g (onlyOne (rcElements A)) := by
  refine ⟨fun T0 hmin hmax n b k x y hn hb hk i j s t hi hj => ?_, fun T0 _ _ => ?_, by rw [hw.labels]; exact h3⟩
  · obtain ⟨κ, i', j', sec, blk, e1, e2, e3, e4, e5, e6, e7⟩ := hw.elements T0 hmin hmax n b k x y hn hb hk i j s t hi hj
    obtain ⟨ha, hb'⟩ := List.getElem?_eq_some_iff.mp e1
    obtain ⟨hc, hd⟩ := List.getElem?_eq_some_iff.mp e2
    unfold onlyOne
    by_cases h1 : T0 = 1
    · subst h1
      have hh := hs.1.get ha hc
      simp only [List.get_eq_getElem, hb', hd] at hh
      obtain ⟨v, hv, hr⟩ := hh i' j' _ _ e5 e6
      rw [e7] at hv
      injection hv with hv
      have hm : (sec.1, sec.2) ∈ Relative.Relcm.sectorsOf out.labels space 1 := by
        rw [← hsec]
        exact List.mem_of_getElem? e1
      obtain ⟨-, _, _, -, -, -, t1, t2, -⟩ := Relative.Relcm.mem_sectorsOf.mp hm
      rw [hJ] at t1
      rw [if_pos rfl, hv]
      have e3' := e3
      have e4' := e4
      simp only [Prod.mk.injEq] at e3' e4'
      have := value_eq (A := A) (s' := bare x.lsjt) (s := bare y.lsjt) (p' := stateOf s) (p := stateOf t) (x := v)
        (by rw [e3'.2.2.1, e4'.2.2.1] at t1; exact t1) (by rw [e3'.2.2.2, e4'.2.2.2] at t2; exact t2) (reduced_bare e3 e4 hr)
      exact this.symm
    · have hh := (hs.2 T0 h1).get ha hc
      simp only [List.get_eq_getElem, hd] at hh
      have := hh i' j'
      rw [e7] at this
      injection this with this
      rw [if_neg h1, this]
  · rw [hsw]
    unfold onlyOne
    by_cases h1 : T0 = 1
    · rw [if_pos h1]
      exact rc_sym hA T0
    · rw [if_neg h1]
      intro q q' r s
      rw [mul_zero]

/-- A run of `moshinsky` from a relative-cm file `g` to an H2 file. -/
structure MakesH2RC (w : World) (ctl : Input) (p : Params) (g : RCFile) (mode : Mode) (fmt : Format) (d : Desc) (r : BitVec 32 → BitVec 32) (out : Output) :
    Prop where
  nine : IsNine w.env.nine
  mosh : Angular w.env.mosh
  swap : w.env.swap = fun _ => roseSwap
  asks : Asks w.nm ctl p
  cutoff : 0 ≤ p.cutoff
  source : p.source = .relcm
  target : p.target = .jjjpn
  input : w.rc? p.input = some g
  spaces : Spaces w (truncOf p) g.Nmax
  bound : (truncOf p).N2max ≤ 84
  basis : ∀ fmt, formatOfCode p.format = .ok fmt → PnBasis (truncOf p) w.lib (targetDesc w p (truncOf p) g.labels fmt)
  format : formatOfCode p.format = .ok fmt
  modeOf : deducedIOMode p.output = .ok mode
  matrix : mode ≠ .matrix
  desc : d = targetDesc w p (truncOf p) g.labels fmt
  expressible : Expressible w.lib w.hf mode fmt d
  wf : ∀ s ∈ (d.index w.lib).sectors, s.WF
  text : mode = .text → ∀ x, w.hf.fm.scan (w.hf.fm.fmt x) = some (r x)
  binary : mode = .binary → r = id
  run : Program.run w ctl = .ok out

/-- In the file that `moshinsky` writes to `output`, opened again, the element between two states is, but for the rounding to single precision and values
below `10⁻¹⁴`, the reduced element of the operator of rank one `A` on relative and centre-of-mass motion. -/
def HoldsOperatorRC (w : World) (mode : Mode) (fmt : Format) (d : Desc) (r : BitVec 32 → BitVec 32) (output : String) (Nmax : ℕ)
    (A : Int → Int → Relative.Relcm.Cfg → Relative.Relcm.Cfg → ℝ) (out : Output) : Prop :=
  ∃ file, out = .h2 output file ∧ ∀ k s, (d.index w.lib).sectors[k]? = some s → ∃ start m st,
    openIn w.lib w.hf mode file = .ok (fmt, d, start) ∧
    readHistory ⟨w.hf.fm, fmt, mode, d.index w.lib⟩ file [k] (InState.init start) = .ok ([m], st) ∧
    m.rows = s.bra.size ∧ m.cols = s.ket.size ∧
    ∀ i j x y, s.bra.states[i]? = some x → s.ket.states[j]? = some y → (s.braIndex = s.ketIndex → i ≤ j) → ∃ e : ℝ,
      m.val i j = w.hf.fm.ofF32 (r (w.hf.fm.toF32
        (if |e| < 1e-14 * (H2.pairNorm s.bra.species x * H2.pairNorm s.ket.species y) then 0 else e))) ∧
      ∀ (M0 : ℤ) (O : Nucl →ₗ[ℝ] Nucl), ActsAsRC O Nmax (componentRC A M0 (projection s.bra.species - projection s.ket.species)) →
        ∀ M M', nasElement O d.orbs s x y M M' = Osc.cg s.ket.J M' 1 M0 s.bra.J M * e

theorem rc_moshinsky {w : World} {ctl : Input} {p : Params} {g : RCFile} {mode : Mode} {fmt : Format} {d : Desc} {r : BitVec 32 → BitVec 32} {out : Output}
    {A : Int → Int → Relative.Relcm.Cfg → Relative.Relcm.Cfg → ℝ} (hten : TensorRC (truncOf p).N2max A) (hg : GivenRC w g (onlyOne (rcElements A)))
    (hJ : g.labels.J0 = 1) (hT : g.labels.T0min ≤ 1 ∧ 1 ≤ g.labels.T0max) (h : MakesH2RC w ctl p g mode fmt d r out) :
    HoldsOperatorRC w mode fmt d r p.output (truncOf p).N2max A out := by
  obtain ⟨file, hout, hall⟩ := moshinsky_relcm_operator h.nine h.mosh h.asks h.cutoff h.source h.target h.input hg h.spaces h.bound
    h.basis h.format h.modeOf h.matrix h.desc h.expressible h.wf r h.text h.binary h.run
  refine ⟨file, hout, fun k s hk => ?_⟩
  obtain ⟨start, m, st, q1, q2, q3, q4, q5⟩ := hall k s hk
  refine ⟨start, m, st, q1, q2, q3, q4, fun i j x y hxi hyj hij => ?_⟩
  obtain ⟨e, he, hO⟩ := q5 i j x y hxi hyj hij
  refine ⟨e, he, fun M0 O hact M M' => ?_⟩
  have hrel := hO M0 (fun t => if t = 1 then O else 0) (fun t _ _ => ?_) M M'
  · rw [hJ] at hrel
    rw [← hrel, trueElement, Finset.sum_eq_single_of_mem 1 (Finset.mem_Icc.mpr hT)]
    · rw [if_pos rfl]
      rfl
    · intro t _ hne
      rw [if_neg hne, LinearMap.zero_apply, ← innerL_apply, map_zero]
  · rw [hJ]
    unfold onlyOne
    by_cases h0 : t = 1
    · subst h0
      rw [if_pos rfl, if_pos rfl]
      exact has_elements hten hact
    · rw [if_neg h0, if_neg h0]
      intro q q' N N' r s M M' MT MT' _ _ _ _ _ _ _ _ _ _ _ _
      rw [LinearMap.zero_apply, ← innerL_apply, map_zero, mul_zero]

/-- The operator that `relcm-gen` means: relative integrals by the rule of the program, centre-of-mass integrals up to the decimal square root of two. -/
noncomputable def magnetic (cubic : List ℝ → List ℝ → ℝ) (R b : ℝ) : Int → Int → Relative.Relcm.Cfg → Relative.Relcm.Cfg → ℝ :=
  m1 cgD harmK (Relative.radialInt cubic 3000 (√2 * b)) R b Relative.Relcm.rootError

theorem magnetic_tensor (cubic : List ℝ → List ℝ → ℝ) (R : ℝ) {b : ℝ} (hb : 0 < b) (N : ℕ) : TensorRC N (magnetic cubic R b) := by
  intro s' s p' p hS' hT' hS hT h' h hc
  obtain ⟨x, _, hx⟩ := Relative.Relcm.entry_reduced Relative.Relcm.pair_laws (Relative.Relcm.state_laws (s' := s') (p' := p') hc) h' h hS' hS hT' hT cubic 3000 R hb
  exact ⟨_, hx⟩

/-- **C185.**  Asked for `LENPIC-NLOM1`, with the labels of an isovector magnetic dipole, `relcm-gen` writes a relative-cm file, and `moshinsky`, given that file,
writes the elements of the two-body magnetic dipole operator between states of two nucleons, also where it changes the centre-of-mass motion. -/
theorem magnetic_moshinsky {nm : Mixer.Control.Numbers} {cubic : List ℝ → List ℝ → ℝ} {space : ℕ → List Sub} {gctl : Input} {gp : Relative.Relcm.Params}
    (hq : Relative.Relcm.ControlFile nm gctl gp) {R b : ℝ} {n : Int} (hc : gp.choice = .nlom1 R b n) (hs : Relative.Relcm.Sensible gp)
    (hl : Relative.Relcm.M1Labels (Relative.Relcm.labelsOf gp)) (hb : 0 < b) (hsp : Relative.Relcm.SpaceOK gp.Nmax.toNat (space gp.Nmax.toNat)) :
    ∃ gout, Relative.Relcm.run nm (Relative.Relcm.libD cubic space) gctl = .ok gout ∧ gout.file = gp.file ∧ gout.labels = Relative.Relcm.labelsOf gp ∧
      (gout.Nmax : Int) = gp.Nmax ∧ gout.sectors = Relative.Relcm.sectorsOf gout.labels (space gp.Nmax.toNat) ∧
      Relative.Relcm.Stores cgD 1 1 (magnetic cubic R b) gout.sectors gout.blocks ∧
      (∀ (w : World) (g : RCFile), Scattered w gout g → (w.env.swap = fun _ => roseSwap) → GivenRC w g (onlyOne (rcElements (magnetic cubic R b)))) ∧
      ∀ {w : World} {ctl : Input} {p : Params} {g : RCFile} {mode : Mode} {fmt : Format} {d : Desc} {r : BitVec 32 → BitVec 32} {out : Output},
        Scattered w gout g → MakesH2RC w ctl p g mode fmt d r out →
        HoldsOperatorRC w mode fmt d r p.output (truncOf p).N2max (magnetic cubic R b) out := by
  obtain ⟨gout, h1, h2, h3, h4, h5, h6, -⟩ := Relative.Relcm.relcm_gen_true (cubic := cubic) hq hc hs hl hb hsp
  have three : gout.labels.T0max ≤ 2 := by
    have := hs.T0max
    rw [h3]
    simp only [Relative.Relcm.labelsOf]
    omega
  have J : gout.labels.J0 = 1 := by
    rw [h3]
    exact hl.1
  have given : ∀ (w : World) (g : RCFile), Scattered w gout g → (w.env.swap = fun _ => roseSwap) → GivenRC w g (onlyOne (rcElements (magnetic cubic R b))) :=
    fun w g hw hsw => scattered_given hw (by rw [h5, h3]) J three (m1_conjugate _ _ _ _) h6 hsw
  refine ⟨gout, h1, h2, h3, h4, by rw [h5, h3], h6, given, fun hw h => ?_⟩
  refine rc_moshinsky (magnetic_tensor cubic R hb _) (given _ _ hw h.swap) (by rw [hw.labels]; exact J) ?_ h
  rw [hw.labels, h3]
  exact ⟨hl.2.2.1, hl.2.2.2⟩

end Verif.Moshinsky
