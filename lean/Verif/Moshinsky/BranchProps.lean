import Verif.Moshinsky.BranchModel
import Verif.Relative.IsospinProps
import Verif.H2.Lemmas
import Mathlib.Data.Int.Interval
import Mathlib.Order.Interval.Finset.Basic
import Mathlib.Tactic.Linarith

/-!
# Properties of the branching to the proton-neutron scheme
-/

namespace Verif.Moshinsky
open Verif Verif.Relative
open Verif.H2 hiding Mat

/-! ## Specification -/

/-- Reduced matrix elements of a two-body operator between antisymmetrised states `|ab;JTg>`:
`R T0 (J',T',g') a b (J,T,g) c d`. -/
abbrev RME := Int → Int × Int × Int → Lab → Lab → Int × Int × Int → Lab → Lab → ℝ

/-- Phase of `|ba;JT>` relative to `|ab;JT>` for orbitals with half-integer `j`. -/
noncomputable def exchangePhase (a b : Lab) (q : Int × Int × Int) : ℝ :=
  sgn (((a.2 : Int) + b.2) / 2 + q.1 + q.2.1)

/-- Expansion of a two-nucleon state with given species in states of good isospin: like nucleons have
`T=1`, and the proton-neutron state is `(|T=1> + |T=0>)/√2`. -/
noncomputable def expansion (T Tz : Int) : ℝ :=
  if Tz = 0 then Real.sqrt (1 / 2) else if T = 1 then 1 else 0

/-- Orbitals `(N,j)` in lexicographic order. -/
def labLE (a b : Lab) : Prop := a.1 < b.1 ∨ (a.1 = b.1 ∧ a.2 ≤ b.2)

/-- The state consists of half-integer-spin orbitals of a common oscillator orbital basis, in which
indices follow the order of the labels. -/
structure GoodState (s : PnState) : Prop where
  order : s.i1 ≤ s.i2 ↔ labLE s.o1 s.o2
  same : s.i1 = s.i2 ↔ s.o1 = s.o2
  odd1 : s.o1.2 % 2 = 1
  odd2 : s.o2.2 % 2 = 1

/-- The pairs of subspaces `(J',T',g')`, `(J,T,g)` connected by component `T0` of an operator of angular momentum
`J0` and parity `g0` with components `lo` to `hi`. -/
structure Connects (lo hi J0 g0 T0 : Int) (q q' : Int × Int × Int) : Prop where
  component : lo ≤ T0 ∧ T0 ≤ hi
  isospin : |q.2.1 - T0| ≤ q'.2.1 ∧ q'.2.1 ≤ q.2.1 + T0
  momentum : |q.1 - J0| ≤ q'.1 ∧ q'.1 ≤ q.1 + J0
  parity : (q.2.2 + q'.2.2 + g0) % 2 = 0

/-- The sector is one of the target operator: its `J` and parity are connected by the operator. -/
structure TargetSector (J0 g0 : Int) (bra ket : PnSub) : Prop where
  momentum : |bra.J - J0| ≤ ket.J ∧ ket.J ≤ bra.J + J0
  parity : (bra.g + ket.g + g0) % 2 = 0

/-- The `jjJT` data represents the operator `R`: `R` changes by the exchange phase when the orbitals
of a bra or ket are exchanged, vanishes outside the space, every allowed sector is present, and an
element looked up through the canonicalised indices is that of `R`. -/
structure Represents (src : JTSource) (R : RME) (lo hi J0 g0 : Int) : Prop where
  exchangeBra : ∀ T0 q a b q' c d, a.2 % 2 = 1 → b.2 % 2 = 1 →
    R T0 q b a q' c d = exchangePhase a b q * R T0 q a b q' c d
  exchangeKet : ∀ T0 q a b q' c d, c.2 % 2 = 1 → d.2 % 2 = 1 →
    R T0 q a b q' d c = exchangePhase c d q' * R T0 q a b q' c d
  absentBra : ∀ T0 q a b q' c d, src.sub q.1 q.2.1 q.2.2 = none → R T0 q a b q' c d = 0
  absentKet : ∀ T0 q a b q' c d, src.sub q'.1 q'.2.1 q'.2.2 = none → R T0 q a b q' c d = 0
  stored : ∀ T0 q q' sb sk, src.sub q.1 q.2.1 q.2.2 = some sb →
    src.sub q'.1 q'.2.1 q'.2.2 = some sk → Connects lo hi J0 g0 T0 q q' →
    ∃ idx, src.sector T0 (min sb sk) (max sb sk) = some idx ∧
      ∀ a b c d ib ik, src.state sb a b = some ib → src.state sk c d = some ik →
        (src.canon T0 sb sk ib ik).2.2
          * src.mat T0 idx (src.canon T0 sb sk ib ik).1 (src.canon T0 sb sk ib ik).2.1
          = R T0 q a b q' c d

/-- The source space holds every state needed for a target state: the pair in canonical order, unless
the two orbitals are equal and `J+T` is even. -/
def Covered (src : JTSource) (sub : PnSub) (s : PnState) : Prop :=
  ∀ T i, src.sub sub.J T sub.g = some i → ∀ a b, (a = s.o1 ∧ b = s.o2) ∨ (a = s.o2 ∧ b = s.o1) →
    labLE a b → (a = b → (sub.J + T) % 2 = 1) → (src.state i a b).isSome

/-- The Wigner-Eckart theorem: the matrix element of the `Tz0` component between two-nucleon states
of given species. -/
noncomputable def wignerEckart (R : RME) (T0min T0max : Int) (bra ket : PnSub) (b k : PnState) : ℝ :=
  ∑ T0 ∈ Finset.Icc T0min T0max, ∑ Tb ∈ Finset.Icc 0 1, ∑ Tk ∈ Finset.Icc 0 1,
    expansion Tb bra.Tz * expansion Tk ket.Tz
      * cg Tk ket.Tz T0 (bra.Tz - ket.Tz) Tb bra.Tz
      * R T0 (bra.J, Tb, bra.g) b.o1 b.o2 (ket.J, Tk, ket.g) k.o1 k.o2

/-! ## Isospin coefficients -/

/-- C47: for all isospin labels of an allowed combination, the code selects an entry inside its
tables, and the entry is the Clebsch-Gordan coefficient. -/
theorem tables_are_clebsch_gordan (Tb Tk T0 Tzb Tzk : Int) (hTb : 0 ≤ Tb ∧ Tb ≤ 1)
    (hTk : 0 ≤ Tk ∧ Tk ≤ 1) (hT0 : 0 ≤ T0 ∧ T0 ≤ 2) (htri : |Tb - T0| ≤ Tk ∧ Tk ≤ Tb + T0)
    (hzb : |Tzb| ≤ Tb) (hzk : |Tzk| ≤ Tk) (hz : 0 ≤ Tzb - Tzk ∧ Tzb - Tzk ≤ T0) :
    isospinCoefficient Tb Tk T0 (Tzb - Tzk) Tzk = .ok (cg Tk Tzk T0 (Tzb - Tzk) Tb Tzb) := by
  have h1 := abs_le.mp hzb
  have h2 := abs_le.mp hzk
  have h3 := abs_le.mp htri.1
  obtain ⟨a1, a2⟩ := hTb
  obtain ⟨a3, a4⟩ := hTk
  obtain ⟨a5, a6⟩ := hT0
  have b1 : -1 ≤ Tzb := by omega
  have b2 : Tzb ≤ 1 := by omega
  have b3 : -1 ≤ Tzk := by omega
  have b4 : Tzk ≤ 1 := by omega
  interval_cases Tb <;> interval_cases Tk <;> interval_cases T0 <;> interval_cases Tzb <;>
    interval_cases Tzk <;> first
    | (exfalso; omega)
    | (simp [isospinCoefficient, branchT11, cg0, cg1, cg2, cg3, cg4, cg5, cg6, cg7, cg8, cg9, cg10, cg11,
        cg12, cg13, cg14, cg15, cg16, cg17, cg18]; done)

/-! ## Helper lemmas -/

theorem loop_sum (a b : Int) (f : Int → ℝ) : ((loop a b).map f).sum = ∑ x ∈ Finset.Icc a b, f x := by
  have hn : (loop a b).Nodup := by
    refine List.Nodup.map ?_ List.nodup_range
    intro x y h
    simp only at h
    omega
  have hm : Finset.Icc a b = (loop a b).toFinset := by
    ext x
    simp only [Finset.mem_Icc, List.mem_toFinset, loop, List.mem_map, List.mem_range]
    constructor
    · intro h
      exact ⟨(x - a).toNat, by omega, by omega⟩
    · rintro ⟨i, hi, rfl⟩
      omega
  rw [hm, List.sum_toFinset _ hn]

theorem mem_loop {a b x : Int} : x ∈ loop a b ↔ a ≤ x ∧ x ≤ b := by
  simp only [loop, List.mem_map, List.mem_range]
  constructor
  · rintro ⟨i, hi, rfl⟩
    omega
  · intro h
    exact ⟨(x - a).toNat, by omega, by omega⟩

theorem isospins_sum (a b Tzb Tzk : Int) (f : Int × Int × Int → ℝ) :
    ((isospins a b Tzb Tzk).map f).sum
      = ∑ T0 ∈ Finset.Icc (max a (Tzb - Tzk)) b, ∑ Tb ∈ Finset.Icc |Tzb| 1, ∑ Tk ∈ Finset.Icc |Tzk| 1,
        f (T0, Tb, Tk) := by
  simp only [isospins, List.map_flatMap, List.map_map]
  have key : ∀ (l : List Int) (g : Int → List ℝ), (l.flatMap g).sum = (l.map fun x => (g x).sum).sum := by
    intro l g
    induction l with
    | nil => rfl
    | cons x l ih => simp [ih]
  rw [key, loop_sum]
  refine Finset.sum_congr rfl fun T0 _ => ?_
  rw [key, loop_sum]
  refine Finset.sum_congr rfl fun Tb _ => ?_
  rw [loop_sum]
  rfl

theorem expansion_mul {Tb Tk Tzb Tzk : Int} (h1 : |Tzb| ≤ Tb) (h2 : Tb ≤ 1) (h3 : |Tzk| ≤ Tk)
    (h4 : Tk ≤ 1) : expansion Tb Tzb * expansion Tk Tzk = pnExpansion Tzb Tzk := by
  have e1 : Tzb ≠ 0 → Tb = 1 := by
    intro h
    have := abs_pos.mpr h
    omega
  have e2 : Tzk ≠ 0 → Tk = 1 := by
    intro h
    have := abs_pos.mpr h
    omega
  have hsq : Real.sqrt (1 / 2) * Real.sqrt (1 / 2) = 1 / 2 := Real.mul_self_sqrt (by norm_num)
  unfold expansion pnExpansion
  by_cases hb : Tzb = 0 <;> by_cases hk : Tzk = 0
  · simp only [hb, hk, if_true, not_true, if_false, and_self, hsq]
  · simp [hb, hk, e2 hk]
  · simp [hb, hk, e1 hb]
  · simp [hb, hk, e1 hb, e2 hk]

theorem exchange_self_zero {x y : ℝ} (h : x = y) (h' : x = -y) : x = 0 := by linarith

theorem sgn_odd {n : Int} (h : n % 2 = 1) : sgn n = -1 := by simp [sgn, h]

theorem sgn_mul_self (n : Int) : sgn n * sgn n = 1 := by
  unfold sgn; split <;> norm_num

/-- A bra with two equal orbitals and even `J+T` does not exist. -/
theorem represents_forbidden_bra {src : JTSource} {R : RME} {lo hi J0 g0 : Int} (h : Represents src R lo hi J0 g0) (T0 : Int)
    (q : Int × Int × Int) (a : Lab) (q' : Int × Int × Int) (c d : Lab) (ha : a.2 % 2 = 1)
    (hq : (q.1 + q.2.1) % 2 = 0) : R T0 q a a q' c d = 0 := by
  have e := h.exchangeBra T0 q a a q' c d ha ha
  have hp : exchangePhase a a q = -1 := by
    apply sgn_odd
    omega
  rw [hp] at e
  linarith

theorem represents_forbidden_ket {src : JTSource} {R : RME} {lo hi J0 g0 : Int} (h : Represents src R lo hi J0 g0) (T0 : Int)
    (q : Int × Int × Int) (a b : Lab) (q' : Int × Int × Int) (c : Lab) (hc : c.2 % 2 = 1)
    (hq : (q'.1 + q'.2.1) % 2 = 0) : R T0 q a b q' c c = 0 := by
  have e := h.exchangeKet T0 q a b q' c c hc hc
  have hp : exchangePhase c c q' = -1 := by
    apply sgn_odd
    omega
  rw [hp] at e
  linarith

theorem labLE_total (a b : Lab) : labLE a b ∨ labLE b a := by
  unfold labLE; omega

/-- Looking up one state: the ordered pair exists, and the phase compensates the exchange. -/
theorem orderPair_found {src : JTSource} {sub : PnSub} {s : PnState} (hs : GoodState s)
    (hc : Covered src sub s) {T : Int} {i : ℕ} (hi : src.sub sub.J T sub.g = some i)
    (hJ : 0 ≤ sub.J) (hT : 0 ≤ T) (hne : ¬ (s.i1 = s.i2 ∧ ¬ (sub.J + T).tmod 2 = 1)) :
    ∃ n, src.state i (orderPair s sub.J T).2.1 (orderPair s sub.J T).2.2 = some n := by
  rw [Int.tmod_eq_emod_of_nonneg (by omega)] at hne
  apply Option.isSome_iff_exists.mp
  unfold orderPair
  split
  · rename_i h
    refine hc T i hi _ _ (Or.inl ⟨rfl, rfl⟩) (hs.order.mp h) ?_
    intro he
    by_contra hcon
    exact hne ⟨hs.same.mpr he, hcon⟩
  · rename_i h
    refine hc T i hi _ _ (Or.inr ⟨rfl, rfl⟩) ?_ ?_
    · rcases labLE_total s.o1 s.o2 with h' | h'
      · exact absurd (hs.order.mpr h') h
      · exact h'
    · intro he
      exfalso
      apply h
      rw [hs.same.mpr he.symm]

theorem branchTerm_ok {src : JTSource} {R : RME} {lo hi J0 g0 : Int} (hR : Represents src R lo hi J0 g0) {bra ket : PnSub}
    (hs : TargetSector J0 g0 bra ket)
    {b k : PnState} (hb : GoodState b) (hk : GoodState k) (hcb : Covered src bra b)
    (hck : Covered src ket k) (hJb : 0 ≤ bra.J) (hJk : 0 ≤ ket.J)
    (hz : 0 ≤ bra.Tz - ket.Tz) {T0 Tb Tk : Int} (hT0 : bra.Tz - ket.Tz ≤ T0 ∧ T0 ≤ 2)
    (hc : lo ≤ T0 ∧ T0 ≤ hi)
    (hTb : |bra.Tz| ≤ Tb ∧ Tb ≤ 1) (hTk : |ket.Tz| ≤ Tk ∧ Tk ≤ 1) :
    branchTerm src bra ket b k T0 Tb Tk = .ok (pnExpansion bra.Tz ket.Tz
      * cg Tk ket.Tz T0 (bra.Tz - ket.Tz) Tb bra.Tz
      * R T0 (bra.J, Tb, bra.g) b.o1 b.o2 (ket.J, Tk, ket.g) k.o1 k.o2) := by
  have hTb0 : 0 ≤ Tb := le_trans (abs_nonneg _) hTb.1
  have hTk0 : 0 ≤ Tk := le_trans (abs_nonneg _) hTk.1
  unfold branchTerm
  by_cases htri : |Tb - T0| ≤ Tk ∧ Tk ≤ Tb + T0
  swap
  · have ht : tri Tb T0 Tk = false := by simpa [tri] using htri
    have hcg : cg Tk ket.Tz T0 (bra.Tz - ket.Tz) Tb bra.Tz = 0 := by
      rw [cg, if_neg]
      intro h
      apply htri
      have h1 := abs_le.mp h.2.1
      have h2 := h.2.2.1
      constructor
      · rw [abs_le]; omega
      · omega
    simp [ht, hcg]
  have ht : tri Tb T0 Tk = true := by simpa [tri] using htri
  simp only [ht, Bool.not_true, Bool.false_eq_true, if_false]
  cases hsb : src.sub bra.J Tb bra.g with
  | none =>
    rw [hR.absentBra T0 (bra.J, Tb, bra.g) b.o1 b.o2 (ket.J, Tk, ket.g) k.o1 k.o2 hsb, mul_zero]
  | some sb =>
    cases hsk : src.sub ket.J Tk ket.g with
    | none =>
      rw [hR.absentKet T0 (bra.J, Tb, bra.g) b.o1 b.o2 (ket.J, Tk, ket.g) k.o1 k.o2 hsk, mul_zero]
    | some sk =>
      obtain ⟨idx, hidx, hval⟩ := hR.stored T0 (bra.J, Tb, bra.g) (ket.J, Tk, ket.g) sb sk hsb hsk
        ⟨hc, htri, hs.momentum, hs.parity⟩
      simp only [hidx, found, Except.ok_bind']
      rw [tables_are_clebsch_gordan Tb Tk T0 bra.Tz ket.Tz ⟨hTb0, hTb.2⟩ ⟨hTk0, hTk.2⟩
        ⟨by omega, hT0.2⟩ htri hTb.1 hTk.1 ⟨hz, hT0.1⟩]
      simp only [Except.ok_bind']
      by_cases hfb : b.i1 = b.i2 ∧ ¬ (bra.J + Tb).tmod 2 = 1
      · rw [if_pos hfb]
        have he : b.o1 = b.o2 := hb.same.mp hfb.1
        have h0 := hfb.2
        rw [Int.tmod_eq_emod_of_nonneg (by omega)] at h0
        rw [he, represents_forbidden_bra hR T0 (bra.J, Tb, bra.g) b.o2 _ _ _ hb.odd2
          (show (bra.J + Tb) % 2 = 0 by omega), mul_zero]
        rfl
      rw [if_neg hfb]
      by_cases hfk : k.i1 = k.i2 ∧ ¬ (ket.J + Tk).tmod 2 = 1
      · rw [if_pos hfk]
        have he : k.o1 = k.o2 := hk.same.mp hfk.1
        have h0 := hfk.2
        rw [Int.tmod_eq_emod_of_nonneg (by omega)] at h0
        rw [he, represents_forbidden_ket hR T0 _ _ _ (ket.J, Tk, ket.g) k.o2 hk.odd2
          (show (ket.J + Tk) % 2 = 0 by omega), mul_zero]
        rfl
      rw [if_neg hfk]
      obtain ⟨ib, hib⟩ := orderPair_found hb hcb hsb hJb hTb0 hfb
      obtain ⟨ik, hik⟩ := orderPair_found hk hck hsk hJk hTk0 hfk
      simp only [hib, hik, found, Except.ok_bind']
      have hv := hval _ _ _ _ ib ik hib hik
      have hbra : ∀ c d, (orderPair b bra.J Tb).1 * R T0 (bra.J, Tb, bra.g)
          (orderPair b bra.J Tb).2.1 (orderPair b bra.J Tb).2.2 (ket.J, Tk, ket.g) c d
          = R T0 (bra.J, Tb, bra.g) b.o1 b.o2 (ket.J, Tk, ket.g) c d := by
        intro c d
        unfold orderPair
        split
        · simp
        · simp only
          rw [hR.exchangeBra T0 _ b.o1 b.o2 _ _ _ hb.odd1 hb.odd2]
          unfold exchangePhase
          rw [← mul_assoc, sgn_mul_self, one_mul]
      have hket : ∀ a b, (orderPair k ket.J Tk).1 * R T0 (bra.J, Tb, bra.g) a b (ket.J, Tk, ket.g)
          (orderPair k ket.J Tk).2.1 (orderPair k ket.J Tk).2.2
          = R T0 (bra.J, Tb, bra.g) a b (ket.J, Tk, ket.g) k.o1 k.o2 := by
        intro a b
        unfold orderPair
        split
        · simp
        · simp only
          rw [hR.exchangeKet T0 _ _ _ _ k.o1 k.o2 hk.odd1 hk.odd2]
          unfold exchangePhase
          rw [← mul_assoc, sgn_mul_self, one_mul]
      rw [Except.pure_ok]
      congr 2
      rw [mul_assoc, hv, mul_assoc, hket, hbra]

/-! ## Property theorems -/

/-- C46, C47: every branched matrix element exists (no access outside a table or matrix) and is given
by the Wigner-Eckart theorem, with the pair of orbitals in the order of the target state. -/
theorem branching_is_wigner_eckart {src : JTSource} {R : RME} {T0min T0max J0 g0 : Int}
    (hR : Represents src R T0min T0max J0 g0) {bra ket : PnSub} (hs : TargetSector J0 g0 bra ket) {b k : PnState} (hb : GoodState b) (hk : GoodState k)
    (hcb : Covered src bra b) (hck : Covered src ket k) (hJb : 0 ≤ bra.J) (hJk : 0 ≤ ket.J)
    (hz : 0 ≤ bra.Tz - ket.Tz) (h2 : T0max ≤ 2) :
    branchElement src T0min T0max bra ket b k = .ok (wignerEckart R T0min T0max bra ket b k) := by
  unfold branchElement
  rw [mapM_ok (g := fun t : Int × Int × Int => pnExpansion bra.Tz ket.Tz
      * cg t.2.2 ket.Tz t.1 (bra.Tz - ket.Tz) t.2.1 bra.Tz
      * R t.1 (bra.J, t.2.1, bra.g) b.o1 b.o2 (ket.J, t.2.2, ket.g) k.o1 k.o2)]
  swap
  · intro t ht
    simp only [isospins, List.mem_flatMap, List.mem_map, mem_loop] at ht
    obtain ⟨T0, hT0, Tb, hTb, Tk, hTk, rfl⟩ := ht
    exact branchTerm_ok hR hs hb hk hcb hck hJb hJk hz (by omega) (by omega) hTb hTk
  simp only [Except.ok_bind', Except.pure_ok]
  congr 1
  rw [isospins_sum]
  unfold wignerEckart
  have hsub : Finset.Icc (max T0min (bra.Tz - ket.Tz)) T0max ⊆ Finset.Icc T0min T0max :=
    Finset.Icc_subset_Icc (le_max_left _ _) le_rfl
  have hcg0 : ∀ T0 Tb Tk, ¬ (|bra.Tz| ≤ Tb ∧ |ket.Tz| ≤ Tk ∧ bra.Tz - ket.Tz ≤ T0) →
      cg Tk ket.Tz T0 (bra.Tz - ket.Tz) Tb bra.Tz = 0 := by
    intro T0 Tb Tk h
    rw [cg, if_neg]
    intro h'
    apply h
    refine ⟨h'.2.2.2.2.2, h'.2.2.2.1, ?_⟩
    have := h'.2.2.2.2.1
    exact le_trans (le_abs_self _) this
  rw [← Finset.sum_subset hsub]
  · refine Finset.sum_congr rfl fun T0 hT0 => ?_
    have hs1 : Finset.Icc |bra.Tz| 1 ⊆ Finset.Icc 0 1 := Finset.Icc_subset_Icc (abs_nonneg _) le_rfl
    rw [← Finset.sum_subset hs1]
    · refine Finset.sum_congr rfl fun Tb hTb => ?_
      have hs2 : Finset.Icc |ket.Tz| 1 ⊆ Finset.Icc 0 1 := Finset.Icc_subset_Icc (abs_nonneg _) le_rfl
      rw [← Finset.sum_subset hs2]
      · refine Finset.sum_congr rfl fun Tk hTk => ?_
        rw [Finset.mem_Icc] at hTb hTk
        rw [expansion_mul hTb.1 hTb.2 hTk.1 hTk.2]
      · intro Tk hTk hn
        rw [Finset.mem_Icc] at hTk hn
        rw [hcg0 T0 Tb Tk (by omega)]
        ring
    · intro Tb hTb hn
      rw [Finset.mem_Icc] at hTb hn
      refine Finset.sum_eq_zero fun Tk _ => ?_
      rw [hcg0 T0 Tb Tk (by omega)]
      ring
  · intro T0 hT0 hn
    rw [Finset.mem_Icc] at hT0 hn
    refine Finset.sum_eq_zero fun Tb _ => Finset.sum_eq_zero fun Tk _ => ?_
    rw [hcg0 T0 Tb Tk (by omega)]
    ring

/-- C46: for an isoscalar operator the `pp` and `nn` elements are the `T=1` element, and the `pn`
element is the half sum of the `T=1` and `T=0` elements (orbitals in the order of the target state,
with the exchange phase when that order is not canonical: `Represents.exchangeBra`). -/
theorem isoscalar_branching {src : JTSource} {R : RME} {J0 g0 : Int} (hR : Represents src R 0 0 J0 g0)
    {bra ket : PnSub} (hs : TargetSector J0 g0 bra ket) {b k : PnState} (hb : GoodState b) (hk : GoodState k)
    (hcb : Covered src bra b) (hck : Covered src ket k) (hJb : 0 ≤ bra.J) (hJk : 0 ≤ ket.J) :
    (bra.Tz = 1 → ket.Tz = 1 → branchElement src 0 0 bra ket b k
      = .ok (R 0 (bra.J, 1, bra.g) b.o1 b.o2 (ket.J, 1, ket.g) k.o1 k.o2)) ∧
    (bra.Tz = -1 → ket.Tz = -1 → branchElement src 0 0 bra ket b k
      = .ok (R 0 (bra.J, 1, bra.g) b.o1 b.o2 (ket.J, 1, ket.g) k.o1 k.o2)) ∧
    (bra.Tz = 0 → ket.Tz = 0 → branchElement src 0 0 bra ket b k
      = .ok ((R 0 (bra.J, 1, bra.g) b.o1 b.o2 (ket.J, 1, ket.g) k.o1 k.o2
        + R 0 (bra.J, 0, bra.g) b.o1 b.o2 (ket.J, 0, ket.g) k.o1 k.o2) / 2)) := by
  have hsq : Real.sqrt (1 / 2) * Real.sqrt (1 / 2) = 1 / 2 := Real.mul_self_sqrt (by norm_num)
  have hIcc : (Finset.Icc (0 : Int) 1) = {0, 1} := by decide
  have h00 : (Finset.Icc (0 : Int) 0) = {0} := by decide
  have z1 : cg 1 1 0 0 0 1 = 0 := by simp [cg]
  have z2 : cg 0 1 0 0 1 1 = 0 := by simp [cg]
  have z3 : cg 0 1 0 0 0 1 = 0 := by simp [cg]
  have z4 : cg 1 (-1) 0 0 0 (-1) = 0 := by simp [cg]
  have z5 : cg 0 (-1) 0 0 1 (-1) = 0 := by simp [cg]
  have z6 : cg 0 (-1) 0 0 0 (-1) = 0 := by simp [cg]
  have z7 : cg 1 0 0 0 0 0 = 0 := by simp [cg]
  have z8 : cg 0 0 0 0 1 0 = 0 := by simp [cg]
  refine ⟨?_, ?_, ?_⟩ <;> intro e1 e2 <;>
    rw [branching_is_wigner_eckart hR hs hb hk hcb hck hJb hJk (by omega) (by omega)] <;>
    unfold wignerEckart <;>
    rw [h00, Finset.sum_singleton, hIcc, Finset.sum_pair (by decide), Finset.sum_pair (by decide),
      Finset.sum_pair (by decide), e1, e2]
  · simp [expansion, z1, z2, z3, cg7]
  · simp [expansion, z4, z5, z6, cg5]
  · simp only [expansion, sub_self, z7, z8, cg0, cg6, if_true, hsq]
    congr 1
    ring

/-- C46, C47: the whole matrix.  Elements below the diagonal of a diagonal sector are left zero; all
others are given by the Wigner-Eckart theorem. -/
theorem branch_matrix {src : JTSource} {R : RME} {T0min T0max J0 g0 : Int}
    (hR : Represents src R T0min T0max J0 g0) {bra ket : PnSub} (hs : TargetSector J0 g0 bra ket)
    (hb : ∀ b ∈ bra.states, GoodState b ∧ Covered src bra b)
    (hk : ∀ k ∈ ket.states, GoodState k ∧ Covered src ket k) (hJb : 0 ≤ bra.J) (hJk : 0 ≤ ket.J)
    (hz : 0 ≤ bra.Tz - ket.Tz) (h2 : T0max ≤ 2)
    (diagonal : Bool) :
    branchMatrix src T0min T0max diagonal bra ket
      = .ok (bra.states.zipIdx.map fun b => ket.states.zipIdx.map fun k =>
          if diagonal = true ∧ k.2 < b.2 then 0 else wignerEckart R T0min T0max bra ket b.1 k.1) := by
  unfold branchMatrix
  simp only [hz, decide_true, assertE, if_true, Except.ok_bind']
  apply mapM_ok
  intro b hb'
  apply mapM_ok
  intro k hk'
  have h1 := hb b.1 (List.fst_mem_of_mem_zipIdx hb')
  have h2' := hk k.1 (List.fst_mem_of_mem_zipIdx hk')
  by_cases hc : diagonal = true ∧ k.2 < b.2
  · simp [hc.1, hc.2]
  · rw [if_neg hc, if_neg (by simpa using hc)]
    exact branching_is_wigner_eckart hR hs h1.1 h2'.1 h1.2 h2'.2 hJb hJk hz h2

/-- An operator acting on two nucleons in the lowest orbital, `J=0`, `T=1`. -/
noncomputable def sampleR : RME := fun T0 q a b q' c d =>
  if T0 = 0 ∧ q = (0, 1, 0) ∧ q' = (0, 1, 0) ∧ a = (0, 1) ∧ b = (0, 1) ∧ c = (0, 1) ∧ d = (0, 1)
  then 5 else 0

/-- Its stored form. -/
noncomputable def sampleSource : JTSource where
  sub J T g := if (J, T, g) = (0, 1, 0) then some 0 else none
  state _ a b := if a = (0, 1) ∧ b = (0, 1) then some 0 else none
  sector _ _ _ := some 0
  mat T0 _ _ _ := if T0 = 0 then 5 else 0
  canon _ _ _ i j := (i, j, 1)

theorem sample_represents : Represents sampleSource sampleR 0 2 0 0 where
  exchangeBra := by
    intro T0 q a b q' c d ha hb
    unfold sampleR
    by_cases h : T0 = 0 ∧ q = (0, 1, 0) ∧ q' = (0, 1, 0) ∧ a = (0, 1) ∧ b = (0, 1) ∧ c = (0, 1) ∧
      d = (0, 1)
    · obtain ⟨rfl, rfl, rfl, rfl, rfl, rfl, rfl⟩ := h
      simp [exchangePhase, sgn]
    · rw [if_neg h, if_neg (by tauto), mul_zero]
  exchangeKet := by
    intro T0 q a b q' c d ha hb
    unfold sampleR
    by_cases h : T0 = 0 ∧ q = (0, 1, 0) ∧ q' = (0, 1, 0) ∧ a = (0, 1) ∧ b = (0, 1) ∧ c = (0, 1) ∧
      d = (0, 1)
    · obtain ⟨rfl, rfl, rfl, rfl, rfl, rfl, rfl⟩ := h
      simp [exchangePhase, sgn]
    · rw [if_neg h, if_neg (by tauto), mul_zero]
  absentBra := by
    intro T0 q a b q' c d h
    unfold sampleR
    rw [if_neg]
    rintro ⟨_, rfl, _⟩
    simp [sampleSource] at h
  absentKet := by
    intro T0 q a b q' c d h
    unfold sampleR
    rw [if_neg]
    rintro ⟨_, _, rfl, _⟩
    simp [sampleSource] at h
  stored := by
    intro T0 q q' sb sk hb hk _
    refine ⟨0, rfl, ?_⟩
    intro a b c d ib ik hib hik
    have hq : q = (0, 1, 0) := by
      simp [sampleSource] at hb
      exact Prod.ext hb.1.1 (Prod.ext hb.1.2.1 hb.1.2.2)
    have hq' : q' = (0, 1, 0) := by
      simp [sampleSource] at hk
      exact Prod.ext hk.1.1 (Prod.ext hk.1.2.1 hk.1.2.2)
    have hab : a = (0, 1) ∧ b = (0, 1) := by
      by_contra hc
      simp [sampleSource, hc] at hib
    have hcd : c = (0, 1) ∧ d = (0, 1) := by
      by_contra hc
      simp [sampleSource, hc] at hik
    obtain ⟨rfl, rfl⟩ := hab
    obtain ⟨rfl, rfl⟩ := hcd
    subst hq hq'
    simp [sampleSource, sampleR]

/-- Non-vacuity: the hypotheses hold for the sample operator and the state `|aa;J=0>` of two protons or
of a proton and a neutron. -/
example (Tz : Int) : Represents sampleSource sampleR 0 2 0 0 ∧ GoodState ⟨0, 0, (0, 1), (0, 1)⟩ ∧
    TargetSector 0 0 ⟨Tz, 0, 0, [⟨0, 0, (0, 1), (0, 1)⟩]⟩ ⟨Tz, 0, 0, [⟨0, 0, (0, 1), (0, 1)⟩]⟩ ∧
    Covered sampleSource ⟨Tz, 0, 0, [⟨0, 0, (0, 1), (0, 1)⟩]⟩ ⟨0, 0, (0, 1), (0, 1)⟩ ∧
    sampleR 0 (0, 1, 0) (0, 1) (0, 1) (0, 1, 0) (0, 1) (0, 1) = 5 := by
  refine ⟨sample_represents, ⟨by simp [labLE], by simp, rfl, rfl⟩, ⟨by simp, by simp⟩, ?_, by simp [sampleR]⟩
  intro T i hi a b hab _ _
  simp only [or_self] at hab
  obtain ⟨rfl, rfl⟩ := hab
  simp [sampleSource]

end Verif.Moshinsky
