import Verif.Separable.TrueAm
import Mathlib.LinearAlgebra.BilinearForm.TensorProduct

/-!
# Two-body operators of `h2mixer` as operators on two nucleons

The states of one nucleon are orthonormal vectors `|a m⟩` of a space.  Two nucleons live in the product of two copies of it.  Their states of
given `J` and `M` are sums of products with the coupling coefficients of Condon and Shortley.  An operator of rank `J0` is given by its
components on one nucleon, with elements as in the theorem of Wigner and Eckart.
-/

namespace Verif.Separable
open Verif Verif.Mapping Verif.Xform Verif.Obme Verif.SU2
open Verif.H2 hiding Mat
open Verif.Relative (red1D red2D red12D cgD reduces1 reduces2 reduces12)
open scoped TensorProduct

section
variable {V : Type} [AddCommGroup V] [Module ℝ V]

/-- The states `|a m⟩` of the orbitals are orthonormal; `m` is doubled. -/
def Orthonormal (form : V →ₗ[ℝ] V →ₗ[ℝ] ℝ) (st : SpOrb → ℤ → V) (space : Space) : Prop :=
  ∀ a b, InSpace space a → InSpace space b → ∀ m ∈ projs a.tj, ∀ m' ∈ projs b.tj,
    form (st a m) (st b m') = if a = b ∧ m = m' then 1 else 0

/-- `U` are the components of an operator of rank `J0` with reduced elements `u`: `⟨c m'|U_q|a m⟩ = (ja m J0 q|jc m') u(c,a)`. -/
def Components (form : V →ₗ[ℝ] V →ₗ[ℝ] ℝ) (st : SpOrb → ℤ → V) (space : Space) (J0 : ℕ) (U : ℤ → V →ₗ[ℝ] V) (u : SpOrb → SpOrb → ℝ) : Prop :=
  ∀ c a, InSpace space c → InSpace space a → ∀ m' ∈ projs c.tj, ∀ q ∈ projs (2 * J0), ∀ m ∈ projs a.tj,
    form (st c m') (U q (st a m)) = cgd a.tj m (2 * J0) q c.tj m' * u c a

/-- The first nucleon in orbital `a` and the second in orbital `b`, coupled to `J` and `M` (doubled). -/
noncomputable def pairState (st : SpOrb → ℤ → V) (M : ℤ) (a b : SpOrb) (J : ℕ) : V ⊗[ℝ] V :=
  ∑ m ∈ projs a.tj, ∑ m' ∈ projs b.tj, cgd a.tj m b.tj m' (2 * J) M • (st a m ⊗ₜ[ℝ] st b m')

/-- `U(1) + U(2)`. -/
noncomputable def onBoth (U : V →ₗ[ℝ] V) : V ⊗[ℝ] V →ₗ[ℝ] V ⊗[ℝ] V :=
  TensorProduct.map U LinearMap.id + TensorProduct.map LinearMap.id U

/-- Component `q` (doubled) of the product of rank `J0` of `X(1)` and `Y(2)`. -/
noncomputable def onEach (J1 J2 J0 : ℕ) (X Y : ℤ → V →ₗ[ℝ] V) (q : ℤ) : V ⊗[ℝ] V →ₗ[ℝ] V ⊗[ℝ] V :=
  ∑ u ∈ projs (2 * J1), ∑ v ∈ projs (2 * J2), cgd (2 * J1) u (2 * J2) v (2 * J0) q • TensorProduct.map (X u) (Y v)

/-- The element of an operator on two nucleons. -/
noncomputable def elem2 (form : V →ₗ[ℝ] V →ₗ[ℝ] ℝ) (O : V ⊗[ℝ] V →ₗ[ℝ] V ⊗[ℝ] V) (x y : V ⊗[ℝ] V) : ℝ :=
  LinearMap.BilinForm.tmul form form x (O y)

/-! ## The states -/

theorem comm_pair (st : SpOrb → ℤ → V) (M : ℤ) (J : ℕ) (a b : SpOrb) (ha : a.HalfOdd) (hb : b.HalfOdd) :
    TensorProduct.comm ℝ V V (pairState st M a b J) = exSign J a b • pairState st M b a J := by
  unfold SpOrb.HalfOdd at ha hb
  simp only [pairState, map_sum, map_smul, TensorProduct.comm_tmul, Finset.smul_sum, smul_smul]
  rw [Finset.sum_comm]
  refine Finset.sum_congr rfl fun m' _ => Finset.sum_congr rfl fun m _ => ?_
  rw [cgd_exchange a.tj, exSign, ← Relative.sgn_pow]
  congr 2
  refine Moshinsky.Osc.sgn_parity ?_
  push_cast
  omega

theorem exSign_sq (J : ℕ) (a b : SpOrb) : exSign J a b * exSign J a b = 1 := by
  rw [exSign, ← pow_add, ← two_mul, pow_mul]
  norm_num

theorem exSign_comm (J : ℕ) (a b : SpOrb) : exSign J b a = exSign J a b := by
  rw [exSign, exSign, add_comm b.tj]

/-- The states of the two-body basis change sign when the nucleons are exchanged. -/
theorem nas_antisymmetric (st : SpOrb → ℤ → V) (M : ℤ) (J : ℕ) {a b : SpOrb} (ha : a.HalfOdd) (hb : b.HalfOdd) :
    TensorProduct.comm ℝ V V (nas (pairState st M) J (a, b)) = -nas (pairState st M) J (a, b) := by
  simp only [nas, map_smul, map_sub, comm_pair st M J a b ha hb, comm_pair st M J b a hb ha, exSign_comm J a b, smul_smul, exSign_sq, one_smul]
  rw [← smul_neg, neg_sub]

/-! ## Elements between coupled products -/

theorem elem2_pair (form : V →ₗ[ℝ] V →ₗ[ℝ] ℝ) (O : V ⊗[ℝ] V →ₗ[ℝ] V ⊗[ℝ] V) (st : SpOrb → ℤ → V) (M' M : ℤ) (c d a b : SpOrb) (J' J : ℕ) :
    elem2 form O (pairState st M' c d J') (pairState st M a b J) =
      Relative.couple cgD c.tj d.tj (2 * J') a.tj b.tj (2 * J) (fun x' y' x y => elem2 form O (st c x' ⊗ₜ st d y') (st a x ⊗ₜ st b y)) M' M := by
  rw [Relative.couple_cgD]
  simp only [elem2, pairState, map_sum, map_smul, LinearMap.sum_apply, LinearMap.smul_apply, smul_eq_mul, Finset.mul_sum]
  rw [Relative.sum3]
  refine Finset.sum_congr rfl fun x' _ => ?_
  rw [Relative.sum3]
  refine Finset.sum_congr rfl fun y' _ => Finset.sum_congr rfl fun x _ => Finset.sum_congr rfl fun y _ => ?_
  ring

theorem elem2_onBoth (form : V →ₗ[ℝ] V →ₗ[ℝ] ℝ) (U : V →ₗ[ℝ] V) (x' y' x y : V) :
    elem2 form (onBoth U) (x' ⊗ₜ y') (x ⊗ₜ y) = form x' (U x) * form y' y + form x' x * form y' (U y) := by
  simp only [elem2, onBoth, LinearMap.add_apply, TensorProduct.map_tmul, LinearMap.id_apply, map_add]
  rw [LinearMap.BilinForm.tensorDistrib_tmul, LinearMap.BilinForm.tensorDistrib_tmul]
  simp only [smul_eq_mul]
  ring

theorem elem2_onEach (form : V →ₗ[ℝ] V →ₗ[ℝ] ℝ) (J1 J2 J0 : ℕ) (X Y : ℤ → V →ₗ[ℝ] V) (q : ℤ) (x' y' x y : V) :
    elem2 form (onEach J1 J2 J0 X Y q) (x' ⊗ₜ y') (x ⊗ₜ y) =
      Relative.product cgD (2 * J1) (2 * J2) (2 * J0) (fun u => form x' (X u x)) (fun v => form y' (Y v y)) q := by
  simp only [elem2, onEach, LinearMap.sum_apply, LinearMap.smul_apply, TensorProduct.map_tmul, map_sum, map_smul, Relative.product, Relative.ms_eq, Relative.cgD_nat]
  refine Finset.sum_congr rfl fun u _ => Finset.sum_congr rfl fun v _ => ?_
  rw [LinearMap.BilinForm.tensorDistrib_tmul]
  simp only [smul_eq_mul]
  ring

variable {form : V →ₗ[ℝ] V →ₗ[ℝ] ℝ} {st : SpOrb → ℤ → V} {space : Space}

theorem pair_onBoth (ho : Orthonormal form st space) {J0 : ℕ} {U : ℤ → V →ₗ[ℝ] V} {u : SpOrb → SpOrb → ℝ} (hU : Components form st space J0 U u)
    {c d a b : SpOrb} (hc : InSpace space c) (hd : InSpace space d) (ha : InSpace space a) (hb : InSpace space b) {J' J : ℕ} {M' q M : ℤ}
    (hM' : M' ∈ projs (2 * J')) (hq : q ∈ projs (2 * J0)) (hM : M ∈ projs (2 * J)) :
    elem2 form (onBoth (U q)) (pairState st M' c d J') (pairState st M a b J) = cgd (2 * J) M (2 * J0) q (2 * J') M' *
      ((if d = b then amS.f1 c.tj d.tj J' a.tj b.tj J J0 * u c a else 0) + (if c = a then amS.f2 c.tj d.tj J' a.tj b.tj J J0 * u d b else 0)) := by
  rw [← Relative.ms_eq] at hM' hq hM
  simp only [elem2_pair, elem2_onBoth]
  rw [Relative.couple_add, mul_add]
  congr 1
  · by_cases h : d = b
    · subst h
      rw [if_pos rfl, ← mul_assoc]
      have := reduces1 c.tj a.tj d.tj (2 * J') (2 * J) (2 * J0) M' hM' q hq M hM
      rw [Relative.cgD_nat] at this
      simp only [amS, Int.toNat_natCast]
      rw [← this, ← Relative.couple_mul]
      refine Relative.couple_congr fun x' hx' y' hy' x hx y hy => ?_
      rw [Relative.ms_eq] at hx' hy' hx hy hq
      rw [hU c a hc ha x' hx' q hq x hx, ho d d hd hd y' hy' y hy, Relative.cgD_nat, Relative.δ]
      simp only [true_and]
      ring
    · rw [if_neg h, mul_zero, ← Relative.couple_zero]
      refine Relative.couple_congr fun x' hx' y' hy' x hx y hy => ?_
      rw [Relative.ms_eq] at hy' hy
      rw [ho d b hd hb y' hy' y hy, if_neg (fun e => h e.1), mul_zero]
  · by_cases h : c = a
    · subst h
      rw [if_pos rfl, ← mul_assoc]
      have := reduces2 c.tj d.tj b.tj (2 * J') (2 * J) (2 * J0) M' hM' q hq M hM
      rw [Relative.cgD_nat] at this
      simp only [amS, Int.toNat_natCast]
      rw [← this, ← Relative.couple_mul]
      refine Relative.couple_congr fun x' hx' y' hy' x hx y hy => ?_
      rw [Relative.ms_eq] at hx' hy' hx hy hq
      rw [hU d b hd hb y' hy' q hq y hy, ho c c hc hc x' hx' x hx, Relative.cgD_nat, Relative.δ]
      simp only [true_and]
      ring
    · rw [if_neg h, mul_zero, ← Relative.couple_zero]
      refine Relative.couple_congr fun x' hx' y' hy' x hx y hy => ?_
      rw [Relative.ms_eq] at hx' hx
      rw [ho c a hc ha x' hx' x hx, if_neg (fun e => h e.1), zero_mul]

theorem pair_onEach {J1 J2 J0 : ℕ} {X Y : ℤ → V →ₗ[ℝ] V} {x y : SpOrb → SpOrb → ℝ} (hX : Components form st space J1 X x)
    (hY : Components form st space J2 Y y) {c d a b : SpOrb} (hc : InSpace space c) (hd : InSpace space d) (ha : InSpace space a)
    (hb : InSpace space b) {J' J : ℕ} {M' q M : ℤ} (hM' : M' ∈ projs (2 * J')) (hq : q ∈ projs (2 * J0)) (hM : M ∈ projs (2 * J)) :
    elem2 form (onEach J1 J2 J0 X Y q) (pairState st M' c d J') (pairState st M a b J) = cgd (2 * J) M (2 * J0) q (2 * J') M' *
      (amS.f12 c.tj d.tj J' a.tj b.tj J J1 J2 J0 * (x c a * y d b)) := by
  rw [← Relative.ms_eq] at hM' hq hM
  simp only [elem2_pair, elem2_onEach]
  have := reduces12 c.tj d.tj (2 * J') a.tj b.tj (2 * J) (2 * J1) (2 * J2) (2 * J0) M' hM' q hq M hM
  rw [Relative.cgD_nat] at this
  simp only [amS, Int.toNat_natCast]
  rw [← mul_assoc, ← this, ← Relative.couple_mul]
  refine Relative.couple_congr fun x' hx' y' hy' w hw z hz => ?_
  rw [Relative.ms_eq] at hx' hy' hw hz
  simp only [Relative.product, Finset.sum_mul]
  refine Finset.sum_congr rfl fun u hu => Finset.sum_congr rfl fun v hv => ?_
  rw [Relative.ms_eq] at hu hv
  rw [hX c a hc ha x' hx' u hu w hw, hY d b hd hb y' hy' v hv z hz]
  simp only [Relative.cgD_nat]
  ring

/-! ## Elements between the states of the basis -/

/-- Elements between the states of the basis follow from those between products. -/
theorem nas_scale {V' : Type} [AddCommGroup V'] [Module ℝ V'] {W : Type} [AddCommGroup W] [Module ℝ W]
    (pk' : SpOrb → SpOrb → ℕ → V') (pk : SpOrb → SpOrb → ℕ → V') (qk : SpOrb → SpOrb → ℕ → W)
    (B : V' →ₗ[ℝ] V' →ₗ[ℝ] ℝ) (C : W →ₗ[ℝ] W →ₗ[ℝ] ℝ) (k : ℝ) {J' J : ℕ} {x y : SpOrb × SpOrb}
    (h : ∀ c d a b, (c = x.1 ∨ c = x.2) → (d = x.1 ∨ d = x.2) → (a = y.1 ∨ a = y.2) → (b = y.1 ∨ b = y.2) →
      B (pk' c d J') (pk a b J) = k * C (qk c d J') (qk a b J)) :
    B (nas pk' J' x) (nas pk J y) = k * C (nas qk J' x) (nas qk J y) := by
  simp only [nas, map_smul, map_sub, LinearMap.smul_apply, LinearMap.sub_apply, smul_eq_mul]
  rw [h x.1 x.2 y.1 y.2 (.inl rfl) (.inr rfl) (.inl rfl) (.inr rfl), h x.2 x.1 y.1 y.2 (.inr rfl) (.inl rfl) (.inl rfl) (.inr rfl),
    h x.1 x.2 y.2 y.1 (.inl rfl) (.inr rfl) (.inr rfl) (.inl rfl), h x.2 x.1 y.2 y.1 (.inr rfl) (.inl rfl) (.inr rfl) (.inl rfl)]
  ring

/-- The elements as a form. -/
noncomputable def elemForm (form : V →ₗ[ℝ] V →ₗ[ℝ] ℝ) (O : V ⊗[ℝ] V →ₗ[ℝ] V ⊗[ℝ] V) : V ⊗[ℝ] V →ₗ[ℝ] V ⊗[ℝ] V →ₗ[ℝ] ℝ :=
  LinearMap.compl₂ (LinearMap.BilinForm.tmul form form) O

theorem elemForm_apply (form : V →ₗ[ℝ] V →ₗ[ℝ] ℝ) (O : V ⊗[ℝ] V →ₗ[ℝ] V ⊗[ℝ] V) (x y : V ⊗[ℝ] V) : elemForm form O x y = elem2 form O x y := by
  rw [elemForm, LinearMap.compl₂_apply, elem2]

theorem elem2_nas {W : Type} [AddCommGroup W] [Module ℝ W] (O : V ⊗[ℝ] V →ₗ[ℝ] V ⊗[ℝ] V) (qk : SpOrb → SpOrb → ℕ → W)
    (C : W →ₗ[ℝ] W →ₗ[ℝ] ℝ) (k : ℝ) {M' M : ℤ} {J' J : ℕ} {x y : SpOrb × SpOrb}
    (h : ∀ c d a b, (c = x.1 ∨ c = x.2) → (d = x.1 ∨ d = x.2) → (a = y.1 ∨ a = y.2) → (b = y.1 ∨ b = y.2) →
      elem2 form O (pairState st M' c d J') (pairState st M a b J) = k * C (qk c d J') (qk a b J)) :
    elem2 form O (nas (pairState st M') J' x) (nas (pairState st M) J y) = k * C (nas qk J' x) (nas qk J y) := by
  simp only [← elemForm_apply] at h ⊢
  exact nas_scale (pairState st M') (pairState st M) qk (elemForm form O) C k h

end

/-- **C174.** The upgrade of a one-body operator: for any space of one nucleon with orthonormal states and any operator with the stored reduced
elements, the elements of `U(1) + U(2)` between the antisymmetric states of two nucleons, at all projections, are those of a tensor operator with
reduced elements `A - 1` times the stored ones. -/
theorem upgrade_nucleons {space : Space} {secs : Sectors} {mats : List Mat} {u : SpOrb → SpOrb → ℝ}
    (hg : GoodSpace space) (ho : Operator space secs mats u) {bra ket : PairSub} (hb : Uses space bra)
    (hk : Uses space ket) {A : Int} (hA : -(2 ^ 31) ≤ A - 1 ∧ A - 1 < 2 ^ 31) (hA1 : A ≠ 1) {J0 : ℕ} (hJ0 : secs.qn.J0 = J0)
    (htri : |(bra.J : Int) - ket.J| ≤ J0 ∧ (J0 : ℤ) ≤ bra.J + ket.J) :
    ∃ m, upgrade amS space secs mats bra ket A = .ok m ∧ m.rows = bra.states.length ∧ m.cols = ket.states.length ∧
      ∀ (V : Type) [AddCommGroup V] [Module ℝ V] (form : V →ₗ[ℝ] V →ₗ[ℝ] ℝ) (st : SpOrb → ℤ → V) (U : ℤ → V →ₗ[ℝ] V),
        Orthonormal form st space → Components form st space J0 U u →
        ∀ (i j : ℕ) (x y), bra.states[i]? = some x → ket.states[j]? = some y →
          ∀ M' ∈ projs (2 * bra.J), ∀ q ∈ projs (2 * J0), ∀ M ∈ projs (2 * ket.J),
            elem2 form (onBoth (U q)) (nas (pairState st M') bra.J x) (nas (pairState st M) ket.J y) =
              cgd (2 * ket.J) M (2 * J0) q (2 * bra.J) M' * (((A : ℝ) - 1) * m.val i j) := by
  obtain ⟨m, h1, h2, h3, h4⟩ := upgrade_element (am := amS) hg ho hb hk hA hA1 (by rw [hJ0]; exact htri)
  refine ⟨m, h1, h2, h3, fun V _ _ form st U hO hU i j x y hx hy M' hM' q hq M hM => ?_⟩
  obtain ⟨W, _, _, qk, C, hC⟩ := form_exists fun c d J' a b J => (if d = b then amS.f1 c.tj d.tj J' a.tj b.tj J J0 * u c a else 0) +
    (if c = a then amS.f2 c.tj d.tj J' a.tj b.tj J J0 * u d b else 0)
  have e := h4 W qk C (fun c d a b => by rw [hC, hJ0]) i j x y hx hy
  have hA0 : ((A : ℝ) - 1) ≠ 0 := by
    rw [sub_ne_zero]
    exact_mod_cast hA1
  rw [e, ← mul_assoc ((A : ℝ) - 1), mul_one_div_cancel hA0, one_mul]
  obtain ⟨⟨x1, _⟩, x2, _⟩ := hb x (List.mem_of_getElem? hx)
  obtain ⟨⟨y1, _⟩, y2, _⟩ := hk y (List.mem_of_getElem? hy)
  refine elem2_nas (onBoth (U q)) qk C _ fun c d a b hc hd ha hb => ?_
  rw [hC]
  exact pair_onBoth hO hU (by rcases hc with rfl | rfl <;> assumption) (by rcases hd with rfl | rfl <;> assumption)
    (by rcases ha with rfl | rfl <;> assumption) (by rcases hb with rfl | rfl <;> assumption) hM' hq hM

/-- **C174.** The product of two one-body operators: the elements of `[X(1) Y(2)]` between the antisymmetric states of two nucleons, at all
projections, are those of a tensor operator with the stored reduced elements. -/
theorem product_nucleons {space : Space} {secs1 secs2 : Sectors}
    {mats1 mats2 : List Mat} {x y : SpOrb → SpOrb → ℝ} (hg : GoodSpace space) (h1 : Operator space secs1 mats1 x)
    (h2 : Operator space secs2 mats2 y) {bra ket : PairSub} (hb : Uses space bra) (hk : Uses space ket)
    {J1 J2 J0 : ℕ} (q1 : secs1.qn.J0 = J1) (q2 : secs2.qn.J0 = J2)
    (hq : |(J1 : Int) - J2| ≤ J0 ∧ (J0 : Int) ≤ J1 + J2)
    (htri : |(bra.J : Int) - ket.J| ≤ J0 ∧ (J0 : Int) ≤ bra.J + ket.J) :
    ∃ m, racahReduce amS space secs1 mats1 secs2 mats2 false bra ket J0 = .ok m ∧ m.rows = bra.states.length ∧ m.cols = ket.states.length ∧
      ∀ (V : Type) [AddCommGroup V] [Module ℝ V] (form : V →ₗ[ℝ] V →ₗ[ℝ] ℝ) (st : SpOrb → ℤ → V) (X Y : ℤ → V →ₗ[ℝ] V),
        Components form st space J1 X x → Components form st space J2 Y y →
        ∀ (i j : ℕ) (s t), bra.states[i]? = some s → ket.states[j]? = some t →
          ∀ M' ∈ projs (2 * bra.J), ∀ q ∈ projs (2 * J0), ∀ M ∈ projs (2 * ket.J),
            elem2 form (onEach J1 J2 J0 X Y q) (nas (pairState st M') bra.J s) (nas (pairState st M) ket.J t) =
              cgd (2 * ket.J) M (2 * J0) q (2 * bra.J) M' * m.val i j := by
  obtain ⟨m, r1, r2, r3, r4⟩ := racahReduce_element exchange_law hg h1 h2 hb hk q1 q2 hq htri
  refine ⟨m, r1, r2, r3, fun V _ _ form st X Y hX hY i j s t hs ht M' hM' q hq M hM => ?_⟩
  obtain ⟨W, _, _, qk, C, hC⟩ := form_exists fun c d J' a b J => amS.f12 c.tj d.tj J' a.tj b.tj J J1 J2 J0 * (x c a * y d b)
  rw [r4 W qk C (fun c d a b => by rw [hC]) i j s t hs ht]
  obtain ⟨⟨x1, _⟩, x2, _⟩ := hb s (List.mem_of_getElem? hs)
  obtain ⟨⟨y1, _⟩, y2, _⟩ := hk t (List.mem_of_getElem? ht)
  refine elem2_nas (onEach J1 J2 J0 X Y q) qk C _ fun c d a b hc hd ha hb => ?_
  rw [hC]
  exact pair_onEach hX hY (by rcases hc with rfl | rfl <;> assumption) (by rcases hd with rfl | rfl <;> assumption)
    (by rcases ha with rfl | rfl <;> assumption) (by rcases hb with rfl | rfl <;> assumption) hM' hq hM

end Verif.Separable
