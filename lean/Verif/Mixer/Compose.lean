import Verif.Mixer.Meaning
import Verif.Mixer.OneBodyProps
import Verif.SU2.Product

/-!
# Combinations, products and transformations of operators on a nucleon
-/

namespace Verif.Mixer
open Verif Verif.Mapping Verif.Xform Verif.Obme Verif.Separable Verif.SU2
open Verif.H2 hiding Mat Subspace

/-- The orbital at a position of a space. -/
def orbAt (s : Space) (t : (_ : ℕ) × ℕ) : SpOrb :=
  match s[t.1]? with
  | some b => ⟨b.labels.sp, b.ns.getD t.2 0, b.labels.l, b.labels.tj⟩
  | none => ⟨.p, 0, 0, 0⟩

/-- The value asked of `am::RacahReductionFactorRose`: the overlap of the two ways of coupling a state and two tensors, by sums over projections. -/
noncomputable def trueW (qa qb q : QN) (bra ket inner : ℕ) : ℝ :=
  recoupling ket inner bra (2 * qa.J0.toNat) (2 * qb.J0.toNat) (2 * q.J0.toNat)

section
variable {V : Type} [AddCommGroup V] [Module ℝ V]

/-- The projection on the states of a space. -/
noncomputable def project (form : V →ₗ[ℝ] V →ₗ[ℝ] ℝ) (st : SpOrb → ℤ → V) (s : Space) : V →ₗ[ℝ] V :=
  ∑ t ∈ states s, ∑ m ∈ projs (orbAt s t).tj, (form (st (orbAt s t) m)).smulRight (st (orbAt s t) m)

/-- The product of two tensor operators through the states of a space, coupled to rank `k`. -/
noncomputable def coupledProduct (form : V →ₗ[ℝ] V →ₗ[ℝ] ℝ) (st : SpOrb → ℤ → V) (s : Space) (k1 k2 k : ℕ) (X Y : ℤ → V →ₗ[ℝ] V) (q : ℤ) : V →ₗ[ℝ] V :=
  ∑ q1 ∈ projs (2 * k1), ∑ q2 ∈ projs (2 * k2), cgd (2 * k1) q1 (2 * k2) q2 (2 * k) q • X q1 ∘ₗ project form st s ∘ₗ Y q2

/-- The states `st'` of the space `ket` are the combinations of the states `st` of the space `bra` with the stored coefficients. -/
def Turned (bra ket : Space) (secs : Sectors) (mats : List Mat) (st st' : SpOrb → ℤ → V) : Prop :=
  ∀ k r c, IsOrb ket k r c → ∀ m ∈ projs c.tj, st' c m = ∑ t ∈ states bra, elem secs mats t.1 t.2 k r • st (orbAt bra t) m

theorem orbAt_of {s : Space} {i p : ℕ} {x : SpOrb} (h : IsOrb s i p x) : orbAt s ⟨i, p⟩ = x := by
  obtain ⟨b, hb, hl, hn⟩ := h
  unfold orbAt
  simp only [hb]
  rcases x with ⟨sp, n, l, tj⟩
  simp only at hn
  rw [List.getD_eq_getElem?_getD, hn, hl]
  rfl

theorem isOrb_orbAt {s : Space} {t : (_ : ℕ) × ℕ} (h : t ∈ states s) : IsOrb s t.1 t.2 (orbAt s t) := by
  obtain ⟨h1, h2⟩ := mem_states.mp h
  have hb := List.getElem?_eq_getElem h1
  rw [dim_some hb] at h2
  refine ⟨s[t.1], hb, ?_, ?_⟩
  · unfold orbAt
    simp only [hb]
    rfl
  · unfold orbAt
    simp only [hb]
    rw [List.getElem?_eq_getElem h2, List.getD_eq_getElem?_getD, List.getElem?_eq_getElem h2]
    rfl

theorem isOrb_states {s : Space} {i p : ℕ} {x : SpOrb} (h : IsOrb s i p x) : (⟨i, p⟩ : (_ : ℕ) × ℕ) ∈ states s := by
  obtain ⟨b, hb, -, hn⟩ := h
  rw [mem_states]
  refine ⟨(List.getElem?_eq_some_iff.mp hb).1, ?_⟩
  rw [dim_some hb]
  exact (List.getElem?_eq_some_iff.mp hn).1

/-- A combination of stored operators means the combination of the operators. -/
theorem linear_means {form : V →ₗ[ℝ] V →ₗ[ℝ] ℝ} {st : SpOrb → ℤ → V} {terms : List (String × ℝ)} {v : String → ObData} {d : ObData} {op : String → ℤ → V →ₗ[ℝ] V}
    (hs : ∀ t ∈ terms, (v t.1).space = d.space ∧ (v t.1).secs.qn = d.secs.qn)
    (he : ∀ i a k c, d.el i a k c = (terms.map fun t => t.2 * (v t.1).el i a k c).sum)
    (hm : ∀ t ∈ terms, (v t.1).Means form st (op t.1)) : d.Means form st fun q => (terms.map fun t => t.2 • op t.1 q).sum := by
  intro i p k r c a hc ha m' hm' q hq m hmm
  rw [he]
  clear he
  induction terms with
  | nil => simp
  | cons t l ih =>
    have h1 := ih (fun t ht => hs t (by simp [ht])) fun t ht => hm t (by simp [ht])
    obtain ⟨e1, e2⟩ := hs t (by simp)
    have h2 := hm t (by simp) i p k r c a (by rw [e1]; exact hc) (by rw [e1]; exact ha) m' hm' q (by rw [e2]; exact hq) m hmm
    simp only [List.map_cons, List.sum_cons, LinearMap.add_apply, LinearMap.smul_apply, map_add, map_smul, smul_eq_mul]
    rw [h1, h2, e2]
    ring

/-- A product of stored operators means the product of the operators through the states of the space. -/
theorem product_means {form : V →ₗ[ℝ] V →ₗ[ℝ] ℝ} {st : SpOrb → ℤ → V} {env : ObEnv} (hw : env.w = trueW) {da db d : ObData} {J0 : Int} {factor : ℝ}
    (ga : GoodOb da) (gb : GoodOb db) (h : productOb env da db J0 factor = .ok d) {k1 k2 : ℕ} (hk1 : da.secs.qn.J0 = k1) (hk2 : db.secs.qn.J0 = k2)
    {X Y : ℤ → V →ₗ[ℝ] V} (hX : da.Means form st X) (hY : db.Means form st Y) :
    d.Means form st fun q => factor • coupledProduct form st da.space k1 k2 J0.toNat X Y q := by
  obtain ⟨gd, hsp, hds, hJ, htri, htz, hg, hel⟩ := product_value ga gb h
  intro i p k r c a hc ha m' hm' q hq m hm
  rw [hJ] at hq ⊢
  rw [hds] at hc ha
  have n1 : da.secs.qn.J0.toNat = k1 := by rw [hk1, Int.toNat_natCast]
  have n2 : db.secs.qn.J0.toNat = k2 := by rw [hk2, Int.toNat_natCast]
  -- the element of the operator
  have hform : form (st c m') ((factor • coupledProduct form st da.space k1 k2 J0.toNat X Y q) (st a m)) =
      factor * ∑ t ∈ states da.space, (trueW da.secs.qn db.secs.qn d.secs.qn c.tj a.tj (orbAt da.space t).tj * (da.el i p t.1 t.2 * db.el t.1 t.2 k r)) *
        cgd a.tj m (2 * J0.toNat) q c.tj m' := by
    simp only [coupledProduct, project, LinearMap.smul_apply, LinearMap.sum_apply, LinearMap.comp_apply, LinearMap.smulRight_apply, map_smul, map_sum, smul_eq_mul]
    congr 1
    have e : ∀ q1 ∈ projs (2 * k1), ∀ q2 ∈ projs (2 * k2), ∀ t ∈ states da.space, ∀ μ ∈ projs (orbAt da.space t).tj,
        form (st (orbAt da.space t) μ) (Y q2 (st a m)) * form (st c m') (X q1 (st (orbAt da.space t) μ)) =
          (da.el i p t.1 t.2 * db.el t.1 t.2 k r) * (cgd a.tj m (2 * k2) q2 (orbAt da.space t).tj μ * cgd (orbAt da.space t).tj μ (2 * k1) q1 c.tj m') := by
      intro q1 h1 q2 h2 t ht μ hμ
      have ho := isOrb_orbAt ht
      have e1 := hX i p t.1 t.2 c (orbAt da.space t) hc ho m' hm' q1 (by rw [n1]; exact h1) μ hμ
      have e2 := hY t.1 t.2 k r (orbAt da.space t) a (by rw [hsp]; exact ho) (by rw [hsp]; exact ha) μ hμ q2 (by rw [n2]; exact h2) m hm
      rw [n1] at e1
      rw [n2] at e2
      rw [e1, e2]
      ring
    rw [Finset.sum_congr rfl fun q1 h1 => Finset.sum_congr rfl fun q2 h2 => by
      rw [Finset.sum_congr rfl fun t ht => Finset.sum_congr rfl fun μ hμ => e q1 h1 q2 h2 t ht μ hμ]]
    simp only [← Finset.mul_sum]
    have sw : ∑ q1 ∈ projs (2 * k1), ∑ q2 ∈ projs (2 * k2), cgd (2 * k1) q1 (2 * k2) q2 (2 * J0.toNat) q *
          ∑ t ∈ states da.space, da.el i p t.1 t.2 * db.el t.1 t.2 k r *
            ∑ μ ∈ projs (orbAt da.space t).tj, cgd a.tj m (2 * k2) q2 (orbAt da.space t).tj μ * cgd (orbAt da.space t).tj μ (2 * k1) q1 c.tj m' =
        ∑ t ∈ states da.space, da.el i p t.1 t.2 * db.el t.1 t.2 k r * ∑ q1 ∈ projs (2 * k1), ∑ q2 ∈ projs (2 * k2), cgd (2 * k1) q1 (2 * k2) q2 (2 * J0.toNat) q *
            ∑ μ ∈ projs (orbAt da.space t).tj, cgd a.tj m (2 * k2) q2 (orbAt da.space t).tj μ * cgd (orbAt da.space t).tj μ (2 * k1) q1 c.tj m' := by
      simp only [Finset.mul_sum (s := states da.space)]
      rw [Finset.sum_congr rfl fun q1 _ => Finset.sum_comm, Finset.sum_comm]
      refine Finset.sum_congr rfl fun t _ => ?_
      rw [Finset.mul_sum]
      refine Finset.sum_congr rfl fun q1 _ => ?_
      rw [Finset.mul_sum]
      refine Finset.sum_congr rfl fun q2 _ => ?_
      ring
    rw [sw]
    refine Finset.sum_congr rfl fun t _ => ?_
    rw [product_recoupling hm hq, trueW, n1, n2, hJ]
    ring
  rw [hform]
  by_cases hp : (i, k) ∈ d.secs.pairs
  · obtain ⟨s, hs, hls, hns⟩ := hc
    obtain ⟨t, ht, hlt, hnt⟩ := ha
    rw [hel i k s t p r hp hs ht (List.getElem?_eq_some_iff.mp hns).1 (List.getElem?_eq_some_iff.mp hnt).1, hw, ← Finset.sum_mul]
    have : ∀ u ∈ states da.space, ((da.space[u.1]?.map fun s => s.labels.tj).getD 0) = (orbAt da.space u).tj := by
      intro u hu
      obtain ⟨b, hb, hl, -⟩ := isOrb_orbAt hu
      rw [hb]
      simp [hl, SpOrb.labels]
    rw [hls, hlt, mul_left_comm (cgd _ _ _ _ _ _) factor, mul_comm (cgd _ _ _ _ _ _) (Finset.sum _ _)]
    refine congrArg (factor * ·) (congrArg (· * _) (Finset.sum_congr rfl fun u hu => ?_))
    rw [this u hu]
    rfl
  · rw [show d.el i p k r = 0 from elem_absent hp _ _, mul_zero]
    by_cases hcp : Coupled a.tj (2 * J0.toNat) c.tj
    swap
    · simp only [cgd_triangle hcp, mul_zero, Finset.sum_const_zero]
    rw [Finset.sum_eq_zero, mul_zero]
    intro t ht
    have ho := isOrb_orbAt ht
    have hz : da.el i p t.1 t.2 * db.el t.1 t.2 k r = 0 := by
      by_contra hne
      have x1 : Allowed da.secs.qn c.labels (orbAt da.space t).labels := by
        by_contra hn
        exact hne (by rw [el_forbidden ga hc ho hn, zero_mul])
      have x2 : Allowed db.secs.qn (orbAt da.space t).labels a.labels := by
        by_contra hn
        exact hne (by rw [el_forbidden gb (by rw [hsp]; exact ho) (by rw [hsp]; exact ha) hn, mul_zero])
      apply hp
      have hsx := allSectors_spec d.secs.qn d.space d.space
      rw [← gd.secs] at hsx
      obtain ⟨b1, hb1, hl1, -⟩ := hc
      obtain ⟨b2, hb2, hl2, -⟩ := ha
      refine (hsx.mem i k).mpr ⟨b1, b2, by rw [hds]; exact hb1, by rw [hds]; exact hb2, ?_⟩
      rw [hl1, hl2]
      obtain ⟨-, p1, z1⟩ := x1
      obtain ⟨-, p2, z2⟩ := x2
      obtain ⟨c1, c2, c3⟩ := hcp
      rw [abs_le] at c1
      have hJ0 : 0 ≤ J0 := le_trans (abs_nonneg _) htri.1
      refine ⟨⟨?_, ?_⟩, ?_, ?_⟩
      · rw [hJ, abs_le]
        simp only [SpOrb.labels]
        push_cast at *
        omega
      · rw [hJ]
        simp only [SpOrb.labels]
        push_cast at *
        omega
      · simp only [SpOrb.labels] at *
        omega
      · rw [htz]
        omega
    rw [hz, mul_zero, zero_mul]

/-- A transformed stored operator means the same operator, between the transformed states. -/
theorem xform_means {form : V →ₗ[ℝ] V →ₗ[ℝ] ℝ} {st st' : SpOrb → ℤ → V} {src d : ObData} {x : XfData} (gs : GoodOb src) (gx : GoodXf x)
    (h : xformOb src x = .ok d) {U : ℤ → V →ₗ[ℝ] V} (hU : src.Means form st U) (ht : Turned x.bra x.ket x.secs x.mats st st') : d.Means form st' U := by
  obtain ⟨gd, hsp, hds, hqn, hel⟩ := xform_value gs gx h
  intro i p k r c a hc ha m' hm' q hq m hm
  rw [hds] at hc ha
  rw [hqn] at hq ⊢
  -- only orbitals with the same labels
  have hx : ∀ t ∈ states x.bra, ∀ k r c, IsOrb x.ket k r c → elem x.secs x.mats t.1 t.2 k r ≠ 0 → (orbAt x.bra t).tj = c.tj := by
    intro t htt k r c hc hne
    have hmem : (t.1, k) ∈ x.secs.pairs := by
      by_contra hn
      exact hne (elem_absent hn _ _)
    obtain ⟨b, k', hb, hk, hal⟩ := (gx.overlap.secs.mem t.1 k).mp hmem
    obtain ⟨b1, hb1, hl1, -⟩ := isOrb_orbAt htt
    obtain ⟨b2, hb2, hl2, -⟩ := hc
    rw [hb] at hb1
    rw [hk] at hb2
    cases hb1
    cases hb2
    rw [hl1, hl2, gx.overlap.qn] at hal
    obtain ⟨⟨h1, h2⟩, -, -⟩ := hal
    rw [abs_le] at h1
    simp only [SpOrb.labels, scalarQN] at h1 h2
    omega
  rw [ht i p c hc m' hm', ht k r a ha m hm, hel]
  simp only [map_sum, map_smul, LinearMap.sum_apply, LinearMap.smul_apply, smul_eq_mul, Finset.mul_sum]
  rw [Finset.sum_comm]
  refine Finset.sum_congr rfl fun s hs => Finset.sum_congr rfl fun t htt => ?_
  by_cases h1 : elem x.secs x.mats s.1 s.2 i p = 0
  · rw [h1]
    ring
  by_cases h2 : elem x.secs x.mats t.1 t.2 k r = 0
  · rw [h2]
    ring
  have t1 := hx s hs i p c hc h1
  have t2 := hx t htt k r a ha h2
  have := hU s.1 s.2 t.1 t.2 (orbAt x.bra s) (orbAt x.bra t) (by rw [hsp]; exact isOrb_orbAt hs) (by rw [hsp]; exact isOrb_orbAt htt) m' (by rw [t1]; exact hm') q hq m
    (by rw [t2]; exact hm)
  rw [this, t1, t2]
  ring

end
end Verif.Mixer
