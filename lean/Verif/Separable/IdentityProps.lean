import Verif.Separable.Props

/-!
# The upgraded identity, symmetry, and examples
-/

namespace Verif.Separable
open Verif Verif.Mapping Verif.Xform Verif.Obme
open Verif.H2 hiding Mat

/-- The states of a two-body subspace: no pair of orbitals occurs twice (in either order), the angular
momenta couple to `J`, and two particles in one orbital have even `J`. -/
structure Canonical (s : PairSub) : Prop where
  once : ∀ (i j : ℕ) (x y : SpOrb × SpOrb), s.states[i]? = some x → s.states[j]? = some y →
    (y = x ∨ y = x.swap) → i = j
  couple : ∀ x ∈ s.states, |(x.1.tj : Int) - x.2.tj| ≤ 2 * s.J ∧ 2 * s.J ≤ x.1.tj + x.2.tj
  even : ∀ x ∈ s.states, x.1 = x.2 → s.J % 2 = 0

/-- All blocks are identity matrices (`basis::SetOperatorToIdentity`). -/
def IdentityBlocks (space : Space) (secs : Sectors) (mats : List Mat) : Prop :=
  ∀ i p q, (i, i) ∈ secs.pairs → p < dim space i → q < dim space i →
    elem secs mats i p i q = if p = q then 1 else 0

/-- Identity blocks describe the Kronecker symbol. -/
theorem identity_operator {space : Space} {secs : Sectors} {mats : List Mat} (hg : GoodSpace space)
    (hq : secs.qn = scalarQN) (hs : SectorsOf secs space space) (hf : Fits secs mats space space)
    (hi : IdentityBlocks space secs mats) :
    Operator space secs mats fun x y => if x = y then 1 else 0 := by
  refine ⟨hs, hf, ?_, ?_⟩
  · intro x y h
    rw [if_neg]
    rintro rfl
    apply h
    rw [hq]
    refine ⟨⟨?_, ?_⟩, ?_, ?_⟩ <;> simp [scalarQN]
    omega
  · intro i p k q x y hx hy ha
    obtain ⟨b, hb, hbl, hbn⟩ := hx
    obtain ⟨c, hc, hcl, hcn⟩ := hy
    have hik : (i, k) ∈ secs.pairs := (hs.mem i k).mpr ⟨b, c, hb, hc, by rw [hbl, hcl]; exact ha⟩
    rw [← hbl, ← hcl] at ha
    have hl := (scalar_allowed hg hg (List.mem_of_getElem? hb) (List.mem_of_getElem? hc) hq).mp ha
    have hk := sub_unique hg hb hc hl
    subst hk
    obtain rfl : b = c := Option.some.inj (hb.symm.trans hc)
    have hp : p < dim space i := by rw [dim_some hb]; exact (List.getElem?_eq_some_iff.mp hbn).1
    have hq' : q < dim space i := by rw [dim_some hb]; exact (List.getElem?_eq_some_iff.mp hcn).1
    rw [hi i p q hik hp hq']
    have hlab : x.labels = y.labels := hbl.symm.trans hcl
    have hxy : x = y ↔ p = q := by
      constructor
      · rintro rfl
        have hlt : p < b.ns.length := (List.getElem?_eq_some_iff.mp hbn).1
        exact (List.getElem?_inj hlt (hg.ns b (List.mem_of_getElem? hb))).mp (hbn.trans hcn.symm)
      · rintro rfl
        obtain ⟨xs, xn, xl, xt⟩ := x
        obtain ⟨ys, yn, yl, yt⟩ := y
        simp only [SpOrb.labels, Obme.Labels.mk.injEq] at hlab
        obtain ⟨rfl, rfl, rfl⟩ := hlab
        have hn : some xn = some yn := hbn.symm.trans hcn
        injection hn with hn
        subst hn
        rfl
    simp only [hxy]

/-- **Mass normalisation.**  The upgraded one-body identity is `A` times the built-in two-body identity: both
count particles consistently. -/
theorem upgrade_identity {am : Am} (hS : ScalarLaw am) {space : Space} {secs : Sectors} {mats : List Mat}
    (hg : GoodSpace space) (hq : secs.qn = scalarQN) (hs : SectorsOf secs space space)
    (hf : Fits secs mats space space) (hi : IdentityBlocks space secs mats) {sub : PairSub}
    (hu : Uses space sub) (hc : Canonical sub) {A : Int} (hA1 : A ≠ 1) (hA0 : A ≠ 0) {sector : Xform.Sector}
    (hlen : sector.ket.states.length = sub.states.length) {e : Mat}
    (he : identityOperatorMatrix sector A = .ok e) (hA : -(2 ^ 31) ≤ A - 1 ∧ A - 1 < 2 ^ 31) :
    ∃ m, upgrade am space secs mats sub sub A = .ok m ∧ m.rows = e.rows ∧ m.cols = e.cols ∧
      ∀ i j, i < sub.states.length → j < sub.states.length → m.val i j = A * e.val i j := by
  have ho := identity_operator hg hq hs hf hi
  have htri : |(sub.J : Int) - sub.J| ≤ secs.qn.J0 ∧ secs.qn.J0 ≤ sub.J + sub.J := by
    rw [hq]; simp [scalarQN]
  obtain ⟨m, hm, hr, hcol, hv⟩ := upgrade_element (am := am) hg ho hu hu hA hA1 htri
  unfold identityOperatorMatrix at he
  split at he
  · cases he
  split at he
  · cases he
  injection he with he
  subst he
  refine ⟨m, hm, hr.trans hlen.symm, hcol.trans hlen.symm, ?_⟩
  intro i j hi' hj'
  obtain ⟨V, _, _, pk, B, hB⟩ := form_exists fun c d J' a b J =>
    (if d = b then am.f1 c.tj d.tj J' a.tj b.tj J secs.qn.J0 * (if c = a then 1 else 0) else 0) +
      (if c = a then am.f2 c.tj d.tj J' a.tj b.tj J secs.qn.J0 * (if d = b then 1 else 0) else 0)
  have hs' := List.getElem?_eq_getElem hi'
  have ht' := List.getElem?_eq_getElem hj'
  rw [hv V pk B (fun c d a b => hB c d sub.J a b sub.J) i j _ _ hs' ht']
  have hone := hc.once i j _ _ hs' ht'
  have hcx := hc.couple _ (List.mem_of_getElem? hs')
  have hcy := hc.couple _ (List.mem_of_getElem? ht')
  have hev := hc.even _ (List.mem_of_getElem? hs')
  obtain ⟨⟨_, s1⟩, _, s2⟩ := hu _ (List.mem_of_getElem? hs')
  obtain ⟨⟨_, t1⟩, _, t2⟩ := hu _ (List.mem_of_getElem? ht')
  have hval : B (nas pk sub.J sub.states[i]) (nas pk sub.J sub.states[j]) = if i = j then 2 else 0 := by
    have hij : i = j → sub.states[i] = sub.states[j] := by rintro rfl; rfl
    clear hv ht' hs'
    generalize sub.states[i] = x at *
    generalize sub.states[j] = y at *
    obtain ⟨c, d⟩ := x
    obtain ⟨a, b⟩ := y
    unfold SpOrb.HalfOdd at s1 s2 t1 t2
    dsimp only at s1 s2 t1 t2 hcx hcy hev hone hij
    have h0 : secs.qn.J0 = 0 := by rw [hq]; rfl
    have key : ∀ c' d' a' b' : SpOrb, (c'.tj + d'.tj) % 2 = 0 → |(c'.tj : Int) - d'.tj| ≤ 2 * sub.J →
        2 * sub.J ≤ c'.tj + d'.tj →
        B (pk c' d' sub.J) (pk a' b' sub.J) = if c' = a' ∧ d' = b' then 2 else 0 := by
      intro c' d' a' b' h1 h2 h3
      rw [hB, h0]
      by_cases e1 : c' = a'
      · by_cases e2 : d' = b'
        · subst e1 e2
          have hf1 := hS.f1 c'.tj d'.tj sub.J h1 h2 h3
          have hf2 := hS.f2 c'.tj d'.tj sub.J h1 h2 h3
          simp only [if_true, hf1, hf2, and_self, mul_one]
          norm_num
        · simp [e1, e2]
      · simp [e1]
    have k1 := key c d a b (by omega) hcx.1 hcx.2
    have k2 := key c d b a (by omega) hcx.1 hcx.2
    have k3 := key d c a b (by omega) (by rw [abs_sub_comm]; exact hcx.1) (by omega)
    have k4 := key d c b a (by omega) (by rw [abs_sub_comm]; exact hcx.1) (by omega)
    simp only [nas, map_smul, map_sub, LinearMap.smul_apply, LinearMap.sub_apply, smul_eq_mul, k1, k2, k3, k4]
    have hsq := sqrt2_half
    by_cases e : i = j
    · have he := hij e
      injection he with e1 e2
      subst e1 e2
      rw [if_pos e]
      by_cases ecd : c = d
      · have hJ := hev ecd
        subst ecd
        have hsig : exSign sub.J c c = -1 := by
          unfold exSign
          rw [show sub.J + (c.tj + c.tj) / 2 = 2 * (sub.J / 2 + c.tj / 2) + 1 by omega, pow_succ, pow_mul]
          simp
        simp only [hsig, if_true, and_self]
        generalize (1 / Real.sqrt 2 : ℝ) = r at hsq ⊢
        linear_combination (8 * (r * r) + 4) * hsq
      · have hdc : ¬ (c = d ∧ d = c) := fun h => ecd h.1
        have hcd' : ¬ (d = c ∧ c = d) := fun h => ecd h.2
        have hsig : exSign sub.J c d * exSign sub.J c d = 1 := by
          unfold exSign
          rw [← pow_add, ← two_mul, pow_mul]; simp
        rw [if_neg hdc, if_neg hcd', if_neg ecd, if_pos ⟨rfl, rfl⟩, if_pos ⟨rfl, rfl⟩]
        generalize (1 / Real.sqrt 2 : ℝ) = r at hsq ⊢
        linear_combination (2 + 2 * (exSign sub.J c d * exSign sub.J c d)) * hsq + hsig
    · have n1 : ¬ (c = a ∧ d = b) := fun h => e (hone (Or.inl (by rw [h.1, h.2])))
      have n2 : ¬ (c = b ∧ d = a) := fun h => e (hone (Or.inr (by rw [Prod.swap_prod_mk, h.1, h.2])))
      have n3 : ¬ (d = a ∧ c = b) := fun h => n2 ⟨h.2, h.1⟩
      have n4 : ¬ (d = b ∧ c = a) := fun h => n1 ⟨h.2, h.1⟩
      simp only [n1, n2, n3, n4, e, if_false]
      ring
  rw [hval]
  dsimp only
  have h0 : (A : ℝ) ≠ 0 := by exact_mod_cast hA0
  have h1 : (A : ℝ) - 1 ≠ 0 := by
    intro h
    apply hA1
    have : (A : ℝ) = 1 := by linarith
    exact_mod_cast this
  push_cast
  split
  · field_simp
  · simp

/-- **Symmetry.**  The upgrade of a symmetric scalar operator is a symmetric matrix, so that storing its upper
triangle loses nothing. -/
theorem upgrade_symmetric {am : Am} {space : Space} {secs : Sectors} {mats : List Mat} {u : SpOrb → SpOrb → ℝ}
    (hg : GoodSpace space) (ho : Operator space secs mats u) (hq : secs.qn.J0 = 0)
    (hsym : ∀ x y, u x y = u y x) {sub : PairSub} (hu : Uses space sub) {A : Int}
    (hA : -(2 ^ 31) ≤ A - 1 ∧ A - 1 < 2 ^ 31) (hA1 : A ≠ 1) :
    ∃ m, upgrade am space secs mats sub sub A = .ok m ∧
      ∀ i j, i < sub.states.length → j < sub.states.length → m.val i j = m.val j i := by
  have htri : |(sub.J : Int) - sub.J| ≤ secs.qn.J0 ∧ secs.qn.J0 ≤ sub.J + sub.J := by
    rw [hq]; simp
  obtain ⟨m, hm, hr, hcol, hv⟩ := upgrade_element (am := am) hg ho hu hu hA hA1 htri
  refine ⟨m, hm, ?_⟩
  intro i j hi hj
  obtain ⟨V, _, _, pk, B, hB⟩ := form_exists fun c d J' a b J =>
    (if d = b then am.f1 c.tj d.tj J' a.tj b.tj J secs.qn.J0 * u c a else 0) +
      (if c = a then am.f2 c.tj d.tj J' a.tj b.tj J secs.qn.J0 * u d b else 0)
  have hs := List.getElem?_eq_getElem hi
  have ht := List.getElem?_eq_getElem hj
  rw [hv V pk B (fun c d a b => hB c d sub.J a b sub.J) i j _ _ hs ht,
    hv V pk B (fun c d a b => hB c d sub.J a b sub.J) j i _ _ ht hs]
  have hz : ∀ x y, x.tj ≠ y.tj → u x y = 0 := by
    intro x y hxy
    apply ho.elements.zero
    intro h
    have h1 := h.1
    rw [hq, show x.labels.tj = x.tj from rfl, show y.labels.tj = y.tj from rfl, abs_le] at h1
    omega
  have hBs : ∀ c d a b, B (pk c d sub.J) (pk a b sub.J) = B (pk a b sub.J) (pk c d sub.J) := by
    intro c d a b
    rw [hB, hB]
    congr 1
    · by_cases e : d = b
      · subst e
        rw [if_pos rfl, if_pos rfl, hsym a c]
        by_cases et : c.tj = a.tj
        · rw [et]
        · rw [hz c a et, mul_zero, mul_zero]
      · rw [if_neg e, if_neg (Ne.symm e)]
    · by_cases e : c = a
      · subst e
        rw [if_pos rfl, if_pos rfl, hsym b d]
        by_cases et : d.tj = b.tj
        · rw [et]
        · rw [hz d b et, mul_zero, mul_zero]
      · rw [if_neg e, if_neg (Ne.symm e)]
  simp only [nas, map_smul, map_sub, LinearMap.smul_apply, LinearMap.sub_apply, smul_eq_mul]
  generalize sub.states[i] = x
  generalize sub.states[j] = y
  rw [hBs x.1 x.2 y.1 y.2, hBs x.1 x.2 y.2 y.1, hBs x.2 x.1 y.1 y.2, hBs x.2 x.1 y.2 y.1]
  ring

/-! ## A concrete case: two `s` shells and one `p` shell of protons -/

namespace Example

/-- The recoupling factors of scalar operators (all others zero). -/
noncomputable def am : Am where
  f1 tc td J' ta tb J J0 := if J0 = 0 ∧ J' = J ∧ tc = ta ∧ td = tb then 1 else 0
  f2 tc td J' ta tb J J0 := if J0 = 0 ∧ J' = J ∧ tc = ta ∧ td = tb then 1 else 0
  f12 tc td J' ta tb J J1 J2 J0 := if J1 = 0 ∧ J2 = 0 ∧ J0 = 0 ∧ J' = J ∧ tc = ta ∧ td = tb then 1 else 0

theorem am_scalar : ScalarLaw am := by
  constructor <;> intros <;> simp [am]

theorem am_exchange : ExchangeLaw am := by
  intro tc td J' ta tb J J1 J2 J0 _ _
  simp only [am, Nat.cast_eq_zero]
  by_cases h : J1 = 0 ∧ J2 = 0 ∧ J0 = 0 ∧ J' = J ∧ tc = ta ∧ td = tb
  · rw [if_pos h, if_pos (by tauto)]
    obtain ⟨rfl, rfl, rfl, rfl, rfl, rfl⟩ := h
    rw [show J' + J' + (tc + td) / 2 + (tc + td) / 2 + 0 + 0 + 0 = 2 * (J' + (tc + td) / 2) by ring, pow_mul]
    simp
  · rw [if_neg h, if_neg (by tauto), mul_zero]

def space : Space := [⟨⟨0, 1, .p⟩, [0, 1]⟩, ⟨⟨1, 3, .p⟩, [0]⟩]

theorem space_good : GoodSpace space := by
  constructor
  · decide
  · decide
  · decide

def secs : Sectors := allSectors scalarQN space space

theorem secs_pairs : secs.pairs = [(0, 0), (1, 1)] := by decide +kernel

noncomputable def mats : List Mat := [eye 2 2, eye 1 1]

theorem mats_fit : Fits secs mats space space := by
  constructor
  · rw [secs_pairs]; rfl
  · intro x i k m hx hm
    rw [secs_pairs] at hx
    rcases x with _ | _ | x <;> simp [mats] at hx hm <;> obtain ⟨rfl, rfl⟩ := hx <;> subst hm <;>
      exact ⟨rfl, rfl⟩

theorem mats_identity : IdentityBlocks space secs mats := by
  intro i p q hi hp hq
  rw [secs_pairs] at hi
  simp only [List.mem_cons, Prod.mk.injEq, and_self, List.not_mem_nil, or_false] at hi
  rcases hi with rfl | rfl
  · have hp' : p < 2 := hp
    have hq' : q < 2 := hq
    simp [elem, secs_pairs, mats, eye, hp', hq', List.idxOf?, List.findIdx?_cons]
  · have hp' : p < 1 := hp
    have hq' : q < 1 := hq
    simp [elem, secs_pairs, mats, eye, hp', hq', List.idxOf?, List.findIdx?_cons]

def s0 : SpOrb := ⟨.p, 0, 0, 1⟩
def s1 : SpOrb := ⟨.p, 1, 0, 1⟩
def p0 : SpOrb := ⟨.p, 0, 1, 3⟩

/-- Proton pairs with `J = 0` and even parity. -/
def sub : PairSub := ⟨0, [(s0, s0), (s0, s1), (p0, p0), (s1, s1)]⟩

theorem in0 : InSpace space s0 := ⟨0, 0, _, rfl, rfl, rfl⟩
theorem in1 : InSpace space s1 := ⟨0, 1, _, rfl, rfl, rfl⟩
theorem in2 : InSpace space p0 := ⟨1, 0, _, rfl, rfl, rfl⟩

theorem sub_uses : Uses space sub := by
  intro x hx
  simp only [sub, List.mem_cons, List.not_mem_nil, or_false] at hx
  rcases hx with rfl | rfl | rfl | rfl
  · exact ⟨⟨in0, rfl⟩, in0, rfl⟩
  · exact ⟨⟨in0, rfl⟩, in1, rfl⟩
  · exact ⟨⟨in2, rfl⟩, in2, rfl⟩
  · exact ⟨⟨in1, rfl⟩, in1, rfl⟩

theorem sub_canonical : Canonical sub := by
  constructor
  · intro i j x y hi hj h
    have hi' := (List.getElem?_eq_some_iff.mp hi).1
    have hj' := (List.getElem?_eq_some_iff.mp hj).1
    have hi4 : i < 4 := hi'
    have hj4 : j < 4 := hj'
    interval_cases i <;> interval_cases j <;> simp [sub] at hi hj <;> subst hi hj <;> revert h <;> decide
  · decide
  · decide

def sector : Xform.Sector :=
  ⟨0, 0, ⟨.pp, 0, List.replicate 4 ⟨0, 0, ⟨0, 0, 1⟩, ⟨0, 0, 1⟩⟩⟩, ⟨.pp, 0, List.replicate 4 ⟨0, 0, ⟨0, 0, 1⟩, ⟨0, 0, 1⟩⟩⟩⟩

/-- The hypotheses of `upgrade_identity` (hence of `upgrade_element`) are met; for `A = 6` the diagonal of the
upgraded identity is `2/5`. -/
example : ∃ m, upgrade am space secs mats sub sub 6 = .ok m ∧ m.val 2 2 = 2 / 5 ∧ m.val 0 1 = 0 := by
  obtain ⟨m, hm, _, _, hv⟩ := upgrade_identity am_scalar space_good rfl (allSectors_spec _ _ _) mats_fit mats_identity
    sub_uses sub_canonical (A := 6) (by decide) (by decide) (sector := sector) rfl rfl (by decide)
  refine ⟨m, hm, ?_, ?_⟩
  · rw [hv 2 2 (by decide) (by decide)]; norm_num
  · rw [hv 0 1 (by decide) (by decide)]; norm_num

theorem identity_op : Operator space secs mats fun x y => if x = y then 1 else 0 :=
  identity_operator space_good rfl (allSectors_spec _ _ _) mats_fit mats_identity

/-- The hypotheses of `upgrade_symmetric` are met. -/
example : ∃ m, upgrade am space secs mats sub sub 6 = .ok m ∧
    ∀ i j, i < 4 → j < 4 → m.val i j = m.val j i :=
  upgrade_symmetric space_good identity_op rfl (fun x y => by simp [eq_comm]) sub_uses (by decide) (by decide)

/-- The hypotheses of `racahReduce_element` and `racahReduce_exchange` are met. -/
example : ∃ m m', racahReduce am space secs mats secs mats false sub sub 0 = .ok m ∧
    racahReduce am space secs mats secs mats false sub sub 0 = .ok m' ∧
      ∀ i j, i < 4 → j < 4 → m.val i j = (-1) ^ (0 + 0 + 0) * m'.val i j :=
  racahReduce_exchange (J1 := 0) (J2 := 0) (J0 := 0) am_exchange space_good identity_op identity_op sub_uses sub_uses
    rfl rfl (by decide) (by decide)

/-- `A = 1` meets the hypothesis of `upgrade_rejects` that the triangle holds, and is refused. -/
example (m : Mat) : upgrade am space secs mats sub sub 1 ≠ .ok m := fun h =>
  upgrade_rejects h (by decide) rfl

end Example

end Verif.Separable
