import Verif.Xform.Lemmas
import Verif.Mapping.Spec

/-! # Properties C22-C26: two-body transformations -/

namespace Verif.Xform
open Verif Verif.Mapping

/-! ### C24 -/

/-- **C24.** Interchanging the orbitals of a like-species ket multiplies the overlap by
`-(-1)^(J-j1-j2)`. -/
theorem overlap_ket_exchange (ov : Overlap) {sp : Species2} (hsp : sp ≠ .pn) (J : Nat) {a1 a2 : Orb} (b1 b2 : Orb)
    (h1 : a1.twiceJ % 2 = 1) (h2 : a2.twiceJ % 2 = 1) :
    twoBodyOverlap ov sp J a1 a2 b2 b1 =
      (-1) ^ ((a1.twiceJ + a2.twiceJ) / 2 + J + 1) * twoBodyOverlap ov sp J a1 a2 b1 b2 := by
  rw [twoBodyOverlap_like ov hsp, twoBodyOverlap_like ov hsp, ← eps_eq h1 h2]
  linear_combination (-(lj ov sp.first a1 b2 * lj ov sp.first a2 b1)) * eps_sq J (a1.twiceJ + a2.twiceJ)

/-- **C24**, bra. -/
theorem overlap_bra_exchange (ov : Overlap) {sp : Species2} (hsp : sp ≠ .pn) (J : Nat) {a1 a2 : Orb} (b1 b2 : Orb)
    (h1 : a1.twiceJ % 2 = 1) (h2 : a2.twiceJ % 2 = 1) :
    twoBodyOverlap ov sp J a2 a1 b1 b2 =
      (-1) ^ ((a1.twiceJ + a2.twiceJ) / 2 + J + 1) * twoBodyOverlap ov sp J a1 a2 b1 b2 := by
  rw [twoBodyOverlap_like ov hsp, twoBodyOverlap_like ov hsp, ← eps_eq h1 h2, Nat.add_comm a2.twiceJ]
  linear_combination (-(lj ov sp.first a1 b2 * lj ov sp.first a2 b1)) * eps_sq J (a1.twiceJ + a2.twiceJ)

/-- **C24**, forbidden states: two like particles in one orbital do not couple to odd `J`. -/
theorem overlap_forbidden (ov : Overlap) {sp : Species2} (hsp : sp ≠ .pn) {J : Nat} (hJ : J % 2 = 1) {a : Orb}
    (ha : a.twiceJ % 2 = 1) (b1 b2 : Orb) :
    twoBodyOverlap ov sp J a a b1 b2 = 0 ∧
    (∀ {b1 b2 : Orb}, b1.twiceJ % 2 = 1 → b2.twiceJ % 2 = 1 → twoBodyOverlap ov sp J b1 b2 a a = 0) := by
  have sgn : (-1 : ℝ) ^ ((a.twiceJ + a.twiceJ) / 2 + J + 1) = -1 :=
    Odd.neg_one_pow (by rw [Nat.odd_iff]; omega)
  constructor
  · have := overlap_bra_exchange ov hsp J b1 b2 ha ha
    rw [sgn] at this
    linarith
  · intro b1 b2 hb1 hb2
    rw [twoBodyOverlap_like ov hsp]
    by_cases h : b1.twiceJ = a.twiceJ ∧ b2.twiceJ = a.twiceJ
    · rw [eps_eq hb1 hb2, h.1, h.2, sgn]
      ring
    · have : lj ov sp.first b1 a * lj ov sp.first b2 a = 0 := by
        by_contra hc
        exact h ⟨(lj_ne (left_ne_zero_of_mul hc)).2, (lj_ne (right_ne_zero_of_mul hc)).2⟩
      rw [this]
      ring

/-! ### The transformation is the change of basis of pair states -/

/-- **C25.** If the target orbitals are the combinations `|a') = Σ_a |a) <a|a'>` of the source
orbitals, the normalised antisymmetrised target pair states are the combinations of the source
pair states with the coefficients of the transformation matrix.  `K` and `K'` give the
unnormalised antisymmetrised states in any real vector space. -/
theorem xform_is_change_of_basis {src tgt : Orbitals} {g : Nat} {x y : Sub} (hx : FullSub src g x)
    (hy : SubWF tgt g y) (hsp : y.species = x.species) (hJ : y.J = x.J) (hs : HalfOdd src) (ov : Overlap)
    {V : Type} [AddCommGroup V] [Module ℝ V] (K : PairKets V) (K' : Orb → Orb → V) {st' : St} (hst' : st' ∈ y.states)
    (hK : K' st'.a1 st'.a2 = orbSum src x.species.first fun a => orbSum src x.species.second fun b =>
      (lj ov x.species.first a st'.a1 * lj ov x.species.second b st'.a2) • K.ket x.species x.J a b) :
    norm x.species st' • K' st'.a1 st'.a2 =
      ∑ st ∈ x.states.toFinset, xformElement ov x.species x.J st st' • norm x.species st • K.ket x.species x.J st.a1 st.a2 := by
  have hal' := hy.allowed st' hst'
  rw [hsp, hJ] at hal'
  set d : Orb := st'.a1
  have hrep : ∀ st : St, xformElement ov x.species x.J st st' • norm x.species st • K.ket x.species x.J st.a1 st.a2 =
      norm x.species st' • ((norm x.species st * norm x.species st) •
        (twoBodyOverlap ov x.species x.J st.a1 st.a2 st'.a1 st'.a2 • K.ket x.species x.J st.a1 st.a2)) := by
    intro st
    rw [xformElement_eq, smul_smul, smul_smul, smul_smul]
    congr 1
    ring
  simp only [hrep]
  rw [← Finset.smul_sum]
  congr 1
  -- pairs left out of the basis do not contribute
  have hz : ∀ i < (src.of x.species.first).length, ∀ j < (src.of x.species.second).length,
      (x.species ≠ .pn → i ≤ j) → mkSt src x.species d (i, j) ∉ x.states →
      twoBodyOverlap ov x.species x.J (mkSt src x.species d (i, j)).a1 (mkSt src x.species d (i, j)).a2 st'.a1 st'.a2 •
        K.ket x.species x.J (mkSt src x.species d (i, j)).a1 (mkSt src x.species d (i, j)).a2 = 0 := by
    intro i hi j hj hc hn
    set st := mkSt src x.species d (i, j) with hst
    have hnal : ¬ Allowed src x.species x.J g st := fun h => hn (hx.full st h)
    have ho1 : (src.of x.species.first)[st.i1]? = some st.a1 := getElem?_getD hi
    have ho2 : (src.of x.species.second)[st.i2]? = some st.a2 := getElem?_getD hj
    by_contra hne
    have hov : twoBodyOverlap ov x.species x.J st.a1 st.a2 st'.a1 st'.a2 ≠ 0 := left_ne_zero_of_smul hne
    have hket : K.ket x.species x.J st.a1 st.a2 ≠ 0 := right_ne_zero_of_smul hne
    have hlj : (st.a1.l + st.a2.l = st'.a1.l + st'.a2.l) ∧
        ((st.a1.twiceJ = st'.a1.twiceJ ∧ st.a2.twiceJ = st'.a2.twiceJ) ∨
         (st.a1.twiceJ = st'.a2.twiceJ ∧ st.a2.twiceJ = st'.a1.twiceJ)) := by
      by_cases hpn : x.species = .pn
      · rw [hpn, twoBodyOverlap_pn] at hov
        have h1 := lj_ne (left_ne_zero_of_mul hov)
        have h2 := lj_ne (right_ne_zero_of_mul hov)
        exact ⟨by rw [h1.1, h2.1], .inl ⟨h1.2, h2.2⟩⟩
      · rw [twoBodyOverlap_like ov hpn] at hov
        by_cases hA : lj ov x.species.first st.a1 st'.a1 * lj ov x.species.first st.a2 st'.a2 = 0
        · rw [hA, zero_add] at hov
          have hB := right_ne_zero_of_mul hov
          have h1 := lj_ne (left_ne_zero_of_mul hB)
          have h2 := lj_ne (right_ne_zero_of_mul hB)
          exact ⟨by rw [h1.1, h2.1, Nat.add_comm], .inr ⟨h1.2, h2.2⟩⟩
        · have h1 := lj_ne (left_ne_zero_of_mul hA)
          have h2 := lj_ne (right_ne_zero_of_mul hA)
          exact ⟨by rw [h1.1, h2.1], .inl ⟨h1.2, h2.2⟩⟩
    apply hnal
    refine ⟨ho1, ho2, hc, ?_, ?_, ?_⟩
    · have := hal'.triangle
      rcases hlj.2 with ⟨e1, e2⟩ | ⟨e1, e2⟩ <;> rw [e1, e2] <;> omega
    · rw [hlj.1]; exact hal'.parity
    · intro hpn heq
      by_contra hodd
      have ha : st.a1 = st.a2 := by
        have h2 := ho2
        rw [second_eq_first hpn, ← heq, ho1] at h2
        exact Option.some.inj h2
      have hao : st.a1.twiceJ % 2 = 1 := hs _ _ (List.mem_of_getElem? ho1)
      have hex := K.exchange x.species x.J st.a1 st.a1 hpn hao hao
      rw [Odd.neg_one_pow (by rw [Nat.odd_iff]; omega), neg_one_smul] at hex
      apply hket
      rw [← ha]
      have h2 : (2 : ℝ) • K.ket x.species x.J st.a1 st.a1 = 0 := by
        rw [two_smul]
        nth_rw 1 [hex]
        simp
      exact (smul_eq_zero.1 h2).resolve_left (by norm_num)
  rw [sum_full hx d _ (fun i hi j hj hc hn => by rw [hz i hi j hj hc hn, smul_zero])]
  rw [hK, orbSum_eq src x.species.first _ d]
  simp only [orbSum_eq src x.species.second _ d]
  by_cases hpn : x.species = .pn
  · refine Finset.sum_congr rfl fun i _ => Finset.sum_congr rfl fun j _ => ?_
    have hc : (x.species ≠ .pn → i ≤ j) := fun h => absurd hpn h
    rw [if_pos hc, norm_sq, if_neg (by simp [hpn]), one_smul]
    rw [hpn, twoBodyOverlap_pn]
    rfl
  · have h2 := second_eq_first hpn
    simp only [h2] at hK ⊢
    set n := (src.of x.species.first).length with hn
    set f := fun i => (src.of x.species.first).getD i d with hf
    have hodd : ∀ i < n, (f i).twiceJ % 2 = 1 := fun i hi => hs _ _ (getD_mem hi)
    have key := antisym_sum (V := V) (n := n) (A1 := fun i => lj ov x.species.first (f i) st'.a1)
      (A2 := fun j => lj ov x.species.first (f j) st'.a2) (G := fun i j => K.ket x.species x.J (f i) (f j))
      (e := ((eps x.J (st'.a1.twiceJ + st'.a2.twiceJ) : ℤ) : ℝ)) (eps_sq _ _) (by
        intro i hi j hj hne
        rw [K.exchange x.species x.J (f i) (f j) hpn (hodd i hi) (hodd j hj), ← eps_eq (hodd i hi) (hodd j hj)]
        have e : (f i).twiceJ + (f j).twiceJ = st'.a1.twiceJ + st'.a2.twiceJ := by
          rcases hne with hne | hne
          · have := (lj_ne (left_ne_zero_of_mul hne)).2
            have := (lj_ne (right_ne_zero_of_mul hne)).2
            omega
          · have := (lj_ne (left_ne_zero_of_mul hne)).2
            have := (lj_ne (right_ne_zero_of_mul hne)).2
            omega
        rw [e])
    rw [← key]
    refine Finset.sum_congr rfl fun i _ => Finset.sum_congr rfl fun j _ => ?_
    have e1 : (mkSt src x.species d (i, j)).a1 = f i := rfl
    have e2 : (mkSt src x.species d (i, j)).a2 = f j := by simp only [mkSt, h2, hf]
    by_cases hij : i ≤ j
    · rw [if_pos hij, if_pos (fun _ => hij), norm_sq, e1, e2, twoBodyOverlap_like ov hpn]
      have e3 : (if x.species ≠ .pn ∧ (mkSt src x.species d (i, j)).i1 = (mkSt src x.species d (i, j)).i2
          then (1 / 2 : ℝ) else 1) = if i = j then 1 / 2 else 1 := by simp [hpn, mkSt]
      rw [e3]
      congr 2
      have e4 : ((eps x.J ((f i).twiceJ + (f j).twiceJ) : ℤ) : ℝ) *
            (lj ov x.species.first (f i) st'.a2 * lj ov x.species.first (f j) st'.a1) =
          ((eps x.J (st'.a1.twiceJ + st'.a2.twiceJ) : ℤ) : ℝ) *
            (lj ov x.species.first (f j) st'.a1 * lj ov x.species.first (f i) st'.a2) := by
        by_cases hne : lj ov x.species.first (f i) st'.a2 * lj ov x.species.first (f j) st'.a1 = 0
        · rw [hne, mul_comm (lj ov x.species.first (f j) st'.a1), hne]
          ring
        · rw [(lj_ne (left_ne_zero_of_mul hne)).2, (lj_ne (right_ne_zero_of_mul hne)).2,
            Nat.add_comm st'.a2.twiceJ]
          ring
      rw [e4]
    · rw [if_neg hij, if_neg (fun h => hij (h hpn))]

/-- Overlaps with a fixed bra obey the exchange law. -/
noncomputable def overlapKets (ov : Overlap) (a1 a2 : Orb) (h1 : a1.twiceJ % 2 = 1) (h2 : a2.twiceJ % 2 = 1) :
    PairKets ℝ where
  ket sp J b c := twoBodyOverlap ov sp J a1 a2 b c
  exchange sp J b c hsp hb hc := by
    rw [overlap_ket_exchange ov hsp J b c h1 h2, smul_eq_mul]
    by_cases hz : twoBodyOverlap ov sp J a1 a2 b c = 0
    · rw [hz]; ring
    · congr 1
      rw [twoBodyOverlap_like ov hsp] at hz
      by_cases hA : lj ov sp.first a1 b * lj ov sp.first a2 c = 0
      · rw [hA, zero_add] at hz
        have hB := right_ne_zero_of_mul hz
        have e : a1.twiceJ + a2.twiceJ = b.twiceJ + c.twiceJ := by
          have := (lj_ne (left_ne_zero_of_mul hB)).2
          have := (lj_ne (right_ne_zero_of_mul hB)).2
          omega
        rw [e]
      · rw [(lj_ne (left_ne_zero_of_mul hA)).2, (lj_ne (right_ne_zero_of_mul hA)).2]

theorem orbSum_mul_left (o : Orbitals) (s : Species1) (c : ℝ) (f : Orb → ℝ) :
    c * orbSum o s f = orbSum o s fun b => c * f b := by
  unfold orbSum
  rw [← List.sum_map_mul_left]

theorem orbSum_mul_right (o : Orbitals) (s : Species1) (c : ℝ) (f : Orb → ℝ) :
    orbSum o s f * c = orbSum o s fun b => f b * c := by
  unfold orbSum
  rw [← List.sum_map_mul_right]

theorem orbSum_add (o : Orbitals) (s : Species1) (f g : Orb → ℝ) :
    orbSum o s f + orbSum o s g = orbSum o s fun b => f b + g b := by
  unfold orbSum
  rw [← List.sum_map_add]

theorem orbSum_comm (o o' : Orbitals) (s s' : Species1) (f : Orb → Orb → ℝ) :
    orbSum o s (fun a => orbSum o' s' fun b => f a b) = orbSum o' s' fun b => orbSum o s fun a => f a b := by
  rcases h1 : o.of s with _ | ⟨d, _⟩
  · simp [orbSum, h1]
  · simp only [orbSum_eq _ _ _ d]
    rw [Finset.sum_comm]

/-- **C25**, elements: the transformation for a product of orbital transformations is the product of
the transformations, the sum running over the intermediate pair states. -/
theorem xform_composition {o1 o2 o3 : Orbitals} {g : Nat} {x y z : Sub} (hx : SubWF o1 g x) (hy : FullSub o2 g y)
    (hz : SubWF o3 g z) (hxy : x.species = y.species) (hzy : z.species = y.species)
    (hJz : z.J = y.J) (h1 : HalfOdd o1) (h2 : HalfOdd o2) {ov12 ov23 ov13 : Overlap}
    (hp : IsProduct o1 o2 o3 ov12 ov23 ov13) {a c : St} (ha : a ∈ x.states) (hc : c ∈ z.states) :
    xformElement ov13 y.species y.J a c =
      ∑ b ∈ y.states.toFinset, xformElement ov12 y.species y.J a b * xformElement ov23 y.species y.J b c := by
  have hal := hx.allowed a ha
  have hcl := hz.allowed c hc
  rw [hxy] at hal
  rw [hzy] at hcl
  have m1 := List.mem_of_getElem? hal.orb1
  have m2 := List.mem_of_getElem? hal.orb2
  have n1 := List.mem_of_getElem? hcl.orb1
  have n2 := List.mem_of_getElem? hcl.orb2
  have q1 := h1 _ _ m1
  have q2 := h1 _ _ m2
  have key := xform_is_change_of_basis hy hz hzy hJz h2 ov23 (overlapKets ov12 a.a1 a.a2 q1 q2)
    (fun u v => twoBodyOverlap ov13 y.species y.J a.a1 a.a2 u v) hc (by
      simp only [overlapKets, smul_eq_mul]
      by_cases hpn : y.species = .pn
      · simp only [hpn, Species2.first, Species2.second, twoBodyOverlap_pn] at *
        rw [hp .p a.a1 m1 c.a1 n1, hp .n a.a2 m2 c.a2 n2, orbSum_mul_right]
        congr 1
        funext b1
        rw [orbSum_mul_left]
        congr 1
        funext b2
        ring
      · have hs := second_eq_first hpn
        rw [hs] at m2 n2
        simp only [hs, twoBodyOverlap_like _ hpn]
        rw [hp _ _ m1 _ n1, hp _ _ m2 _ n2, hp _ _ m1 _ n2, hp _ _ m2 _ n1]
        have e1 : orbSum o2 y.species.first (fun b => lj ov12 y.species.first a.a1 b * lj ov23 y.species.first b c.a1) *
            orbSum o2 y.species.first (fun b => lj ov12 y.species.first a.a2 b * lj ov23 y.species.first b c.a2) =
            orbSum o2 y.species.first fun b1 => orbSum o2 y.species.first fun b2 =>
              lj ov12 y.species.first a.a1 b1 * lj ov23 y.species.first b1 c.a1 *
              (lj ov12 y.species.first a.a2 b2 * lj ov23 y.species.first b2 c.a2) := by
          rw [orbSum_mul_right]
          congr 1
          funext b1
          rw [orbSum_mul_left]
        have e2 : orbSum o2 y.species.first (fun b => lj ov12 y.species.first a.a1 b * lj ov23 y.species.first b c.a2) *
            orbSum o2 y.species.first (fun b => lj ov12 y.species.first a.a2 b * lj ov23 y.species.first b c.a1) =
            orbSum o2 y.species.first fun b1 => orbSum o2 y.species.first fun b2 =>
              lj ov12 y.species.first a.a1 b2 * lj ov23 y.species.first b2 c.a2 *
              (lj ov12 y.species.first a.a2 b1 * lj ov23 y.species.first b1 c.a1) := by
          rw [orbSum_comm, orbSum_mul_right]
          congr 1
          funext b1
          rw [orbSum_mul_left]
        rw [e1, e2, orbSum_mul_left, orbSum_add]
        congr 1
        funext b1
        rw [orbSum_mul_left, orbSum_add]
        congr 1
        funext b2
        ring)
  simp only [overlapKets, smul_eq_mul] at key
  rw [xformElement_eq, mul_assoc, key, Finset.mul_sum]
  refine Finset.sum_congr rfl fun b _ => ?_
  rw [xformElement_eq ov12]
  ring

/-- The overlaps seen from the other side. -/
def flip (ov : Overlap) : Overlap := fun s a b => ov s b a

theorem lj_flip (ov : Overlap) (s : Species1) (a b : Orb) : lj (flip ov) s a b = lj ov s b a := by
  unfold lj flip
  by_cases h : a.l = b.l ∧ a.twiceJ = b.twiceJ
  · rw [if_pos h, if_pos ⟨h.1.symm, h.2.symm⟩]
  · rw [if_neg h, if_neg (fun h' => h ⟨h'.1.symm, h'.2.symm⟩)]

/-- **C25**: the transformation of the flipped overlaps is the transpose. -/
theorem xform_flip (ov : Overlap) (sp : Species2) (J : Nat) (a b : St) :
    xformElement (flip ov) sp J b a = xformElement ov sp J a b := by
  rw [xformElement_eq, xformElement_eq, mul_comm (norm sp b)]
  congr 1
  by_cases hpn : sp = .pn
  · rw [hpn, twoBodyOverlap_pn, twoBodyOverlap_pn, lj_flip, lj_flip]
  · rw [twoBodyOverlap_like _ hpn, twoBodyOverlap_like _ hpn, lj_flip, lj_flip, lj_flip, lj_flip]
    congr 1
    by_cases hz : lj ov sp.first a.a1 b.a2 * lj ov sp.first a.a2 b.a1 = 0
    · have hz' : lj ov sp.first a.a2 b.a1 * lj ov sp.first a.a1 b.a2 = 0 := by rw [mul_comm]; exact hz
      rw [hz, hz']
      ring
    · rw [(lj_ne (left_ne_zero_of_mul hz)).2, (lj_ne (right_ne_zero_of_mul hz)).2, Nat.add_comm b.a2.twiceJ]
      ring

/-- **C22**, elements: the identity orbital transformation gives the identity on pair states. -/
theorem xform_identity {o : Orbitals} {g : Nat} {x y : Sub} (hx : SubWF o g x) (hy : SubWF o g y)
    (hsp : y.species = x.species) (ho : OrbNodup o) (hs : HalfOdd o) {ov : Overlap}
    (hid : IsIdentity o ov) {a b : St} (ha : a ∈ x.states) (hb : b ∈ y.states) :
    xformElement ov x.species x.J a b = if a = b then 1 else 0 := by
  have hal := hx.allowed a ha
  have hbl := hy.allowed b hb
  rw [hsp] at hbl
  have hlj : ∀ s, ∀ u ∈ o.of s, ∀ v ∈ o.of s, lj ov s u v = if u = v then 1 else 0 := by
    intro s u hu v hv
    unfold lj
    by_cases h : u.l = v.l ∧ u.twiceJ = v.twiceJ
    · rw [if_pos h, hid s u hu v hv h.1 h.2]
    · rw [if_neg h, if_neg (fun e => h ⟨by rw [e], by rw [e]⟩)]
  have m1 := List.mem_of_getElem? hal.orb1
  have m2 := List.mem_of_getElem? hal.orb2
  have n1 := List.mem_of_getElem? hbl.orb1
  have n2 := List.mem_of_getElem? hbl.orb2
  have idx : ∀ {s : Species1} {i j : Nat} {u v : Orb}, (o.of s)[i]? = some u → (o.of s)[j]? = some v →
      (u = v ↔ i = j) := by
    intro s i j u v h1 h2
    constructor
    · rintro rfl
      exact (lookUp_of_getElem (ho s) h1).symm.trans (lookUp_of_getElem (ho s) h2)
    · rintro rfl
      exact Option.some.inj (h1.symm.trans h2)
  have heq : a = b ↔ a.a1 = b.a1 ∧ a.a2 = b.a2 := by
    constructor
    · rintro rfl; exact ⟨rfl, rfl⟩
    · rintro ⟨e1, e2⟩
      have i1 := (idx hal.orb1 hbl.orb1).1 e1
      have i2 := (idx hal.orb2 hbl.orb2).1 e2
      obtain ⟨_, _, _, _⟩ := a
      obtain ⟨_, _, _, _⟩ := b
      simp only at *
      subst e1 e2 i1 i2
      rfl
  rw [xformElement_eq]
  by_cases hpn : x.species = .pn
  · rw [hpn] at m1 m2 n1 n2 ⊢
    rw [twoBodyOverlap_pn, hlj .p _ m1 _ n1, hlj .n _ m2 _ n2]
    have : norm .pn a = 1 ∧ norm .pn b = 1 := by simp [norm]
    rw [this.1, this.2]
    by_cases h : a = b
    · obtain ⟨e1, e2⟩ := heq.1 h
      simp [h]
    · rw [if_neg h]
      have := mt heq.2 h
      rw [not_and_or] at this
      rcases this with h | h <;> simp [h]
  · have hs2 := second_eq_first hpn
    have ho2 := hal.orb2
    have hb2 := hbl.orb2
    rw [hs2] at m2 n2 ho2 hb2
    rw [twoBodyOverlap_like _ hpn, hlj _ _ m1 _ n1, hlj _ _ m2 _ n2, hlj _ _ m1 _ n2, hlj _ _ m2 _ n1]
    by_cases h : a = b
    · subst h
      simp only [if_true]
      by_cases he : a.a1 = a.a2
      · have hi := (idx hal.orb1 ho2).1 he
        have hn : norm x.species a * norm x.species a = 1 / 2 := by rw [norm_sq, if_pos ⟨hpn, hi⟩]
        have hodd := hs _ _ m1
        rw [hn, ← he, eps_eq hodd hodd, Even.neg_one_pow]
        · norm_num
        · have := hal.pauli hpn hi
          rw [Nat.even_iff]
          omega
      · have hi : ¬ a.i1 = a.i2 := fun h => he ((idx hal.orb1 ho2).2 h)
        have hn : norm x.species a * norm x.species a = 1 := by
          rw [norm_sq, if_neg (fun h => hi h.2)]
        rw [hn, if_neg he]
        simp
    · rw [if_neg h]
      have h0 : (if a.a1 = b.a1 then (1 : ℝ) else 0) * (if a.a2 = b.a2 then 1 else 0) = 0 := by
        have := mt heq.2 h
        rw [not_and_or] at this
        rcases this with h | h <;> simp [h]
      have h1 : (if a.a1 = b.a2 then (1 : ℝ) else 0) * (if a.a2 = b.a1 then 1 else 0) = 0 := by
        by_contra hc
        have c1 : a.a1 = b.a2 := by by_contra hh; simp [hh] at hc
        have c2 : a.a2 = b.a1 := by by_contra hh; simp [hh] at hc
        have i1 := (idx hal.orb1 hb2).1 c1
        have i2 := (idx ho2 hbl.orb1).1 c2
        have k1 := hal.canonical hpn
        have k2 := hbl.canonical hpn
        have e1 : a.a1 = b.a1 := (idx hal.orb1 hbl.orb1).2 (by omega)
        have e2 : a.a2 = b.a2 := (idx ho2 hb2).2 (by omega)
        exact h (heq.2 ⟨e1, e2⟩)
      rw [h0, h1]
      ring

end Verif.Xform
