import Verif.Mixer.TwoNucleons

/-!
# Transformed two-body sources as operators on two nucleons
-/

namespace Verif.Mixer
open Verif Verif.Mapping Verif.Xform Verif.Obme Verif.Separable Verif.SU2
open scoped TensorProduct

section
variable {V : Type} [AddCommGroup V] [Module ℝ V]

/-- Only orbitals with the same labels are mixed. -/
theorem turned_labels {x : XfData} (gx : GoodXf x) {i p k r : ℕ} {a c : SpOrb} (ha : IsOrb x.bra i p a) (hc : IsOrb x.ket k r c)
    (hne : elem x.secs x.mats i p k r ≠ 0) : a.labels = c.labels := by
  have hmem : (i, k) ∈ x.secs.pairs := by
    by_contra hn
    exact hne (elem_absent hn _ _)
  obtain ⟨b, k', hb, hk, hal⟩ := (gx.overlap.secs.mem i k).mp hmem
  have q1 := labels_half gx.bra ha
  have q2 := labels_half gx.ket hc
  obtain ⟨b1, hb1, hl1, -⟩ := ha
  obtain ⟨b2, hb2, hl2, -⟩ := hc
  rw [hb] at hb1
  rw [hk] at hb2
  cases hb1
  cases hb2
  rw [hl1, hl2, gx.overlap.qn] at hal
  obtain ⟨⟨h1, h2⟩, h3, h4⟩ := hal
  rw [abs_le] at h1
  have h5 := tz_eq.mp (show a.labels.tz = c.labels.tz by simp only [scalarQN] at h4; omega)
  simp only [SpOrb.labels, scalarQN] at h1 h2 h3 ⊢
  have e1 : a.tj = c.tj := by omega
  have e2 : a.l = c.l := by omega
  rw [e1, e2, h5]

theorem orbSum_eq {W : Type} [AddCommGroup W] {o : Orbitals} {s : Species1} (hn : (o.of s).Nodup) (f : Orb → W) :
    orbSum o s f = ∑ a ∈ (o.of s).toFinset, f a := by
  rw [orbSum, List.sum_toFinset f hn]

/-- The orbital of a position without its species. -/
def plain (a : SpOrb) : Orb := ⟨a.n, a.l, a.tj⟩

/-- The states after a transformation, by the overlaps the two-body transformation uses. -/
theorem turned_orbSum {x : XfData} (gx : GoodXf x) {st st' : SpOrb → ℤ → V} (ht : Turned x.bra x.ket x.secs x.mats st st') {src : Orbitals}
    (hsrc : ∀ s a, a ∈ src.of s ↔ InSpace x.bra (spOrb s a)) (hn : ∀ s, (src.of s).Nodup) {s : Species1} {a' : Orb} (ha' : InSpace x.ket (spOrb s a'))
    {m : ℤ} (hm : m ∈ projs a'.twiceJ) :
    st' (spOrb s a') m = ∑ a ∈ (src.of s).toFinset, lj (Control.overlapOf x) s a a' • st (spOrb s a) m := by
  obtain ⟨k, r, hk⟩ := ha'
  rw [ht k r _ hk m hm]
  have hz : ∀ t ∈ states x.bra, (orbAt x.bra t).sp ≠ s → elem x.secs x.mats t.1 t.2 k r • st (orbAt x.bra t) m = 0 := by
    intro t htt hsp
    by_cases he : elem x.secs x.mats t.1 t.2 k r = 0
    · rw [he, zero_smul]
    · exact absurd (congrArg (fun l : Obme.Labels => l.sp) (turned_labels gx (isOrb_orbAt htt) hk he)) hsp
  rw [← Finset.sum_filter_add_sum_filter_not (states x.bra) (fun t => (orbAt x.bra t).sp = s),
    Finset.sum_eq_zero (s := (states x.bra).filter fun t => ¬ (orbAt x.bra t).sp = s)
      (fun t h => hz t (Finset.mem_filter.mp h).1 (Finset.mem_filter.mp h).2), add_zero]
  have back : ∀ t ∈ (states x.bra).filter (fun t => (orbAt x.bra t).sp = s), spOrb s (plain (orbAt x.bra t)) = orbAt x.bra t := by
    intro t h
    rw [← (Finset.mem_filter.mp h).2]
    rfl
  refine Finset.sum_bij (fun t _ => plain (orbAt x.bra t)) ?_ ?_ ?_ ?_
  · intro t h
    rw [List.mem_toFinset, hsrc, back t h]
    exact ⟨_, _, isOrb_orbAt (Finset.mem_filter.mp h).1⟩
  · intro t h t' h' e
    have e' : orbAt x.bra t = orbAt x.bra t' := by rw [← back t h, ← back t' h', e]
    have o1 := isOrb_orbAt (Finset.mem_filter.mp h).1
    have o2 := isOrb_orbAt (Finset.mem_filter.mp h').1
    rw [← e'] at o2
    obtain ⟨u1, u2⟩ := isOrb_unique gx.bra o1 o2
    rcases t with ⟨t1, t2⟩
    rcases t' with ⟨t1', t2'⟩
    simp only at u1 u2
    rw [u1, u2]
  · intro a ha
    rw [List.mem_toFinset, hsrc] at ha
    obtain ⟨i, p, hi⟩ := ha
    have e := orbAt_of hi
    exact ⟨⟨i, p⟩, Finset.mem_filter.mpr ⟨isOrb_states hi, by rw [e]; rfl⟩, by simp only [e]; rfl⟩
  · intro t h
    have hb := back t h
    have ho := isOrb_orbAt (Finset.mem_filter.mp h).1
    rw [← hb] at ho ⊢
    congr 1
    unfold lj
    split_ifs with hc
    · exact (Control.overlapOf_element (sp := s) (a := plain (orbAt x.bra t)) (b := a') gx ho hk).symm
    · by_contra he
      have := turned_labels gx ho hk he
      exact hc ⟨congrArg (fun l : Obme.Labels => l.l) this, congrArg (fun l : Obme.Labels => l.tj) this⟩

/-! ## Pairs -/

/-- Without the factor for two nucleons in one orbital. -/
noncomputable def rawPair (st : SpOrb → ℤ → V) (sp : Species2) (J : ℕ) (a b : Orb) (M : ℤ) : V ⊗[ℝ] V :=
  (1 / Real.sqrt 2 : ℝ) • (pairState st M (spOrb sp.first a) (spOrb sp.second b) J -
    exSign J (spOrb sp.first a) (spOrb sp.second b) • pairState st M (spOrb sp.second b) (spOrb sp.first a) J)

theorem spOrb_eq {sp : Species2} {a b : Orb} : spOrb sp.first a = spOrb sp.second b ↔ sp ≠ .pn ∧ a = b := by
  rcases a with ⟨a1, a2, a3⟩
  rcases b with ⟨b1, b2, b3⟩
  cases sp <;> simp [spOrb, Species2.first, Species2.second]

theorem pairOf_raw (st : SpOrb → ℤ → V) (sp : Species2) (J : ℕ) (a b : Orb) :
    pairOf st sp J a b = (if sp ≠ .pn ∧ a = b then 1 / Real.sqrt 2 else 1 : ℝ) • rawPair st sp J a b := by
  funext M
  simp only [pairOf, nas, rawPair, Pi.smul_apply]
  rw [if_congr spOrb_eq rfl rfl]

/-- The kets without that factor. -/
noncomputable def rawKets (st : SpOrb → ℤ → V) : PairKets (Multi V) where
  ket sp J a b := Finsupp.single J (rawPair st sp J a b)
  exchange sp J a b hsp ha hb := by
    rw [Finsupp.smul_single]
    congr 1
    have h := pairOf_exchange st J hsp ha hb
    rw [pairOf_raw, pairOf_raw, smul_comm] at h
    by_cases e : a = b
    · subst e
      have hc : ((if sp ≠ .pn ∧ a = a then 1 / Real.sqrt 2 else 1 : ℝ)) ≠ 0 := by
        split_ifs <;> positivity
      exact (smul_right_injective _ hc) h
    · rwa [if_neg (fun x => e x.2.symm), if_neg (fun x => e x.2), one_smul, one_smul] at h

theorem normalised_raw (st : SpOrb → ℤ → V) : normalised (rawKets st) = pairKets st := by
  unfold normalised rawKets pairKets
  congr 1
  funext sp J a b
  rw [Finsupp.smul_single, pairOf_raw]

theorem sum4_swap {W ι κ μ ν : Type} [AddCommMonoid W] (A : Finset ι) (B : Finset κ) (C : Finset μ) (D : Finset ν) (f : ι → κ → μ → ν → W) :
    ∑ a ∈ A, ∑ b ∈ B, ∑ c ∈ C, ∑ d ∈ D, f a b c d = ∑ c ∈ C, ∑ d ∈ D, ∑ a ∈ A, ∑ b ∈ B, f a b c d := by
  calc _ = ∑ a ∈ A, ∑ c ∈ C, ∑ b ∈ B, ∑ d ∈ D, f a b c d := Finset.sum_congr rfl fun _ _ => Finset.sum_comm
    _ = ∑ a ∈ A, ∑ c ∈ C, ∑ d ∈ D, ∑ b ∈ B, f a b c d := Finset.sum_congr rfl fun _ _ => Finset.sum_congr rfl fun _ _ => Finset.sum_comm
    _ = ∑ c ∈ C, ∑ a ∈ A, ∑ d ∈ D, ∑ b ∈ B, f a b c d := Finset.sum_comm
    _ = _ := Finset.sum_congr rfl fun _ _ => Finset.sum_comm

/-- A transformed pair. -/
theorem turned_pairState {x : XfData} (gx : GoodXf x) {st st' : SpOrb → ℤ → V} (ht : Turned x.bra x.ket x.secs x.mats st st') {src : Orbitals}
    (hsrc : ∀ s a, a ∈ src.of s ↔ InSpace x.bra (spOrb s a)) (hn : ∀ s, (src.of s).Nodup) {s s' : Species1} {a' b' : Orb} (ha' : InSpace x.ket (spOrb s a'))
    (hb' : InSpace x.ket (spOrb s' b')) (J : ℕ) (M : ℤ) :
    pairState st' M (spOrb s a') (spOrb s' b') J = ∑ a ∈ (src.of s).toFinset, ∑ b ∈ (src.of s').toFinset,
      (lj (Control.overlapOf x) s a a' * lj (Control.overlapOf x) s' b b') • pairState st M (spOrb s a) (spOrb s' b) J := by
  have hterm : ∀ a b, (lj (Control.overlapOf x) s a a' * lj (Control.overlapOf x) s' b b') • pairState st M (spOrb s a) (spOrb s' b) J =
      ∑ m ∈ projs a'.twiceJ, ∑ m' ∈ projs b'.twiceJ, cgd a'.twiceJ m b'.twiceJ m' (2 * J) M •
        ((lj (Control.overlapOf x) s a a' • st (spOrb s a) m) ⊗ₜ[ℝ] (lj (Control.overlapOf x) s' b b' • st (spOrb s' b) m')) := by
    intro a b
    by_cases h1 : lj (Control.overlapOf x) s a a' = 0
    · simp [h1]
    by_cases h2 : lj (Control.overlapOf x) s' b b' = 0
    · simp [h2]
    have e1 := (lj_ne h1).2
    have e2 := (lj_ne h2).2
    rw [pairState, Finset.smul_sum]
    simp only [spOrb, e1, e2]
    refine Finset.sum_congr rfl fun m _ => ?_
    rw [Finset.smul_sum]
    refine Finset.sum_congr rfl fun m' _ => ?_
    rw [TensorProduct.smul_tmul_smul, smul_comm]
  simp only [hterm]
  rw [pairState, sum4_swap]
  refine Finset.sum_congr rfl fun m hm => Finset.sum_congr rfl fun m' hm' => ?_
  rw [turned_orbSum gx ht hsrc hn ha' hm, turned_orbSum gx ht hsrc hn hb' hm', TensorProduct.sum_tmul, Finset.smul_sum]
  refine Finset.sum_congr rfl fun a _ => ?_
  rw [TensorProduct.tmul_sum, Finset.smul_sum]
  rfl

theorem turned_raw {x : XfData} (gx : GoodXf x) {st st' : SpOrb → ℤ → V} (ht : Turned x.bra x.ket x.secs x.mats st st') {src : Orbitals}
    (hsrc : ∀ s a, a ∈ src.of s ↔ InSpace x.bra (spOrb s a)) (hn : ∀ s, (src.of s).Nodup) {sp : Species2} {a' b' : Orb}
    (ha' : InSpace x.ket (spOrb sp.first a')) (hb' : InSpace x.ket (spOrb sp.second b')) (J : ℕ) :
    rawPair st' sp J a' b' = ∑ a ∈ (src.of sp.first).toFinset, ∑ b ∈ (src.of sp.second).toFinset,
      (lj (Control.overlapOf x) sp.first a a' * lj (Control.overlapOf x) sp.second b b') • rawPair st sp J a b := by
  funext M
  simp only [Finset.sum_apply, Pi.smul_apply]
  rw [rawPair, turned_pairState gx ht hsrc hn ha' hb', turned_pairState gx ht hsrc hn hb' ha']
  rw [Finset.sum_comm (s := (src.of sp.second).toFinset) (t := (src.of sp.first).toFinset)]
  rw [Finset.smul_sum, ← Finset.sum_sub_distrib, Finset.smul_sum]
  refine Finset.sum_congr rfl fun a _ => ?_
  rw [Finset.smul_sum, ← Finset.sum_sub_distrib, Finset.smul_sum]
  refine Finset.sum_congr rfl fun b _ => ?_
  by_cases h1 : lj (Control.overlapOf x) sp.first a a' = 0
  · simp [h1]
  by_cases h2 : lj (Control.overlapOf x) sp.second b b' = 0
  · simp [h2]
  have e : exSign J (spOrb sp.first a') (spOrb sp.second b') = exSign J (spOrb sp.first a) (spOrb sp.second b) := by
    simp only [exSign, spOrb, (lj_ne h1).2, (lj_ne h2).2]
  rw [e, rawPair]
  module

/-- The kets after the transformation, as the sums the two-body transformation takes. -/
noncomputable def turnedKets (st : SpOrb → ℤ → V) (src : Orbitals) (ov : Xform.Overlap) (sp : Species2) (J : ℕ) (a' b' : Orb) : Multi V :=
  orbSum src sp.first fun a => orbSum src sp.second fun b => (lj ov sp.first a a' * lj ov sp.second b b') • (rawKets st).ket sp J a b

theorem turnedKets_eq {x : XfData} (gx : GoodXf x) {st st' : SpOrb → ℤ → V} (ht : Turned x.bra x.ket x.secs x.mats st st') {src : Orbitals}
    (hsrc : ∀ s a, a ∈ src.of s ↔ InSpace x.bra (spOrb s a)) (hn : ∀ s, (src.of s).Nodup) {sp : Species2} {a' b' : Orb}
    (ha' : InSpace x.ket (spOrb sp.first a')) (hb' : InSpace x.ket (spOrb sp.second b')) (J : ℕ) :
    turnedKets st src (Control.overlapOf x) sp J a' b' = Finsupp.single J (rawPair st' sp J a' b') := by
  rw [turned_raw gx ht hsrc hn ha' hb', turnedKets, orbSum_eq (hn _), Finsupp.single_finsetSum]
  refine Finset.sum_congr rfl fun a _ => ?_
  rw [orbSum_eq (hn _), Finsupp.single_finsetSum]
  refine Finset.sum_congr rfl fun b _ => ?_
  rw [← Finsupp.smul_single]
  rfl

theorem newState_turned {x : XfData} (gx : GoodXf x) {st st' : SpOrb → ℤ → V} (ht : Turned x.bra x.ket x.secs x.mats st st') {src tgt : Orbitals}
    (hsrc : ∀ s a, a ∈ src.of s ↔ InSpace x.bra (spOrb s a)) (hn : ∀ s, (src.of s).Nodup) (htgt : tgt.WF) (hav : Available tgt x.ket) {lab : Mapping.Labels}
    {s : ℕ × ℕ} {a' b' : Orb} (hp : IsPair tgt lab.species s a' b') :
    newState (turnedKets st src (Control.overlapOf x)) tgt lab s = Finsupp.single lab.J (pairOf st' lab.species lab.J a' b') := by
  unfold newState
  rw [hp.1, hp.2]
  simp only
  rw [turnedKets_eq gx ht hsrc hn (hav _ _ (List.mem_of_getElem? hp.1)) (hav _ _ (List.mem_of_getElem? hp.2)), pairOf_raw, ← Finsupp.smul_single]
  congr 1
  refine if_congr (and_congr_right fun hsp => ?_) rfl rfl
  have hf : lab.species.first = lab.species.second := first_eq_second.2 hsp
  have h1 := hp.1
  have h2 := hp.2
  constructor
  · intro h
    rw [hf, h] at h1
    exact (Option.some.inj (h1.symm.trans h2))
  · intro h
    rw [hf, h] at h1
    obtain ⟨l1, g1⟩ := List.getElem?_eq_some_iff.mp h1
    obtain ⟨l2, g2⟩ := List.getElem?_eq_some_iff.mp h2
    exact ((htgt.nodup _).getElem_inj_iff (hi := l1) (hj := l2)).mp (g1.trans g2.symm)

/-! ## The source -/

/-- A transformed pair is a combination of the pairs of the file. -/
theorem newState_sum {src tgt : Orbitals} {pre tsp : List Subspace} (hpre : SpaceWF src pre) (hts : SpaceWF tgt tsp) (hsr : src.WF) (hodd : src.HalfOdd)
    {pb b : Subspace} (hpb : pb ∈ pre) (hb : b ∈ tsp) (fpb : FullSubspace src pb) (fb : FullSubspace tgt b) (e : pb.labels = b.labels) (ov : Xform.Overlap)
    {W : Type} [AddCommGroup W] [Module ℝ W] (K : PairKets W) {K' : Species2 → ℕ → Orb → Orb → W} (hK : TransformedKets K src ov K')
    {s : ℕ × ℕ} (hs : s ∈ b.states) : ∃ (S : Finset St) (c : St → ℝ) (g : St → ℕ × ℕ),
      (∀ y ∈ S, g y ∈ pb.states) ∧ newState K' tgt b.labels s = ∑ y ∈ S, c y • (normalised K).state src pb.labels (g y) := by
  obtain ⟨xpb, u1, u2, u3, u4⟩ := xformSub_ok hpre hpb
  obtain ⟨xb, w1, w2, w3, w4⟩ := xformSub_ok hts hb
  obtain ⟨yb, hyb, e1, e2, hpb'⟩ := forall₂_mem_left w4 s hs
  have fp := full_of_subspace hpre hpb fpb u1
  have ft := full_of_subspace hts hb fb w1
  rw [e] at fp
  have nb : newState K' tgt b.labels s =
      ∑ st ∈ xpb.states.toFinset, xformElement ov xpb.species xpb.J st yb • Xform.norm xpb.species st •
        K.ket xpb.species xpb.J st.a1 st.a2 := by
    rw [← xform_is_change_of_basis fp ft.toSubWF (by rw [w2, u2, e]) (by rw [w3, u3, e]) hodd ov K
      (K' xpb.species xpb.J) hyb (hK _ _ _ _)]
    simp only [newState, hpb'.1, hpb'.2, Xform.norm, e1, e2, u2, u3, e]
  have key : ∀ y ∈ xpb.states.toFinset, (y.i1, y.i2) ∈ pb.states ∧
      (normalised K).state src pb.labels (y.i1, y.i2) = Xform.norm xpb.species y • K.ket xpb.species xpb.J y.a1 y.a2 := by
    intro y hy
    obtain ⟨z, hz, f1, f2, f3⟩ := forall₂_mem_right u4 y (List.mem_toFinset.mp hy)
    have hzy : z = (y.i1, y.i2) := Prod.ext f1.symm f2.symm
    rw [← hzy]
    refine ⟨hz, ?_⟩
    rw [state_normalised hsr K f1 f2 f3, u2, u3]
  refine ⟨_, fun y => xformElement ov xpb.species xpb.J y yb, fun y => (y.i1, y.i2), fun y hy => (key y hy).1, ?_⟩
  rw [nb]
  exact Finset.sum_congr rfl fun y hy => by rw [(key y hy).2]

variable {form : V →ₗ[ℝ] V →ₗ[ℝ] ℝ} {J0 : ℕ} {O : ℤ → V ⊗[ℝ] V →ₗ[ℝ] V ⊗[ℝ] V}

/-- What a file and the space before the transformation must hold for a sector of the target: all pairs of the given angular momentum and parity. -/
structure Complete2 (file : H2In) (preSpace : List Subspace) (preSectors : List (ℕ × ℕ)) (b k : Subspace) : Prop where
  before : ∃ n p pb pk, IsSector (preIndexing file preSpace preSectors) n p pb pk ∧ pb.labels = b.labels ∧ pk.labels = k.labels ∧
    FullSubspace file.ix.orbitals pb ∧ FullSubspace file.ix.orbitals pk
  stored : ∃ n p sb sk, IsSector file.ix n p sb sk ∧ sb.labels = b.labels ∧ sk.labels = k.labels ∧
    FullSubspace file.ix.orbitals sb ∧ FullSubspace file.ix.orbitals sk

theorem xform_reduced {env : Env} {id xf : String} {file : H2In} {preSpace : List Subspace} {preSectors : List (ℕ × ℕ)} (hf : IndexOK file.ix)
    (hpre : IndexOK (preIndexing file preSpace preSectors)) (htg : IndexOK env.target) {x : XfData} (gx : GoodXf x) (hov : env.xf xf = some (Control.overlapOf x))
    {st st' : SpOrb → ℤ → V} (ht : Turned x.bra x.ket x.secs x.mats st st')
    (hsrc : ∀ s a, a ∈ file.ix.orbitals.of s ↔ InSpace x.bra (spOrb s a)) (hav : Available env.target.orbitals x.ket)
    (h : Stored form st J0 O file) (htf : Triangles file.ix J0)
    {p : ℕ × ℕ} {b k : Subspace} (hb : env.target.space[p.1]? = some b) (hk : env.target.space[p.2]? = some k)
    (hbA : FullSubspace env.target.orbitals b) (hkA : FullSubspace env.target.orbitals k) (hc : Complete2 file preSpace preSectors b k) :
    ∃ r, source env ⟨id, .xform file preSpace preSectors xf⟩ p = .ok r ∧ (∀ T, r = some T → SectorSize env p T) ∧
      ∀ (i j : ℕ) sti stj a1 a2 c1 c2, b.states[i]? = some sti → k.states[j]? = some stj →
        IsPair env.target.orbitals b.labels.species sti a1 a2 → IsPair env.target.orbitals k.labels.species stj c1 c2 →
        Reduced form J0 O b.labels.J k.labels.J (pairOf st' b.labels.species b.labels.J a1 a2) (pairOf st' k.labels.species k.labels.J c1 c2) (elemOf r i j) := by
  obtain ⟨n', p', pb, pk, hs', eb, ek, fpb, fpk⟩ := hc.before
  obtain ⟨n, q, sb, sk, hs, eb', ek', fsb, fsk⟩ := hc.stored
  have hn : ∀ s, (file.ix.orbitals.of s).Nodup := hf.orb.nodup
  have hK : TransformedKets (rawKets st) file.ix.orbitals (Control.overlapOf x) (turnedKets st file.ix.orbitals (Control.overlapOf x)) := fun _ _ _ _ => rfl
  have same : ∀ {pb sb : Subspace}, pb ∈ preSpace → sb.labels = pb.labels → FullSubspace file.ix.orbitals pb → FullSubspace file.ix.orbitals sb →
      ∀ z ∈ pb.states, ∃ z' ∈ sb.states, SameOrbitals file.ix.orbitals file.ix.orbitals sb.labels.species z' z := by
    intro pb sb hm e f f' z hz
    obtain ⟨a, b, hab⟩ := state_pair _ hpre hm hz
    have := f.allowed z hz a b hab
    rw [← e] at this hab
    exact ⟨z, f'.full _ this, a, b, hab, .inl hab⟩
  have hB1 := h.holds hf htf
  have hB2 := h.symWithin hf htf
  rw [← normalised_raw] at hB1 hB2
  obtain ⟨T, t1, t2, t3⟩ := xform_source (id := id) hf hpre htg hov hB1 hB2 hK hb hk hbA hkA hs' eb ek fpb fpk hs eb' ek'
    (same (List.mem_of_getElem? hs'.bra) (eb'.trans eb.symm) fpb fsb) (same (List.mem_of_getElem? hs'.ket) (ek'.trans ek.symm) fpk fsk)
  refine ⟨some T, t1, (by rintro _ ⟨⟩; exact t2), ?_⟩
  intro i j sti stj a1 a2 c1 c2 hi hj ha hcc
  have n1 := newState_turned gx ht hsrc hn htg.orb hav ha
  have n2 := newState_turned gx ht hsrc hn htg.orb hav hcc
  have hv : elemOf (some T) i j = redForm form J0 O b.labels.J k.labels.J (pairOf st' b.labels.species b.labels.J a1 a2) (pairOf st' k.labels.species k.labels.J c1 c2) := by
    rw [← multiForm_single, ← n1, ← n2]
    exact t3 i j sti stj hi hj
  rw [hv]
  -- both pairs as sums of pairs of the file
  have dec : ∀ {pb b : Subspace} {s : ℕ × ℕ} {a1 a2 : Orb}, pb ∈ preSpace → b ∈ env.target.space → FullSubspace file.ix.orbitals pb →
      FullSubspace env.target.orbitals b → pb.labels = b.labels → s ∈ b.states → IsPair env.target.orbitals b.labels.species s a1 a2 →
      ∃ (S : Finset St) (c : St → ℝ) (u v : St → Orb) (g : St → ℕ × ℕ), (∀ y ∈ S, g y ∈ pb.states ∧ IsPair file.ix.orbitals b.labels.species (g y) (u y) (v y)) ∧
        pairOf st' b.labels.species b.labels.J a1 a2 = ∑ y ∈ S, c y • pairOf st b.labels.species b.labels.J (u y) (v y) := by
    intro pb b s a1 a2 m1 m2 f1 f2 e hs hp
    obtain ⟨S, c, g, g1, g2⟩ := newState_sum hpre.space htg.space hf.orb hf.odd m1 m2 f1 f2 e _ (rawKets st) hK hs
    have hall : ∀ y ∈ S, ∃ uv : Orb × Orb, IsPair file.ix.orbitals b.labels.species (g y) uv.1 uv.2 := by
      intro y hy
      obtain ⟨a, b', hab⟩ := state_pair _ hpre m1 (g1 y hy)
      rw [e] at hab
      exact ⟨(a, b'), hab⟩
    haveI : Nonempty (Orb × Orb) := ⟨(a1, a2)⟩
    choose! uv huv using hall
    refine ⟨S, c, fun y => (uv y).1, fun y => (uv y).2, g, fun y hy => ⟨g1 y hy, huv y hy⟩, ?_⟩
    rw [newState_turned gx ht hsrc hn htg.orb hav hp, normalised_raw] at g2
    apply Finsupp.single_injective b.labels.J
    rw [g2, Finsupp.single_finsetSum]
    refine Finset.sum_congr rfl fun y hy => ?_
    rw [e, pairKets_state (o := (preIndexing file preSpace preSectors).orbitals) (huv y hy), Finsupp.smul_single]
  obtain ⟨S1, f1, u1, v1, g1, h1, h1'⟩ := dec (List.mem_of_getElem? hs'.bra) (List.mem_of_getElem? hb) fpb hbA eb (List.mem_of_getElem? hi) ha
  obtain ⟨S2, f2, u2, v2, g2, h2, h2'⟩ := dec (List.mem_of_getElem? hs'.ket) (List.mem_of_getElem? hk) fpk hkA ek (List.mem_of_getElem? hj) hcc
  rw [h1', h2']
  refine Tensorial.sum_left _ _ fun y hy => Tensorial.smul_left (Tensorial.sum_right _ _ fun z hz => Tensorial.smul_right ?_ _) _
  have m1 : g1 y ∈ sb.states := by
    have := fpb.allowed _ (h1 y hy).1 _ _ (by rw [eb]; exact (h1 y hy).2)
    rw [eb, ← eb'] at this
    exact fsb.full _ this
  have m2 : g2 z ∈ sk.states := by
    have := fpk.allowed _ (h2 z hz).1 _ _ (by rw [ek]; exact (h2 z hz).2)
    rw [ek, ← ek'] at this
    exact fsk.full _ this
  have := h.tensorial htf hs m1 m2 (by rw [eb']; exact (h1 y hy).2) (by rw [ek']; exact (h2 z hz).2)
  rw [eb', ek'] at this
  exact this

end
end Verif.Mixer
