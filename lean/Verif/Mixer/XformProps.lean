import Verif.Mixer.SourceProps
import Verif.Xform.MatProps

/-!
# Property C79: transformed sources of `h2mixer`
-/

namespace Verif.Mixer
open Verif Verif.Mapping Verif.Xform Verif.Obme Verif.Separable
open Verif.H2 hiding Mat Subspace

/-- The states of a subspace with their orbitals. -/
theorem xformSub_ok {o : Orbitals} {sp : List Subspace} (hw : SpaceWF o sp) {s : Subspace} (hs : s ∈ sp) :
    ∃ x, xformSub o s = .ok x ∧ x.species = s.labels.species ∧ x.J = s.labels.J ∧
      List.Forall₂ (fun st y => y.i1 = st.1 ∧ y.i2 = st.2 ∧ IsPair o s.labels.species st y.a1 y.a2) s.states
        x.states := by
  suffices hall : ∀ st ∈ s.states, ∃ y : St, (do
      let x ← stateOrbs o s.labels.species st
      pure (⟨st.1, st.2, x.1, x.2⟩ : St) : Except Err St) = .ok y ∧
      (y.i1 = st.1 ∧ y.i2 = st.2 ∧ IsPair o s.labels.species st y.a1 y.a2) by
    obtain ⟨ys, h1, h2⟩ := mapM_forall₂ hall
    refine ⟨⟨s.labels.species, s.labels.J, ys⟩, ?_, rfl, rfl, h2⟩
    unfold xformSub
    rw [h1]
    rfl
  intro st hst
  obtain ⟨a, b, hab⟩ := isPair_of_inRange (hw.inRange s hs st hst)
  refine ⟨⟨st.1, st.2, a, b⟩, ?_, rfl, rfl, hab⟩
  simp only [stateOrbs, getE_ok hab.1, getE_ok hab.2, Except.ok_bind', Except.pure_ok]

/-- The subspace has exactly the pairs allowed by its labels. -/
structure FullSubspace (o : Orbitals) (s : Subspace) : Prop where
  allowed : ∀ st ∈ s.states, ∀ a b, IsPair o s.labels.species st a b →
    Allowed o s.labels.species s.labels.J s.labels.g ⟨st.1, st.2, a, b⟩
  full : ∀ y, Allowed o s.labels.species s.labels.J s.labels.g y → (y.i1, y.i2) ∈ s.states

theorem forall₂_mem_right {α β : Type} {P : α → β → Prop} {l : List α} {r : List β} (h : List.Forall₂ P l r) :
    ∀ y ∈ r, ∃ x ∈ l, P x y := by
  induction h with
  | nil => simp
  | cons hp _ ih =>
    intro y hy
    rcases List.mem_cons.mp hy with rfl | hy
    · exact ⟨_, by simp, hp⟩
    · obtain ⟨x, hx, h⟩ := ih y hy
      exact ⟨x, by simp [hx], h⟩

theorem forall₂_mem_left {α β : Type} {P : α → β → Prop} {l : List α} {r : List β} (h : List.Forall₂ P l r) :
    ∀ x ∈ l, ∃ y ∈ r, P x y := by
  induction h with
  | nil => simp
  | cons hp _ ih =>
    intro y hy
    rcases List.mem_cons.mp hy with rfl | hy
    · exact ⟨_, by simp, hp⟩
    · obtain ⟨x, hx, h⟩ := ih y hy
      exact ⟨x, by simp [hx], h⟩

theorem forall₂_nodup {α β : Type} {P : α → β → Prop} {l : List α} {r : List β} (h : List.Forall₂ P l r)
    (hinj : ∀ x x' y, P x y → P x' y → x = x') (hn : l.Nodup) : r.Nodup := by
  induction h with
  | nil => exact List.nodup_nil
  | cons hp ht ih =>
    obtain ⟨h1, h2⟩ := List.nodup_cons.mp hn
    refine List.nodup_cons.mpr ⟨?_, ih h2⟩
    intro hm
    obtain ⟨x, hx, hpx⟩ := forall₂_mem_right ht _ hm
    rw [hinj _ _ _ hp hpx] at h1
    exact h1 hx

/-- The same subspaces in the two representations. -/
theorem full_of_subspace {o : Orbitals} {sp : List Subspace} (hw : SpaceWF o sp) {s : Subspace} (hs : s ∈ sp)
    (hf : FullSubspace o s) {x : Xform.Sub} (hx : xformSub o s = .ok x) : FullSub o s.labels.g x := by
  obtain ⟨x', h1, h2, h3, h4⟩ := xformSub_ok hw hs
  rw [hx] at h1
  cases h1
  refine ⟨⟨?_, ?_⟩, ?_⟩
  · refine forall₂_nodup h4 ?_ (hw.statesNodup s hs)
    rintro st st' y ⟨a1, a2, -⟩ ⟨b1, b2, -⟩
    exact Prod.ext (a1.symm.trans b1) (a2.symm.trans b2)
  · intro y hy
    obtain ⟨st, hst, e1, e2, hp⟩ := forall₂_mem_right h4 y hy
    have := hf.allowed st hst _ _ hp
    rw [← e1, ← e2] at this
    rw [h2, h3]
    exact this
  · intro y hy
    rw [h2, h3] at hy
    obtain ⟨y', hy', e1, e2, hp⟩ := forall₂_mem_left h4 _ (hf.full y hy)
    have : y = y' := by
      obtain ⟨i1, i2, a1, a2⟩ := y
      obtain ⟨j1, j2, b1, b2⟩ := y'
      simp only at e1 e2 hp
      subst e1 e2
      have q1 := Option.some.inj (hy.orb1.symm.trans hp.1)
      have q2 := Option.some.inj (hy.orb2.symm.trans hp.2)
      simp only at q1 q2
      rw [q1, q2]
    rw [this]
    exact hy'

variable {V : Type} [AddCommGroup V] [Module ℝ V]

/-- Normalised states: two like particles in one orbital carry `1/√2`. -/
noncomputable def normalised (K : PairKets V) : PairKets V where
  ket sp J a b := (if sp ≠ .pn ∧ a = b then 1 / Real.sqrt 2 else 1 : ℝ) • K.ket sp J a b
  exchange sp J a b hsp ha hb := by
    rw [K.exchange sp J a b hsp ha hb, smul_smul, smul_smul, mul_comm]
    by_cases h : a = b
    · simp [h]
    · simp [h, Ne.symm h]

/-- Target pair states built from transformed orbitals. -/
def TransformedKets (K : PairKets V) (src : Orbitals) (ov : Overlap) (K' : Species2 → ℕ → Orb → Orb → V) : Prop :=
  ∀ sp J a' b', K' sp J a' b' = orbSum src sp.first fun a => orbSum src sp.second fun b =>
    (lj ov sp.first a a' * lj ov sp.second b b') • K.ket sp J a b

/-- Normalised transformed state. -/
noncomputable def newState (K' : Species2 → ℕ → Orb → Orb → V) (tgt : Orbitals) (lab : Mapping.Labels)
    (st : ℕ × ℕ) : V :=
  match (tgt.of lab.species.first)[st.1]?, (tgt.of lab.species.second)[st.2]? with
  | some a, some b => (if lab.species ≠ .pn ∧ st.1 = st.2 then 1 / Real.sqrt 2 else 1 : ℝ) • K' lab.species lab.J a b
  | _, _ => 0

/-- The state of the specification is the normalised ket of the model's state. -/
theorem state_normalised {o : Orbitals} (ho : o.WF) {lab : Mapping.Labels} {st : ℕ × ℕ} {y : St} (K : PairKets V)
    (e1 : y.i1 = st.1) (e2 : y.i2 = st.2) (hp : IsPair o lab.species st y.a1 y.a2) :
    (normalised K).state o lab st = Xform.norm lab.species y • K.ket lab.species lab.J y.a1 y.a2 := by
  unfold PairKets.state
  rw [hp.1, hp.2]
  simp only [normalised, Xform.norm]
  congr 1
  refine if_congr (and_congr_right fun hsp => ?_) rfl rfl
  rw [e1, e2]
  have hf : lab.species.first = lab.species.second := first_eq_second.2 hsp
  constructor
  · intro h
    have h1 := hp.1
    have h2 := hp.2
    rw [hf, h] at h1
    obtain ⟨l1, g1⟩ := List.getElem?_eq_some_iff.mp h1
    obtain ⟨l2, g2⟩ := List.getElem?_eq_some_iff.mp h2
    exact ((ho.nodup _).getElem_inj_iff (hi := l1) (hj := l2)).mp (g1.trans g2.symm)
  · intro h
    have h1 := hp.1
    rw [hf, h, hp.2] at h1
    exact (Option.some.inj h1).symm

/-- **C79.** A transformed source: when the space before the transformation is complete for the two subspaces
and the file covers it, the matrix holds the elements of the operator of the file between the normalised pair
states built from the transformed orbitals. -/
theorem xform_source {env : Env} {id xf : String} {file : H2In} {preSpace : List Subspace}
    {preSectors : List (ℕ × ℕ)} (hf : IndexOK file.ix) (hpre : IndexOK (preIndexing file preSpace preSectors))
    (ht : IndexOK env.target) {ov : Overlap} (hov : env.xf xf = some ov)
    {K : PairKets V} {B : V →ₗ[ℝ] V →ₗ[ℝ] ℝ} (hh : Holds (normalised K) B file)
    (hB : SymWithin (normalised K) B file.ix) {K' : Species2 → ℕ → Orb → Orb → V}
    (hK : TransformedKets K file.ix.orbitals ov K')
    {p : ℕ × ℕ} {b k : Subspace} (hb : env.target.space[p.1]? = some b) (hk : env.target.space[p.2]? = some k)
    (hbA : FullSubspace env.target.orbitals b) (hkA : FullSubspace env.target.orbitals k)
    {n' : ℕ} {p' : ℕ × ℕ} {pb pk : Subspace} (hs' : IsSector (preIndexing file preSpace preSectors) n' p' pb pk)
    (eb : pb.labels = b.labels) (ek : pk.labels = k.labels)
    (hpb : FullSubspace file.ix.orbitals pb) (hpk : FullSubspace file.ix.orbitals pk)
    {n : ℕ} {q : ℕ × ℕ} {sb sk : Subspace} (hs : IsSector file.ix n q sb sk)
    (eb' : sb.labels = b.labels) (ek' : sk.labels = k.labels)
    (hcb : ∀ st ∈ pb.states, ∃ st' ∈ sb.states, SameOrbitals file.ix.orbitals file.ix.orbitals sb.labels.species st' st)
    (hck : ∀ st ∈ pk.states, ∃ st' ∈ sk.states, SameOrbitals file.ix.orbitals file.ix.orbitals sk.labels.species st' st) :
    ∃ T, source env ⟨id, .xform file preSpace preSectors xf⟩ p = .ok (some T) ∧ SectorSize env p T ∧
      ∀ (i j : ℕ) sti stj, b.states[i]? = some sti → k.states[j]? = some stj →
        T.val i j = B (newState K' env.target.orbitals b.labels sti) (newState K' env.target.orbitals k.labels stj) := by
  have hin : InputsOK file.ix.orbitals file.ix.space file.ix.orbitals preSpace :=
    ⟨hf.orb, hf.orb, hf.space, hpre.space⟩
  have hin2 : InputsOK file.ix.orbitals preSpace env.target.orbitals env.target.space :=
    ⟨hf.orb, ht.orb, hpre.space, ht.space⟩
  obtain ⟨m, hm⟩ := mapping_total hin
  obtain ⟨m2, hm2⟩ := mapping_total hin2
  have hfs : findSector file.ix b.labels k.labels = some n := by
    rw [← eb', ← ek']; exact findSector_eq hf.space.labelsNodup hf.sectors hs
  have hfs' : findSector (preIndexing file preSpace preSectors) b.labels k.labels = some n' := by
    rw [← eb, ← ek]; exact findSector_eq hpre.space.labelsNodup hpre.sectors hs'
  obtain ⟨a, ha, hrep⟩ := readInput_represents hh hB hs
  obtain ⟨R, r1, r2, r3, r4⟩ := remapped_elements hin hf.odd hm
    (xs := ⟨q.1, q.2, sb.states.length, sk.states.length⟩)
    (xt := ⟨p'.1, p'.2, pb.states.length, pk.states.length⟩) ⟨hs.bra, hs.ket, rfl, rfl⟩
    ⟨hs'.bra, hs'.ket, rfl, rfl⟩ (eb.trans eb'.symm) (ek.trans ek'.symm) (normalised K) B hrep
  have mpb := List.mem_of_getElem? hs'.bra
  have mpk := List.mem_of_getElem? hs'.ket
  have mb := List.mem_of_getElem? hb
  have mk := List.mem_of_getElem? hk
  obtain ⟨xpb, u1, u2, u3, u4⟩ := xformSub_ok hpre.space mpb
  obtain ⟨xpk, v1, v2, v3, v4⟩ := xformSub_ok hpre.space mpk
  obtain ⟨xb, w1, w2, w3, w4⟩ := xformSub_ok ht.space mb
  obtain ⟨xk, y1, y2, y3, y4⟩ := xformSub_ok ht.space mk
  have hxs : xformSector (preIndexing file preSpace preSectors) p' = .ok ⟨p'.1, p'.2, xpb, xpk⟩ := by
    simp only [xformSector, getE_ok hs'.bra, getE_ok hs'.ket, Except.ok_bind', u1, v1, Except.pure_ok]
  have hxt : xformSector env.target p = .ok ⟨p.1, p.2, xb, xk⟩ := by
    simp only [xformSector, getE_ok hb, getE_ok hk, Except.ok_bind', w1, y1, Except.pure_ok]
  have hsl : SameLabels ⟨p'.1, p'.2, xpb, xpk⟩ ⟨p.1, p.2, xb, xk⟩ := by
    refine ⟨?_, ?_, ?_, ?_, ?_⟩
    · simp only; rw [u2, w2, eb]
    · simp only; rw [v2, y2, ek]
    · simp only; rw [u3, w3, eb]
    · simp only; rw [v3, y3, ek]
    · intro hd
      simp only at hd ⊢
      have e1 : pb = pk := by
        have := hs'.bra
        rw [hd, hs'.ket] at this
        exact (Option.some.inj this).symm
      have e2 : b = k := List.inj_on_of_nodup_map ht.space.labelsNodup mb mk (by rw [← eb, ← ek, e1])
      subst e1 e2
      rw [u1] at v1
      rw [w1] at y1
      cases v1
      cases y1
      exact ⟨rfl, rfl⟩
  obtain ⟨T, t1, t2, t3, t4⟩ := transformed_elements ov hsl (m := R)
    (by simp only; rw [r2, u4.length_eq]) (by simp only; rw [r3, v4.length_eq])
  refine ⟨T, ?_, ⟨b, k, hb, hk, ?_, ?_⟩, ?_⟩
  · have ho : (preIndexing file preSpace preSectors).orbitals = file.ix.orbitals := rfl
    have hsp : (preIndexing file preSpace preSectors).space = preSpace := rfl
    simp only [source, initChannel, populate, populateXform, ho, hsp, hm, hm2, findXf, hov, Except.ok_bind',
      Except.pure_ok, getE_ok hb, getE_ok hk, hfs, hfs', ha, getE_ok hs'.sector, sectorInfo_eq hs'.bra hs'.ket,
      mappingE, r1, hxs, hxt, t1]
  · rw [t2]; exact w4.length_eq.symm
  · rw [t3]; exact y4.length_eq.symm
  · intro i j sti stj hi hj
    obtain ⟨yb, hyb, e1, e2, hpb'⟩ := forall₂_getElem? w4 hi
    obtain ⟨yk, hyk, e3, e4, hpk'⟩ := forall₂_getElem? y4 hj
    rw [t4 i j yb yk hyb hyk]
    have fpb := full_of_subspace hpre.space mpb hpb u1
    have fpk := full_of_subspace hpre.space mpk hpk v1
    have fb := full_of_subspace ht.space mb hbA w1
    have fk := full_of_subspace ht.space mk hkA y1
    rw [eb] at fpb
    rw [ek] at fpk
    have nb : newState K' env.target.orbitals b.labels sti =
        ∑ st ∈ xpb.states.toFinset, xformElement ov xpb.species xpb.J st yb • Xform.norm xpb.species st •
          K.ket xpb.species xpb.J st.a1 st.a2 := by
      rw [← xform_is_change_of_basis fpb fb.toSubWF (by rw [w2, u2, eb]) (by rw [w3, u3, eb]) hf.odd ov K
        (K' xpb.species xpb.J) (List.mem_of_getElem? hyb) (hK _ _ _ _)]
      simp only [newState, hpb'.1, hpb'.2, Xform.norm, e1, e2, u2, u3, eb]
    have nk : newState K' env.target.orbitals k.labels stj =
        ∑ st ∈ xpk.states.toFinset, xformElement ov xpk.species xpk.J st yk • Xform.norm xpk.species st •
          K.ket xpk.species xpk.J st.a1 st.a2 := by
      rw [← xform_is_change_of_basis fpk fk.toSubWF (by rw [y2, v2, ek]) (by rw [y3, v3, ek]) hf.odd ov K
        (K' xpk.species xpk.J) (List.mem_of_getElem? hyk) (hK _ _ _ _)]
      simp only [newState, hpk'.1, hpk'.2, Xform.norm, e3, e4, v2, v3, ek]
    let gb : ℕ → V := fun z => match xpb.states[z]? with
      | some st => xformElement ov xpb.species xpb.J st yb • Xform.norm xpb.species st •
          K.ket xpb.species xpb.J st.a1 st.a2
      | none => 0
    let gk : ℕ → V := fun z => match xpk.states[z]? with
      | some st => xformElement ov xpk.species xpk.J st yk • Xform.norm xpk.species st •
          K.ket xpk.species xpk.J st.a1 st.a2
      | none => 0
    have hgb : ∀ (z : ℕ) st, xpb.states[z]? = some st → gb z = xformElement ov xpb.species xpb.J st yb •
        Xform.norm xpb.species st • K.ket xpb.species xpb.J st.a1 st.a2 := by
      intro z st hz
      simp only [gb, hz]
    have hgk : ∀ (z : ℕ) st, xpk.states[z]? = some st → gk z = xformElement ov xpk.species xpk.J st yk •
        Xform.norm xpk.species st • K.ket xpk.species xpk.J st.a1 st.a2 := by
      intro z st hz
      simp only [gk, hz]
    rw [nb, nk, ← sum_states xpb.states fpb.nodup gb _ hgb, ← sum_states xpk.states fpk.nodup gk _ hgk]
    rw [map_sum]
    refine Finset.sum_congr rfl fun z' hz' => ?_
    rw [map_sum, LinearMap.sum_apply]
    refine Finset.sum_congr rfl fun z hz => ?_
    have gz := List.getElem?_eq_getElem (Finset.mem_range.1 hz)
    have gz' := List.getElem?_eq_getElem (Finset.mem_range.1 hz')
    obtain ⟨stb, hstb, f1, f2, f3⟩ := forall₂_getElem?' u4 gz
    obtain ⟨stk, hstk, f4, f5, f6⟩ := forall₂_getElem?' v4 gz'
    rw [hgb z _ gz, hgk z' _ gz']
    simp only [gz, gz']
    rw [(r4 z z' stb stk hstb hstk).1 (hcb stb (List.mem_of_getElem? hstb)) (hck stk (List.mem_of_getElem? hstk)),
      state_normalised hf.orb K f1 f2 f3, state_normalised hf.orb K f4 f5 f6]
    simp only [map_smul, LinearMap.smul_apply, smul_eq_mul, u2, u3, v2, v3, w2, w3, y2, y3, eb, ek]
    ring

end Verif.Mixer
