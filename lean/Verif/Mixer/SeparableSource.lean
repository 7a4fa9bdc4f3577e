import Verif.Mixer.TwoBodyWitness
import Verif.Separable.Props

/-!
# Property C85: separable sources of `h2mixer`
-/

namespace Verif.Mixer
open Verif Verif.Mapping Verif.Xform Verif.Obme Verif.Separable
open Verif.H2 hiding Mat Subspace

/-- An orbital with its species. -/
def spOrb (s : Species1) (a : Orb) : SpOrb := ⟨s, a.n, a.l, a.twiceJ⟩

/-- All orbitals of the two-body space are orbitals of the one-body operator. -/
def Available (o : Orbitals) (space : Space) : Prop := ∀ s, ∀ a ∈ o.of s, InSpace space (spOrb s a)

theorem pairSub_ok {o : Orbitals} {sp : List Subspace} (hw : SpaceWF o sp) {s : Subspace} (hs : s ∈ sp) :
    ∃ x, pairSub o s = .ok x ∧ x.J = s.labels.J ∧
      List.Forall₂ (fun st y => ∃ a b, IsPair o s.labels.species st a b ∧
        y = (spOrb s.labels.species.first a, spOrb s.labels.species.second b)) s.states x.states := by
  suffices hall : ∀ st ∈ s.states, ∃ y : SpOrb × SpOrb, (do
      let x ← stateOrbs o s.labels.species st
      pure ((⟨s.labels.species.first, x.1.n, x.1.l, x.1.twiceJ⟩ : SpOrb),
        (⟨s.labels.species.second, x.2.n, x.2.l, x.2.twiceJ⟩ : SpOrb)) : Except Err (SpOrb × SpOrb)) = .ok y ∧
      ∃ a b, IsPair o s.labels.species st a b ∧
        y = (spOrb s.labels.species.first a, spOrb s.labels.species.second b) by
    obtain ⟨ys, h1, h2⟩ := mapM_forall₂ hall
    refine ⟨⟨s.labels.J, ys⟩, ?_, rfl, h2⟩
    unfold pairSub
    rw [h1]
    rfl
  intro st hst
  obtain ⟨a, b, hab⟩ := isPair_of_inRange (hw.inRange s hs st hst)
  refine ⟨(spOrb s.labels.species.first a, spOrb s.labels.species.second b), ?_, a, b, hab, rfl⟩
  simp only [stateOrbs, getE_ok hab.1, getE_ok hab.2, Except.ok_bind', Except.pure_ok]
  rfl

theorem pairSub_uses {o : Orbitals} (ho : o.HalfOdd) {space : Space} (ha : Available o space) {s : Subspace}
    {x : PairSub} (h : List.Forall₂ (fun st y => ∃ a b, IsPair o s.labels.species st a b ∧
        y = (spOrb s.labels.species.first a, spOrb s.labels.species.second b)) s.states x.states) : Uses space x := by
  intro y hy
  obtain ⟨st, _, a, b, hab, rfl⟩ := forall₂_mem_right h y hy
  have m1 := List.mem_of_getElem? hab.1
  have m2 := List.mem_of_getElem? hab.2
  exact ⟨⟨ha _ a m1, ho _ a m1⟩, ha _ b m2, ho _ b m2⟩

theorem pairSub_state {o : Orbitals} {s : Subspace} {x : PairSub}
    (h : List.Forall₂ (fun st y => ∃ a b, IsPair o s.labels.species st a b ∧
        y = (spOrb s.labels.species.first a, spOrb s.labels.species.second b)) s.states x.states)
    {i : ℕ} {st : ℕ × ℕ} (hi : s.states[i]? = some st) {a b : Orb} (hab : IsPair o s.labels.species st a b) :
    x.states[i]? = some (spOrb s.labels.species.first a, spOrb s.labels.species.second b) := by
  obtain ⟨y, hy, a', b', hab', rfl⟩ := forall₂_getElem? h hi
  rw [hy]
  have q1 := Option.some.inj (hab.1.symm.trans hab'.1)
  have q2 := Option.some.inj (hab.2.symm.trans hab'.2)
  rw [q1, q2]

/-- **C85.** The source made from a one-body operator: each element is the element of `u(1) + u(2)` between the
normalised antisymmetric states of the target, divided by `A - 1`. -/
theorem upgrade_source {env : Env} {id ob : String} {d : ObData} {u : SpOrb → SpOrb → ℝ} (ht : IndexOK env.target)
    (hd : env.ob ob = some d) (hg : GoodSpace d.space) (ho : Operator d.space d.secs d.mats u)
    (hq : d.secs.qn = env.qn) (hav : Available env.target.orbitals d.space) {A : Int} (hA : env.A = some A)
    (hA31 : -(2 ^ 31) ≤ A - 1 ∧ A - 1 < 2 ^ 31) (hA1 : A ≠ 1) {p : ℕ × ℕ} {b k : Subspace}
    (hb : env.target.space[p.1]? = some b) (hk : env.target.space[p.2]? = some k)
    (htri : |(b.labels.J : Int) - k.labels.J| ≤ env.qn.J0 ∧ env.qn.J0 ≤ b.labels.J + k.labels.J) :
    ∃ T, source env ⟨id, .opU ob⟩ p = .ok (some T) ∧ SectorSize env p T ∧
      ∀ (V : Type) [AddCommGroup V] [Module ℝ V] (pk : SpOrb → SpOrb → ℕ → V) (B : V →ₗ[ℝ] V →ₗ[ℝ] ℝ),
        OneBodySum env.am env.qn.J0 u pk B b.labels.J k.labels.J →
        ∀ (i j : ℕ) sti stj a1 a2 c1 c2, b.states[i]? = some sti → k.states[j]? = some stj →
          IsPair env.target.orbitals b.labels.species sti a1 a2 →
          IsPair env.target.orbitals k.labels.species stj c1 c2 →
          T.val i j = 1 / ((A : ℝ) - 1) *
            B (nas pk b.labels.J (spOrb b.labels.species.first a1, spOrb b.labels.species.second a2))
              (nas pk k.labels.J (spOrb k.labels.species.first c1, spOrb k.labels.species.second c2)) := by
  obtain ⟨xb, b1, b2, b3⟩ := pairSub_ok ht.space (List.mem_of_getElem? hb)
  obtain ⟨xk, k1, k2, k3⟩ := pairSub_ok ht.space (List.mem_of_getElem? hk)
  obtain ⟨T, t1, t2, t3, t4⟩ := upgrade_element (am := env.am) hg ho (pairSub_uses ht.odd hav b3)
    (pairSub_uses ht.odd hav k3) hA31 hA1 (by rw [hq, b2, k2]; exact htri)
  refine ⟨T, ?_, ⟨b, k, hb, hk, t2.trans b3.length_eq.symm, t3.trans k3.length_eq.symm⟩, ?_⟩
  · have i1 : initChannel env ⟨id, .opU ob⟩ = .ok none := by
      simp only [initChannel, findOb, hd, Except.ok_bind', hq]
      simp [assertE, Except.ok_bind', Except.pure_ok]
    simp only [source, i1, Except.ok_bind', populate, populateU, findOb, hd, getE_ok hb, getE_ok hk, b1, k1, massE, hA,
      t1, Except.pure_ok]
  · intro V _ _ pk B hB i j sti stj a1 a2 c1 c2 hi hj hp1 hp2
    have := t4 V pk B (by rw [hq, b2, k2]; exact hB) i j _ _ (pairSub_state b3 hi hp1) (pairSub_state k3 hj hp2)
    rw [b2, k2] at this
    exact this

/-- **C85.** The source made from two one-body operators: each element is the factor times the element of the coupled
product of the two between the normalised antisymmetric states of the target. -/
theorem product_source {env : Env} {id oa ob : String} {factor : ℝ} {da db : ObData} {x y : SpOrb → SpOrb → ℝ}
    (hL : ExchangeLaw env.am) (ht : IndexOK env.target)
    (ha : env.ob oa = some da) (hb' : env.ob ob = some db) (hsp : da.space = db.space) (hg : GoodSpace da.space)
    (h1 : Operator da.space da.secs da.mats x) (h2 : Operator db.space db.secs db.mats y)
    (hav : Available env.target.orbitals da.space) {J1 J2 J0 : ℕ} (q1 : da.secs.qn.J0 = J1)
    (q2 : db.secs.qn.J0 = J2) (q0 : env.qn.J0 = J0) (hq : |(J1 : Int) - J2| ≤ J0 ∧ (J0 : Int) ≤ J1 + J2)
    (hpar : (2 : Int) ∣ da.secs.qn.g0 + db.secs.qn.g0 + env.qn.g0)
    (htz : da.secs.qn.Tz0 + db.secs.qn.Tz0 = env.qn.Tz0) {p : ℕ × ℕ} {b k : Subspace}
    (hb : env.target.space[p.1]? = some b) (hk : env.target.space[p.2]? = some k)
    (htri : |(b.labels.J : Int) - k.labels.J| ≤ J0 ∧ (J0 : Int) ≤ b.labels.J + k.labels.J) :
    ∃ T, source env ⟨id, .opV oa ob factor⟩ p = .ok (some T) ∧ SectorSize env p T ∧
      ∀ (V : Type) [AddCommGroup V] [Module ℝ V] (pk : SpOrb → SpOrb → ℕ → V) (B : V →ₗ[ℝ] V →ₗ[ℝ] ℝ),
        ProductOperator env.am J1 J2 J0 x y pk B b.labels.J k.labels.J →
        ∀ (i j : ℕ) sti stj a1 a2 c1 c2, b.states[i]? = some sti → k.states[j]? = some stj →
          IsPair env.target.orbitals b.labels.species sti a1 a2 →
          IsPair env.target.orbitals k.labels.species stj c1 c2 →
          T.val i j = factor *
            B (nas pk b.labels.J (spOrb b.labels.species.first a1, spOrb b.labels.species.second a2))
              (nas pk k.labels.J (spOrb k.labels.species.first c1, spOrb k.labels.species.second c2)) := by
  obtain ⟨xb, b1, b2, b3⟩ := pairSub_ok ht.space (List.mem_of_getElem? hb)
  obtain ⟨xk, k1, k2, k3⟩ := pairSub_ok ht.space (List.mem_of_getElem? hk)
  obtain ⟨T, t1, t2, t3, t4⟩ := racahReduce_element hL hg h1 (hsp ▸ h2) (pairSub_uses ht.odd hav b3)
    (pairSub_uses ht.odd hav k3) q1 q2 hq (by rw [b2, k2]; exact htri)
  have hrun : racahReduce env.am da.space da.secs da.mats db.secs db.mats (decide (oa = ob)) xb xk env.qn.J0 =
      .ok T := by
    rw [q0]
    by_cases hab : oa = ob
    · subst hab
      rw [ha] at hb'
      cases hb'
      rw [decide_eq_true rfl, racahReduce_same]
      exact t1
    · rw [decide_eq_false hab]
      exact t1
  refine ⟨if factor ≠ 1 then scale factor T else T, ?_, ?_, ?_⟩
  · have i1 : initChannel env ⟨id, .opV oa ob factor⟩ = .ok none := by
      have e3 : (da.secs.qn.g0 + db.secs.qn.g0 + env.qn.g0).tmod 2 = 0 := Int.tmod_eq_zero_of_dvd hpar
      simp only [initChannel, findOb, ha, hb', Except.ok_bind',
        show assertE (decide (da.space = db.space)) = .ok () from assertE_ok.mpr (by simpa using hsp),
        show assertE (tri da.secs.qn.J0 db.secs.qn.J0 env.qn.J0) = .ok () from
          assertE_ok.mpr (tri_iff.mpr (by rw [q1, q2, q0]; exact hq)),
        show assertE (decide ((da.secs.qn.g0 + db.secs.qn.g0 + env.qn.g0).tmod 2 = 0)) = .ok () from
          assertE_ok.mpr (by simpa using e3),
        show assertE (decide (da.secs.qn.Tz0 + db.secs.qn.Tz0 = env.qn.Tz0)) = .ok () from
          assertE_ok.mpr (by simpa using htz), Except.pure_ok]
    simp only [source, i1, Except.ok_bind', populate, populateV, findOb, ha, hb', getE_ok hb, getE_ok hk, b1, k1, hrun,
      Except.pure_ok]
  · refine ⟨b, k, hb, hk, ?_, ?_⟩
    · split
      · exact t2.trans b3.length_eq.symm
      · exact t2.trans b3.length_eq.symm
    · split
      · exact t3.trans k3.length_eq.symm
      · exact t3.trans k3.length_eq.symm
  · intro V _ _ pk B hB i j sti stj a1 a2 c1 c2 hi hj hp1 hp2
    have := t4 V pk B (by rw [b2, k2]; exact hB) i j _ _ (pairSub_state b3 hi hp1) (pairSub_state k3 hj hp2)
    rw [b2, k2] at this
    split
    · simp only [scale]
      rw [this]
    · rename_i hf
      rw [not_not.mp hf, one_mul]
      exact this

/-! ### Concrete cases -/

namespace Ex

/-- The identity on the orbitals of the target, `0p3/2` and `0s1/2`, protons only. -/
noncomputable def idOb : ObData := ⟨Separable.Example.space, Separable.Example.secs, Separable.Example.mats⟩

/-- Protons only. -/
def pTarget : TBIndexing := ⟨⟨[Mapping.Ex.p3, Mapping.Ex.s1], []⟩, [⟨⟨.pp, 0, 0⟩, [(0, 0), (1, 1)]⟩], [(0, 0)]⟩

noncomputable def senv : Env where
  am := Separable.Example.am
  target := pTarget
  qn := scalarQN
  A := some 6
  ob id := if id = "one" then some idOb else none
  xf _ := none
  tol := 0

theorem pTarget_ok : IndexOK senv.target where
  orb := by constructor <;> intro s <;> cases s <;> decide
  odd := by intro s; cases s <;> decide
  space := Mapping.Ex.spaceWF (by decide) (by decide) (by decide) (by decide)
  sectors := by decide

theorem pTarget_available : Available senv.target.orbitals idOb.space := by
  intro s a ha
  cases s with
  | p =>
    simp only [senv, pTarget, Orbitals.of, List.mem_cons, List.not_mem_nil, or_false] at ha
    rcases ha with rfl | rfl
    · exact ⟨1, 0, _, rfl, rfl, rfl⟩
    · exact ⟨0, 0, _, rfl, rfl, rfl⟩
  | n => simp [senv, pTarget, Orbitals.of] at ha

/-- The hypotheses of `upgrade_source` and `product_source` are met. -/
example : (∃ T, source senv ⟨"N", .opU "one"⟩ (0, 0) = .ok (some T)) ∧
    ∃ T, source senv ⟨"NN", .opV "one" "one" 3⟩ (0, 0) = .ok (some T) := by
  obtain ⟨T, h, _⟩ := upgrade_source (env := senv) (id := "N") (ob := "one") (d := idOb) pTarget_ok rfl
    Separable.Example.space_good Separable.Example.identity_op rfl pTarget_available (A := 6) rfl (by decide) (by decide)
    (p := (0, 0)) rfl rfl (by decide)
  obtain ⟨T', h', _⟩ := product_source (env := senv) (id := "NN") (oa := "one") (ob := "one") (factor := 3) (da := idOb)
    (db := idOb) Separable.Example.am_exchange pTarget_ok rfl rfl rfl Separable.Example.space_good
    Separable.Example.identity_op Separable.Example.identity_op pTarget_available (J1 := 0) (J2 := 0) (J0 := 0) rfl rfl rfl
    (by decide) (by decide) (by decide) (p := (0, 0)) rfl rfl (by decide)
  exact ⟨⟨T, h⟩, T', h'⟩

end Ex

end Verif.Mixer
