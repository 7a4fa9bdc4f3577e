import Verif.Mixer.PairNorm

/-!
# Property C177: what `h2mixer` writes

Each declaration of a two-body source stands for an operator on the states of two nucleons.
-/

namespace Verif.Mixer.Control
open Verif Verif.Mapping Verif.Xform Verif.Obme Verif.Separable Verif.Mixer Verif.SU2
open Verif.H2 hiding Mat Subspace Orb
open scoped TensorProduct

/-- The name of a two-body source. -/
def TbDecl.id : TbDecl → String
  | .input id _ => id
  | .builtin id => id
  | .opU id _ => id
  | .opV id _ _ _ => id
  | .xform id _ _ _ => id

/-- What a run fixes. -/
structure Scene where
  disk : Disk
  /-- The intermediate space of a transformed source. -/
  pre : H2In → Weights → QN → List Subspace × List (ℕ × ℕ)
  /-- Two-body states and sectors of the target. -/
  target : TBIndexing
  /-- Orbitals of the target. -/
  space : Space
  xforms : List (String × String)
  ob : List ObDecl
  tb : List TbDecl
  qn : QN
  A : Option Int
  /-- The states of a nucleon in the orbitals of the target. -/
  st : SpOrb → ℤ → Nucleon

/-- The operators on two nucleons that the names of the two-body sources stand for, with a mass number `a`:

* a one-body operator `U` gives `(U(1) + U(2)) / (a - 1)`;
* two one-body operators give the coupled product `[X(1) Y(2)]`;
* a file gives the operator whose elements between the states of the target it holds;
* a transformed file gives the operator whose elements it holds between pairs of states of other orbitals, of which the states of the target are combinations with
  the coefficients of the transformation;
* `identity` is the number `2 / (a (a - 1))`;
* a name without declaration is zero. -/
inductive Denotes2 (S : Scene) : String → (ℤ → Nucleon ⊗[ℝ] Nucleon →ₗ[ℝ] Nucleon ⊗[ℝ] Nucleon) → Prop
  | upgrade {id ob : String} {s : Space} {U : ℤ → Nucleon →ₗ[ℝ] Nucleon} {a : Int} :
    .opU id ob ∈ S.tb → Denotes S.disk S.space 1 S.xforms S.ob ob S.qn s S.st U → Orthonormal form1 S.st s → Available S.target.orbitals s →
    S.A = some a → a ≠ 1 → -(2 ^ 31) ≤ a - 1 ∧ a - 1 < 2 ^ 31 → Denotes2 S id fun q => (1 / ((a : ℝ) - 1)) • onBoth (U q)
  | product {id x y : String} {factor : ℝ} {qx qy : QN} {s : Space} {X Y : ℤ → Nucleon →ₗ[ℝ] Nucleon} :
    .opV id x y factor ∈ S.tb → Denotes S.disk S.space 1 S.xforms S.ob x qx s S.st X → Denotes S.disk S.space 1 S.xforms S.ob y qy s S.st Y →
    Available S.target.orbitals s → |qx.J0 - qy.J0| ≤ S.qn.J0 ∧ S.qn.J0 ≤ qx.J0 + qy.J0 → (2 : Int) ∣ qx.g0 + qy.g0 + S.qn.g0 → qx.Tz0 + qy.Tz0 = S.qn.Tz0 →
    Denotes2 S id fun q => factor • onEach qx.J0.toNat qy.J0.toNat S.qn.J0.toNat X Y q
  | input {id file : String} {f : H2In} {O : ℤ → Nucleon ⊗[ℝ] Nucleon →ₗ[ℝ] Nucleon ⊗[ℝ] Nucleon} :
    .input id file ∈ S.tb → S.disk.h2 file = .ok f → IndexOK f.ix → Triangles f.ix S.qn.J0.toNat → Stored form1 S.st S.qn.J0.toNat O f →
    (∀ n p b k, IsSector S.target n p b k → ∀ s ∈ b.states, ∀ t ∈ k.states, Covers f S.target.orbitals b k s t) → Denotes2 S id O
  | xform {id file xf xfile : String} {w : Weights} {f : H2In} {g : Header × List Mat} {st0 : SpOrb → ℤ → Nucleon}
      {O : ℤ → Nucleon ⊗[ℝ] Nucleon →ₗ[ℝ] Nucleon ⊗[ℝ] Nucleon} :
    .xform id file w xf ∈ S.tb → S.disk.h2 file = .ok f → S.xforms.lookup xf = some xfile → S.disk.obme xfile = .ok g →
    IndexOK f.ix → IndexOK (preIndexing f (S.pre f w S.qn).1 (S.pre f w S.qn).2) → Triangles f.ix S.qn.J0.toNat → Stored form1 st0 S.qn.J0.toNat O f →
    Turned g.1.bra g.1.ket g.1.secs g.2 st0 S.st → (∀ s a, a ∈ f.ix.orbitals.of s ↔ InSpace g.1.bra (spOrb s a)) → Available S.target.orbitals g.1.ket →
    (∀ n p b k, IsSector S.target n p b k → FullSubspace S.target.orbitals b ∧ FullSubspace S.target.orbitals k ∧
      Complete2 f (S.pre f w S.qn).1 (S.pre f w S.qn).2 b k) → Denotes2 S id O
  | identity {s : Space} {a : ℕ} :
    .builtin "identity" ∈ S.tb → S.A = some (a : Int) → 2 ≤ a → a ≤ 46341 → S.qn.J0 = 0 → Orthonormal form1 S.st s → Available S.target.orbitals s →
    (∀ n p b k, IsSector S.target n p b k → p.1 = p.2 ∧ FullSubspace S.target.orbitals b) →
    Denotes2 S "identity" fun _ => (2 / ((a : ℝ) * (a - 1))) • LinearMap.id
  | absent {id : String} : (∀ d ∈ S.tb, d.id ≠ id) → Denotes2 S id 0

/-! ## Lemmas -/

section
variable {V : Type} [AddCommGroup V] [Module ℝ V] {form : V →ₗ[ℝ] V →ₗ[ℝ] ℝ} {J0 : ℕ} {J' J : ℕ} {x y : ℤ → V ⊗[ℝ] V}

theorem elem2_smul (r : ℝ) (O : V ⊗[ℝ] V →ₗ[ℝ] V ⊗[ℝ] V) (x y : V ⊗[ℝ] V) : elem2 form (r • O) x y = r * elem2 form O x y := by
  simp only [elem2, LinearMap.smul_apply, map_smul, smul_eq_mul]

theorem reduced_smul {O : ℤ → V ⊗[ℝ] V →ₗ[ℝ] V ⊗[ℝ] V} {v : ℝ} (h : Reduced form J0 O J' J x y v) (r : ℝ) :
    Reduced form J0 (fun q => r • O q) J' J x y (r * v) := by
  intro M' hM' q hq M hM
  rw [elem2_smul, h M' hM' q hq M hM]
  ring

theorem reduced_sum {O : String → ℤ → V ⊗[ℝ] V →ₗ[ℝ] V ⊗[ℝ] V} {v : String → ℝ} : ∀ {terms : List (String × ℝ)},
    (∀ t ∈ terms, Reduced form J0 (O t.1) J' J x y (v t.1)) →
    Reduced form J0 (fun q => (terms.map fun t => t.2 • O t.1 q).sum) J' J x y (terms.map fun t => t.2 * v t.1).sum
  | [], _ => by
    intro M' _ q _ M _
    simp [elem2]
  | t :: terms, h => by
    intro M' hM' q hq M hM
    have h1 := reduced_smul (h t List.mem_cons_self) t.2 M' hM' q hq M hM
    have h2 := reduced_sum (fun t ht => h t (List.mem_cons_of_mem _ ht)) M' hM' q hq M hM
    simp only [elem2, List.map_cons, List.sum_cons, LinearMap.add_apply, map_add] at h1 h2 ⊢
    rw [h1, h2]
    ring

end

theorem openTb_id {setup : Setup} {disk : Disk} {qn : QN} {d : TbDecl} {ch : Channel} (h : openTb setup disk qn d = .ok ch) : ch.id = d.id := by
  cases d <;> simp only [openTb, Except.bind_eq_ok, Except.pure_ok, Except.ok.injEq] at h
  · obtain ⟨_, _, rfl⟩ := h; rfl
  · subst h; rfl
  · subst h; rfl
  · subst h; rfl
  · obtain ⟨_, _, rfl⟩ := h; rfl

theorem provides_unique {env : Env} {chans : List Channel} {p : ℕ × ℕ} {id : String} {r r' : Option Mat} (hn : (chans.map (·.id)).Nodup)
    {ch : Channel} (hc : ch ∈ chans) (hid : ch.id = id) (hs : source env ch p = .ok r) (h : Provides env chans p id r') : r' = r := by
  cases r' with
  | none =>
    have := h ch hc hid
    rw [hs] at this
    exact (Except.ok.inj this).symm
  | some m =>
    obtain ⟨pre, c, post, e, e2, e3, -⟩ := h
    have hm : c ∈ chans := by rw [e]; simp
    have : c = ch := List.inj_on_of_nodup_map hn hm hc (e2.trans hid.symm)
    subst this
    rw [hs] at e3
    exact (Except.ok.inj e3).symm

theorem openTb_ids {setup : Setup} {disk : Disk} {qn : QN} {l : List TbDecl} {r : List Channel} (h : l.mapM (openTb setup disk qn) = .ok r) :
    r.map (·.id) = l.map (·.id) := by
  have h' := mapM_ok_iff.mp h
  clear h
  induction h' with
  | nil => rfl
  | cons h _ ih => rw [List.map_cons, List.map_cons, ih, openTb_id h]

theorem scene_xf {setup : Setup} {disk : Disk} {cfg : Config} {target : TBIndexing} {m : ObMap} {xfs : List (String × XfData)}
    (hxf : cfg.xforms.mapM (openXf disk) = .ok xfs) (hok : SourcesOK disk cfg.xforms cfg.ob) (id file : String) (g : Header × List Mat)
    (hl : cfg.xforms.lookup id = some file) (hg : disk.obme file = .ok g) :
    ∃ x, (envOf setup cfg target m xfs).xf id = some (overlapOf x) ∧ GoodXf x ∧ x.bra = g.1.bra ∧ x.ket = g.1.ket ∧ x.secs = g.1.secs ∧ x.mats = g.2 := by
  obtain ⟨x1, x2⟩ := openXf_lookup hxf
  cases hx : xfs.lookup id with
  | none =>
    have := (x1 id).mp hx
    rw [hl] at this
    cases this
  | some d =>
    obtain ⟨file', f, f1, f2, f3⟩ := x2 id d hx
    rw [hl] at f1
    cases f1
    rw [hg] at f2
    cases f2
    have hgx := hok.xform id file g d hl hg f3
    obtain ⟨-, rfl⟩ := initXform_scalar f3
    refine ⟨_, ?_, hgx, rfl, rfl, rfl, rfl⟩
    simp only [envOf, hx, Option.map_some]

/-! ## The theorem -/

/-- What a two-body source contributes to a sector. -/
theorem denotes2_channel {setup : Setup} {S : Scene} {env : Env} {m : ObMap} {chans : List Channel} (ham : env.am = amS) (htg : env.target = S.target) (hqn : env.qn = S.qn)
    (hA : env.A = S.A) (hob : env.ob = obView m) (hpre : setup.pre = S.pre)
    (hdn : ∀ id qn s st U, Denotes S.disk S.space 1 S.xforms S.ob id qn s st U →
      0 ≤ qn.J0 ∧ ∃ d, m id = some (some d) ∧ GoodOb d ∧ d.space = s ∧ d.secs.qn = qn ∧ d.Means form1 st U)
    (hxf : ∀ id file g, S.xforms.lookup id = some file → S.disk.obme file = .ok g → ∃ x, env.xf id = some (overlapOf x) ∧ GoodXf x ∧
      x.bra = g.1.bra ∧ x.ket = g.1.ket ∧ x.secs = g.1.secs ∧ x.mats = g.2)
    (hopen : S.tb.mapM (openTb setup S.disk S.qn) = .ok chans) (hJ0 : 0 ≤ S.qn.J0) (hix : IndexOK S.target)
    (htri : Triangles S.target S.qn.J0.toNat) {id : String} {O : ℤ → Nucleon ⊗[ℝ] Nucleon →ₗ[ℝ] Nucleon ⊗[ℝ] Nucleon} (hd : Denotes2 S id O)
    {n : ℕ} {p : ℕ × ℕ} {b k : Subspace} (hs : IsSector S.target n p b k) :
    ∃ r, ((∃ ch ∈ chans, ch.id = id ∧ source env ch p = .ok r ∧ ∀ T, r = some T → SectorSize env p T) ∨ r = none ∧ ∀ ch ∈ chans, ch.id ≠ id) ∧
      ∀ (i j : ℕ) (s t : ℕ × ℕ) (a1 a2 c1 c2 : Orb), b.states[i]? = some s → k.states[j]? = some t →
        IsPair env.target.orbitals b.labels.species s a1 a2 → IsPair env.target.orbitals k.labels.species t c1 c2 →
        Reduced form1 S.qn.J0.toNat O b.labels.J k.labels.J (pairOf S.st b.labels.species b.labels.J a1 a2) (pairOf S.st k.labels.species k.labels.J c1 c2)
          (elemOf r i j) := by
  have hfa := mapM_ok_iff.mp hopen
  have opened : ∀ d ∈ S.tb, ∃ ch ∈ chans, openTb setup S.disk S.qn d = .ok ch := fun d hd => forall₂_mem_left hfa d hd
  have hb' : env.target.space[p.1]? = some b := by rw [htg]; exact hs.bra
  have hk' : env.target.space[p.2]? = some k := by rw [htg]; exact hs.ket
  have hix' : IndexOK env.target := by rw [htg]; exact hix
  have ho : S.target.orbitals = env.target.orbitals := by rw [htg]
  have hq : env.qn.J0 = (S.qn.J0.toNat : ℕ) := by rw [hqn, Int.toNat_of_nonneg hJ0]
  have tri := htri n p b k hs
  cases hd with
  | @upgrade _ ob sp U a e1 e2 e3 e4 e5 e6 e7 =>
    obtain ⟨ch, hch, hc⟩ := opened _ e1
    cases hc
    obtain ⟨-, d, d1, d2, d3, d4, d5⟩ := hdn _ _ _ _ _ e2
    obtain ⟨u, hu, uu⟩ := operator_of_good d2
    subst d3
    obtain ⟨T, t1, t2, t3⟩ := upgrade_source_nucleons (id := id) ham hix' (by rw [hob, obView, d1]; rfl) d2.space hu (by rw [d4, hqn]) (ho ▸ e4) (hA.trans e5) e7 e6 hq
      hb' hk' tri
    refine ⟨some T, .inl ⟨_, hch, rfl, t1, by rintro _ ⟨⟩; exact t2⟩, ?_⟩
    intro i j s t a1 a2 c1 c2 hi hj h1 h2
    have a0 : ((a : ℝ) - 1) ≠ 0 := by
      rw [sub_ne_zero]
      exact_mod_cast e6
    have key := t3 Nucleon form1 S.st U e3 (d5.components uu (by rw [d4, Int.toNat_of_nonneg hJ0])) i j s t a1 a2 c1 c2 hi hj h1 h2
    have := reduced_smul (O := fun q => onBoth (U q)) (v := ((a : ℝ) - 1) * T.val i j) key (1 / ((a : ℝ) - 1))
    rw [← mul_assoc, one_div_mul_cancel a0, one_mul] at this
    exact this
  | @product _ x y factor qx qy sp X Y e1 e2 e3 e4 e5 e6 e7 =>
    obtain ⟨ch, hch, hc⟩ := opened _ e1
    cases hc
    obtain ⟨nx, dx, x1, x2, x3, x4, x5⟩ := hdn _ _ _ _ _ e2
    obtain ⟨ny, dy, y1, y2, y3, y4, y5⟩ := hdn _ _ _ _ _ e3
    obtain ⟨u, hu, uu⟩ := operator_of_good x2
    obtain ⟨v, hv, vv⟩ := operator_of_good y2
    subst x3
    have kx : dx.secs.qn.J0 = (qx.J0.toNat : ℕ) := by rw [x4, Int.toNat_of_nonneg nx]
    have ky : dy.secs.qn.J0 = (qy.J0.toNat : ℕ) := by rw [y4, Int.toNat_of_nonneg ny]
    obtain ⟨T, t1, t2, t3⟩ := product_source_nucleons (id := id) (factor := factor) ham hix' (by rw [hob, obView, x1]; rfl) (by rw [hob, obView, y1]; rfl) y3.symm x2.space
      hu hv (ho ▸ e4) kx ky hq (by rw [Int.toNat_of_nonneg nx, Int.toNat_of_nonneg ny, Int.toNat_of_nonneg hJ0]; exact e5) (by rw [x4, y4, hqn]; exact e6)
      (by rw [x4, y4, hqn]; exact e7) hb' hk' tri
    refine ⟨some T, .inl ⟨_, hch, rfl, t1, by rintro _ ⟨⟩; exact t2⟩, ?_⟩
    intro i j s t a1 a2 c1 c2 hi hj h1 h2
    have cy := y5.components vv ky
    rw [y3] at cy
    have key := t3 Nucleon form1 S.st X Y (x5.components uu kx) cy i j s t a1 a2 c1 c2 hi hj h1 h2
    intro M' hM' q hq M hM
    rw [elem2_smul]
    exact key M' hM' q hq M hM
  | @input _ file f O e1 e2 e3 e4 e5 e6 =>
    obtain ⟨ch, hch, hc⟩ := opened _ e1
    simp only [openTb, e2, Except.ok_bind', Except.pure_ok, Except.ok.injEq] at hc
    subst hc
    obtain ⟨r0, r1, r1', r2⟩ := input_reduced (id := id) e3 hix' e5 e4 hb' hk'
    refine ⟨r0, .inl ⟨_, hch, rfl, r1, r1'⟩, ?_⟩
    intro i j s t a1 a2 c1 c2 hi hj h1 h2
    exact r2 i j s t a1 a2 c1 c2 hi hj h1 h2 (by rw [← ho]; exact e6 n p b k hs s (List.mem_of_getElem? hi) t (List.mem_of_getElem? hj))
  | @xform _ file xf xfile w f g st0 O e1 e2 e3 e4 e5 e6 e7 e8 e9 e10 e11 e12 =>
    obtain ⟨ch, hch, hc⟩ := opened _ e1
    simp only [openTb, e2, Except.ok_bind', Except.pure_ok, Except.ok.injEq] at hc
    subst hc
    obtain ⟨x, x1, x2, x3, x4, x5, x6⟩ := hxf _ _ _ e3 e4
    obtain ⟨f1, f2, f3⟩ := e12 n p b k hs
    rw [← x3] at e9 e10
    rw [← x4] at e9 e11
    rw [← x5, ← x6] at e9
    rw [ho] at f1 f2 e11
    rw [hpre] at hch
    obtain ⟨r0, r1, r1', r2⟩ := xform_reduced (id := id) (preSpace := (S.pre f w S.qn).1) (preSectors := (S.pre f w S.qn).2) e5 e6 hix' x2 x1 e9 e10 e11 e8 e7 hb' hk' f1 f2 f3
    refine ⟨r0, .inl ⟨_, hch, rfl, r1, r1'⟩, ?_⟩
    intro i j s t a1 a2 c1 c2 hi hj h1 h2
    exact r2 i j s t a1 a2 c1 c2 hi hj h1 h2
  | @identity sp a e1 e2 e3 e4 e5 e6 e7 e8 =>
    obtain ⟨ch, hch, hc⟩ := opened _ e1
    cases hc
    obtain ⟨f1, f2⟩ := e8 n p b k hs
    have hbk : b = k := by
      have := hs.ket
      rw [← f1, hs.bra] at this
      exact Option.some.inj this
    subst hbk
    obtain ⟨T, t1, t2, t3⟩ := identity_source hix' (hA.trans e2) e3 e4 hb'
    have hp : p = (p.1, p.1) := Prod.ext rfl f1.symm
    rw [← hp] at t1 t2
    refine ⟨some T, .inl ⟨_, hch, rfl, t1, by rintro _ ⟨⟩; exact t2⟩, ?_⟩
    intro i j s t a1 a2 c1 c2 hi hj h1 h2
    have key := reduced_smul (identity_reduced (st := S.st) e6 hix e7 (List.mem_of_getElem? hs.bra) f2 hi hj (by rw [ho]; exact h1) (by rw [ho]; exact h2)) (2 / ((a : ℝ) * (a - 1)))
    rw [e5]
    have hv : elemOf (some T) i j = 2 / ((a : ℝ) * (a - 1)) * (if i = j then 1 else 0) := by
      have := t3 i j
      have a2 : (2 : ℝ) ≤ a := by exact_mod_cast e3
      have n1 : (a : ℝ) ≠ 0 := by linarith
      have n2 : (a : ℝ) - 1 ≠ 0 := by linarith
      rw [← this]
      simp only [elemOf]
      field_simp
    rw [hv]
    exact key
  | absent e1 =>
    refine ⟨none, .inr ⟨rfl, ?_⟩, ?_⟩
    · intro c hm e2
      obtain ⟨d, hd, hc⟩ := forall₂_mem_right hfa c hm
      exact absurd (e2.symm.trans (openTb_id hc)).symm (e1 d hd)
    intro i j s t a1 a2 c1 c2 hi hj h1 h2 M' _ q _ M _
    simp [elem2, elemOf]

/-- **C177.** What `h2mixer` writes: for each target whose terms stand for operators on two nucleons, the element of the target file between two pairs of orbitals
is, small values being set to zero, the reduced element of the linear combination of these operators between the normalised antisymmetric states of two nucleons
in these orbitals. -/
theorem h2mixer_denotes {setup : Setup} (ham : setup.am = amS) (hw : setup.w = trueW) (hcr : setup.crme = trueCrme) (hrm : setup.rme = trueRme) {disk : Disk}
    {ls : List CLine} {cfg : Config} {out : List (String × List Mat)} (hr : read setup.nm ls = .ok cfg) (h : h2mixer setup disk ls = .ok out)
    {target : TBIndexing} {space : Space} (hix : setup.indexing cfg.targetOrbitals cfg.weights cfg.format cfg.qn = .ok (target, space)) (hti : IndexOK target)
    (hgs : GoodSpace space) (hJ0 : 0 ≤ cfg.qn.J0) (htri : Triangles target cfg.qn.J0.toNat) (hok : SourcesOK disk cfg.xforms cfg.ob)
    (hn : (cfg.tb.map (·.id)).Nodup) (st : SpOrb → ℤ → Nucleon) {t : ℕ} {file : String} {terms : List (String × ℝ)} (ht : cfg.targets[t]? = some (file, terms))
    {O : String → ℤ → Nucleon ⊗[ℝ] Nucleon →ₗ[ℝ] Nucleon ⊗[ℝ] Nucleon}
    (hd : ∀ x ∈ terms, Denotes2 ⟨disk, setup.pre, target, space, cfg.xforms, cfg.ob, cfg.tb, cfg.qn, cfg.A, st⟩ x.1 (O x.1)) :
    ∃ Ms, out[t]? = some (file, Ms) ∧ Ms.length = target.sectors.length ∧
      ∀ n p b k, IsSector target n p b k → ∃ M, Ms[n]? = some M ∧ M.rows = b.states.length ∧ M.cols = k.states.length ∧
        ∀ (i j : ℕ) s s' a1 a2 c1 c2, b.states[i]? = some s → k.states[j]? = some s' →
          IsPair target.orbitals b.labels.species s a1 a2 → IsPair target.orbitals k.labels.species s' c1 c2 →
          ∃ x, ChopOf setup.tol x (M.val i j) ∧
            Reduced form1 cfg.qn.J0.toNat (fun q => (terms.map fun x => x.2 • O x.1 q).sum) b.labels.J k.labels.J
              (pairOf st b.labels.species b.labels.J a1 a2) (pairOf st k.labels.species k.labels.J c1 c2) x := by
  unfold h2mixer at h
  simp only [hr, hix, Except.ok_bind', Except.bind_eq_ok, Except.pure_ok, Except.ok.injEq] at h
  obtain ⟨xfs, hxf, obs, hob, m, hm, chans, hch, o, ho, rfl⟩ := h
  obtain ⟨x1, x2⟩ := openXf_lookup hxf
  obtain ⟨e1, e2⟩ := mix_element ho
  have hrun : RunOK (obEnvOf setup space xfs) obs := sources_runOK hob hgs x2 hok
  have hlt : t < cfg.targets.length := (List.getElem?_eq_some_iff.mp ht).1
  have hall : ∀ ms ∈ o, t < ms.length := by
    intro ms hms
    obtain ⟨s, hs⟩ := List.mem_iff_getElem?.mp hms
    have : s < (envOf setup cfg target m xfs).target.sectors.length := by
      rw [← e1]
      exact (List.getElem?_eq_some_iff.mp hs).1
    obtain ⟨ms', h1, h2, -⟩ := e2 s _ (List.getElem?_eq_getElem this)
    rw [hs] at h1
    cases h1
    rw [h2, List.length_map]
    exact hlt
  obtain ⟨c1, c2⟩ := column_get hall
  refine ⟨column o t, ?_, c1.trans e1, ?_⟩
  · rw [List.getElem?_mapIdx, ht]
    rfl
  intro n p b k hs
  obtain ⟨ms, h1, -, src, h3, h4⟩ := e2 n p hs.sector
  obtain ⟨M, m1, ⟨b', k', mb, mk, mr, mc⟩, m3⟩ := h4 t terms (by rw [List.getElem?_map, ht]; rfl)
  have hb' : b' = b := Option.some.inj (mb.symm.trans hs.bra)
  have hk' : k' = k := Option.some.inj (mk.symm.trans hs.ket)
  subst hb' hk'
  refine ⟨M, by rw [c2, h1]; exact m1, mr, mc, ?_⟩
  intro i j s s' a1 a2 c1 c2 hi hj ha hc
  refine ⟨_, m3 i j, ?_⟩
  refine reduced_sum (v := fun id => elemOf (src id) i j) fun x hx => ?_
  obtain ⟨r, hr1, hr2⟩ := denotes2_channel (setup := setup) (S := ⟨disk, setup.pre, target, space, cfg.xforms, cfg.ob, cfg.tb, cfg.qn, cfg.A, st⟩)
    (env := envOf setup cfg target m xfs) (m := m) ham rfl rfl rfl rfl rfl
    (fun id qn s st U hden => denotes_built (env := obEnvOf setup space xfs) hob x2 rfl hw hcr hrm hrun hm hden) (scene_xf hxf hok) hch hJ0 hti htri (hd x hx) hs
  have hr' : src x.1 = r := by
    rcases hr1 with ⟨ch, q1, q2, q3, -⟩ | ⟨rfl, q1⟩
    · exact provides_unique (by rw [openTb_ids hch]; exact hn) q1 q2 q3 (h3 x.1)
    · have := h3 x.1
      cases hsx : src x.1 with
      | none => rfl
      | some M =>
        rw [hsx] at this
        obtain ⟨pre, c, post, e, e2, -⟩ := this
        exact absurd e2 (q1 c (by rw [e]; simp))
  rw [hr']
  exact hr2 i j s s' a1 a2 c1 c2 hi hj ha hc

/-- **C177.** When all files can be opened, the one-body operators built, and every two-body source stands for an operator, `h2mixer` ends well. -/
theorem h2mixer_ends {setup : Setup} (ham : setup.am = amS) (hw : setup.w = trueW) (hcr : setup.crme = trueCrme) (hrm : setup.rme = trueRme) {disk : Disk}
    {ls : List CLine} {cfg : Config} (hr : read setup.nm ls = .ok cfg)
    {target : TBIndexing} {space : Space} (hix : setup.indexing cfg.targetOrbitals cfg.weights cfg.format cfg.qn = .ok (target, space)) (hti : IndexOK target)
    (hgs : GoodSpace space) (hJ0 : 0 ≤ cfg.qn.J0) (htri : Triangles target cfg.qn.J0.toNat) (hok : SourcesOK disk cfg.xforms cfg.ob)
    (hn : (cfg.tb.map (·.id)).Nodup) (st : SpOrb → ℤ → Nucleon) (hne : target.sectors ≠ [])
    (hp : ∀ p ∈ target.sectors, p.1 < target.space.length ∧ p.2 < target.space.length)
    {xfs : List (String × XfData)} {obs : List ObChannel} {m : ObMap} {chans : List Channel} (hxf : cfg.xforms.mapM (openXf disk) = .ok xfs)
    (hob : cfg.ob.mapM (openOb disk) = .ok obs) (hm : buildOb (obEnvOf setup space xfs) obs = .ok m)
    (hch : cfg.tb.mapM (openTb setup disk cfg.qn) = .ok chans)
    (hd : ∀ d ∈ cfg.tb, ∃ O, Denotes2 ⟨disk, setup.pre, target, space, cfg.xforms, cfg.ob, cfg.tb, cfg.qn, cfg.A, st⟩ d.id O) :
    ∃ out, h2mixer setup disk ls = .ok out := by
  have hrun : RunOK (obEnvOf setup space xfs) obs := sources_runOK hob hgs (openXf_lookup hxf).2 hok
  have hsrc : ∀ p ∈ (envOf setup cfg target m xfs).target.sectors, ∀ c ∈ chans,
      ∃ r, source (envOf setup cfg target m xfs) c p = .ok r ∧ ∀ M, r = some M → SectorSize (envOf setup cfg target m xfs) p M := by
    intro p hpm c hc
    obtain ⟨d, hdm, hdc⟩ := forall₂_mem_right (mapM_ok_iff.mp hch) c hc
    obtain ⟨O, hO⟩ := hd d hdm
    obtain ⟨n, hn'⟩ := List.mem_iff_getElem?.mp hpm
    obtain ⟨l1, l2⟩ := hp p hpm
    obtain ⟨r, hr1, -⟩ := denotes2_channel (setup := setup) (S := ⟨disk, setup.pre, target, space, cfg.xforms, cfg.ob, cfg.tb, cfg.qn, cfg.A, st⟩)
      (env := envOf setup cfg target m xfs) (m := m) ham rfl rfl rfl rfl rfl
      (fun id qn s st U hden => denotes_built (env := obEnvOf setup space xfs) hob (openXf_lookup hxf).2 rfl hw hcr hrm hrun hm hden) (scene_xf hxf hok) hch hJ0 hti htri hO
      (n := n) (p := p) ⟨hn', List.getElem?_eq_getElem l1, List.getElem?_eq_getElem l2⟩
    rcases hr1 with ⟨ch, q1, q2, q3, q4⟩ | ⟨rfl, q1⟩
    · have : ch = c := by
        refine List.inj_on_of_nodup_map (f := fun x : Channel => x.id) ?_ q1 hc (q2.trans (openTb_id hdc).symm)
        rw [openTb_ids hch]
        exact hn
      subst this
      exact ⟨r, q3, q4⟩
    · exact absurd (openTb_id hdc) (q1 c hc)
  obtain ⟨o, ho⟩ := mix_total (env := envOf setup cfg target m xfs) (chans := chans) (targets := cfg.targets.map (·.2)) (fun c hc => by
    obtain ⟨p, hpm⟩ := List.exists_mem_of_ne_nil _ hne
    obtain ⟨r, hs, -⟩ := hsrc p hpm c hc
    simp only [source, Except.bind_eq_ok] at hs
    obtain ⟨x, hx, -⟩ := hs
    exact ⟨x, hx⟩) hsrc hp
  unfold h2mixer
  simp only [hr, hix, hxf, hob, hm, hch, ho, Except.ok_bind', Except.pure_ok, Except.ok.injEq, exists_eq']

end Verif.Mixer.Control
