import Verif.Mixer.Compose
import Verif.Mixer.NucleonGenerated
import Verif.Mixer.ProgramProps

/-!
# Property C176: what the one-body operators of a control file mean

Each declaration of a one-body source stands for an operator on the states of one nucleon, with a tensor character, the orbitals between which it is stored, and
the states that stand for these orbitals.
-/

namespace Verif.Mixer.Control
open Verif Verif.Mapping Verif.Xform Verif.Obme Verif.Separable Verif.Mixer Verif.SU2
open Verif.H2 hiding Mat Subspace

/-- The orbitals named by a file, those of the target without a name. -/
def OrbitalsOf (disk : Disk) (target : Space) (file : String) (s : Space) : Prop :=
  (file = "" ∧ s = target) ∨ (file ≠ "" ∧ disk.orbitals file = .ok s)

/-- The named operators and their tensor characters. -/
def namedCharacter : List (String × QN) :=
  [("identity", ⟨0, 0, 0⟩), ("l2", ⟨0, 0, 0⟩), ("s2", ⟨0, 0, 0⟩), ("j2", ⟨0, 0, 0⟩), ("tz", ⟨0, 0, 0⟩), ("c+", ⟨1, 1, 0⟩), ("c", ⟨1, 1, 0⟩)]

/-- The named operators that need all radial quantum numbers up to a maximum in each subspace, see C67. -/
def namedCharacter' : List (String × QN) :=
  [("l", ⟨1, 0, 0⟩), ("s", ⟨1, 0, 0⟩), ("j", ⟨1, 0, 0⟩), ("t+", ⟨0, 0, 1⟩), ("t-", ⟨0, 0, -1⟩)]

/-- The type and order that go with a name in `obmixer`. -/
def namedType : List (String × SrcType × Int) :=
  [("l", .am .orbital, 1), ("l2", .am .orbital, 2), ("s", .am .spin, 1), ("s2", .am .spin, 2), ("j", .am .total, 1), ("j2", .am .total, 2),
   ("tz", .isospin, 1), ("t+", .isospin, 1), ("t-", .isospin, 1), ("c+", .ladder true, 1), ("c", .ladder false, 1)]

/-- The kinematic operators of `obmixer`. -/
def kinematicType : List (String × SrcType × Int × QN) :=
  [("r", .radial .r, 1, ⟨1, 1, 0⟩), ("ik", .radial .k, 1, ⟨1, 1, 0⟩), ("r.r", .radial .r, 2, ⟨0, 0, 0⟩), ("ik.ik", .radial .k, 2, ⟨0, 0, 0⟩)]

/-- What the names declared in a control file mean: tensor character, orbitals, states of the orbitals, operator.  `len` is the oscillator length, `xforms` the
files of the transformations, `target` the orbitals of the target. -/
inductive Denotes (disk : Disk) (target : Space) (len : ℝ) (xforms : List (String × String)) (decls : List ObDecl) :
    String → QN → Space → (SpOrb → ℤ → Nucleon) → (ℤ → Nucleon →ₗ[ℝ] Nucleon) → Prop
  | input {id file : String} {qn : QN} {f : Header × List Mat} {st : SpOrb → ℤ → Nucleon} {U : ℤ → Nucleon →ₗ[ℝ] Nucleon} :
    .input id file qn ∈ decls → disk.obme file = .ok f → 0 ≤ qn.J0 → ObData.Means form1 st ⟨f.1.ket, f.1.secs, f.2⟩ U →
    Denotes disk target len xforms decls id qn f.1.ket st U
  | builtin {id file : String} {qn : QN} {s : Space} :
    .builtin id file ∈ decls → OrbitalsOf disk target file s → (id, qn) ∈ namedCharacter ∨ (id, qn) ∈ namedCharacter' ∧ Complete s →
    Denotes disk target len xforms decls id qn s nucleon (namedOperator id)
  | generated {id file : String} {t : SrcType} {order : Int} {qn : QN} {s : Space} :
    .generated id t order qn file ∈ decls → OrbitalsOf disk target file s → id = "identity" ∨ (id, t, order) ∈ namedType →
    (id, qn) ∈ namedCharacter ∨ (id, qn) ∈ namedCharacter' ∧ Complete s →
    Denotes disk target len xforms decls id qn s nucleon (namedOperator id)
  | kinematic {id file : String} {t : SrcType} {order : Int} {qn : QN} {s : Space} :
    .generated id t order qn file ∈ decls → OrbitalsOf disk target file s → (id, t, order, qn) ∈ kinematicType →
    Denotes disk target len xforms decls id qn s nucleon (kinematicOperator len id)
  | linear {id : String} {terms : List (String × ℝ)} {qn : QN} {s : Space} {st : SpOrb → ℤ → Nucleon} {op : String → ℤ → Nucleon →ₗ[ℝ] Nucleon} :
    .linear id terms ∈ decls → terms ≠ [] → (∀ t ∈ terms, t.1 ≠ id) → (∀ t ∈ terms, Denotes disk target len xforms decls t.1 qn s st (op t.1)) →
    Denotes disk target len xforms decls id qn s st fun q => (terms.map fun t => t.2 • op t.1 q).sum
  | product {id a b : String} {J0 : Int} {factor : ℝ} {qa qb : QN} {s : Space} {st : SpOrb → ℤ → Nucleon} {X Y : ℤ → Nucleon →ₗ[ℝ] Nucleon} :
    .product id a b J0 factor ∈ decls → Denotes disk target len xforms decls a qa s st X → Denotes disk target len xforms decls b qb s st Y →
    Denotes disk target len xforms decls id ⟨J0, (qa.g0 + qb.g0).tmod 2, qa.Tz0 + qb.Tz0⟩ s st
      fun q => factor • coupledProduct form1 st s qa.J0.toNat qb.J0.toNat J0.toNat X Y q
  | xform {id src xf file : String} {f : Header × List Mat} {qn : QN} {st st' : SpOrb → ℤ → Nucleon} {U : ℤ → Nucleon →ₗ[ℝ] Nucleon} :
    .xform id src xf ∈ decls → xforms.lookup xf = some file → disk.obme file = .ok f → Denotes disk target len xforms decls src qn f.1.bra st U →
    Turned f.1.bra f.1.ket f.1.secs f.2 st st' → Denotes disk target len xforms decls id qn f.1.ket st' U

/-! ## Lemmas -/

theorem opened_mem {disk : Disk} {decls : List ObDecl} {obs : List ObChannel} (h : decls.mapM (openOb disk) = .ok obs) {x : ObDecl} (hx : x ∈ decls) :
    ∃ ch ∈ obs, openOb disk x = .ok ch := by
  rw [mapM_ok_iff] at h
  obtain ⟨n, hn⟩ := List.mem_iff_getElem?.mp hx
  obtain ⟨ch, h1, h2⟩ := forall₂_getElem? h hn
  exact ⟨ch, List.mem_of_getElem? h1, h2⟩

theorem openSpace_of {disk : Disk} {target s : Space} {file : String} (h : OrbitalsOf disk target file s) :
    ∃ o, openSpace disk file = .ok o ∧ o.getD target = s := by
  rcases h with ⟨rfl, rfl⟩ | ⟨h1, h2⟩
  · exact ⟨none, by simp [openSpace], rfl⟩
  · exact ⟨some s, by simp [openSpace, h1, h2, Except.ok_bind'], rfl⟩

theorem builtin_character {env : ObEnv} {id : String} {space : Option Space} {d : ObData} (h : builtinOb env id space = .ok d) {qn : QN}
    (hid : (id, qn) ∈ namedCharacter ∨ (id, qn) ∈ namedCharacter') : d.secs.qn = qn := by
  have : (id = "identity" ∧ qn = ⟨0, 0, 0⟩) ∨ (id ≠ "identity" ∧ ∃ g, builtinTable.lookup id = some (g, qn)) := by
    simp only [namedCharacter, namedCharacter', List.mem_cons, List.not_mem_nil, or_false, Prod.mk.injEq] at hid
    rcases hid with hid | hid
    · rcases hid with ⟨rfl, rfl⟩ | ⟨rfl, rfl⟩ | ⟨rfl, rfl⟩ | ⟨rfl, rfl⟩ | ⟨rfl, rfl⟩ | ⟨rfl, rfl⟩ | ⟨rfl, rfl⟩
      · exact .inl ⟨rfl, rfl⟩
      all_goals exact .inr ⟨by decide, _, rfl⟩
    · rcases hid with ⟨rfl, rfl⟩ | ⟨rfl, rfl⟩ | ⟨rfl, rfl⟩ | ⟨rfl, rfl⟩ | ⟨rfl, rfl⟩
      all_goals exact .inr ⟨by decide, _, rfl⟩
  unfold builtinOb at h
  rcases this with ⟨rfl, rfl⟩ | ⟨hne, g, hl⟩
  · simp only [if_true, Except.bind_eq_ok] at h
    obtain ⟨mats, -, h⟩ := h
    cases h
    rfl
  · simp only [if_neg hne, hl, Except.bind_eq_ok] at h
    obtain ⟨mats, -, h⟩ := h
    cases h
    rfl

theorem named_means {env : ObEnv} {space : Option Space} (hcr : env.crme = trueCrme) (hr : env.rme = trueRme) (g : GoodSpace (space.getD env.space))
    (ge : GoodSpace env.space) (gs : ∀ s, space = some s → GoodSpace s) {id : String} {qn : QN}
    (hid : (id, qn) ∈ namedCharacter ∨ (id, qn) ∈ namedCharacter' ∧ Complete (space.getD env.space)) :
    ∃ d, builtinOb env id space = .ok d ∧ d.space = space.getD env.space ∧ d.secs.qn = qn ∧ d.Means form1 nucleon (namedOperator id) := by
  rcases hid with hid | ⟨hid, hc⟩
  · obtain ⟨d, h1, h2, -, h4⟩ := builtin_means hcr g ge gs (id := id) (by
      have := List.mem_map_of_mem (f := Prod.fst) hid
      simpa [namedCharacter] using this)
    exact ⟨d, h1, h2, builtin_character h1 (.inl hid), h4⟩
  · obtain ⟨d, h1, h2, -, h4⟩ := builtin_means_partial hr g hc ge gs (id := id) (by
      have := List.mem_map_of_mem (f := Prod.fst) hid
      simpa [namedCharacter'] using this)
    exact ⟨d, h1, h2, builtin_character h1 (.inr hid), h4⟩

theorem named_open {id : String} {t : SrcType} {order : Int} {qn : QN} (ht : (id, t, order) ∈ namedType)
    (hq : (id, qn) ∈ namedCharacter ∨ (id, qn) ∈ namedCharacter') :
    ∃ g, openGen id t order = .ok g ∧ builtinTable.lookup id = some (g, qn) := by
  have hb : ∃ g, openGen id t order = .ok g ∧ ∃ q, builtinTable.lookup id = some (g, q) ∧
      ∀ q', (id, q') ∈ namedCharacter ∨ (id, q') ∈ namedCharacter' → q' = q := by
    simp only [namedType, List.mem_cons, List.not_mem_nil, or_false, Prod.mk.injEq] at ht
    rcases ht with ⟨rfl, rfl, rfl⟩ | ⟨rfl, rfl, rfl⟩ | ⟨rfl, rfl, rfl⟩ | ⟨rfl, rfl, rfl⟩ | ⟨rfl, rfl, rfl⟩ | ⟨rfl, rfl, rfl⟩ | ⟨rfl, rfl, rfl⟩ |
      ⟨rfl, rfl, rfl⟩ | ⟨rfl, rfl, rfl⟩ | ⟨rfl, rfl, rfl⟩ | ⟨rfl, rfl, rfl⟩ <;>
      exact ⟨_, rfl, _, rfl, fun q' h => by simpa [namedCharacter, namedCharacter'] using h⟩
  obtain ⟨g, h1, q, h2, h3⟩ := hb
  rw [h3 qn hq]
  exact ⟨g, h1, h2⟩

theorem kinematic_open {id : String} {t : SrcType} {order : Int} {qn : QN} (ht : (id, t, order, qn) ∈ kinematicType) :
    ∃ g, openGen id t order = .ok g ∧ generatedTable.lookup id = some (g, qn) ∧ id ∈ ["r", "ik", "r.r", "ik.ik"] := by
  simp only [kinematicType, List.mem_cons, List.not_mem_nil, or_false, Prod.mk.injEq] at ht
  rcases ht with ⟨rfl, rfl, rfl, rfl⟩ | ⟨rfl, rfl, rfl, rfl⟩ | ⟨rfl, rfl, rfl, rfl⟩ | ⟨rfl, rfl, rfl, rfl⟩ <;> exact ⟨_, rfl, rfl, by simp⟩

theorem built_entry {env : ObEnv} {obs : List ObChannel} {m : ObMap} (h : buildOb env obs = .ok m) {ch : ObChannel} (hch : ch ∈ obs) {d : ObData}
    (hv : ∀ m0, valueOf env m0 ch = .ok (some d)) : m ch.id = some (some d) := by
  obtain ⟨pre, post, rfl⟩ := List.append_of_mem hch
  obtain ⟨m0, r, -, -, h1, h2, -⟩ := build_split h
  rw [hv m0] at h1
  cases h1
  exact h2

theorem named_nonneg {id : String} {qn : QN} (h : (id, qn) ∈ namedCharacter ∨ (id, qn) ∈ namedCharacter') : 0 ≤ qn.J0 := by
  simp only [namedCharacter, namedCharacter', List.mem_cons, List.not_mem_nil, or_false, Prod.mk.injEq] at h
  rcases h with h | h
  · rcases h with ⟨-, rfl⟩ | ⟨-, rfl⟩ | ⟨-, rfl⟩ | ⟨-, rfl⟩ | ⟨-, rfl⟩ | ⟨-, rfl⟩ | ⟨-, rfl⟩ <;> decide
  · rcases h with ⟨-, rfl⟩ | ⟨-, rfl⟩ | ⟨-, rfl⟩ | ⟨-, rfl⟩ | ⟨-, rfl⟩ <;> decide

theorem kinematic_nonneg {id : String} {t : SrcType} {order : Int} {qn : QN} (h : (id, t, order, qn) ∈ kinematicType) : 0 ≤ qn.J0 := by
  simp only [kinematicType, List.mem_cons, List.not_mem_nil, or_false, Prod.mk.injEq] at h
  rcases h with ⟨-, -, -, rfl⟩ | ⟨-, -, -, rfl⟩ | ⟨-, -, -, rfl⟩ | ⟨-, -, -, rfl⟩ <;> decide

theorem forget_complete {id : String} {qn : QN} {s : Space} (h : (id, qn) ∈ namedCharacter ∨ (id, qn) ∈ namedCharacter' ∧ Complete s) :
    (id, qn) ∈ namedCharacter ∨ (id, qn) ∈ namedCharacter' := h.imp_right And.left

theorem generated_character {env : ObEnv} {id : String} {gen : Gen} {qn : QN} {space : Option Space} {d : ObData}
    (h : generatedOb env id gen qn space = .ok d) : d.secs.qn = qn := by
  unfold generatedOb at h
  simp only at h
  split at h
  all_goals
    simp only [Except.bind_eq_ok] at h
    obtain ⟨mats, -, h⟩ := h
    cases h
    rfl

/-! ## The theorem -/

/-- **C176.** The one-body operators of a run are the operators the declarations stand for. -/
theorem denotes_built {env : ObEnv} {disk : Disk} {xforms : List (String × String)} {decls : List ObDecl} {obs : List ObChannel} {m : ObMap}
    (hopen : decls.mapM (openOb disk) = .ok obs)
    (hxf : ∀ id x, env.xf id = some x → ∃ file f, xforms.lookup id = some file ∧ disk.obme file = .ok f ∧ initXform f = .ok x)
    (hb : env.basis = .oscillator) (hw : env.w = trueW) (hcr : env.crme = trueCrme) (hr : env.rme = trueRme)
    (hok : RunOK env obs) (h : buildOb env obs = .ok m) {id : String} {qn : QN} {s : Space} {st : SpOrb → ℤ → Nucleon} {U : ℤ → Nucleon →ₗ[ℝ] Nucleon}
    (hd : Denotes disk env.space env.length xforms decls id qn s st U) :
    0 ≤ qn.J0 ∧ ∃ d, m id = some (some d) ∧ GoodOb d ∧ d.space = s ∧ d.secs.qn = qn ∧ d.Means form1 st U := by
  have hgood := build_good hok h
  induction hd with
  | @input id file qn f st U h1 h2 h3 h4 =>
    obtain ⟨ch, hch, he⟩ := opened_mem hopen h1
    simp only [openOb, h2, Except.ok_bind', Except.pure_ok, Except.ok.injEq] at he
    subst he
    obtain ⟨e1, e2, -⟩ := input_operator h hch
    exact ⟨h3, _, e1, hgood _ _ e1, rfl, e2, h4⟩
  | @builtin id file qn s h1 h2 h3 =>
    obtain ⟨ch, hch, he⟩ := opened_mem hopen h1
    obtain ⟨o, ho, rfl⟩ := openSpace_of h2
    simp only [openOb, ho, Except.ok_bind', Except.pure_ok, Except.ok.injEq] at he
    subst he
    have hi : ∀ s, o = some s → GoodSpace s := hok.chans _ hch
    have hg : GoodSpace (o.getD env.space) := by
      cases o with
      | none => exact hok.space
      | some s => exact hi s rfl
    obtain ⟨d, e1, e2, e3, e4⟩ := named_means hcr hr hg hok.space hi h3
    have := built_entry h hch (d := d) fun m0 => by simp only [valueOf, e1, Except.ok_bind', Except.pure_ok]
    exact ⟨named_nonneg (forget_complete h3), d, this, hgood _ _ this, e2, e3, e4⟩
  | @generated id file t order qn s h1 h2 h3 h4 =>
    obtain ⟨ch, hch, he⟩ := opened_mem hopen h1
    obtain ⟨o, ho, rfl⟩ := openSpace_of h2
    have key : ∃ g, openGen id t order = .ok g ∧ generatedOb env id g qn o = builtinOb env id o := by
      rcases h3 with rfl | h3
      · have hq : qn = scalarQN := by
          have := forget_complete h4
          simpa [namedCharacter, namedCharacter', scalarQN] using this
        subst hq
        exact ⟨.isospin, rfl, generated_identity⟩
      · obtain ⟨g, g1, g2⟩ := named_open h3 (forget_complete h4)
        exact ⟨g, g1, generated_builtin hb g2⟩
    obtain ⟨g, hg1, hg2⟩ := key
    simp only [openOb, ho, hg1, Except.ok_bind', Except.pure_ok, Except.ok.injEq] at he
    subst he
    have hi : ∀ s, o = some s → GoodSpace s := (hok.chans _ hch).2
    have hg : GoodSpace (o.getD env.space) := by
      cases o with
      | none => exact hok.space
      | some s => exact hi s rfl
    obtain ⟨d, e1, e2, e3, e4⟩ := named_means hcr hr hg hok.space hi h4
    have := built_entry h hch (d := d) fun m0 => by simp only [valueOf, hg2, e1, Except.ok_bind', Except.pure_ok]
    exact ⟨named_nonneg (forget_complete h4), d, this, hgood _ _ this, e2, e3, e4⟩
  | @kinematic id file t order qn s h1 h2 h3 =>
    obtain ⟨ch, hch, he⟩ := opened_mem hopen h1
    obtain ⟨o, ho, rfl⟩ := openSpace_of h2
    obtain ⟨g, hg1, hg2, hg3⟩ := kinematic_open h3
    simp only [openOb, ho, hg1, Except.ok_bind', Except.pure_ok, Except.ok.injEq] at he
    subst he
    have hi : ∀ s, o = some s → GoodSpace s := (hok.chans _ hch).2
    have hg : GoodSpace (o.getD env.space) := by
      cases o with
      | none => exact hok.space
      | some s => exact hi s rfl
    obtain ⟨d, e1, e2, e3, e4⟩ := generated_means hb hcr hg hok.space hi hg3 hg2
    have := built_entry h hch (d := d) fun m0 => by simp only [valueOf, e1, Except.ok_bind', Except.pure_ok]
    exact ⟨kinematic_nonneg h3, d, this, hgood _ _ this, e2, generated_character e1, e4⟩
  | @linear id terms qn s st op h1 h2 h3 h4 ih =>
    obtain ⟨ch, hch, he⟩ := opened_mem hopen h1
    simp only [openOb, Except.ok.injEq] at he
    subst he
    have hv : ∀ t : String, ∃ d : ObData, (∃ t' ∈ terms, t'.1 = t) → m t = some (some d) ∧ d.space = s ∧ d.secs.qn = qn ∧ d.Means form1 st (op t) := by
      intro t
      by_cases ht : ∃ t' ∈ terms, t'.1 = t
      · obtain ⟨t', ht', rfl⟩ := ht
        obtain ⟨-, d, e1, -, e3, e4, e5⟩ := ih t' ht'
        exact ⟨d, fun _ => ⟨e1, e3, e4, e5⟩⟩
      · exact ⟨⟨[], ⟨⟨0, 0, 0⟩, []⟩, []⟩, fun h => absurd h ht⟩
    choose v hv using hv
    obtain ⟨d, e1, e2, e3, e4, e5⟩ := linear_operator_obmixer_partial hok h hch h2 h3 (v := v) (sp := s) (q := qn) fun t ht => by
      obtain ⟨a1, a2, a3, -⟩ := hv t.1 ⟨t, ht, rfl⟩
      exact ⟨a1, a2, a3⟩
    obtain ⟨t0, ht0⟩ := List.exists_mem_of_ne_nil terms h2
    refine ⟨(ih t0 ht0).1, d, e1, e2, e3, e4, linear_means (v := v) ?_ e5 fun t ht => (hv t.1 ⟨t, ht, rfl⟩).2.2.2⟩
    intro t ht
    obtain ⟨a1, a2, a3, -⟩ := hv t.1 ⟨t, ht, rfl⟩
    rw [e3, e4]
    exact ⟨a2, a3⟩
  | @product id a b J0 factor qa qb s st X Y h1 h2 h3 ih1 ih2 =>
    obtain ⟨ch, hch, he⟩ := opened_mem hopen h1
    simp only [openOb, Except.ok.injEq] at he
    subst he
    obtain ⟨na, da, a1, a2, a3, a4, a5⟩ := ih1
    obtain ⟨nb, db, b1, b2, b3, b4, b5⟩ := ih2
    obtain ⟨pre, post, rfl⟩ := List.append_of_mem hch
    obtain ⟨m0, r, -, hno, hv, hmr, hm⟩ := build_split h
    simp only [valueOf, Except.bind_eq_ok, look_ok] at hv
    obtain ⟨da', ha', db', hb', d, h1, hv⟩ := hv
    cases hv
    have ea : da' = da := by
      by_cases e : a = id
      · rw [e, setOb_same] at ha'
        simp at ha'
      · rw [setOb, if_neg e] at ha'
        have := seen hm ha'
        rw [a1] at this
        cases this
        rfl
    have eb : db' = db := by
      by_cases e : b = id
      · rw [e, setOb_same] at hb'
        simp at hb'
      · rw [setOb, if_neg e] at hb'
        have := seen hm hb'
        rw [b1] at this
        cases this
        rfl
    subst ea eb
    obtain ⟨-, c2, c3, c4, c5, -⟩ := product_value a2 b2 h1
    have ka : da'.secs.qn.J0 = (qa.J0.toNat : ℕ) := by rw [a4, Int.toNat_of_nonneg na]
    have kb : db'.secs.qn.J0 = (qb.J0.toNat : ℕ) := by rw [b4, Int.toNat_of_nonneg nb]
    have := product_means hw a2 b2 h1 ka kb a5 b5
    rw [a3] at this
    refine ⟨le_trans (abs_nonneg _) c5.1, d, hmr, hgood _ _ hmr, c3.trans a3, ?_, this⟩
    unfold productOb at h1
    simp only [Except.bind_eq_ok] at h1
    obtain ⟨_, -, _, -, mats, -, h1⟩ := h1
    cases h1
    simp only [allSectors, a4, b4]
  | @xform id src xf file f qn st st' U h1 h2 h3 h4 h5 ih =>
    obtain ⟨ch, hch, he⟩ := opened_mem hopen h1
    simp only [openOb, Except.ok.injEq] at he
    subst he
    obtain ⟨ns, ds, a1, a2, a3, a4, a5⟩ := ih
    obtain ⟨pre, post, rfl⟩ := List.append_of_mem hch
    obtain ⟨m0, r, -, -, hv, hmr, hm⟩ := build_split h
    simp only [valueOf, Except.bind_eq_ok, look_ok, lookXf_ok] at hv
    obtain ⟨ds', hs, x, hx, d, h1, hv⟩ := hv
    cases hv
    have hs' := seen hm hs
    rw [a1] at hs'
    cases hs'
    obtain ⟨file', f', x1, x2, x3⟩ := hxf xf x hx
    rw [h2] at x1
    cases x1
    rw [h3] at x2
    cases x2
    obtain ⟨-, rfl⟩ := initXform_scalar x3
    obtain ⟨-, -, c2, c3, -⟩ := xform_value a2 (hok.xf _ _ hx) h1
    exact ⟨ns, d, hmr, hgood _ _ hmr, c2, c3.trans a4, xform_means a2 (hok.xf _ _ hx) h1 a5 h5⟩

/-! ## `obmixer` -/

/-- What is assumed of the files of the one-body sources: good orbitals, complete transformations, complete operators on one space; the orders of the angular
momentum operators are those of the tables, see `declared_order`. -/
structure SourcesOK (disk : Disk) (xforms : List (String × String)) (decls : List ObDecl) : Prop where
  orbitals : ∀ file s, disk.orbitals file = .ok s → GoodSpace s
  xform : ∀ id file f x, xforms.lookup id = some file → disk.obme file = .ok f → initXform f = .ok x → GoodXf x
  input : ∀ id file qn f, .input id file qn ∈ decls → disk.obme file = .ok f → f.1.bra = f.1.ket ∧ GoodOb ⟨f.1.ket, f.1.secs, f.2⟩
  order : ∀ id t order qn file, .generated id (.am t) order qn file ∈ decls → order = 1 ∨ order = 2

theorem sources_runOK {env : ObEnv} {disk : Disk} {xforms : List (String × String)} {decls : List ObDecl} {obs : List ObChannel}
    (hopen : decls.mapM (openOb disk) = .ok obs) (hs : GoodSpace env.space)
    (hxf : ∀ id x, env.xf id = some x → ∃ file f, xforms.lookup id = some file ∧ disk.obme file = .ok f ∧ initXform f = .ok x)
    (hok : SourcesOK disk xforms decls) : RunOK env obs := by
  refine ⟨hs, ?_, ?_⟩
  · intro id x hx
    obtain ⟨file, f, h1, h2, h3⟩ := hxf id x hx
    exact hok.xform id file f x h1 h2 h3
  · intro ch hch
    obtain ⟨d, hd, ho⟩ := forall₂_mem_right (mapM_ok_iff.mp hopen) ch hch
    have hsp : ∀ {file s'}, openSpace disk file = .ok s' → ∀ s, s' = some s → GoodSpace s := by
      rintro file _ h1 s rfl
      unfold openSpace at h1
      split at h1
      · cases h1
      · simp only [Except.bind_eq_ok, Except.pure_ok, Except.ok.injEq, Option.some.injEq] at h1
        obtain ⟨s', h2, rfl⟩ := h1
        exact hok.orbitals _ _ h2
    cases d with
    | input id file qn =>
      simp only [openOb, Except.bind_eq_ok, Except.pure_ok, Except.ok.injEq] at ho
      obtain ⟨f, hf, rfl⟩ := ho
      exact hok.input id file qn f hd hf
    | builtin id file =>
      simp only [openOb, Except.bind_eq_ok, Except.pure_ok, Except.ok.injEq] at ho
      obtain ⟨s', hs, rfl⟩ := ho
      exact hsp hs
    | generated id t order qn file =>
      simp only [openOb, Except.bind_eq_ok, Except.pure_ok, Except.ok.injEq] at ho
      obtain ⟨s', hs, g, hg, rfl⟩ := ho
      refine ⟨?_, hsp hs⟩
      unfold openGen at hg
      split at hg
      · cases hg
        trivial
      · split at hg
        · rename_i g' hg'
          cases hg
          cases t with
          | radial c => cases c <;> simp only [genOf, Option.some.injEq, reduceCtorEq] at hg' <;> subst hg' <;> trivial
          | am t =>
            simp only [genOf, Option.some.injEq] at hg'
            subst hg'
            rcases hok.order id t order qn file hd with rfl | rfl
            · exact .inl rfl
            · exact .inr rfl
          | isospin =>
            cases hg'
            trivial
          | ladder b =>
            cases hg'
            trivial
        · cases hg
    | linear id ts =>
      cases ho
      trivial
    | product id a b J0 x =>
      cases ho
      trivial
    | xform id a b =>
      cases ho
      trivial

/-- **C176.** What `obmixer` writes: for each target whose name stands for an operator, the file reads back with the tensor character of the operator on the
orbitals of the target; its element between two orbitals on which the operator is stored is, up to the number format, the reduced element of that operator between
the states of these orbitals, and it is zero for other orbitals. -/
theorem obmixer_denotes {Orb : Type} {lib : Lib Orb} (laws : LibLaws lib) {rnd : ℝ → ℝ} (h0 : rnd 0 = 0) {setup : Setup}
    (hw : setup.w = trueW) (hcr : setup.crme = trueCrme) (hrm : setup.rme = trueRme) {disk : Disk} {ls : List CLine} {cfg : ObConfig}
    {out : List (String × List Obme.Line)} (hr : readO setup.nm ls = .ok cfg) (h : obmixerRun lib rnd setup disk ls = .ok out)
    (hb : cfg.basis = .oscillator) {f0 : String} (hf0 : cfg.orbitals = some f0) {space : Space} (hsp : disk.orbitals f0 = .ok space) (hbl : Built lib space)
    (hok : SourcesOK disk cfg.xforms cfg.sources) {t : ℕ} {id file : String} (ht : cfg.targets[t]? = some (id, file))
    {qn : QN} {s : Space} {st : SpOrb → ℤ → Nucleon} {U : ℤ → Nucleon →ₗ[ℝ] Nucleon} (hd : Denotes disk space cfg.length cfg.xforms cfg.sources id qn s st U) :
    ∃ f hd mats, out[t]? = some (file, f) ∧ readFile lib f = .ok (hd, mats) ∧ hd.bra = space ∧ hd.ket = space ∧ hd.secs = allSectors qn space space ∧
      ∀ i p k r c a, IsOrb space i p c → IsOrb space k r a →
        (InSpace s c → InSpace s a → ∃ x, elem hd.secs mats i p k r = rnd (chop x) ∧
          ∀ m' ∈ projs c.tj, ∀ q ∈ projs (2 * qn.J0.toNat), ∀ m ∈ projs a.tj,
            form1 (st c m') (U q (st a m)) = cgd a.tj m (2 * qn.J0.toNat) q c.tj m' * x) ∧
        (¬ (InSpace s c ∧ InSpace s a) → elem hd.secs mats i p k r = 0) := by
  unfold obmixerRun at h
  simp only [hr, Except.ok_bind', Except.bind_eq_ok, Except.pure_ok, Except.ok.injEq] at h
  obtain ⟨space', hsp', xfs, hxfs, obs, hobs, files, hfiles, rfl⟩ := h
  rw [hf0] at hsp'
  have e : space' = space := by
    have : disk.orbitals f0 = .ok space' := hsp'
    rw [hsp] at this
    exact (Except.ok.inj this).symm
  subst e
  obtain ⟨-, x2⟩ := openXf_lookup hxfs
  have hrun : RunOK (obEnvO setup cfg space' xfs) obs := sources_runOK hobs (hok.orbitals _ _ hsp) x2 hok
  obtain ⟨m, hm, hall⟩ := obmixer_files laws h0 hrun hbl hfiles
  obtain ⟨-, d, d1, d2, d3, d4, d5⟩ := denotes_built (env := obEnvO setup cfg space' xfs) hobs x2 hb hw hcr hrm hrun hm hd
  have ht' : (cfg.targets.map (·.1))[t]? = some id := by rw [List.getElem?_map, ht]; rfl
  obtain ⟨f, hf, d', r, hd', mats, f1, f2, f3, f4, f5, f6, f7⟩ := forall₂_getElem? hall ht'
  rw [d1] at f1
  cases f1
  obtain ⟨r', r1, -, -, -, r5⟩ := target_element (env := obEnvO setup cfg space' xfs) d1 d2 (hok.orbitals _ _ hsp)
  rw [f2] at r1
  cases r1
  refine ⟨f, hd', mats, ?_, f3, f4, f5, by rw [f6, d4]; rfl, ?_⟩
  · rw [List.getElem?_zip_eq_some]
    exact ⟨by rw [List.getElem?_map, ht]; rfl, hf⟩
  · intro i p k rr c a hc ha
    obtain ⟨g1, g2⟩ := r5 (c.labels, c.n) (a.labels, a.n) i p k rr hc ha
    constructor
    · rintro ⟨i1, p1, hc1⟩ ⟨k1, q1, ha1⟩
      refine ⟨d.el i1 p1 k1 q1, ?_, ?_⟩
      · rw [f7, g1 i1 p1 k1 q1 (by rw [d3]; exact hc1) (by rw [d3]; exact ha1)]
      · intro m' hm' q hq m hmm
        have := d5 i1 p1 k1 q1 c a (by rw [d3]; exact hc1) (by rw [d3]; exact ha1) m' hm' q (by rw [d4]; exact hq) m hmm
        rw [d4] at this
        exact this
    · intro hn
      rw [f7, g2, show chop 0 = 0 by simp [chop], h0]
      by_contra hno
      rw [not_or, not_not, not_not] at hno
      apply hn
      rw [← d3]
      exact hno

namespace Ex

/-- With the true coefficients. -/
noncomputable def trueSetup : Setup := { setup with w := trueW, crme := trueCrme, rme := trueRme }

/-- The sources `j`, `j2`, the scalar product of `j` with itself, and the difference. -/
def someSources : List ObDecl :=
  [.generated "j" (.am .total) 1 ⟨1, 0, 0⟩ "", .generated "j2" (.am .total) 2 ⟨0, 0, 0⟩ "", .product "j.j" "j" "j" 0 2,
   .linear "diff" [("j2", 1), ("j.j", -3)]]

/-- A name made of a product and a linear combination has a meaning. -/
example : ∃ U, Denotes obDisk sampleSpace 1 [] someSources "diff" ⟨0, 0, 0⟩ sampleSpace nucleon U := by
  have hj : Denotes obDisk sampleSpace 1 [] someSources "j" ⟨1, 0, 0⟩ sampleSpace nucleon (namedOperator "j") :=
    .generated (t := .am .total) (order := 1) (file := "") (by simp [someSources]) (.inl ⟨rfl, rfl⟩) (.inr (by simp [namedType]))
      (.inr ⟨by simp [namedCharacter'], by unfold Complete; decide⟩)
  have hj2 : Denotes obDisk sampleSpace 1 [] someSources "j2" ⟨0, 0, 0⟩ sampleSpace nucleon (namedOperator "j2") :=
    .generated (t := .am .total) (order := 2) (file := "") (by simp [someSources]) (.inl ⟨rfl, rfl⟩) (.inr (by simp [namedType]))
      (.inl (by simp [namedCharacter]))
  have hp := Denotes.product (id := "j.j") (a := "j") (b := "j") (J0 := 0) (factor := 2) (by simp [someSources]) hj hj
  refine ⟨_, .linear (id := "diff") (terms := [("j2", 1), ("j.j", -3)]) (op := fun i => if i = "j2" then namedOperator "j2" else
    fun q => (2 : ℝ) • coupledProduct form1 nucleon sampleSpace 1 1 0 (namedOperator "j") (namedOperator "j") q) (by simp [someSources])
    (by simp) (by simp) ?_⟩
  intro t ht
  simp only [List.mem_cons, List.not_mem_nil, or_false] at ht
  rcases ht with rfl | rfl
  · exact hj2
  · exact hp

/-- The hypotheses of `obmixer_denotes` are met by a run that writes the square of the angular momentum. -/
example : ∃ out f hd mats x, obmixerRun toyLib id trueSetup obDisk obLines = .ok out ∧ out[0]? = some ("j2.dat", f) ∧
    readFile toyLib f = .ok (hd, mats) ∧ elem hd.secs mats 0 0 0 0 = chop x ∧
    form1 (nucleon ⟨.p, 0, 0, 1⟩ 1) (namedOperator "j2" 0 (nucleon ⟨.p, 0, 0, 1⟩ 1)) = cgd 1 1 0 0 1 1 * x := by
  let cfg : ObConfig := ⟨.oscillator, some "orb.dat", 1, [], [.generated "j2" (.am .total) 2 ⟨0, 0, 0⟩ ""],
    [("j2", "j2.dat")]⟩
  have hr : readO trueSetup.nm obLines = .ok cfg := by
    rw [readO_ok]
    exact ⟨obCmds, ob_parse, rfl⟩
  let env := obEnvO trueSetup cfg sampleSpace []
  let ch : ObChannel := ⟨"j2", .generated (.am .total 2) ⟨0, 0, 0⟩ none⟩
  obtain ⟨mats, g1, -, g2⟩ := squared_element (type := .total) sampleSpace_good
    (allSectors_spec scalarQN sampleSpace sampleSpace) rfl
  let d : ObData := ⟨sampleSpace, allSectors scalarQN sampleSpace sampleSpace, mats⟩
  have hv : valueOf env (fun _ => none) ch = .ok (some d) := by
    have : generatedOb env "j2" (.am .total 2) ⟨0, 0, 0⟩ none = .ok d := by
      unfold generatedOb
      rw [if_neg (by decide)]
      have : generateOb env env.basis "j2" (.am .total 2) sampleSpace (allSectors ⟨0, 0, 0⟩ sampleSpace sampleSpace) =
        .ok mats := g1
      simp only [Option.getD_none, show env.space = sampleSpace from rfl, this, Except.ok_bind', Except.pure_ok]
      rfl
    simp only [valueOf, ch, this, Except.ok_bind', Except.pure_ok]
  have hb : buildOb env [ch] = .ok (setOb (fun _ => none) "j2" (some d)) :=
    build_snoc (chans := []) rfl rfl hv
  have hrun : RunOK env [ch] :=
    ⟨sampleSpace_good, (by intro id x hx; cases hx), by
      intro c hc
      simp only [List.mem_singleton] at hc
      subst hc
      exact ⟨Or.inr rfl, by simp⟩⟩
  obtain ⟨files, hf⟩ := (obmixer_total toyLib_laws (rnd := id) rfl (targets := ["j2"]) hrun sampleSpace_built hb).mpr (by
    intro i hi
    simp only [List.mem_singleton] at hi
    subst hi
    exact ⟨d, by simp [setOb]⟩)
  have hall : obmixerRun toyLib id trueSetup obDisk obLines = .ok (["j2.dat"].zip files) := by
    have hopen : [ObDecl.generated "j2" (.am .total) 2 ⟨0, 0, 0⟩ ""].mapM (openOb obDisk) = .ok [ch] := by
      simp [openOb, openSpace, openGen, genOf, ch, Except.ok_bind', Except.pure_ok]
    have hsp : openTarget obDisk (some "orb.dat") = .ok sampleSpace := rfl
    unfold obmixerRun
    simp only [hr, Except.ok_bind', show cfg.orbitals = some "orb.dat" from rfl, hsp,
      show cfg.xforms = [] from rfl, show cfg.sources = [.generated "j2" (.am .total) 2 ⟨0, 0, 0⟩ ""] from rfl, hopen,
      show cfg.targets = [("j2", "j2.dat")] from rfl, List.mapM_nil, Except.pure_ok, List.map_cons, List.map_nil]
    have : obmixer toyLib id (obEnvO trueSetup cfg sampleSpace []) [ch] ["j2"] = .ok files := hf
    rw [this]
    rfl
  have hsrc : SourcesOK obDisk cfg.xforms cfg.sources := by
    refine ⟨?_, ?_, ?_, ?_⟩
    · intro f s h
      simp only [obDisk] at h
      split at h
      · cases h
        exact sampleSpace_good
      · cases h
    · intro _ _ _ _ h
      cases h
    · intro _ _ _ _ h
      simp [cfg] at h
    · intro _ _ _ _ _ h
      simp [cfg] at h
      exact .inr h.2.2.1
  obtain ⟨f, hd, ms, t1, t2, -, -, -, t6⟩ := obmixer_denotes (cfg := cfg) toyLib_laws (rnd := id) rfl rfl rfl rfl hr hall rfl rfl
    (space := sampleSpace) rfl sampleSpace_built
    hsrc (t := 0) rfl
    (.generated (id := "j2") (t := .am .total) (order := 2) (file := "") (qn := ⟨0, 0, 0⟩) (by simp [cfg]) (.inl ⟨rfl, rfl⟩) (.inr (by simp [namedType]))
      (.inl (by simp [namedCharacter])))
  have ho : IsOrb sampleSpace 0 0 ⟨.p, 0, 0, 1⟩ := ⟨_, rfl, rfl, rfl⟩
  obtain ⟨x, x1, x2⟩ := (t6 0 0 0 0 _ _ ho ho).1 ⟨0, 0, ho⟩ ⟨0, 0, ho⟩
  exact ⟨_, f, hd, ms, x, hall, t1, t2, x1, x2 1 (by decide) 0 (by decide) 1 (by decide)⟩

end Ex

end Verif.Mixer.Control
