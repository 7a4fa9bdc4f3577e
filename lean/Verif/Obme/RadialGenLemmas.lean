import Verif.Obme.RadialGenSpec
import Verif.Obme.EwLemmas

/-! # Lemmas about `radial-gen` -/

namespace Verif.Obme.RadialGen
open Verif Verif.Mapping Verif.Xform Verif.Obme MeasureTheory Set
open Verif.H2 hiding Mat
open Verif.Mixer.Control (Coord Numbers word int num coordOf)
open Verif.Obme.EwGen (NamesCoord coordOf_iff word_ok int_ok num_ok)

/-! ## Control file -/

/-- The parameters of a target. -/
def bodyFor : What → Body
  | .identity => ⟨.kinematic .o, 0, ⟨0, 0, 0⟩⟩
  | .position => ⟨.kinematic .r, 1, ⟨1, 1, 0⟩⟩
  | .momentum => ⟨.kinematic .k, 1, ⟨1, 1, 0⟩⟩
  | .positionSqr => ⟨.kinematic .r, 2, ⟨0, 0, 0⟩⟩
  | .momentumSqr => ⟨.kinematic .k, 2, ⟨0, 0, 0⟩⟩
  | .harmonic c l => ⟨.solidHarmonic c, l, ⟨l, l.tmod 2, 0⟩⟩
  | .am t => ⟨.am t, 1, ⟨1, 0, 0⟩⟩
  | .amSqr t => ⟨.am t, 2, ⟨0, 0, 0⟩⟩
  | .isospin z => ⟨.isospin, 0, ⟨0, 0, z⟩⟩
  | .radial c order q => ⟨.radial c, order, q⟩
  | .overlap .. => ⟨.xform, 0, ⟨0, 0, 0⟩⟩

def paramsFor (b : BasisType × String) (w : What) (out : String) : Params :=
  match w with
  | .overlap x b' f => ⟨f, b.2, out, b', b.1, x, some (bodyFor w)⟩
  | _ => ⟨b.2, b.2, out, b.1, b.1, 1, some (bodyFor w)⟩

/-- Files whose existence is tested while reading. -/
def applyCmd {Orb : Type} (W : World Orb) (s : State) : Cmd → Except Err State
  | .basis b f => do
    mustExist W f
    pure { s with basis := b, file := f }
  | .target (.overlap x b f) out => do
    mustExist W f
    pure { s with targets := s.targets ++ [paramsFor (s.basis, s.file) (.overlap x b f) out] }
  | .target w out => .ok { s with targets := s.targets ++ [paramsFor (s.basis, s.file) w out] }

theorem basisOf_iff {s : String} {b : BasisType} : basisOf s = .ok b ↔ NamesBasis s b := by
  constructor
  · intro h
    unfold basisOf at h
    split_ifs at h with h1 h2 <;> simp only [Except.ok.injEq, reduceCtorEq] at h <;> subst h <;> subst_vars <;> constructor
  · rintro ⟨⟩ <;> rfl

/-- A line with an unknown family of operators. -/
def unknown (mode : String) : Prop := mode ≠ "kinematic" ∧ mode ≠ "solid-harmonic" ∧ mode ≠ "am" ∧ mode ≠ "isospin"

theorem says_step {Orb : Type} {W : World Orb} {ws : List String} {c : Cmd} (h : Says W.nm ws c) (s : State) :
    step W s ws = applyCmd W s c := by
  cases h with
  | basis f rest h =>
    have := basisOf_iff.2 h
    simp [step, word, this, applyCmd]
  | named out rest h => cases h <;> rfl
  | harmonic out rest h1 h2 =>
    have := coordOf_iff.2 h1
    simp [step, word, bodyOf, harmonicOf, int, h2, this, applyCmd, paramsFor, bodyFor]
  | radial out rest h1 h2 h3 h4 h5 =>
    have := coordOf_iff.2 h1
    simp [step, word, int, h2, h3, h4, h5, this, applyCmd, paramsFor, bodyFor]
  | overlap f out rest h1 h2 =>
    have := basisOf_iff.2 h2
    simp [step, word, num, h1, this, applyCmd, paramsFor, bodyFor]

theorem map_ok {α β : Type} {x : Except Err α} {f : α → β} {y : β} : x.map f = .ok y ↔ ∃ a, x = .ok a ∧ f a = y := by
  cases x <;> simp [Except.map]

theorem bodyOf_some {nm : Numbers} {mode id : String} {ws rest : List String} {out : String} {b : Option Body}
    (h : bodyOf nm mode id ws = .ok (b, out :: rest)) :
    (∃ w, Says nm ("define-operator-target" :: mode :: id :: ws) (.target w out) ∧ b = some (bodyFor w) ∧
      ∀ p : BasisType × String, paramsFor p w out = ⟨p.2, p.2, out, p.1, p.1, 1, b⟩) ∨ (unknown mode ∧ b = none) := by
  unfold bodyOf at h
  split_ifs at h with h1 h2 h3 h4
  · left
    subst h1
    rw [map_ok] at h
    obtain ⟨a, ha, he⟩ := h
    simp only [Prod.mk.injEq] at he
    obtain ⟨rfl, rfl⟩ := he
    unfold kinematicOf at ha
    split_ifs at ha with k1 k2 k3 k4 k5 <;> simp only [Except.ok.injEq, reduceCtorEq] at ha <;> subst ha <;> subst_vars
    · exact ⟨_, .named _ _ .identity, rfl, fun _ => rfl⟩
    · exact ⟨_, .named _ _ .position, rfl, fun _ => rfl⟩
    · exact ⟨_, .named _ _ .momentum, rfl, fun _ => rfl⟩
    · exact ⟨_, .named _ _ .positionSqr, rfl, fun _ => rfl⟩
    · exact ⟨_, .named _ _ .momentumSqr, rfl, fun _ => rfl⟩
  · left
    subst h2
    unfold harmonicOf at h
    simp only [Except.bind_eq_ok, Except.pure_ok, Except.ok.injEq, int_ok, Prod.mk.injEq] at h
    obtain ⟨⟨l, r⟩, ⟨w, rfl, hw⟩, c, hc, rfl, rfl⟩ := h
    exact ⟨_, .harmonic _ _ (coordOf_iff.1 hc) hw, rfl, fun _ => rfl⟩
  · left
    subst h3
    rw [map_ok] at h
    obtain ⟨a, ha, he⟩ := h
    simp only [Prod.mk.injEq] at he
    obtain ⟨rfl, rfl⟩ := he
    unfold amOf at ha
    split_ifs at ha with k1 k2 k3 k4 k5 k6 <;> simp only [Except.ok.injEq, reduceCtorEq] at ha <;> subst ha <;> subst_vars
    · exact ⟨_, .named _ _ .l, rfl, fun _ => rfl⟩
    · exact ⟨_, .named _ _ .l2, rfl, fun _ => rfl⟩
    · exact ⟨_, .named _ _ .s, rfl, fun _ => rfl⟩
    · exact ⟨_, .named _ _ .s2, rfl, fun _ => rfl⟩
    · exact ⟨_, .named _ _ .j, rfl, fun _ => rfl⟩
    · exact ⟨_, .named _ _ .j2, rfl, fun _ => rfl⟩
  · left
    subst h4
    rw [map_ok] at h
    obtain ⟨a, ha, he⟩ := h
    simp only [Prod.mk.injEq] at he
    obtain ⟨rfl, rfl⟩ := he
    unfold isospinOf at ha
    split_ifs at ha with k1 k2 k3 <;> simp only [Except.ok.injEq, reduceCtorEq] at ha <;> subst ha <;> subst_vars
    · exact ⟨_, .named _ _ .tz, rfl, fun _ => rfl⟩
    · exact ⟨_, .named _ _ .plus, rfl, fun _ => rfl⟩
    · exact ⟨_, .named _ _ .minus, rfl, fun _ => rfl⟩
  · right
    simp only [Except.ok.injEq, Prod.mk.injEq] at h
    exact ⟨⟨h1, h2, h3, h4⟩, h.1.symm⟩

/-- A line that is accepted is one of the documented lines, or one with an unknown family of operators. -/
theorem step_says {Orb : Type} {W : World Orb} {ws : List String} {s s' : State} (h : step W s ws = .ok s') :
    (∃ c, Says W.nm ws c) ∨ ∃ p, s'.targets = s.targets ++ [p] ∧ p.body = none := by
  cases ws with
  | nil => simp [step] at h
  | cons k ws =>
    unfold step at h
    simp only [] at h
    split_ifs at h with h1 h2 h3 h4
    · simp only [Except.bind_eq_ok, word_ok] at h
      obtain ⟨⟨t, r⟩, rfl, ⟨f, r'⟩, h5, b, hb, _⟩ := h
      simp only at h5 hb
      subst h1; subst h5
      exact .inl ⟨_, .basis _ _ (basisOf_iff.1 hb)⟩
    · simp only [Except.bind_eq_ok, word_ok, Except.pure_ok, Except.ok.injEq] at h
      obtain ⟨⟨m, r⟩, rfl, ⟨i, r'⟩, h5, ⟨b, r''⟩, hb, ⟨o, r3⟩, h6, rfl⟩ := h
      simp only at h5 hb h6
      subst h2; subst h5; subst h6
      rcases bodyOf_some hb with ⟨w, hw, _⟩ | ⟨_, rfl⟩
      · exact .inl ⟨_, hw⟩
      · exact .inr ⟨_, rfl, rfl⟩
    · simp only [Except.bind_eq_ok, word_ok, int_ok] at h
      obtain ⟨⟨t, r⟩, rfl, ⟨a1, r1⟩, ⟨w1, e1, i1⟩, ⟨a2, r2⟩, ⟨w2, e2, i2⟩, ⟨a3, r3⟩, ⟨w3, e3, i3⟩, ⟨a4, r4⟩, ⟨w4, e4, i4⟩, ⟨o, r5⟩, e5, c, hc, _⟩ := h
      simp only at e1 e2 e3 e4 e5 i1 i2 i3 i4 hc
      subst h3 e1 e2 e3 e4 e5
      exact .inl ⟨_, .radial _ _ (coordOf_iff.1 hc) i1 i2 i3 i4⟩
    · simp only [Except.bind_eq_ok, word_ok, num_ok] at h
      obtain ⟨⟨x, r⟩, ⟨w1, e1, i1⟩, ⟨t, r1⟩, e2, ⟨f, r2⟩, e3, ⟨o, r3⟩, e4, b, hb, _⟩ := h
      simp only at e1 e2 e3 e4 i1 hb
      subst h4 e1 e2 e3 e4
      exact .inl ⟨_, .overlap _ _ _ i1 (basisOf_iff.1 hb)⟩

theorem step_grows {Orb : Type} {W : World Orb} {ws : List String} {s s' : State} (h : step W s ws = .ok s') :
    ∃ ps, s'.targets = s.targets ++ ps := by
  cases ws with
  | nil => simp [step] at h
  | cons k ws =>
    unfold step at h
    simp only [] at h
    split_ifs at h with h1 h2 h3 h4 <;> simp only [Except.bind_eq_ok, Except.pure_ok, Except.ok.injEq] at h
    · obtain ⟨_, _, _, _, _, _, _, _, rfl⟩ := h; exact ⟨[], by simp⟩
    · obtain ⟨_, _, _, _, _, _, _, _, rfl⟩ := h; exact ⟨_, rfl⟩
    · obtain ⟨_, _, _, _, _, _, _, _, _, _, _, _, _, _, rfl⟩ := h; exact ⟨_, rfl⟩
    · obtain ⟨_, _, _, _, _, _, _, _, _, _, _, _, rfl⟩ := h; exact ⟨_, rfl⟩

theorem fold_grows {Orb : Type} {W : World Orb} : ∀ {lines : List (List String)} {s s' : State},
    lines.foldlM (step W) s = .ok s' → ∃ ps, s'.targets = s.targets ++ ps := by
  intro lines
  induction lines with
  | nil => intro s s' h; simp only [List.foldlM_nil, Except.pure_ok, Except.ok.injEq] at h; subst h; exact ⟨[], by simp⟩
  | cons l lines ih =>
    intro s s' h
    simp only [List.foldlM_cons, Except.bind_eq_ok] at h
    obtain ⟨s1, h1, h2⟩ := h
    obtain ⟨p1, e1⟩ := step_grows h1
    obtain ⟨p2, e2⟩ := ih h2
    exact ⟨p1 ++ p2, by rw [e2, e1, List.append_assoc]⟩

theorem fold_script {Orb : Type} {W : World Orb} {lines : List (List String)} {cmds : List Cmd} (h : Script W.nm lines cmds) :
    ∀ s, lines.foldlM (step W) s = cmds.foldlM (applyCmd W) s := by
  induction h with
  | nil => intro s; rfl
  | cons h1 _ ih =>
    intro s
    simp only [List.foldlM_cons, says_step h1]
    congr 1
    funext s'
    exact ih s'

/-- When no target is left without a body, the lines are documented ones. -/
theorem script_of_fold {Orb : Type} {W : World Orb} : ∀ {lines : List (List String)} {s s' : State}, lines.foldlM (step W) s = .ok s' →
    (∀ p ∈ s'.targets, p.body ≠ none) → ∃ cmds, Script W.nm lines cmds := by
  intro lines
  induction lines with
  | nil => intro s s' _ _; exact ⟨[], .nil⟩
  | cons l lines ih =>
    intro s s' h hb
    simp only [List.foldlM_cons, Except.bind_eq_ok] at h
    obtain ⟨s1, h1, h2⟩ := h
    obtain ⟨cs, hcs⟩ := ih h2 hb
    rcases step_says h1 with ⟨c, hc⟩ | ⟨p, hp, hn⟩
    · exact ⟨c :: cs, .cons hc hcs⟩
    · obtain ⟨ps, e⟩ := fold_grows h2
      exact absurd hn (hb p (by rw [e, hp]; simp))

/-! ## The list of targets -/

def listOf : BasisType × String → List Cmd → List Params
  | _, [] => []
  | _, .basis b' f :: cs => listOf (b', f) cs
  | b, .target w out :: cs => paramsFor b w out :: listOf b cs

theorem mustExist_ok {Orb : Type} {W : World Orb} {f : String} : mustExist W f = .ok () ↔ W.orbitals f ≠ none := by
  unfold mustExist
  cases W.orbitals f <;> simp

theorem fold_targets {Orb : Type} {W : World Orb} : ∀ {cmds : List Cmd} {s s' : State}, cmds.foldlM (applyCmd W) s = .ok s' →
    s'.targets = s.targets ++ listOf (s.basis, s.file) cmds := by
  intro cmds
  induction cmds with
  | nil => intro s s' h; simp only [List.foldlM_nil, Except.pure_ok, Except.ok.injEq] at h; subst h; simp [listOf]
  | cons c cs ih =>
    intro s s' h
    simp only [List.foldlM_cons, Except.bind_eq_ok] at h
    obtain ⟨s1, h1, h2⟩ := h
    rw [ih h2]
    cases c with
    | basis b f =>
      simp only [applyCmd, Except.bind_eq_ok, Except.pure_ok, Except.ok.injEq] at h1
      obtain ⟨_, _, rfl⟩ := h1
      rfl
    | target w out =>
      have : s1 = { s with targets := s.targets ++ [paramsFor (s.basis, s.file) w out] } := by
        cases w <;> simp only [applyCmd, Except.bind_eq_ok, Except.pure_ok, Except.ok.injEq] at h1
        all_goals first
          | exact h1.symm
          | (obtain ⟨_, _, h⟩ := h1; exact h.symm)
      subst this
      simp [listOf]

theorem listOf_at : ∀ {cmds : List Cmd} (b : BasisType × String) {y : ℕ} {w : What} {out : String}, cmds[y]? = some (.target w out) →
    (listOf b cmds)[place cmds y]? = some (paramsFor (((cmds.take y).filterMap fun
      | .basis b f => some (b, f)
      | .target .. => none).getLast?.getD b) w out) := by
  intro cmds
  induction cmds with
  | nil => intro b y w out h; simp at h
  | cons c cs ih =>
    intro b y w out h
    cases y with
    | zero =>
      simp only [List.getElem?_cons_zero, Option.some.injEq] at h
      subst h
      simp [place, targetsOf, listOf]
    | succ y =>
      simp only [List.getElem?_cons_succ] at h
      cases c with
      | basis b' f =>
        have := ih (b', f) h
        simp only [place, targetsOf, List.take_succ_cons, List.filterMap_cons, listOf] at this ⊢
        rw [this]
        simp [List.getLast?_cons]
      | target w' out' =>
        have := ih b h
        simp only [place, targetsOf, List.take_succ_cons, List.filterMap_cons, listOf, List.length_cons, List.getElem?_cons_succ] at this ⊢
        rw [this]

theorem paramsFor_out (b : BasisType × String) (w : What) (out : String) : (paramsFor b w out).out = out := by
  cases w <;> rfl

theorem paramsFor_body (b : BasisType × String) (w : What) (out : String) : (paramsFor b w out).body = some (bodyFor w) := by
  cases w <;> rfl

theorem listOf_outs : ∀ (cmds : List Cmd) (b : BasisType × String), (listOf b cmds).map Params.out = (targetsOf cmds).map Prod.snd := by
  intro cmds
  induction cmds with
  | nil => intro b; rfl
  | cons c cs ih =>
    intro b
    cases c with
    | basis b' f => simpa [listOf, targetsOf] using ih (b', f)
    | target w out =>
      have := ih b
      simp only [targetsOf] at this
      simp [listOf, targetsOf, paramsFor_out, this]

/-! ## Elements -/

theorem elem_opOf {q : QN} {bra ket : Space} {mats : List Mat} (hf : Fits (allSectors q bra ket) mats bra ket)
    {v : Labels → ℕ → Labels → ℕ → ℝ}
    (h : ∀ i k b k' a c, (i, k) ∈ (allSectors q bra ket).pairs → bra[i]? = some b → ket[k]? = some k' → a < b.ns.length →
      c < k'.ns.length → elem (allSectors q bra ket) mats i a k c = v b.labels (b.ns.getD a 0) k'.labels (k'.ns.getD c 0)) :
    ∀ i a k c, elem (allSectors q bra ket) mats i a k c = opOf q bra ket v i a k c := by
  intro i a k c
  have hs := allSectors_spec q bra ket
  unfold opOf
  by_cases hp : (i, k) ∈ (allSectors q bra ket).pairs
  · obtain ⟨b, k', hb, hk, ha⟩ := (hs.mem i k).1 hp
    have ha : Allowed q b.labels k'.labels := ha
    simp only [hb, hk, ha, and_true]
    split_ifs with hd
    · exact h i k b k' a c hp hb hk hd.1 hd.2
    · refine elem_outside hf fun hd' => hd ?_
      simpa [dim_some hb, dim_some hk] using hd'
  · rw [elem_absent hp]
    cases hb : bra[i]? with
    | none => simp
    | some b =>
      cases hk : ket[k]? with
      | none => simp
      | some k' =>
        simp only
        rw [if_neg]
        rintro ⟨_, _, ha⟩
        exact hp ((hs.mem i k).2 ⟨b, k', hb, hk, ha⟩)

theorem radialElement_value {Orb : Type} {W : World Orb} {bt : BasisType} (hbt : bt ≠ .generic) {c : Coord} {order : Int} {q : QN}
    {sp : Space} (g : GoodSpace sp) {b k : Sub} (mb : b ∈ sp) (mk : k ∈ sp) (ha : Allowed q b.labels k.labels) (n n' : ℕ) :
    radialElement (fun b _ => W.spl b c) bt (radType c) order q n b.labels.l n' k.labels.l =
      .ok (radialValue W bt c order q n b.labels.l n' k.labels.l) := by
  unfold radialElement radialValue
  by_cases h0 : order = 0
  · simp [h0]
  · rw [if_neg h0, if_neg h0]
    cases bt with
    | generic => exact absurd rfl hbt
    | laguerre => simp
    | oscillator =>
      simp only [true_and]
      have hsign : (if radType c = .k then (-1 : Int) else 1) = if c = .k then -1 else 1 := by
        unfold radType
        cases c <;> simp
      rw [hsign]
      by_cases h1 : order = 1 ∧ q.J0 = 1 ∧ q.g0 = 1
      · rw [if_pos h1, if_pos h1]
        by_cases hc : c = .k
        · simp only [hc, if_true]
          rcases vector_selection g mb mk h1.2.1 h1.2.2 ha with hl | hl
          · have := Verif.Osc.momentum_up_is_integral n n' k.labels.l
            rw [hl]
            push_cast at this ⊢
            rw [this]
            simp only [grad, if_true, Verif.Osc.gradUp]
          · have := Verif.Osc.momentum_down_is_integral n n' b.labels.l
            rw [hl]
            push_cast at this ⊢
            rw [this]
            have hne : ¬ b.labels.l = b.labels.l + 1 + 1 := by omega
            simp only [grad, hne, if_false, Verif.Osc.gradDown]
            push_cast
            rfl
        · simp only [hc, if_false]
          have := Verif.Osc.coordinate_is_integral n b.labels.l n' k.labels.l (vector_selection g mb mk h1.2.1 h1.2.2 ha)
          push_cast at this
          rw [this]
      · rw [if_neg h1, if_neg h1]
        by_cases h2 : order = 2 ∧ (q.J0 = 0 ∨ q.J0 = 2) ∧ q.g0 = 0
        · rw [if_pos h2, if_pos h2]
          by_cases hc : c = .k
          · simp only [hc, if_true]
            have := Verif.Osc.momentumSqr_is_integral n b.labels.l n' k.labels.l (quadrupole_selection g mb mk h2.2.1 h2.2.2 ha)
            push_cast at this
            rw [this]
          · simp only [hc, if_false]
            have := Verif.Osc.coordinateSqr_is_integral n b.labels.l n' k.labels.l (quadrupole_selection g mb mk h2.2.1 h2.2.2 ha)
            push_cast at this
            rw [this]
        · rw [if_neg h2, if_neg h2]

theorem generateRadial_ok {Orb : Type} {W : World Orb} {bt : BasisType} (hbt : bt ≠ .generic) (c : Coord) (order : Int) (q : QN)
    {sp : Space} (g : GoodSpace sp) :
    ∃ mats, generateRadial W bt c order sp (allSectors q sp sp) = .ok mats ∧ Fits (allSectors q sp sp) mats sp sp ∧
      ∀ i a k d, elem (allSectors q sp sp) mats i a k d =
        opOf q sp sp (fun x n y n' => radialValue W bt c order q n x.l n' y.l) i a k d := by
  obtain ⟨mats, h1, h2, h3⟩ := generateE_element (secs := allSectors q sp sp) (bra := sp) (ket := sp)
    (f := fun b n k n' => radialElement (fun b _ => W.spl b c) bt (radType c) order q n b.l n' k.l)
    (v := fun x n y n' => radialValue W bt c order q n x.l n' y.l) (allSectors_spec q sp sp)
    (fun b mb k mk ha n _ n' _ => radialElement_value hbt g mb mk ha n n')
  exact ⟨mats, h1, h2, elem_opOf h2 h3⟩

theorem generateHarmonic_ok {Orb : Type} {W : World Orb} {bt : BasisType} (hbt : bt ≠ .generic) (c : Coord) (order : Int) (q : QN)
    {sp : Space} (g : GoodSpace sp) :
    ∃ mats, generateHarmonic W bt c order sp (allSectors q sp sp) = .ok mats ∧ Fits (allSectors q sp sp) mats sp sp ∧
      ∀ i a k d, elem (allSectors q sp sp) mats i a k d =
        opOf q sp sp (fun x n y n' => W.crme x y q.J0 * radialValue W bt c order q n x.l n' y.l) i a k d := by
  obtain ⟨rad, h1, h2, h3⟩ := generateRadial_ok (W := W) hbt c order q g
  obtain ⟨mats, m1, m2, m3⟩ := solidHarmonic_element (crme := W.crme) (allSectors_spec q sp sp) h1 h2
  refine ⟨mats, m1, m2, ?_⟩
  refine elem_opOf m2 ?_
  intro i k b k' a d hp hb hk hla hlc
  rw [m3 i k b k' a d hb hk, h3]
  obtain ⟨b', k'', hb', hk'', ha⟩ := ((allSectors_spec q sp sp).mem i k).1 hp
  rw [hb] at hb'; rw [hk] at hk''
  cases hb'; cases hk''
  have ha : Allowed q b.labels k'.labels := ha
  simp [opOf, hb, hk, hla, hlc, ha, allSectors]

theorem map_scale {s : Sectors} {mats : List Mat} {sp : Space} (hf : Fits s mats sp sp) (x : ℝ) :
    Fits s (mats.map (scale x)) sp sp ∧ ∀ i a k c, elem s (mats.map (scale x)) i a k c = x * elem s mats i a k c := by
  obtain ⟨h1, h2⟩ := EwGen.scaled_elem hf (fun _ => x)
  have : (s.pairs.zip mats).map (fun y => scale x y.2) = mats.map (scale x) := by
    have e := List.map_snd_zip (l₁ := s.pairs) (l₂ := mats) (by rw [hf.length])
    conv_rhs => rw [← e]
    rw [List.map_map]
    rfl
  rw [this] at h1 h2
  exact ⟨h1, h2⟩

/-- A written file, from the elements of the blocks. -/
theorem write_ok {Orb : Type} {W : World Orb} (laws : LibLaws W.lib) (h0 : W.rnd 0 = 0) {bra ket : Space} (hb : Built W.lib bra)
    (hk : Built W.lib ket) {q : QN} {mats : List Mat} (hf : Fits (allSectors q bra ket) mats bra ket) {O : EwGen.Op}
    (he : ∀ i a k c, elem (allSectors q bra ket) mats i a k c = O i a k c) (type : Char) :
    ∃ ls, writeFile W.lib W.rnd true type bra ket (allSectors q bra ket) mats = .ok ls ∧ Stores W ls type bra ket q O := by
  obtain ⟨ls, mats', h1, h2, h3, h4⟩ := file_round_trip laws h0 true type q hb hk hf []
  rw [List.append_nil] at h2
  exact ⟨ls, h1, mats', h2, h3, fun i a k c => by rw [h4, he]⟩

end Verif.Obme.RadialGen
