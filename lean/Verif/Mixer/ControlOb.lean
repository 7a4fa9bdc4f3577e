import Verif.Mixer.ControlLines

/-!
# Properties C89-C93 for `obmixer`
-/

namespace Verif.Mixer.Control
open Verif Verif.Mapping Verif.Xform Verif.Obme Verif.Mixer
open Verif.H2 hiding Mat Subspace

/-! ## Specification -/

def ObCmd.basis? : ObCmd → Option (BasisType × String)
  | .basis t f => some (t, f)
  | _ => none

def ObCmd.length? : ObCmd → Option ℝ
  | .length x => some x
  | _ => none

def ObCmd.xform? : ObCmd → Option (String × String)
  | .xform id f => some (id, f)
  | _ => none

def ObCmd.source? : ObCmd → Option ObDecl
  | .source d => some d
  | _ => none

def ObCmd.add? : ObCmd → Option (String × ℝ)
  | .add id x => some (id, x)
  | _ => none

def ObCmd.target? : ObCmd → Option (String × String)
  | .target id f => some (id, f)
  | _ => none

/-- The kinds of line of `obmixer`. -/
inductive ObGroup where
  | basis | length | xform | source | target
  deriving DecidableEq, Repr

def ObCmd.group : ObCmd → ObGroup
  | .basis _ _ => .basis
  | .length _ => .length
  | .xform _ _ => .xform
  | .source _ => .source
  | .add _ _ => .source
  | .target _ _ => .target

/-! ## The same declarations as in `h2mixer` -/

/-- The command of `h2mixer` that does the same to the one-body sources and transformations. -/
def ObCmd.toCmd : ObCmd → Cmd
  | .xform id f => .xform id f
  | .source d => .ob d
  | .add id x => .addOb id x
  | _ => .mass 0

theorem readO_ok {nm : Numbers} {ls : List CLine} {cfg : ObConfig} : readO nm ls = .ok cfg ↔
    ∃ cs, ls.mapM (parseO nm) = .ok cs ∧ cs.foldlM execO {} = .ok cfg := by
  unfold readO
  generalize ({} : ObConfig) = c0
  induction ls generalizing c0 with
  | nil => simp
  | cons l ls ih =>
    rw [List.foldlM_cons, List.mapM_cons]
    simp only [stepO, Except.bind_eq_ok]
    constructor
    · rintro ⟨c1, ⟨c, h1, h2⟩, h3⟩
      obtain ⟨cs, h4, h5⟩ := (ih c1).mp h3
      refine ⟨c :: cs, ⟨c, h1, cs, h4, rfl⟩, ?_⟩
      rw [List.foldlM_cons, h2, Except.ok_bind', h5]
    · rintro ⟨_, ⟨c, h1, cs, h4, h6⟩, h5⟩
      cases h6
      rw [List.foldlM_cons, Except.bind_eq_ok] at h5
      obtain ⟨c1, h2, h5⟩ := h5
      exact ⟨c1, ⟨c, h1, h2⟩, (ih c1).mpr ⟨cs, h4, h5⟩⟩

theorem execO_ok {cfg cfg' : ObConfig} {c : ObCmd} : execO cfg c = .ok cfg' ↔
    cfg'.basis = (c.basis?.map (·.1)).getD cfg.basis ∧
    cfg'.orbitals = ((c.basis?.map (·.2)).map some).getD cfg.orbitals ∧ cfg'.length = c.length?.getD cfg.length ∧
    cfg'.xforms = xfStep cfg.xforms c.toCmd ∧ obStep cfg.sources c.toCmd = .ok cfg'.sources ∧
    cfg'.targets = cfg.targets ++ c.target?.toList := by
  obtain ⟨a1, a2, a3, a4, a5, a6⟩ := cfg
  obtain ⟨b1, b2, b3, b4, b5, b6⟩ := cfg'
  cases c <;>
    simp only [execO, xfStep, obStep, ObCmd.toCmd, ObCmd.basis?, ObCmd.length?, ObCmd.target?, Cmd.xform?,
      Option.getD_none, Option.getD_some, Option.map_some, Option.map_none, Option.toList_none, Option.toList_some,
      List.append_nil, Except.ok.injEq, ObConfig.mk.injEq, Except.bind_eq_ok, Except.pure_ok]
  case add id c =>
    constructor
    · rintro ⟨l, h1, rfl, rfl, rfl, rfl, rfl, rfl⟩
      simp [h1]
    · rintro ⟨rfl, rfl, rfl, rfl, h, rfl⟩
      exact ⟨_, h, by simp⟩
  all_goals
    constructor
    · rintro ⟨rfl, rfl, rfl, rfl, rfl, rfl⟩
      simp
    · rintro ⟨rfl, rfl, rfl, rfl, rfl, rfl⟩
      simp

theorem foldO_ok {cs : List ObCmd} : ∀ {cfg cfg' : ObConfig}, cs.foldlM execO cfg = .ok cfg' ↔
    cfg'.basis = cs.foldl (fun a c => (c.basis?.map (·.1)).getD a) cfg.basis ∧
    cfg'.orbitals = cs.foldl (fun a c => ((c.basis?.map (·.2)).map some).getD a) cfg.orbitals ∧
    cfg'.length = cs.foldl (fun a c => c.length?.getD a) cfg.length ∧
    cfg'.xforms = (cs.map ObCmd.toCmd).foldl xfStep cfg.xforms ∧
    (cs.map ObCmd.toCmd).foldlM obStep cfg.sources = .ok cfg'.sources ∧
    cfg'.targets = cfg.targets ++ cs.filterMap ObCmd.target? := by
  induction cs with
  | nil =>
    intro cfg cfg'
    obtain ⟨a1, a2, a3, a4, a5, a6⟩ := cfg
    obtain ⟨b1, b2, b3, b4, b5, b6⟩ := cfg'
    simp only [List.foldlM_nil, List.foldl_nil, List.map_nil, Except.pure_ok, Except.ok.injEq, ObConfig.mk.injEq,
      List.filterMap_nil, List.append_nil]
    constructor
    · rintro ⟨rfl, rfl, rfl, rfl, rfl, rfl⟩
      simp
    · rintro ⟨rfl, rfl, rfl, rfl, rfl, rfl⟩
      simp
  | cons c cs ih =>
    intro cfg cfg'
    rw [List.foldlM_cons, Except.bind_eq_ok]
    simp only [List.foldl_cons, List.map_cons]
    rw [List.foldlM_cons, Except.bind_eq_ok]
    have ht : c.target?.toList ++ cs.filterMap ObCmd.target? = (c :: cs).filterMap ObCmd.target? := by
      rw [List.filterMap_cons]
      cases c.target? <;> rfl
    rw [← ht, ← List.append_assoc]
    constructor
    · rintro ⟨c1, h1, h2⟩
      obtain ⟨e1, e2, e3, e4, e5, e6⟩ := execO_ok.mp h1
      obtain ⟨i1, i2, i3, i4, i5, i6⟩ := ih.mp h2
      rw [e1] at i1
      rw [e2] at i2
      rw [e3] at i3
      rw [e4] at i4
      rw [e6] at i6
      exact ⟨i1, i2, i3, i4, ⟨_, e5, i5⟩, i6⟩
    · rintro ⟨i1, i2, i3, i4, ⟨l, e5, i5⟩, i6⟩
      exact ⟨⟨(c.basis?.map (·.1)).getD cfg.basis, ((c.basis?.map (·.2)).map some).getD cfg.orbitals,
        c.length?.getD cfg.length, xfStep cfg.xforms c.toCmd, l, cfg.targets ++ c.target?.toList⟩,
        execO_ok.mpr ⟨rfl, rfl, rfl, rfl, e5, rfl⟩, ih.mpr ⟨i1, i2, i3, i4, i5, i6⟩⟩

theorem foldl_last' {α β : Type} (f : β → Option α) : ∀ (cs : List β) (a : α),
    cs.foldl (fun a c => (f c).getD a) a = (cs.filterMap f).getLast?.getD a
  | [], a => rfl
  | c :: cs, a => by
    rw [List.foldl_cons, foldl_last' f cs, List.filterMap_cons]
    cases h : f c with
    | none => rfl
    | some b =>
      simp only [Option.getD_some]
      cases h' : (cs.filterMap f).getLast? with
      | none =>
        rw [List.getLast?_eq_none_iff] at h'
        rw [h']
        rfl
      | some x =>
        rw [List.getLast?_cons, h']
        rfl

/-- **C89.** Settings of `obmixer`: the last `set-basis` line gives both the basis and the orbitals, the last
`set-length-parameter` line the length; the targets are those of the `define-target` lines in order. -/
theorem settings_obmixer {nm : Numbers} {ls : List CLine} {cfg : ObConfig} (h : readO nm ls = .ok cfg) :
    ∃ cs, ls.mapM (parseO nm) = .ok cs ∧
      (∀ t f, (cs.filterMap ObCmd.basis?).getLast? = some (t, f) → cfg.basis = t ∧ cfg.orbitals = some f) ∧
      ((cs.filterMap ObCmd.basis?).getLast? = none → cfg.basis = .oscillator ∧ cfg.orbitals = none) ∧
      cfg.length = (cs.filterMap ObCmd.length?).getLast?.getD 1 ∧
      (∀ x, cfg.xforms.lookup x = (cs.filterMap ObCmd.xform?).lookup x) ∧ cfg.targets = cs.filterMap ObCmd.target? := by
  obtain ⟨cs, h1, h2⟩ := readO_ok.mp h
  obtain ⟨i1, i2, i3, i4, -, i6⟩ := foldO_ok.mp h2
  rw [foldl_last' fun c : ObCmd => c.basis?.map (·.1)] at i1
  rw [foldl_last' fun c : ObCmd => (c.basis?.map (·.2)).map some] at i2
  rw [foldl_last'] at i3
  have m1 : cs.filterMap (fun c => c.basis?.map (·.1)) = (cs.filterMap ObCmd.basis?).map (·.1) := by
    rw [List.map_filterMap]
  have m2 : cs.filterMap (fun c => (c.basis?.map (·.2)).map some) = (cs.filterMap ObCmd.basis?).map fun p => some p.2 := by
    rw [List.map_filterMap]
    congr 1
    funext c
    rw [Option.map_map]
    rfl
  rw [m1, List.getLast?_map] at i1
  rw [m2, List.getLast?_map] at i2
  refine ⟨cs, h1, ?_, ?_, i3, ?_, i6⟩
  · intro t f ht
    rw [i1, i2, ht]
    exact ⟨rfl, rfl⟩
  · intro ht
    rw [i1, i2, ht]
    exact ⟨rfl, rfl⟩
  · intro x
    rw [i4, foldl_xf]
    have : (cs.map ObCmd.toCmd).filterMap Cmd.xform? = cs.filterMap ObCmd.xform? := by
      rw [List.filterMap_map]
      congr 1
      funext c
      cases c <;> rfl
    rw [this]
    rfl

theorem toCmd_ob (c : ObCmd) : c.toCmd.ob? = c.source? := by cases c <;> rfl

theorem toCmd_add (c : ObCmd) : c.toCmd.addOb? = c.add? := by cases c <;> rfl

theorem toCmd_terms (cs : List ObCmd) :
    obTerms (cs.map ObCmd.toCmd) = (cs.takeWhile fun c => c.source?.isNone).filterMap ObCmd.add? := by
  unfold obTerms termsOf
  rw [List.takeWhile_map, List.filterMap_map]
  simp only [Function.comp_def, toCmd_ob, toCmd_add]

theorem map_split {cs : List ObCmd} {pre post : List Cmd} {c : Cmd} (h : cs.map ObCmd.toCmd = pre ++ c :: post) :
    ∃ p x q, cs = p ++ x :: q ∧ pre = p.map ObCmd.toCmd ∧ c = x.toCmd ∧ post = q.map ObCmd.toCmd := by
  rw [List.map_eq_append_iff] at h
  obtain ⟨p, r, rfl, rfl, h⟩ := h
  rw [List.map_eq_cons_iff] at h
  obtain ⟨x, q, rfl, rfl, rfl⟩ := h
  exact ⟨p, x, q, rfl, rfl, rfl, rfl⟩

theorem source_of {x : ObCmd} {e : ObDecl} (h : Cmd.ob e = x.toCmd) : x = .source e := by
  cases x <;> simp_all [ObCmd.toCmd]

theorem add_of {x : ObCmd} {id : String} {r : ℝ} (h : Cmd.addOb id r = x.toCmd) : x = .add id r := by
  cases x <;> simp_all [ObCmd.toCmd]

/-- **C91.** A term of a combination of `obmixer` belongs to the source defined last before it. -/
theorem terms_obmixer {nm : Numbers} {ls : List CLine} {cfg : ObConfig} (h : readO nm ls = .ok cfg) :
    ∃ cs, ls.mapM (parseO nm) = .ok cs ∧ (∀ (k : ℕ) d, cfg.sources[k]? = some d ↔
      ∃ pre e post, cs = pre ++ .source e :: post ∧ (pre.filterMap ObCmd.source?).length = k ∧
        d = e.withTerms ((post.takeWhile fun c => c.source?.isNone).filterMap ObCmd.add?)) ∧
      ∀ pre e post, cs = pre ++ .source e :: post → e.isLinear = false →
        (post.takeWhile fun c => c.source?.isNone).filterMap ObCmd.add? = [] := by
  obtain ⟨cs, h1, h2⟩ := readO_ok.mp h
  obtain ⟨-, -, -, -, i5, -⟩ := foldO_ok.mp h2
  have hf : ∀ p : List ObCmd, (p.map ObCmd.toCmd).filterMap Cmd.ob? = p.filterMap ObCmd.source? := by
    intro p
    rw [List.filterMap_map]
    simp only [Function.comp_def, toCmd_ob]
  refine ⟨cs, h1, fun k d => ?_, ?_⟩
  · rw [(ob_start.mp i5).1, obOf_get]
    constructor
    · rintro ⟨pre, e, post, he, hk, hd⟩
      obtain ⟨p, x, q, rfl, rfl, hx, rfl⟩ := map_split he
      obtain rfl := source_of hx
      rw [toCmd_terms] at hd
      rw [hf] at hk
      exact ⟨p, e, q, rfl, hk, hd⟩
    · rintro ⟨p, e, q, rfl, hk, hd⟩
      refine ⟨p.map ObCmd.toCmd, e, q.map ObCmd.toCmd, by simp [ObCmd.toCmd], by rw [hf]; exact hk, ?_⟩
      rw [toCmd_terms]
      exact hd
  · intro p e q he hl
    have := (ob_start.mp i5).2.2 (p.map ObCmd.toCmd) e (q.map ObCmd.toCmd) (by rw [he]; simp [ObCmd.toCmd]) hl
    rwa [toCmd_terms] at this

/-- **C92.** Which control files `obmixer` accepts: every line can be read and the source last defined before an
`add-source` line is a linear combination. -/
theorem accepted_obmixer {nm : Numbers} {ls : List CLine} : (∃ cfg, readO nm ls = .ok cfg) ↔
    ∃ cs, ls.mapM (parseO nm) = .ok cs ∧ ∀ pre id x post, cs = pre ++ .add id x :: post →
        ∃ y ts, (pre.filterMap ObCmd.source?).getLast? = some (.linear y ts) := by
  have hf : ∀ p : List ObCmd, (p.map ObCmd.toCmd).filterMap Cmd.ob? = p.filterMap ObCmd.source? := by
    intro p
    rw [List.filterMap_map]
    simp only [Function.comp_def, toCmd_ob]
  have key : ∀ cs : List ObCmd, (∀ pre id x post, cs.map ObCmd.toCmd = pre ++ .addOb id x :: post →
        ∃ y ts, (pre.filterMap Cmd.ob?).getLast? = some (.linear y ts)) ↔
      ∀ pre id x post, cs = pre ++ .add id x :: post →
        ∃ y ts, (pre.filterMap ObCmd.source?).getLast? = some (.linear y ts) := by
    intro cs
    constructor
    · rintro h p id x q rfl
      have := h (p.map ObCmd.toCmd) id x (q.map ObCmd.toCmd) (by simp [ObCmd.toCmd])
      rwa [hf] at this
    · intro h pre id x post he
      obtain ⟨p, y, q, rfl, rfl, hx, rfl⟩ := map_split he
      obtain rfl := add_of hx
      rw [hf]
      exact h p id x q rfl
  constructor
  · rintro ⟨cfg, h⟩
    obtain ⟨cs, h1, h2⟩ := readO_ok.mp h
    obtain ⟨-, -, -, -, i5, -⟩ := foldO_ok.mp h2
    exact ⟨cs, h1, (key cs).mp (ob_terms_iff.mp (ob_start.mp i5).2)⟩
  · rintro ⟨cs, h1, h2⟩
    exact ⟨⟨_, _, _, _, obOf (cs.map ObCmd.toCmd), _⟩, readO_ok.mpr ⟨cs, h1, foldO_ok.mpr ⟨rfl, rfl, rfl, rfl,
      ob_start.mpr ⟨rfl, ob_terms_iff.mpr ((key cs).mpr h2)⟩, rfl⟩⟩⟩

/-- **C90.** The order of lines of different kinds does not matter to `obmixer`. -/
theorem order_obmixer {cs cs' : List ObCmd}
    (h : ∀ g, cs.filter (fun c => c.group = g) = cs'.filter fun c => c.group = g) (cfg : ObConfig) :
    cs.foldlM execO {} = .ok cfg ↔ cs'.foldlM execO {} = .ok cfg := by
  have ff : ∀ {α : Type} (f : α → ObCmd → α) (g : ObGroup) (_ : ∀ a c, c.group ≠ g → f a c = a) (cs : List ObCmd) (a : α),
      cs.foldl f a = (cs.filter fun c => c.group = g).foldl f a := by
    intro α f g hf cs
    induction cs with
    | nil => intro a; rfl
    | cons c cs ih =>
      intro a
      rw [List.foldl_cons, List.filter_cons]
      by_cases hp : c.group = g
      · simp [hp, ih]
      · simp [hp, hf a c hp, ih]
  have fm : ∀ {α : Type} (f : α → ObCmd → Except Err α) (g : ObGroup) (_ : ∀ a c, c.group ≠ g → f a c = .ok a)
      (cs : List ObCmd) (a : α), cs.foldlM f a = (cs.filter fun c => c.group = g).foldlM f a := by
    intro α f g hf cs
    induction cs with
    | nil => intro a; rfl
    | cons c cs ih =>
      intro a
      rw [List.foldlM_cons, List.filter_cons]
      by_cases hp : c.group = g
      · rw [if_pos (by simpa using hp), List.foldlM_cons]
        congr 1
        funext x
        exact ih x
      · rw [if_neg (by simpa using hp), hf a c hp, Except.ok_bind', ih]
  have ht : cs.filterMap ObCmd.target? = cs'.filterMap ObCmd.target? := by
    have : ∀ cs : List ObCmd, cs.filterMap ObCmd.target? =
        (cs.filter fun c => c.group = .target).filterMap ObCmd.target? := by
      intro cs
      induction cs with
      | nil => rfl
      | cons c cs ih =>
        rw [List.filterMap_cons, List.filter_cons]
        cases c <;> simp [ObCmd.group, ObCmd.target?, ih]
    rw [this cs, this cs', h]
  rw [foldO_ok (cs := cs), foldO_ok (cs := cs'), ht]
  simp only [List.foldl_map, List.foldlM_map]
  rw [ff _ .basis (by rintro a (_ | _) h <;> first | rfl | simp [ObCmd.group] at h) cs,
    ff _ .basis (by rintro a (_ | _) h <;> first | rfl | simp [ObCmd.group] at h) cs', h .basis,
    ff _ .basis (by rintro a (_ | _) h <;> first | rfl | simp [ObCmd.group] at h) cs,
    ff _ .basis (by rintro a (_ | _) h <;> first | rfl | simp [ObCmd.group] at h) cs', h .basis,
    ff _ .length (by rintro a (_ | _) h <;> first | rfl | simp [ObCmd.group] at h) cs,
    ff _ .length (by rintro a (_ | _) h <;> first | rfl | simp [ObCmd.group] at h) cs', h .length,
    ff _ .xform (by rintro a (_ | _) h <;> first | rfl | simp [ObCmd.group] at h) cs,
    ff _ .xform (by rintro a (_ | _) h <;> first | rfl | simp [ObCmd.group] at h) cs', h .xform,
    fm _ .source (by rintro a (_ | _) h <;> first | rfl | simp [ObCmd.group] at h) cs,
    fm _ .source (by rintro a (_ | _) h <;> first | rfl | simp [ObCmd.group] at h) cs', h .source]

/-! ## Lines -/

/-- The operators with fixed names, as documented at the head of `obmixer.cpp`: mode, name, type, order, character. -/
inductive Named : String → String → SrcType → Int → QN → Prop where
  | identity : Named "kinematic" "identity" (.radial .o) 0 ⟨0, 0, 0⟩
  | r : Named "kinematic" "r" (.radial .r) 1 ⟨1, 1, 0⟩
  | ik : Named "kinematic" "ik" (.radial .k) 1 ⟨1, 1, 0⟩
  | rr : Named "kinematic" "r.r" (.radial .r) 2 ⟨0, 0, 0⟩
  | ikik : Named "kinematic" "ik.ik" (.radial .k) 2 ⟨0, 0, 0⟩
  | l : Named "am" "l" (.am .orbital) 1 ⟨1, 0, 0⟩
  | l2 : Named "am" "l2" (.am .orbital) 2 ⟨0, 0, 0⟩
  | s : Named "am" "s" (.am .spin) 1 ⟨1, 0, 0⟩
  | s2 : Named "am" "s2" (.am .spin) 2 ⟨0, 0, 0⟩
  | j : Named "am" "j" (.am .total) 1 ⟨1, 0, 0⟩
  | j2 : Named "am" "j2" (.am .total) 2 ⟨0, 0, 0⟩
  | tz : Named "isospin" "tz" .isospin 1 ⟨0, 0, 0⟩
  | tp : Named "isospin" "t+" .isospin 1 ⟨0, 0, 1⟩
  | tm : Named "isospin" "t-" .isospin 1 ⟨0, 0, -1⟩
  | cp : Named "ladder" "c+" (.ladder true) 1 ⟨1, 1, 0⟩
  | c : Named "ladder" "c" (.ladder false) 1 ⟨1, 1, 0⟩

/-- The codes for the coordinate of a solid harmonic. -/
inductive Code : String → Coord → Prop where
  | r : Code "r" .r
  | k : Code "k" .k
  | ik : Code "ik" .k
  | o : Code "o" .o
  | g : Code "g" .g

/-- Words of the commands of `obmixer`, with all arguments. -/
inductive PatternO : ObCmd → List Token → Prop where
  | oscillator (f : String) : PatternO (.basis .oscillator f) [.lit "set-basis", .lit "oscillator", .lit f]
  | laguerre (f : String) : PatternO (.basis .laguerre f) [.lit "set-basis", .lit "laguerre", .lit f]
  | length (x : ℝ) : PatternO (.length x) [.lit "set-length-parameter", .num x]
  | xform (id f : String) : PatternO (.xform id f) [.lit "define-xform", .lit id, .lit f]
  | named {mode id : String} {t : SrcType} {order : Int} {qn : QN} (f : String) : Named mode id t order qn →
      PatternO (.source (.generated id t order qn f)) [.lit "define-source", .lit mode, .lit id, .lit f]
  | solid {c : String} {t : Coord} (id : String) (order J0 : Int) (f : String) : Code c t →
      PatternO (.source (.generated id (.radial t) order ⟨J0, J0.tmod 2, 0⟩ f))
        [.lit "define-source", .lit "solid-harmonic", .lit id, .lit c, .int order, .int J0, .lit f]
  | input (id f : String) (q : QN) : PatternO (.source (.input id f q))
      (.lit "define-source" :: .lit "input" :: .lit id :: .lit f :: QN.tokens q)
  | linear (id : String) : PatternO (.source (.linear id []))
      [.lit "define-source", .lit "linear-combination", .lit id]
  | product (id a b : String) (J0 : Int) (x : ℝ) : PatternO (.source (.product id a b J0 x))
      [.lit "define-source", .lit "tensor-product", .lit id, .lit a, .lit b, .int J0, .num x]
  | obxform (id s x : String) : PatternO (.source (.xform id s x))
      [.lit "define-source", .lit "xform", .lit id, .lit s, .lit x]
  | add (id : String) (x : ℝ) : PatternO (.add id x) [.lit "add-source", .lit id, .num x]
  | target (id f : String) : PatternO (.target id f) [.lit "define-target", .lit id, .lit f]

/-- Words of the commands with the last argument left to its default. -/
inductive ShortO : ObCmd → List Token → Prop where
  | named {mode id : String} {t : SrcType} {order : Int} {qn : QN} : Named mode id t order qn →
      ShortO (.source (.generated id t order qn "")) [.lit "define-source", .lit mode, .lit id]
  | solid {c : String} {t : Coord} (id : String) (order J0 : Int) : Code c t →
      ShortO (.source (.generated id (.radial t) order ⟨J0, J0.tmod 2, 0⟩ ""))
        [.lit "define-source", .lit "solid-harmonic", .lit id, .lit c, .int order, .int J0]
  | product (id a b : String) (J0 : Int) : ShortO (.source (.product id a b J0 1))
      [.lit "define-source", .lit "tensor-product", .lit id, .lit a, .lit b, .int J0]

/-- `define-xform` with missing arguments. -/
inductive MissingO : ObCmd → List Token → Prop where
  | file (id : String) : MissingO (.xform id "") [.lit "define-xform", .lit id]
  | both : MissingO (.xform "" "") [.lit "define-xform"]

/-- What a line of `obmixer` means. -/
def MeansO (nm : Numbers) (l : CLine) (c : ObCmd) : Prop :=
  (∃ p lead rest, PatternO c p ∧ l.words = lead ++ rest ∧ List.Forall₂ (Token.reads nm) p lead) ∨
    (∃ p, ShortO c p ∧ l.trailing = false ∧ List.Forall₂ (Token.reads nm) p l.words) ∨
    ∃ p, MissingO c p ∧ List.Forall₂ (Token.reads nm) p l.words

theorem named_kin {id : String} {t : SrcType} {o : Int} {q : QN} :
    kinTable.lookup id = some (t, o, q) ↔ Named "kinematic" id t o q := by
  constructor
  · intro h
    unfold kinTable at h
    simp only [List.lookup_cons] at h
    repeat' split at h
    all_goals first | (simp_all; done) | (simp_all; obtain ⟨rfl, rfl, rfl⟩ := h; constructor)
  · intro h
    generalize hm : "kinematic" = m at h
    cases h <;> first | rfl | (simp at hm)

theorem named_am {id : String} {t : SrcType} {o : Int} {q : QN} :
    amTable.lookup id = some (t, o, q) ↔ Named "am" id t o q := by
  constructor
  · intro h
    unfold amTable at h
    simp only [List.lookup_cons] at h
    repeat' split at h
    all_goals first | (simp_all; done) | (simp_all; obtain ⟨rfl, rfl, rfl⟩ := h; constructor)
  · intro h
    generalize hm : "am" = m at h
    cases h <;> first | rfl | (simp at hm)

theorem named_iso {id : String} {t : SrcType} {o : Int} {q : QN} :
    isoTable.lookup id = some (t, o, q) ↔ Named "isospin" id t o q := by
  constructor
  · intro h
    unfold isoTable at h
    simp only [List.lookup_cons] at h
    repeat' split at h
    all_goals first | (simp_all; done) | (simp_all; obtain ⟨rfl, rfl, rfl⟩ := h; constructor)
  · intro h
    generalize hm : "isospin" = m at h
    cases h <;> first | rfl | (simp at hm)

theorem named_lad {id : String} {t : SrcType} {o : Int} {q : QN} :
    ladTable.lookup id = some (t, o, q) ↔ Named "ladder" id t o q := by
  constructor
  · intro h
    unfold ladTable at h
    simp only [List.lookup_cons] at h
    repeat' split at h
    all_goals first | (simp_all; done) | (simp_all; obtain ⟨rfl, rfl, rfl⟩ := h; constructor)
  · intro h
    generalize hm : "ladder" = m at h
    cases h <;> first | rfl | (simp at hm)

theorem code_iff {s : String} {c : Coord} : coordOf s = .ok c ↔ Code s c := by
  constructor
  · intro h
    unfold coordOf at h
    repeat' split at h
    all_goals first | (cases h; done) | (cases h; subst_vars; constructor)
  · intro h
    cases h <;> simp [coordOf]

theorem tabulated_ok {tab : List (String × SrcType × Int × QN)} {t : Bool} {id : String} {ws : List String} {d : ObDecl} :
    tabulated tab t id ws = .ok d ↔ ∃ ty o q f, tab.lookup id = some (ty, o, q) ∧ optWord t ws = .ok f ∧
      d = .generated id ty o q f := by
  unfold tabulated
  cases h : tab.lookup id with
  | none => simp
  | some p =>
    obtain ⟨ty, o, q⟩ := p
    simp only [Except.bind_eq_ok, Except.pure_ok, Except.ok.injEq, Option.some.injEq, Prod.mk.injEq]
    constructor
    · rintro ⟨f, h1, rfl⟩
      exact ⟨ty, o, q, f, ⟨rfl, rfl, rfl⟩, h1, rfl⟩
    · rintro ⟨_, _, _, f, ⟨rfl, rfl, rfl⟩, h1, rfl⟩
      exact ⟨f, h1, rfl⟩

/-- **C92.** A line of `obmixer` is accepted exactly if it begins with the words of a command, of which the last
argument may be left out for some commands if nothing follows, and its meaning is that command. -/
theorem parseO_iff {nm : Numbers} {l : CLine} {c : ObCmd} : parseO nm l = .ok c ↔ MeansO nm l c := by
  obtain ⟨words, t⟩ := l
  constructor
  · intro h
    unfold parseO at h
    cases words with
    | nil => cases h
    | cons kw ws =>
      simp only at h
      split at h
      · next e =>
        simp only [parseBasis, Except.bind_eq_ok, word_ok] at h
        obtain ⟨a, h1, f, h2, h⟩ := h
        split at h
        · next e' =>
          cases h
          refine .inl ⟨_, [kw, a.1, f.1], f.2, .oscillator f.1, ?_, ?_⟩
          · simp [h1, h2]
          · simp [Token.reads, e, e']
        split at h
        · next e' =>
          cases h
          refine .inl ⟨_, [kw, a.1, f.1], f.2, .laguerre f.1, ?_, ?_⟩
          · simp [h1, h2]
          · simp [Token.reads, e, e']
        · cases h
      split at h
      · next e =>
        simp only [Except.bind_eq_ok, num_ok, Except.pure_ok, Except.ok.injEq] at h
        obtain ⟨A, ⟨x1, h3, h3'⟩, rfl⟩ := h
        refine .inl ⟨_, [kw, x1], A.2, .length A.1, ?_, ?_⟩
        · simp [h3]
        · simp [Token.reads, e, h3']
      split at h
      · next e =>
        cases h
        match ws with
        | [] => exact .inr (.inr ⟨_, .both, by simp [Token.reads, e]⟩)
        | [a] => exact .inr (.inr ⟨_, .file a, by simp [Token.reads, e]⟩)
        | a :: b :: rest => exact .inl ⟨_, [kw, a, b], rest, .xform a b, rfl, by simp [Token.reads, e]⟩
      split at h
      · next e =>
        simp only [Except.bind_eq_ok, Except.pure_ok, Except.ok.injEq] at h
        obtain ⟨d, h, rfl⟩ := h
        unfold parseSource at h
        simp only [Except.bind_eq_ok, word_ok] at h
        obtain ⟨mode, rfl, id, h1, h⟩ := h
        have tabcase : ∀ {tab : List (String × SrcType × Int × QN)} {m : String}, mode.1 = m →
            (∀ {id t o q}, tab.lookup id = some (t, o, q) ↔ Named m id t o q) →
            tabulated tab t id.1 id.2 = .ok d →
            MeansO nm ⟨kw :: mode.1 :: mode.2, t⟩ (.source d) := by
          intro tab m hm hn ht
          rw [tabulated_ok] at ht
          obtain ⟨ty, o, q, f, h2, h3, rfl⟩ := ht
          rw [optWord_ok] at h3
          rcases h3 with ⟨h3, rfl, rfl⟩ | ⟨rest, h3⟩
          · refine .inr (.inl ⟨_, .named (hn.mp h2), rfl, ?_⟩)
            simp [Token.reads, e, hm, h1, h3]
          · refine .inl ⟨_, [kw, mode.1, id.1, f], rest, .named f (hn.mp h2), ?_, ?_⟩
            · simp [h1, h3]
            · simp [Token.reads, e, hm]
        split at h
        · next e' => exact tabcase e' named_kin h
        split at h
        · next e' => exact tabcase e' named_am h
        split at h
        · next e' => exact tabcase e' named_iso h
        split at h
        · next e' => exact tabcase e' named_lad h
        clear tabcase
        split at h
        · next e' =>
          simp only [Except.bind_eq_ok, word_ok, int_ok, code_iff, optWord_ok, Except.pure_ok, Except.ok.injEq] at h
          obtain ⟨c, h2, o, ⟨x1, h3, g3⟩, J0, ⟨x2, h4, g4⟩, ty, hc, f, h5, rfl⟩ := h
          rcases h5 with ⟨h5, rfl, rfl⟩ | ⟨rest, h5⟩
          · refine .inr (.inl ⟨_, .solid id.1 o.1 J0.1 hc, rfl, ?_⟩)
            simp [Token.reads, e, e', h1, h2, h3, h4, h5, g3, g4]
          · refine .inl ⟨_, [kw, mode.1, id.1, c.1, x1, x2, f], rest, .solid id.1 o.1 J0.1 f hc, ?_, ?_⟩
            · simp [h1, h2, h3, h4, h5]
            · simp [Token.reads, e, e', g3, g4]
        split at h
        · next e' =>
          simp only [Except.bind_eq_ok, word_ok, int_ok, Except.pure_ok, Except.ok.injEq] at h
          obtain ⟨f, h2, J0, ⟨x1, h3, h3'⟩, g0, ⟨x2, h4, h4'⟩, Tz0, ⟨x3, h5, h5'⟩, rfl⟩ := h
          refine .inl ⟨_, [kw, mode.1, id.1, f.1, x1, x2, x3], Tz0.2, .input _ _ _, ?_, ?_⟩
          · simp [h1, h2, h3, h4, h5]
          · simp [QN.tokens, Token.reads, e, e', h3', h4', h5']
        split at h
        · next e' =>
          cases h
          refine .inl ⟨_, [kw, mode.1, id.1], id.2, .linear _, ?_, ?_⟩
          · simp [h1]
          · simp [Token.reads, e, e']
        split at h
        · next e' =>
          simp only [Except.bind_eq_ok, word_ok, int_ok, optNum_ok, Except.pure_ok, Except.ok.injEq] at h
          obtain ⟨a, h2, b, h3, J0, ⟨w, h4, h4'⟩, x, h5, rfl⟩ := h
          rcases h5 with ⟨h5, rfl, rfl⟩ | ⟨x1, rest, h5, h5'⟩
          · refine .inr (.inl ⟨_, .product _ _ _ _, rfl, ?_⟩)
            simp [Token.reads, e, e', h1, h2, h3, h4, h5, h4']
          · refine .inl ⟨_, [kw, mode.1, id.1, a.1, b.1, w, x1], rest, .product _ _ _ _ _, ?_, ?_⟩
            · simp [h1, h2, h3, h4, h5]
            · simp [Token.reads, e, e', h4', h5']
        split at h
        · next e' =>
          simp only [Except.bind_eq_ok, word_ok, Except.pure_ok, Except.ok.injEq] at h
          obtain ⟨a, h2, b, h3, rfl⟩ := h
          refine .inl ⟨_, [kw, mode.1, id.1, a.1, b.1], b.2, .obxform _ _ _, ?_, ?_⟩
          · simp [h1, h2, h3]
          · simp [Token.reads, e, e']
        · cases h
      split at h
      · next e =>
        simp only [parseTerm, Except.bind_eq_ok, word_ok, num_ok, Except.pure_ok, Except.ok.injEq] at h
        obtain ⟨r, ⟨f, h2, N, ⟨x1, h3, g1⟩, rfl⟩, rfl⟩ := h
        refine .inl ⟨_, [kw, f.1, x1], N.2, .add _ _, ?_, ?_⟩
        · simp [h2, h3]
        · simp [Token.reads, e, g1]
      split at h
      · next e =>
        simp only [Except.bind_eq_ok, word_ok, Except.pure_ok, Except.ok.injEq] at h
        obtain ⟨id, h1, f, h2, rfl⟩ := h
        refine .inl ⟨_, [kw, id.1, f.1], f.2, .target _ _, ?_, ?_⟩
        · simp [h1, h2]
        · simp [Token.reads, e]
      · cases h
  · have tab : ∀ {mode id ty o q} {ws : List String} {f : String}, Named mode id ty o q → optWord t ws = .ok f →
        parseO nm ⟨"define-source" :: mode :: id :: ws, t⟩ = .ok (.source (.generated id ty o q f)) := by
      intro mode id ty o q ws f hn ho
      have hm : mode = "kinematic" ∨ mode = "am" ∨ mode = "isospin" ∨ mode = "ladder" := by cases hn <;> simp
      rcases hm with rfl | rfl | rfl | rfl
      · simp [parseO, parseSource, word, tabulated, named_kin.mpr hn, ho, Except.ok_bind', Except.pure_ok]
      · simp [parseO, parseSource, word, tabulated, named_am.mpr hn, ho, Except.ok_bind', Except.pure_ok]
      · simp [parseO, parseSource, word, tabulated, named_iso.mpr hn, ho, Except.ok_bind', Except.pure_ok]
      · simp [parseO, parseSource, word, tabulated, named_lad.mpr hn, ho, Except.ok_bind', Except.pure_ok]
    rintro (⟨p, lead, rest, hs, hw, hp⟩ | ⟨p, hs, ht, hp⟩ | ⟨p, hs, hp⟩)
    · simp only at hw
      subst hw
      cases hs with
      | oscillator f =>
        simp only [List.forall₂_cons_left_iff, List.forall₂_nil_left_iff, Token.reads] at hp
        obtain ⟨_, _, rfl, ⟨_, _, rfl, ⟨_, _, rfl, rfl, rfl⟩, rfl⟩, rfl⟩ := hp
        simp [parseO, parseBasis, word, Except.ok_bind', Except.pure_ok]
      | laguerre f =>
        simp only [List.forall₂_cons_left_iff, List.forall₂_nil_left_iff, Token.reads] at hp
        obtain ⟨_, _, rfl, ⟨_, _, rfl, ⟨_, _, rfl, rfl, rfl⟩, rfl⟩, rfl⟩ := hp
        simp [parseO, parseBasis, word, Except.ok_bind', Except.pure_ok]
      | length x =>
        simp only [List.forall₂_cons_left_iff, List.forall₂_nil_left_iff, Token.reads] at hp
        obtain ⟨_, _, rfl, ⟨x1, _, g1, rfl, rfl⟩, rfl⟩ := hp
        simp [parseO, num_some g1, Except.ok_bind', Except.pure_ok]
      | xform id f =>
        simp only [List.forall₂_cons_left_iff, List.forall₂_nil_left_iff, Token.reads] at hp
        obtain ⟨_, _, rfl, ⟨_, _, rfl, ⟨_, _, rfl, rfl, rfl⟩, rfl⟩, rfl⟩ := hp
        simp [parseO, parseXf]
      | named f hn =>
        simp only [List.forall₂_cons_left_iff, List.forall₂_nil_left_iff, Token.reads] at hp
        obtain ⟨_, _, rfl, ⟨_, _, rfl, ⟨_, _, rfl, ⟨_, _, rfl, rfl, rfl⟩, rfl⟩, rfl⟩, rfl⟩ := hp
        exact tab hn (optWord_ok.mpr (.inr ⟨rest, rfl⟩))
      | solid id o J0 f hc =>
        simp only [List.forall₂_cons_left_iff, List.forall₂_nil_left_iff, Token.reads] at hp
        obtain ⟨_, _, rfl, ⟨_, _, rfl, ⟨_, _, rfl, ⟨_, _, rfl, ⟨x1, _, g1, ⟨x2, _, g2, ⟨_, _, rfl, rfl, rfl⟩, rfl⟩,
          rfl⟩, rfl⟩, rfl⟩, rfl⟩, rfl⟩ := hp
        simp [parseO, parseSource, word, int_some g1, int_some g2, code_iff.mpr hc, optWord, atEnd, Except.ok_bind',
          Except.pure_ok]
      | input id f q =>
        simp only [QN.tokens, List.forall₂_cons_left_iff, List.forall₂_nil_left_iff, Token.reads] at hp
        obtain ⟨_, _, rfl, ⟨_, _, rfl, ⟨_, _, rfl, ⟨_, _, rfl, ⟨x1, _, g1, ⟨x2, _, g2, ⟨x3, _, g3, rfl, rfl⟩, rfl⟩,
          rfl⟩, rfl⟩, rfl⟩, rfl⟩, rfl⟩ := hp
        simp [parseO, parseSource, word, int_some g1, int_some g2, int_some g3, Except.ok_bind', Except.pure_ok]
      | linear id =>
        simp only [List.forall₂_cons_left_iff, List.forall₂_nil_left_iff, Token.reads] at hp
        obtain ⟨_, _, rfl, ⟨_, _, rfl, ⟨_, _, rfl, rfl, rfl⟩, rfl⟩, rfl⟩ := hp
        simp [parseO, parseSource, word, Except.ok_bind', Except.pure_ok]
      | product id a b J0 x =>
        simp only [List.forall₂_cons_left_iff, List.forall₂_nil_left_iff, Token.reads] at hp
        obtain ⟨_, _, rfl, ⟨_, _, rfl, ⟨_, _, rfl, ⟨_, _, rfl, ⟨_, _, rfl, ⟨x1, _, g1, ⟨x2, _, g2, rfl, rfl⟩, rfl⟩,
          rfl⟩, rfl⟩, rfl⟩, rfl⟩, rfl⟩ := hp
        simp [parseO, parseSource, word, optNum, atEnd, int_some g1, num_some g2, Except.ok_bind', Except.pure_ok]
      | obxform id s x =>
        simp only [List.forall₂_cons_left_iff, List.forall₂_nil_left_iff, Token.reads] at hp
        obtain ⟨_, _, rfl, ⟨_, _, rfl, ⟨_, _, rfl, ⟨_, _, rfl, ⟨_, _, rfl, rfl, rfl⟩, rfl⟩, rfl⟩, rfl⟩, rfl⟩ := hp
        simp [parseO, parseSource, word, Except.ok_bind', Except.pure_ok]
      | add id x =>
        simp only [List.forall₂_cons_left_iff, List.forall₂_nil_left_iff, Token.reads] at hp
        obtain ⟨_, _, rfl, ⟨_, _, rfl, ⟨x1, _, g1, rfl, rfl⟩, rfl⟩, rfl⟩ := hp
        simp [parseO, parseTerm, word, num_some g1, Except.ok_bind', Except.pure_ok]
      | target id f =>
        simp only [List.forall₂_cons_left_iff, List.forall₂_nil_left_iff, Token.reads] at hp
        obtain ⟨_, _, rfl, ⟨_, _, rfl, ⟨_, _, rfl, rfl, rfl⟩, rfl⟩, rfl⟩ := hp
        simp [parseO, word, Except.ok_bind', Except.pure_ok]
    · simp only at ht hp
      subst ht
      cases hs with
      | named hn =>
        simp only [List.forall₂_cons_left_iff, List.forall₂_nil_left_iff, Token.reads] at hp
        obtain ⟨_, _, rfl, ⟨_, _, rfl, ⟨_, _, rfl, rfl, rfl⟩, rfl⟩, rfl⟩ := hp
        exact tab hn (optWord_ok.mpr (.inl ⟨rfl, rfl, rfl⟩))
      | solid id o J0 hc =>
        simp only [List.forall₂_cons_left_iff, List.forall₂_nil_left_iff, Token.reads] at hp
        obtain ⟨_, _, rfl, ⟨_, _, rfl, ⟨_, _, rfl, ⟨_, _, rfl, ⟨x1, _, g1, ⟨x2, _, g2, rfl, rfl⟩,
          rfl⟩, rfl⟩, rfl⟩, rfl⟩, rfl⟩ := hp
        simp [parseO, parseSource, word, int_some g1, int_some g2, code_iff.mpr hc, optWord, atEnd, Except.ok_bind',
          Except.pure_ok]
      | product id a b J0 =>
        simp only [List.forall₂_cons_left_iff, List.forall₂_nil_left_iff, Token.reads] at hp
        obtain ⟨_, _, rfl, ⟨_, _, rfl, ⟨_, _, rfl, ⟨_, _, rfl, ⟨_, _, rfl, ⟨x1, _, g1, rfl, rfl⟩, rfl⟩,
          rfl⟩, rfl⟩, rfl⟩, rfl⟩ := hp
        simp [parseO, parseSource, word, optNum, atEnd, int_some g1, Except.ok_bind', Except.pure_ok]
    · simp only at hp
      cases hs with
      | file id =>
        simp only [List.forall₂_cons_left_iff, List.forall₂_nil_left_iff, Token.reads] at hp
        obtain ⟨_, _, rfl, ⟨_, _, rfl, rfl, rfl⟩, rfl⟩ := hp
        simp [parseO, parseXf]
      | both =>
        simp only [List.forall₂_cons_left_iff, List.forall₂_nil_left_iff, Token.reads] at hp
        obtain ⟨_, _, rfl, rfl, rfl⟩ := hp
        simp [parseO, parseXf]

/-! ## Names with a fixed meaning -/

/-- **C87.** The name under which `obmixer` defines a solid harmonic is free in the control file, also if it is a name
with a fixed meaning: the sources of `name_changes_operator` and `identity_name` can be declared. -/
theorem solid_harmonic_any_name {nm : Numbers} (pr : Printer nm) (id : String) (order J0 : Int) :
    parseO nm ⟨["define-source", "solid-harmonic", id, "r", pr.int order, pr.int J0], false⟩ =
      .ok (.source (.generated id (.radial .r) order ⟨J0, J0.tmod 2, 0⟩ "")) :=
  parseO_iff.mpr (.inr (.inl ⟨_, .solid id order J0 .r, rfl, by simp [Token.reads, pr.int_ok]⟩))

end Verif.Mixer.Control
