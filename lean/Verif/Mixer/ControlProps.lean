import Verif.Mixer.Control
import Verif.Mixer.Lemmas

/-!
# Properties C89-C94: what a control file means
-/

namespace Verif.Mixer.Control
open Verif Verif.Mapping Verif.Xform Verif.Obme Verif.Mixer
open Verif.H2 hiding Mat Subspace

/-! ## Specification: reading off a list of commands -/

/-- The mass a command sets, if any. -/
def Cmd.mass? : Cmd → Option Int
  | .mass A => some A
  | _ => none

def Cmd.qn? : Cmd → Option QN
  | .multipolarity q => some q
  | _ => none

def Cmd.format? : Cmd → Option Int
  | .format f => some f
  | _ => none

def Cmd.cutoff? : Cmd → Option Int
  | .oscillator _ N => some N
  | _ => none

def Cmd.orbitals? : Cmd → Option String
  | .indexing f _ => some f
  | _ => none

def Cmd.weights? : Cmd → Option WeightMax
  | .indexing _ w => some (.general w)
  | .oscillator r N => some (.rank r N)
  | _ => none

def Cmd.xform? : Cmd → Option (String × String)
  | .xform id f => some (id, f)
  | _ => none

def Cmd.tb? : Cmd → Option TbDecl
  | .tb d => some d
  | _ => none

def Cmd.ob? : Cmd → Option ObDecl
  | .ob d => some d
  | _ => none

def Cmd.target? : Cmd → Option String
  | .target f => some f
  | _ => none

def Cmd.add? : Cmd → Option (String × ℝ)
  | .add id c => some (id, c)
  | _ => none

def Cmd.addOb? : Cmd → Option (String × ℝ)
  | .addOb id c => some (id, c)
  | _ => none

/-- The value of the last command that has one. -/
def lastOf {α : Type} (f : Cmd → Option α) (d : α) (cs : List Cmd) : α := (cs.filterMap f).getLast?.getD d

/-- The kinds of line: settings of the target indexing, of the tensor character, of the mass, of the format,
transformations, one-body sources with their terms, two-body sources, targets with their terms. -/
inductive Group where
  | indexing | multipolarity | mass | format | xform | ob | tb | target
  deriving DecidableEq, Repr

def Cmd.group : Cmd → Group
  | .indexing _ _ => .indexing
  | .oscillator _ _ => .indexing
  | .multipolarity _ => .multipolarity
  | .mass _ => .mass
  | .format _ => .format
  | .xform _ _ => .xform
  | .ob _ => .ob
  | .addOb _ _ => .ob
  | .tb _ => .tb
  | .target _ => .target
  | .add _ _ => .target

/-- The terms that belong to a definition: those given before the next definition. -/
def termsOf {α : Type} (isDef : Cmd → Option α) (term : Cmd → Option (String × ℝ)) (rest : List Cmd) :
    List (String × ℝ) := (rest.takeWhile fun c => (isDef c).isNone).filterMap term

/-- A one-body declaration with terms. -/
def ObDecl.withTerms : ObDecl → List (String × ℝ) → ObDecl
  | .linear id ts, more => .linear id (ts ++ more)
  | d, _ => d

def ObDecl.isLinear : ObDecl → Bool
  | .linear _ _ => true
  | _ => false

/-! ## Lines and commands -/

theorem read_ok {nm : Numbers} {ls : List CLine} {cfg : Config} : read nm ls = .ok cfg ↔
    ∃ cs, ls.mapM (parse nm) = .ok cs ∧ cs.foldlM exec {} = .ok cfg := by
  unfold read
  generalize ({} : Config) = c0
  induction ls generalizing c0 with
  | nil => simp
  | cons l ls ih =>
    rw [List.foldlM_cons, List.mapM_cons]
    simp only [step, Except.bind_eq_ok]
    constructor
    · rintro ⟨c1, ⟨c, h1, h2⟩, h3⟩
      obtain ⟨cs, h4, h5⟩ := (ih c1).mp h3
      refine ⟨c :: cs, ⟨c, h1, cs, h4, rfl⟩, ?_⟩
      rw [List.foldlM_cons, h2, Except.ok_bind', h5]
    · rintro ⟨_, ⟨c, h1, cs, h4, h6⟩, h5⟩
      cases h6
      rw [List.foldlM_cons, Except.bind_eq_ok] at h5
      obtain ⟨c1, h2, h5⟩ := h5
      exact ⟨c1, ⟨c, h1, h2⟩, (ih c1).mpr ⟨cs, h4, h5⟩⟩

/-! ## Components -/

def idxStep (a : Int × String × WeightMax) (c : Cmd) : Int × String × WeightMax :=
  (c.cutoff?.getD a.1, c.orbitals?.getD a.2.1, c.weights?.getD a.2.2)

def xfStep (a : List (String × String)) (c : Cmd) : List (String × String) :=
  match c.xform? with
  | some (id, f) => emplaceFile a id f
  | none => a

def obStep (a : List ObDecl) : Cmd → Except Err (List ObDecl)
  | .ob d => .ok (a ++ [d])
  | .addOb id c => addObTerm a id c
  | _ => .ok a

def tgStep (a : List (String × List (String × ℝ))) : Cmd → Except Err (List (String × List (String × ℝ)))
  | .target f => .ok (a ++ [(f, [])])
  | .add id c => addTerm a id c
  | _ => .ok a

theorem exec_ok {cfg cfg' : Config} {c : Cmd} : exec cfg c = .ok cfg' ↔
    (cfg'.cutoff, cfg'.orbitals, cfg'.weights) = idxStep (cfg.cutoff, cfg.orbitals, cfg.weights) c ∧
    cfg'.qn = c.qn?.getD cfg.qn ∧ cfg'.A = (c.mass?.map some).getD cfg.A ∧ cfg'.format = c.format?.getD cfg.format ∧
    cfg'.xforms = xfStep cfg.xforms c ∧ cfg'.tb = cfg.tb ++ c.tb?.toList ∧ obStep cfg.ob c = .ok cfg'.ob ∧
    tgStep cfg.targets c = .ok cfg'.targets := by
  obtain ⟨a1, a2, a3, a4, a5, a6, a7, a8, a9, a10⟩ := cfg
  obtain ⟨b1, b2, b3, b4, b5, b6, b7, b8, b9, b10⟩ := cfg'
  cases c <;>
    simp only [exec, idxStep, xfStep, obStep, tgStep, Cmd.qn?, Cmd.mass?, Cmd.format?, Cmd.tb?, Cmd.cutoff?,
      Cmd.orbitals?, Cmd.weights?, Cmd.xform?, Option.getD_none, Option.getD_some, Option.map_some, Option.map_none,
      Option.toList_none, Option.toList_some, List.append_nil, Except.ok.injEq, Config.mk.injEq, Prod.mk.injEq,
      Except.bind_eq_ok, Except.pure_ok]
  case addOb id c =>
    constructor
    · rintro ⟨l, h1, rfl, rfl, rfl, rfl, rfl, rfl, rfl, rfl, rfl, rfl⟩
      simp [h1]
    · rintro ⟨⟨rfl, rfl, rfl⟩, rfl, rfl, rfl, rfl, rfl, h, rfl⟩
      exact ⟨_, h, by simp⟩
  case add id c =>
    constructor
    · rintro ⟨l, h1, rfl, rfl, rfl, rfl, rfl, rfl, rfl, rfl, rfl, rfl⟩
      simp [h1]
    · rintro ⟨⟨rfl, rfl, rfl⟩, rfl, rfl, rfl, rfl, rfl, rfl, h⟩
      exact ⟨_, h, by simp⟩
  all_goals
    constructor
    · rintro ⟨rfl, rfl, rfl, rfl, rfl, rfl, rfl, rfl, rfl, rfl⟩
      simp
    · rintro ⟨⟨rfl, rfl, rfl⟩, rfl, rfl, rfl, rfl, rfl, rfl, rfl⟩
      simp

theorem fold_ok {cs : List Cmd} : ∀ {cfg cfg' : Config}, cs.foldlM exec cfg = .ok cfg' ↔
    (cfg'.cutoff, cfg'.orbitals, cfg'.weights) = cs.foldl idxStep (cfg.cutoff, cfg.orbitals, cfg.weights) ∧
    cfg'.qn = cs.foldl (fun a c => c.qn?.getD a) cfg.qn ∧
    cfg'.A = cs.foldl (fun a c => (c.mass?.map some).getD a) cfg.A ∧
    cfg'.format = cs.foldl (fun a c => c.format?.getD a) cfg.format ∧
    cfg'.xforms = cs.foldl xfStep cfg.xforms ∧ cfg'.tb = cs.foldl (fun a c => a ++ c.tb?.toList) cfg.tb ∧
    cs.foldlM obStep cfg.ob = .ok cfg'.ob ∧ cs.foldlM tgStep cfg.targets = .ok cfg'.targets := by
  induction cs with
  | nil =>
    intro cfg cfg'
    obtain ⟨a1, a2, a3, a4, a5, a6, a7, a8, a9, a10⟩ := cfg
    obtain ⟨b1, b2, b3, b4, b5, b6, b7, b8, b9, b10⟩ := cfg'
    simp only [List.foldlM_nil, List.foldl_nil, Except.pure_ok, Except.ok.injEq, Config.mk.injEq, Prod.mk.injEq]
    constructor
    · rintro ⟨rfl, rfl, rfl, rfl, rfl, rfl, rfl, rfl, rfl, rfl⟩
      simp
    · rintro ⟨⟨rfl, rfl, rfl⟩, rfl, rfl, rfl, rfl, rfl, rfl, rfl⟩
      simp
  | cons c cs ih =>
    intro cfg cfg'
    rw [List.foldlM_cons, Except.bind_eq_ok]
    simp only [List.foldl_cons]
    rw [List.foldlM_cons, List.foldlM_cons, Except.bind_eq_ok, Except.bind_eq_ok]
    constructor
    · rintro ⟨c1, h1, h2⟩
      obtain ⟨e1, e2, e3, e4, e5, e6, e7, e8⟩ := exec_ok.mp h1
      obtain ⟨i1, i2, i3, i4, i5, i6, i7, i8⟩ := ih.mp h2
      rw [e1] at i1
      rw [e2] at i2
      rw [e3] at i3
      rw [e4] at i4
      rw [e5] at i5
      rw [e6] at i6
      exact ⟨i1, i2, i3, i4, i5, i6, ⟨_, e7, i7⟩, ⟨_, e8, i8⟩⟩
    · rintro ⟨i1, i2, i3, i4, i5, i6, ⟨l, e7, i7⟩, ⟨l', e8, i8⟩⟩
      refine ⟨⟨(idxStep (cfg.cutoff, cfg.orbitals, cfg.weights) c).1,
        (idxStep (cfg.cutoff, cfg.orbitals, cfg.weights) c).2.1, (idxStep (cfg.cutoff, cfg.orbitals, cfg.weights) c).2.2,
        c.qn?.getD cfg.qn, (c.mass?.map some).getD cfg.A, c.format?.getD cfg.format, xfStep cfg.xforms c, l,
        cfg.tb ++ c.tb?.toList, l'⟩, exec_ok.mpr ⟨rfl, rfl, rfl, rfl, rfl, rfl, e7, e8⟩, ih.mpr ?_⟩
      exact ⟨i1, i2, i3, i4, i5, i6, i7, i8⟩

theorem foldl_last {α : Type} (f : Cmd → Option α) : ∀ (cs : List Cmd) (a : α),
    cs.foldl (fun a c => (f c).getD a) a = lastOf f a cs
  | [], a => rfl
  | c :: cs, a => by
    rw [List.foldl_cons, foldl_last f cs]
    unfold lastOf
    rw [List.filterMap_cons]
    cases h : f c with
    | none => rfl
    | some b =>
      simp only [Option.getD_some]
      cases h' : (cs.filterMap f).getLast? with
      | none =>
        rw [List.getLast?_eq_none_iff] at h'
        rw [h']
        rfl
      | some x =>
        rw [List.getLast?_cons, h']
        rfl

theorem foldl_idx : ∀ (cs : List Cmd) (a : Int × String × WeightMax),
    cs.foldl idxStep a = (lastOf Cmd.cutoff? a.1 cs, lastOf Cmd.orbitals? a.2.1 cs, lastOf Cmd.weights? a.2.2 cs)
  | [], a => rfl
  | c :: cs, a => by
    rw [List.foldl_cons, foldl_idx cs, ← foldl_last Cmd.cutoff?, ← foldl_last Cmd.orbitals?, ← foldl_last Cmd.weights?,
      ← foldl_last Cmd.cutoff?, ← foldl_last Cmd.orbitals?, ← foldl_last Cmd.weights?]
    rfl

/-- **C89.** Settings: the last line of a kind counts, and without one the default.  The mass has no default. -/
theorem settings {nm : Numbers} {ls : List CLine} {cfg : Config} (h : read nm ls = .ok cfg) :
    ∃ cs, ls.mapM (parse nm) = .ok cs ∧ cfg.qn = lastOf Cmd.qn? ⟨0, 0, 0⟩ cs ∧
      cfg.A = (cs.filterMap Cmd.mass?).getLast? ∧ cfg.format = lastOf Cmd.format? 0 cs ∧
      cfg.cutoff = lastOf Cmd.cutoff? (-1) cs ∧ cfg.orbitals = lastOf Cmd.orbitals? "" cs ∧
      cfg.weights = lastOf Cmd.weights? .default cs ∧ cfg.tb = cs.filterMap Cmd.tb? := by
  obtain ⟨cs, h1, h2⟩ := read_ok.mp h
  obtain ⟨i1, i2, i3, i4, -, i6, -, -⟩ := fold_ok.mp h2
  rw [foldl_idx] at i1
  simp only [Prod.mk.injEq] at i1
  refine ⟨cs, h1, ?_, ?_, ?_, i1.1, i1.2.1, i1.2.2, ?_⟩
  · rw [i2, foldl_last]
  · rw [i3, foldl_last fun c => c.mass?.map some]
    unfold lastOf
    have : cs.filterMap (fun c => c.mass?.map some) = (cs.filterMap Cmd.mass?).map some := by
      rw [List.map_filterMap]
    rw [this, List.getLast?_map]
    cases (cs.filterMap Cmd.mass?).getLast? <;> rfl
  · rw [i4, foldl_last]
  · rw [i6]
    have : ∀ (cs : List Cmd) (a : List TbDecl), cs.foldl (fun a c => a ++ c.tb?.toList) a = a ++ cs.filterMap Cmd.tb? := by
      intro cs
      induction cs with
      | nil => simp
      | cons c cs ih =>
        intro a
        rw [List.foldl_cons, ih, List.filterMap_cons]
        cases c.tb? <;> simp
    rw [this]
    rfl

theorem emplaceFile_lookup (m : List (String × String)) (id f x : String) :
    (emplaceFile m id f).lookup x = (m.lookup x).or (if x = id then some f else none) := by
  unfold emplaceFile
  split
  · next h =>
    by_cases hx : x = id
    · subst hx
      have : (m.lookup x).isSome := by
        rw [List.lookup_isSome_iff]
        simp only [List.mem_map] at h
        obtain ⟨p, hp, rfl⟩ := h
        exact ⟨p, hp, by simp⟩
      obtain ⟨v, hv⟩ := Option.isSome_iff_exists.mp this
      simp [hv]
    · simp [hx]
  · rw [List.lookup_append]
    congr 1
    by_cases hx : x = id
    · simp [hx, List.lookup]
    · have : (x == id) = false := by simpa using hx
      simp [hx, List.lookup, this]

theorem foldl_xf : ∀ (cs : List Cmd) (m : List (String × String)) (x : String),
    (cs.foldl xfStep m).lookup x = (m.lookup x).or ((cs.filterMap Cmd.xform?).lookup x)
  | [], m, x => by simp
  | c :: cs, m, x => by
    rw [List.foldl_cons, foldl_xf cs, List.filterMap_cons]
    unfold xfStep
    cases h : c.xform? with
    | none => rfl
    | some p =>
      obtain ⟨id, f⟩ := p
      simp only
      rw [emplaceFile_lookup, Option.or_assoc]
      congr 1
      by_cases hx : x = id
      · subst hx
        simp [List.lookup]
      · have : (x == id) = false := by simpa using hx
        simp [hx, List.lookup, this]

/-- **C93.** A transformation is the file of the first `define-xform` line of its name; later lines of the name are
ignored without a message. -/
theorem xform_first {nm : Numbers} {ls : List CLine} {cfg : Config} (h : read nm ls = .ok cfg) :
    ∃ cs, ls.mapM (parse nm) = .ok cs ∧ ∀ x, cfg.xforms.lookup x = (cs.filterMap Cmd.xform?).lookup x := by
  obtain ⟨cs, h1, h2⟩ := read_ok.mp h
  obtain ⟨-, -, -, -, i5, -, -, -⟩ := fold_ok.mp h2
  refine ⟨cs, h1, fun x => ?_⟩
  rw [i5, foldl_xf]
  rfl

/-! ## Order of lines -/

theorem foldl_filter {α : Type} {f : α → Cmd → α} {P : Cmd → Bool} (h : ∀ a c, P c = false → f a c = a) :
    ∀ (cs : List Cmd) (a : α), cs.foldl f a = (cs.filter P).foldl f a
  | [], a => rfl
  | c :: cs, a => by
    rw [List.foldl_cons, List.filter_cons]
    by_cases hp : P c = true
    · rw [if_pos hp, List.foldl_cons, foldl_filter h cs]
    · rw [if_neg hp, h a c (by simpa using hp), foldl_filter h cs]

theorem foldlM_filter {α : Type} {f : α → Cmd → Except Err α} {P : Cmd → Bool}
    (h : ∀ a c, P c = false → f a c = .ok a) :
    ∀ (cs : List Cmd) (a : α), cs.foldlM f a = (cs.filter P).foldlM f a
  | [], a => rfl
  | c :: cs, a => by
    rw [List.foldlM_cons, List.filter_cons]
    by_cases hp : P c = true
    · rw [if_pos hp, List.foldlM_cons]
      congr 1
      funext x
      exact foldlM_filter h cs x
    · rw [if_neg hp, h a c (by simpa using hp), Except.ok_bind', foldlM_filter h cs]

/-- **C90.** Only the order within each kind of line matters: two control files with the same lines of each kind in
the same order are read alike. -/
theorem order_within_kinds {cs cs' : List Cmd}
    (h : ∀ g, cs.filter (fun c => c.group = g) = cs'.filter fun c => c.group = g) (cfg : Config) :
    cs.foldlM exec {} = .ok cfg ↔ cs'.foldlM exec {} = .ok cfg := by
  have key : ∀ cs : List Cmd, cs.foldlM exec {} = .ok cfg ↔ _ := fun cs => fold_ok (cs := cs)
  rw [key cs, key cs']
  have ig : ∀ {α : Type} (f : α → Cmd → α) (g : Group) (_ : ∀ a c, c.group ≠ g → f a c = a) (a : α),
      cs.foldl f a = cs'.foldl f a := by
    intro α f g hf a
    rw [foldl_filter (P := fun c => c.group = g) (by simpa using hf) cs,
      foldl_filter (P := fun c => c.group = g) (by simpa using hf) cs', h g]
  have igM : ∀ {α : Type} (f : α → Cmd → Except Err α) (g : Group) (_ : ∀ a c, c.group ≠ g → f a c = .ok a) (a : α),
      cs.foldlM f a = cs'.foldlM f a := by
    intro α f g hf a
    rw [foldlM_filter (P := fun c => c.group = g) (by simpa using hf) cs,
      foldlM_filter (P := fun c => c.group = g) (by simpa using hf) cs', h g]
  rw [ig idxStep .indexing (by rintro a (_ | _) h <;> first | rfl | simp [Cmd.group] at h),
    ig (fun a c => c.qn?.getD a) .multipolarity (by rintro a (_ | _) h <;> first | rfl | simp [Cmd.group] at h),
    ig (fun a c => (c.mass?.map some).getD a) .mass (by rintro a (_ | _) h <;> first | rfl | simp [Cmd.group] at h),
    ig (fun a c => c.format?.getD a) .format (by rintro a (_ | _) h <;> first | rfl | simp [Cmd.group] at h),
    ig xfStep .xform (by rintro a (_ | _) h <;> first | rfl | simp [Cmd.group] at h),
    ig (fun a c => a ++ c.tb?.toList) .tb (by rintro a (_ | _) h <;> first | (simp [Cmd.tb?]; done) | simp [Cmd.group] at h),
    igM obStep .ob (by rintro a (_ | _) h <;> first | rfl | simp [Cmd.group] at h),
    igM tgStep .target (by rintro a (_ | _) h <;> first | rfl | simp [Cmd.group] at h)]

/-- **C90.** Exchanging two neighbouring lines of different kinds changes nothing. -/
theorem exchange_lines {nm : Numbers} {pre post : List CLine} {l l' : CLine} {c c' : Cmd} (hc : parse nm l = .ok c)
    (hc' : parse nm l' = .ok c') (hg : c.group ≠ c'.group) (cfg : Config) :
    read nm (pre ++ l :: l' :: post) = .ok cfg ↔ read nm (pre ++ l' :: l :: post) = .ok cfg := by
  rw [read_ok, read_ok]
  have pm : ∀ {x y : CLine} {a b : Cmd}, parse nm x = .ok a → parse nm y = .ok b → ∀ cs,
      (pre ++ x :: y :: post).mapM (parse nm) = .ok cs ↔ ∃ p q, pre.mapM (parse nm) = .ok p ∧
        post.mapM (parse nm) = .ok q ∧ cs = p ++ a :: b :: q := by
    intro x y a b ha hb cs
    rw [List.mapM_append, List.mapM_cons, List.mapM_cons, ha, hb]
    simp only [Except.bind_eq_ok, Except.ok_bind', Except.pure_ok, Except.ok.injEq]
    constructor
    · rintro ⟨p, hp, _, ⟨_, ⟨q, hq, rfl⟩, rfl⟩, rfl⟩
      exact ⟨p, q, hp, hq, rfl⟩
    · rintro ⟨p, q, hp, hq, rfl⟩
      exact ⟨p, hp, _, ⟨_, ⟨q, hq, rfl⟩, rfl⟩, rfl⟩
  have fl : ∀ (p q : List Cmd), (p ++ c :: c' :: q).foldlM exec {} = .ok cfg ↔
      (p ++ c' :: c :: q).foldlM exec {} = .ok cfg := by
    intro p q
    apply order_within_kinds
    intro g
    simp only [List.filter_append, List.filter_cons]
    by_cases h1 : c.group = g
    · by_cases h2 : c'.group = g
      · exact absurd (h1.trans h2.symm) hg
      · simp [h1, h2]
    · simp [h1]
  constructor
  · rintro ⟨cs, h1, h2⟩
    obtain ⟨p, q, hp, hq, rfl⟩ := (pm hc hc' cs).mp h1
    exact ⟨_, (pm hc' hc _).mpr ⟨p, q, hp, hq, rfl⟩, (fl p q).mp h2⟩
  · rintro ⟨cs, h1, h2⟩
    obtain ⟨p, q, hp, hq, rfl⟩ := (pm hc' hc cs).mp h1
    exact ⟨_, (pm hc hc' _).mpr ⟨p, q, hp, hq, rfl⟩, (fl p q).mpr h2⟩

/-! ## Terms -/

/-- Terms given before the next definition. -/
abbrev targetTerms (rest : List Cmd) : List (String × ℝ) := termsOf Cmd.target? Cmd.add? rest

/-- The same for one-body sources. -/
abbrev obTerms (rest : List Cmd) : List (String × ℝ) := termsOf Cmd.ob? Cmd.addOb? rest

/-- Targets with their terms, read from the list of commands. -/
def targetsOf : List Cmd → List (String × List (String × ℝ))
  | [] => []
  | c :: rest => match c.target? with
    | some f => (f, targetTerms rest) :: targetsOf rest
    | none => targetsOf rest

/-- One-body sources with their terms, read from the list of commands. -/
def obOf : List Cmd → List ObDecl
  | [] => []
  | c :: rest => match c.ob? with
    | some d => d.withTerms (obTerms rest) :: obOf rest
    | none => obOf rest

theorem termsOf_def {α : Type} {isDef : Cmd → Option α} {term : Cmd → Option (String × ℝ)} {c : Cmd} {cs : List Cmd}
    (h : (isDef c).isSome) : termsOf isDef term (c :: cs) = [] := by
  obtain ⟨a, ha⟩ := Option.isSome_iff_exists.mp h
  simp [termsOf, List.takeWhile_cons, ha]

theorem termsOf_term {α : Type} {isDef : Cmd → Option α} {term : Cmd → Option (String × ℝ)} {c : Cmd} {cs : List Cmd}
    (h : isDef c = none) : termsOf isDef term (c :: cs) = (term c).toList ++ termsOf isDef term cs := by
  unfold termsOf
  rw [List.takeWhile_cons, h]
  simp only [Option.isNone_none, if_true, List.filterMap_cons]
  cases term c <;> simp

theorem targetTerms_cons (c : Cmd) (cs : List Cmd) : targetTerms (c :: cs) = match c with
    | .target _ => []
    | .add id x => (id, x) :: targetTerms cs
    | _ => targetTerms cs := by
  cases c with
  | target f => exact termsOf_def rfl
  | _ => exact termsOf_term rfl

theorem obTerms_cons (c : Cmd) (cs : List Cmd) : obTerms (c :: cs) = match c with
    | .ob _ => []
    | .addOb id x => (id, x) :: obTerms cs
    | _ => obTerms cs := by
  cases c with
  | ob f => exact termsOf_def rfl
  | _ => exact termsOf_term rfl

/-- Adds terms to the last target. -/
theorem tg_fold : ∀ (cs : List Cmd) (a : List (String × List (String × ℝ))) (f : String) (ts : List (String × ℝ)),
    cs.foldlM tgStep (a ++ [(f, ts)]) = .ok (a ++ [(f, ts ++ targetTerms cs)] ++ targetsOf cs)
  | [], a, f, ts => by simp [targetTerms, termsOf, targetsOf]
  | c :: cs, a, f, ts => by
    rw [List.foldlM_cons]
    cases c with
    | target g =>
      simp only [tgStep, Except.ok_bind']
      rw [tg_fold cs]
      simp [targetTerms_cons, Cmd.target?, targetsOf]
    | add id x =>
      simp only [tgStep, addTerm, List.getLast?_append, List.getLast?_singleton, Option.some_or, List.dropLast_concat,
        Except.ok_bind']
      rw [tg_fold cs]
      simp [targetTerms_cons, Cmd.target?, targetsOf]
    | _ =>
      simp only [tgStep, Except.ok_bind']
      rw [tg_fold cs]
      simp [targetTerms_cons, Cmd.target?, targetsOf]

theorem tg_start : ∀ {cs : List Cmd} {r : List (String × List (String × ℝ))}, cs.foldlM tgStep [] = .ok r ↔
    r = targetsOf cs ∧ targetTerms cs = []
  | [], r => by simp [targetsOf, targetTerms, termsOf, eq_comm]
  | c :: cs, r => by
    rw [List.foldlM_cons]
    cases c with
    | target g =>
      simp only [tgStep, Except.ok_bind', List.nil_append]
      have := tg_fold cs [] g []
      simp only [List.nil_append] at this
      rw [this]
      simp [targetTerms_cons, Cmd.target?, targetsOf, eq_comm]
    | add id x =>
      simp [tgStep, addTerm, Except.error_bind', targetTerms_cons]
    | _ =>
      simp only [tgStep, Except.ok_bind']
      rw [tg_start]
      simp [targetTerms_cons, Cmd.target?, targetsOf]

theorem withTerms_append (d : ObDecl) (a b : List (String × ℝ)) : (d.withTerms a).withTerms b = d.withTerms (a ++ b) := by
  cases d <;> simp [ObDecl.withTerms]

theorem ob_fold : ∀ {cs : List Cmd} {a : List ObDecl} {d : ObDecl} {r : List ObDecl},
    cs.foldlM obStep (a ++ [d]) = .ok r ↔ r = a ++ [d.withTerms (obTerms cs)] ++ obOf cs ∧
      (d.isLinear = false → obTerms cs = []) ∧
      ∀ pre e post, cs = pre ++ .ob e :: post → e.isLinear = false → obTerms post = []
  | [], a, d, r => by
    have : d.withTerms (obTerms []) = d := by cases d <;> simp [obTerms, termsOf, ObDecl.withTerms]
    rw [this]
    simp [obTerms, termsOf, obOf]
    try exact eq_comm
  | c :: cs, a, d, r => by
    rw [List.foldlM_cons]
    have shift : ∀ (c : Cmd), c.ob? = none → ((∀ pre e post, c :: cs = pre ++ .ob e :: post → e.isLinear = false →
        obTerms post = []) ↔ ∀ pre e post, cs = pre ++ .ob e :: post → e.isLinear = false → obTerms post = []) := by
      intro c hc
      constructor
      · intro h pre e post he
        exact h (c :: pre) e post (by rw [he]; rfl)
      · intro h pre e post he
        cases pre with
        | nil =>
          simp only [List.nil_append, List.cons.injEq] at he
          rw [he.1] at hc
          simp [Cmd.ob?] at hc
        | cons x pre =>
          simp only [List.cons_append, List.cons.injEq] at he
          exact h pre e post he.2
    cases c with
    | ob e =>
      simp only [obStep, Except.ok_bind']
      rw [ob_fold]
      have hd : d.withTerms (obTerms (.ob e :: cs)) = d := by
        rw [obTerms, termsOf_def (by simp [Cmd.ob?])]
        cases d <;> simp [ObDecl.withTerms]
      rw [hd]
      simp only [obOf, Cmd.ob?, List.append_assoc, List.singleton_append, obTerms, termsOf_def (isDef := Cmd.ob?)
        (term := Cmd.addOb?) (c := .ob e) (cs := cs) (by simp [Cmd.ob?]), implies_true, true_and]
      constructor
      · rintro ⟨rfl, h1, h2⟩
        refine ⟨rfl, ?_⟩
        intro pre e' post he
        cases pre with
        | nil =>
          simp only [List.nil_append, List.cons.injEq, Cmd.ob.injEq] at he
          obtain ⟨rfl, rfl⟩ := he
          exact h1
        | cons x pre =>
          simp only [List.cons_append, List.cons.injEq] at he
          exact h2 pre e' post he.2
      · rintro ⟨rfl, h2⟩
        exact ⟨rfl, h2 [] e cs rfl, fun pre e' post he => h2 (.ob e :: pre) e' post (by rw [he]; rfl)⟩
    | addOb id x =>
      rw [shift _ rfl, obTerms, termsOf_term (by rfl)]
      cases d with
      | linear y ts =>
        simp only [obStep, addObTerm, List.getLast?_append, List.getLast?_singleton, Option.some_or,
          List.dropLast_concat, Except.ok_bind']
        rw [ob_fold]
        simp [ObDecl.withTerms, Cmd.addOb?, ObDecl.isLinear, obOf, Cmd.ob?, obTerms]
      | _ =>
        simp [obStep, addObTerm, Except.error_bind', Cmd.addOb?, ObDecl.isLinear]
    | _ =>
      simp only [obStep, Except.ok_bind']
      rw [shift _ rfl, ob_fold, obTerms, obTerms, termsOf_term (by rfl)]
      simp [Cmd.addOb?, obOf, Cmd.ob?]

theorem ob_start : ∀ {cs : List Cmd} {r : List ObDecl}, cs.foldlM obStep [] = .ok r ↔
    r = obOf cs ∧ obTerms cs = [] ∧ ∀ pre e post, cs = pre ++ .ob e :: post → e.isLinear = false → obTerms post = []
  | [], r => by
    simp [obOf, obTerms, termsOf]
    try exact eq_comm
  | c :: cs, r => by
    rw [List.foldlM_cons]
    have shift : ∀ (c : Cmd), c.ob? = none → ((∀ pre e post, c :: cs = pre ++ .ob e :: post → e.isLinear = false →
        obTerms post = []) ↔ ∀ pre e post, cs = pre ++ .ob e :: post → e.isLinear = false → obTerms post = []) := by
      intro c hc
      constructor
      · intro h pre e post he
        exact h (c :: pre) e post (by rw [he]; rfl)
      · intro h pre e post he
        cases pre with
        | nil =>
          simp only [List.nil_append, List.cons.injEq] at he
          rw [he.1] at hc
          simp [Cmd.ob?] at hc
        | cons x pre =>
          simp only [List.cons_append, List.cons.injEq] at he
          exact h pre e post he.2
    cases c with
    | ob e =>
      simp only [obStep, Except.ok_bind', List.nil_append]
      have := ob_fold (cs := cs) (a := []) (d := e) (r := r)
      simp only [List.nil_append] at this
      rw [this, obTerms, obTerms, termsOf_def (by simp [Cmd.ob?])]
      simp only [obOf, Cmd.ob?, List.singleton_append, true_and]
      constructor
      · rintro ⟨rfl, h1, h2⟩
        refine ⟨rfl, ?_⟩
        intro pre e' post he
        cases pre with
        | nil =>
          simp only [List.nil_append, List.cons.injEq, Cmd.ob.injEq] at he
          obtain ⟨rfl, rfl⟩ := he
          exact h1
        | cons x pre =>
          simp only [List.cons_append, List.cons.injEq] at he
          exact h2 pre e' post he.2
      · rintro ⟨rfl, h2⟩
        exact ⟨rfl, h2 [] e cs rfl, fun pre e' post he => h2 (.ob e :: pre) e' post (by rw [he]; rfl)⟩
    | addOb id x =>
      simp [obStep, addObTerm, Except.error_bind', obTerms_cons]
    | _ =>
      simp only [obStep, Except.ok_bind']
      rw [shift _ rfl, ob_start, obTerms, obTerms, termsOf_term (by rfl)]
      simp [Cmd.addOb?, obOf, Cmd.ob?]

theorem targetsOf_get : ∀ (cs : List Cmd) (k : ℕ) (f : String) (ts : List (String × ℝ)),
    (targetsOf cs)[k]? = some (f, ts) ↔ ∃ pre post, cs = pre ++ .target f :: post ∧
      (pre.filterMap Cmd.target?).length = k ∧ ts = targetTerms post
  | [], k, f, ts => by simp [targetsOf]
  | c :: cs, k, f, ts => by
    have ih := targetsOf_get cs
    cases hc : c.target? with
    | none =>
      simp only [targetsOf, hc]
      rw [ih]
      constructor
      · rintro ⟨pre, post, rfl, h1, h2⟩
        exact ⟨c :: pre, post, rfl, by simpa [hc] using h1, h2⟩
      · rintro ⟨pre, post, he, h1, h2⟩
        cases pre with
        | nil =>
          simp only [List.nil_append, List.cons.injEq] at he
          rw [he.1] at hc
          simp [Cmd.target?] at hc
        | cons x pre =>
          simp only [List.cons_append, List.cons.injEq] at he
          obtain ⟨rfl, rfl⟩ := he
          exact ⟨pre, post, rfl, by simpa [hc] using h1, h2⟩
    | some g =>
      have hcg : c = .target g := by cases c <;> simp_all [Cmd.target?]
      subst hcg
      simp only [targetsOf, hc]
      cases k with
      | zero =>
        simp only [List.getElem?_cons_zero, Option.some.injEq, Prod.mk.injEq]
        constructor
        · rintro ⟨rfl, rfl⟩
          exact ⟨[], cs, rfl, rfl, rfl⟩
        · rintro ⟨pre, post, he, h1, h2⟩
          cases pre with
          | nil =>
            simp only [List.nil_append, List.cons.injEq, Cmd.target.injEq] at he
            obtain ⟨rfl, rfl⟩ := he
            exact ⟨rfl, h2.symm⟩
          | cons x pre =>
            simp only [List.cons_append, List.cons.injEq] at he
            obtain ⟨rfl, rfl⟩ := he
            simp [hc] at h1
      | succ k =>
        rw [List.getElem?_cons_succ, ih]
        constructor
        · rintro ⟨pre, post, rfl, h1, h2⟩
          exact ⟨.target g :: pre, post, rfl, by simp [hc, h1], h2⟩
        · rintro ⟨pre, post, he, h1, h2⟩
          cases pre with
          | nil => simp at h1
          | cons x pre =>
            simp only [List.cons_append, List.cons.injEq] at he
            obtain ⟨rfl, rfl⟩ := he
            exact ⟨pre, post, rfl, by simpa [hc] using h1, h2⟩

/-- **C91.** A term belongs to the target defined last before it: the `k`-th target is that of the `k`-th
`define-target` line, with exactly the terms of the `add-source` lines between it and the next one, in order. -/
theorem target_terms {nm : Numbers} {ls : List CLine} {cfg : Config} (h : read nm ls = .ok cfg) :
    ∃ cs, ls.mapM (parse nm) = .ok cs ∧ ∀ (k : ℕ) f ts, cfg.targets[k]? = some (f, ts) ↔
      ∃ pre post, cs = pre ++ .target f :: post ∧ (pre.filterMap Cmd.target?).length = k ∧
        ts = (post.takeWhile fun c => c.target?.isNone).filterMap Cmd.add? := by
  obtain ⟨cs, h1, h2⟩ := read_ok.mp h
  obtain ⟨-, -, -, -, -, -, -, i8⟩ := fold_ok.mp h2
  refine ⟨cs, h1, fun k f ts => ?_⟩
  rw [(tg_start.mp i8).1]
  exact targetsOf_get cs k f ts

theorem obOf_get : ∀ (cs : List Cmd) (k : ℕ) (d : ObDecl),
    (obOf cs)[k]? = some d ↔ ∃ pre e post, cs = pre ++ .ob e :: post ∧
      (pre.filterMap Cmd.ob?).length = k ∧ d = e.withTerms (obTerms post)
  | [], k, d => by simp [obOf]
  | c :: cs, k, d => by
    have ih := obOf_get cs
    cases hc : c.ob? with
    | none =>
      simp only [obOf, hc]
      rw [ih]
      constructor
      · rintro ⟨pre, e, post, rfl, h1, h2⟩
        exact ⟨c :: pre, e, post, rfl, by simpa [hc] using h1, h2⟩
      · rintro ⟨pre, e, post, he, h1, h2⟩
        cases pre with
        | nil =>
          simp only [List.nil_append, List.cons.injEq] at he
          rw [he.1] at hc
          simp [Cmd.ob?] at hc
        | cons x pre =>
          simp only [List.cons_append, List.cons.injEq] at he
          obtain ⟨rfl, rfl⟩ := he
          exact ⟨pre, e, post, rfl, by simpa [hc] using h1, h2⟩
    | some g =>
      have hcg : c = .ob g := by cases c <;> simp_all [Cmd.ob?]
      subst hcg
      simp only [obOf, hc]
      cases k with
      | zero =>
        simp only [List.getElem?_cons_zero, Option.some.injEq]
        constructor
        · rintro rfl
          exact ⟨[], g, cs, rfl, rfl, rfl⟩
        · rintro ⟨pre, e, post, he, h1, h2⟩
          cases pre with
          | nil =>
            simp only [List.nil_append, List.cons.injEq, Cmd.ob.injEq] at he
            obtain ⟨rfl, rfl⟩ := he
            exact h2.symm
          | cons x pre =>
            simp only [List.cons_append, List.cons.injEq] at he
            obtain ⟨rfl, rfl⟩ := he
            simp [hc] at h1
      | succ k =>
        rw [List.getElem?_cons_succ, ih]
        constructor
        · rintro ⟨pre, e, post, rfl, h1, h2⟩
          exact ⟨.ob g :: pre, e, post, rfl, by simp [hc, h1], h2⟩
        · rintro ⟨pre, e, post, he, h1, h2⟩
          cases pre with
          | nil => simp at h1
          | cons x pre =>
            simp only [List.cons_append, List.cons.injEq] at he
            obtain ⟨rfl, rfl⟩ := he
            exact ⟨pre, e, post, rfl, by simpa [hc] using h1, h2⟩

/-- **C91.** A term of a one-body combination belongs to the one-body source defined last before it: the `k`-th
one-body source is that of the `k`-th `define-ob-source` line; if it is a linear combination its terms are those of the
`add-ob-source` lines between it and the next one, in order, and otherwise there are no such lines. -/
theorem ob_terms {nm : Numbers} {ls : List CLine} {cfg : Config} (h : read nm ls = .ok cfg) :
    ∃ cs, ls.mapM (parse nm) = .ok cs ∧ (∀ (k : ℕ) d, cfg.ob[k]? = some d ↔
      ∃ pre e post, cs = pre ++ .ob e :: post ∧ (pre.filterMap Cmd.ob?).length = k ∧
        d = e.withTerms ((post.takeWhile fun c => c.ob?.isNone).filterMap Cmd.addOb?)) ∧
      ∀ pre e post, cs = pre ++ .ob e :: post → e.isLinear = false →
        (post.takeWhile fun c => c.ob?.isNone).filterMap Cmd.addOb? = [] := by
  obtain ⟨cs, h1, h2⟩ := read_ok.mp h
  obtain ⟨-, -, -, -, -, -, i7, -⟩ := fold_ok.mp h2
  refine ⟨cs, h1, fun k d => ?_, (ob_start.mp i7).2.2⟩
  rw [(ob_start.mp i7).1]
  exact obOf_get cs k d

theorem mem_terms {α : Type} {isDef : Cmd → Option α} {term : Cmd → Option (String × ℝ)} {p : String × ℝ} :
    ∀ {rest : List Cmd}, p ∈ termsOf isDef term rest ↔ ∃ pre c post, rest = pre ++ c :: post ∧
      (∀ d ∈ pre, isDef d = none) ∧ isDef c = none ∧ term c = some p
  | [] => by simp [termsOf]
  | c :: cs => by
    have ih := mem_terms (isDef := isDef) (term := term) (p := p) (rest := cs)
    cases hc : isDef c with
    | some a =>
      rw [termsOf_def (by rw [hc]; rfl)]
      simp only [List.not_mem_nil, false_iff]
      rintro ⟨pre, d, post, he, h1, h2, -⟩
      cases pre with
      | nil =>
        simp only [List.nil_append, List.cons.injEq] at he
        rw [← he.1, hc] at h2
        cases h2
      | cons x pre =>
        simp only [List.cons_append, List.cons.injEq] at he
        have := h1 x (by simp)
        rw [← he.1, hc] at this
        cases this
    | none =>
      rw [termsOf_term hc, List.mem_append, ih, Option.mem_toList]
      constructor
      · rintro (h | ⟨pre, d, post, rfl, h1, h2, h3⟩)
        · exact ⟨[], c, cs, rfl, by simp, hc, h⟩
        · exact ⟨c :: pre, d, post, rfl, by simpa [hc] using h1, h2, h3⟩
      · rintro ⟨pre, d, post, he, h1, h2, h3⟩
        cases pre with
        | nil =>
          simp only [List.nil_append, List.cons.injEq] at he
          left
          rw [he.1]
          exact h3
        | cons x pre =>
          simp only [List.cons_append, List.cons.injEq] at he
          right
          exact ⟨pre, d, post, he.2, fun d hd => h1 d (by simp [hd]), h2, h3⟩

theorem no_terms_iff {cs : List Cmd} : targetTerms cs = [] ↔
    ∀ pre id x post, cs = pre ++ .add id x :: post → ∃ f, Cmd.target f ∈ pre := by
  rw [List.eq_nil_iff_forall_not_mem]
  constructor
  · intro h pre id x post he
    by_contra hn
    refine h (id, x) (mem_terms.mpr ⟨pre, _, post, he, fun d hd => ?_, rfl, rfl⟩)
    cases d with
    | target f => exact absurd ⟨f, hd⟩ hn
    | _ => rfl
  · rintro h ⟨id, x⟩ hm
    obtain ⟨pre, c, post, he, h1, h2, h3⟩ := mem_terms.mp hm
    have hc : c = .add id x := by cases c <;> simp_all [Cmd.add?]
    subst hc
    obtain ⟨f, hf⟩ := h pre id x post he
    have := h1 _ hf
    simp [Cmd.target?] at this

theorem ob_terms_iff {cs : List Cmd} : (obTerms cs = [] ∧
      ∀ pre e post, cs = pre ++ .ob e :: post → e.isLinear = false → obTerms post = []) ↔
    ∀ pre id x post, cs = pre ++ .addOb id x :: post →
        ∃ y ts, (pre.filterMap Cmd.ob?).getLast? = some (.linear y ts) := by
  have last : ∀ pre : List Cmd, (∀ d ∈ pre, d.ob? = none) ∨ ∃ p e q, pre = p ++ .ob e :: q ∧ ∀ d ∈ q, d.ob? = none := by
    intro pre
    induction pre with
    | nil => simp
    | cons c pre ih =>
      rcases ih with ih | ⟨p, e, q, rfl, h⟩
      · cases hc : c.ob? with
        | none => left; simpa [hc] using ih
        | some e =>
          right
          refine ⟨[], e, pre, ?_, ih⟩
          cases c <;> simp_all [Cmd.ob?]
      · exact Or.inr ⟨c :: p, e, q, rfl, h⟩
  have lastv : ∀ (p q : List Cmd) (e : ObDecl), (∀ d ∈ q, d.ob? = none) →
      ((p ++ .ob e :: q).filterMap Cmd.ob?).getLast? = some e := by
    intro p q e h
    have : q.filterMap Cmd.ob? = [] := by simpa [List.filterMap_eq_nil_iff] using h
    simp [this, Cmd.ob?]
  constructor
  · rintro ⟨h0, h⟩ pre id x post he
    rcases last pre with hl | ⟨p, e, q, rfl, hl⟩
    · have := mem_terms (isDef := Cmd.ob?) (term := Cmd.addOb?) (p := (id, x)) |>.mpr
        ⟨pre, _, post, he, hl, rfl, rfl⟩
      rw [show termsOf Cmd.ob? Cmd.addOb? cs = [] from h0] at this
      cases this
    · rw [lastv p q e hl]
      cases hlin : e.isLinear with
      | true =>
        cases e with
        | linear y ts => exact ⟨y, ts, rfl⟩
        | _ => cases hlin
      | false =>
        exfalso
        have h' := h p e (q ++ .addOb id x :: post) (by rw [he]; simp) hlin
        have := mem_terms (isDef := Cmd.ob?) (term := Cmd.addOb?) (p := (id, x)) |>.mpr
          ⟨q, .addOb id x, post, rfl, hl, rfl, rfl⟩
        rw [show termsOf Cmd.ob? Cmd.addOb? (q ++ .addOb id x :: post) = [] from h'] at this
        cases this
  · intro h
    constructor
    · rw [List.eq_nil_iff_forall_not_mem]
      rintro ⟨id, x⟩ hm
      obtain ⟨pre, c, post, he, h1, h2, h3⟩ := mem_terms.mp hm
      have hc : c = .addOb id x := by cases c <;> simp_all [Cmd.addOb?]
      subst hc
      obtain ⟨y, ts, hy⟩ := h pre id x post he
      have : pre.filterMap Cmd.ob? = [] := by simpa [List.filterMap_eq_nil_iff] using h1
      rw [this] at hy
      cases hy
    · intro p e post he hlin
      rw [List.eq_nil_iff_forall_not_mem]
      rintro ⟨id, x⟩ hm
      obtain ⟨pre, c, post', rfl, h1, h2, h3⟩ := mem_terms.mp hm
      have hc : c = .addOb id x := by cases c <;> simp_all [Cmd.addOb?]
      subst hc
      obtain ⟨y, ts, hy⟩ := h (p ++ .ob e :: pre) id x post' (by rw [he]; simp)
      rw [lastv p pre e h1] at hy
      cases hy
      cases hlin

/-- **C92.** Which control files are accepted: every line can be read, no `add-source` line comes before the first
target, and the one-body source last defined before an `add-ob-source` line is a linear combination. -/
theorem accepted_iff {nm : Numbers} {ls : List CLine} : (∃ cfg, read nm ls = .ok cfg) ↔
    ∃ cs, ls.mapM (parse nm) = .ok cs ∧
      (∀ pre id x post, cs = pre ++ .add id x :: post → ∃ f, Cmd.target f ∈ pre) ∧
      (∀ pre id x post, cs = pre ++ .addOb id x :: post →
        ∃ y ts, (pre.filterMap Cmd.ob?).getLast? = some (.linear y ts)) := by
  constructor
  · rintro ⟨cfg, h⟩
    obtain ⟨cs, h1, h2⟩ := read_ok.mp h
    obtain ⟨-, -, -, -, -, -, i7, i8⟩ := fold_ok.mp h2
    exact ⟨cs, h1, no_terms_iff.mp (tg_start.mp i8).2, ob_terms_iff.mp (ob_start.mp i7).2⟩
  · rintro ⟨cs, h1, h2, h3⟩
    refine ⟨⟨lastOf Cmd.cutoff? (-1) cs, lastOf Cmd.orbitals? "" cs, lastOf Cmd.weights? .default cs, _, _, _, _,
      obOf cs, _, targetsOf cs⟩, read_ok.mpr ⟨cs, h1, fold_ok.mpr ⟨?_, rfl, rfl, rfl, rfl, rfl,
      ob_start.mpr ⟨rfl, ob_terms_iff.mpr h3⟩, tg_start.mpr ⟨rfl, no_terms_iff.mpr h2⟩⟩⟩⟩
    rw [foldl_idx]

end Verif.Mixer.Control
