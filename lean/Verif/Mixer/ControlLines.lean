import Verif.Mixer.ControlProps

/-!
# Properties C92, C94, C95: single lines of the control file
-/

namespace Verif.Mixer.Control
open Verif Verif.Mapping Verif.Xform Verif.Obme Verif.Mixer
open Verif.H2 hiding Mat Subspace

/-! ## Specification: writing a command -/

/-- A way of writing numbers that reads back. -/
structure Printer (nm : Numbers) where
  int : Int → String
  num : ℝ → String
  int_ok : ∀ i, nm.int? (int i) = some i
  num_ok : ∀ x, nm.num? (num x) = some x

def Weights.list (w : Weights) : List ℝ := [w.wp, w.wn, w.wpp, w.wnn, w.wpn]

/-- The words of a command, as documented at the head of `h2mixer.cpp`. -/
def wordsOf {nm : Numbers} (pr : Printer nm) : Cmd → List String
  | .indexing f w => "set-target-indexing" :: f :: w.list.map pr.num
  | .oscillator r N => ["set-target-indexing-oscillator", (match r with | .one => "ob" | .two => "tb"), pr.int N]
  | .multipolarity q => ["set-target-multipolarity", pr.int q.J0, pr.int q.g0, pr.int q.Tz0]
  | .mass A => ["set-mass", pr.int A]
  | .format f => ["set-output-format", pr.int f]
  | .xform id f => ["define-xform", id, f]
  | .ob (.input id f q) => ["define-ob-source", "input", id, f, pr.int q.J0, pr.int q.g0, pr.int q.Tz0]
  | .ob (.builtin id f) => ["define-ob-source", "builtin", id] ++ (if f = "" then [] else [f])
  | .ob (.linear id _) => ["define-ob-source", "linear-combination", id]
  | .ob (.product id a b J0 x) => ["define-ob-source", "tensor-product", id, a, b, pr.int J0, pr.num x]
  | .ob (.xform id s x) => ["define-ob-source", "xform", id, s, x]
  | .ob (.generated _ _ _ _ _) => []
  | .addOb id x => ["add-ob-source", id, pr.num x]
  | .tb (.input id f) => ["define-tb-source", "input", id, f]
  | .tb (.builtin id) => ["define-tb-source", "builtin", id]
  | .tb (.opU id a) => ["define-tb-source", "operatorU", id, a]
  | .tb (.opV id a b x) => ["define-tb-source", "operatorV", id, a, b, pr.num x]
  | .tb (.xform id f w x) => ["define-tb-source", "xform", id, f] ++ w.list.map pr.num ++ [x]
  | .target f => ["define-target", f]
  | .add id x => ["add-source", id, pr.num x]

/-- The names of the built-in one-body operators, as documented at the head of `h2mixer.cpp`. -/
def BuiltinOb (id : String) : Prop :=
  id = "identity" ∨ id = "l" ∨ id = "l2" ∨ id = "s" ∨ id = "s2" ∨ id = "j" ∨ id = "j2" ∨ id = "tz" ∨ id = "t+" ∨
    id = "t-" ∨ id = "c+" ∨ id = "c"

/-- The commands a line can stand for. -/
def Expressible : Cmd → Prop
  | .ob (.generated _ _ _ _ _) => False
  | .ob (.builtin id _) => BuiltinOb id
  | .ob (.linear _ ts) => ts = []
  | .tb (.builtin id) => id = "identity" ∨ id = "loop-test"
  | _ => True

theorem obNames_iff {id : String} : id ∈ obNames ↔ BuiltinOb id := by
  simp [obNames, builtinTable, BuiltinOb]

theorem tbNames_iff {id : String} : id ∈ tbNames ↔ id = "identity" ∨ id = "loop-test" := by
  simp [tbNames]

/-! ## Writing and reading -/

theorem int_pr {nm : Numbers} (pr : Printer nm) (i : Int) (ws : List String) : int nm (pr.int i :: ws) = .ok (i, ws) := by
  simp [int, pr.int_ok]

theorem num_pr {nm : Numbers} (pr : Printer nm) (x : ℝ) (ws : List String) : num nm (pr.num x :: ws) = .ok (x, ws) := by
  simp [num, pr.num_ok]

theorem weights_pr {nm : Numbers} (pr : Printer nm) (w : Weights) (ws : List String) :
    weights nm (w.list.map pr.num ++ ws) = .ok (w, ws) := by
  simp [weights, Weights.list, num_pr, Except.ok_bind', Except.pure_ok]

/-- **C92.** Every command can be given by a line, written as documented. -/
theorem parse_words {nm : Numbers} (pr : Printer nm) {c : Cmd} (h : Expressible c) :
    parse nm ⟨wordsOf pr c, false⟩ = .ok c := by
  cases c with
  | indexing f w =>
    have := weights_pr pr w []
    rw [List.append_nil] at this
    simp [parse, wordsOf, word, this, Except.ok_bind', Except.pure_ok]
  | oscillator r N =>
    cases r <;> simp [parse, wordsOf, parseOsc, word, int_pr, Except.ok_bind', Except.pure_ok]
  | multipolarity q => simp [parse, wordsOf, int_pr, Except.ok_bind', Except.pure_ok]
  | mass A => simp [parse, wordsOf, int_pr, Except.ok_bind', Except.pure_ok]
  | format f => simp [parse, wordsOf, int_pr, Except.ok_bind', Except.pure_ok]
  | xform id f => simp [parse, wordsOf, parseXf]
  | addOb id x => simp [parse, wordsOf, parseTerm, word, num_pr, Except.ok_bind', Except.pure_ok]
  | add id x => simp [parse, wordsOf, parseTerm, word, num_pr, Except.ok_bind', Except.pure_ok]
  | target f => simp [parse, wordsOf, word, Except.ok_bind', Except.pure_ok]
  | ob d =>
    cases d with
    | input id f q => simp [parse, wordsOf, parseOb, word, int_pr, Except.ok_bind', Except.pure_ok]
    | builtin id f =>
      have h' := obNames_iff.mpr h
      by_cases hf : f = ""
      · simp [parse, wordsOf, parseOb, word, optWord, atEnd, h', hf, Except.ok_bind', Except.pure_ok]
      · simp [parse, wordsOf, parseOb, word, optWord, atEnd, h', hf, Except.ok_bind', Except.pure_ok]
    | generated _ _ _ _ _ => exact h.elim
    | linear id ts =>
      have h' : ts = [] := h
      simp [parse, wordsOf, parseOb, word, h', Except.ok_bind', Except.pure_ok]
    | product id a b J0 x =>
      simp [parse, wordsOf, parseOb, word, optNum, atEnd, int_pr, num_pr, Except.ok_bind', Except.pure_ok]
    | xform id s x => simp [parse, wordsOf, parseOb, word, Except.ok_bind', Except.pure_ok]
  | tb d =>
    cases d with
    | input id f => simp [parse, wordsOf, parseTb, word, Except.ok_bind', Except.pure_ok]
    | builtin id =>
      have h' := tbNames_iff.mpr h
      simp [parse, wordsOf, parseTb, word, h', Except.ok_bind', Except.pure_ok]
    | opU id a => simp [parse, wordsOf, parseTb, word, Except.ok_bind', Except.pure_ok]
    | opV id a b x =>
      simp [parse, wordsOf, parseTb, word, optNum, atEnd, num_pr, Except.ok_bind', Except.pure_ok]
    | xform id f w x =>
      simp [parse, wordsOf, parseTb, word, weights_pr, Except.ok_bind', Except.pure_ok]

/-! ## The words a line must have -/

/-- What is expected of a word: a given word, an integer or a number of given value. -/
inductive Token where
  | lit (s : String)
  | int (i : Int)
  | num (x : ℝ)

def Token.reads (nm : Numbers) : Token → String → Prop
  | .lit s, w => w = s
  | .int i, w => nm.int? w = some i
  | .num x, w => nm.num? w = some x

def Weights.tokens (w : Weights) : List Token := [.num w.wp, .num w.wn, .num w.wpp, .num w.wnn, .num w.wpn]

def QN.tokens (q : QN) : List Token := [.int q.J0, .int q.g0, .int q.Tz0]

/-- The words of a command, with all arguments. -/
def pattern : Cmd → List Token
  | .indexing f w => .lit "set-target-indexing" :: .lit f :: w.tokens
  | .oscillator .one N => [.lit "set-target-indexing-oscillator", .lit "ob", .int N]
  | .oscillator .two N => [.lit "set-target-indexing-oscillator", .lit "tb", .int N]
  | .multipolarity q => .lit "set-target-multipolarity" :: QN.tokens q
  | .mass A => [.lit "set-mass", .int A]
  | .format f => [.lit "set-output-format", .int f]
  | .xform id f => [.lit "define-xform", .lit id, .lit f]
  | .ob (.input id f q) => .lit "define-ob-source" :: .lit "input" :: .lit id :: .lit f :: QN.tokens q
  | .ob (.builtin id f) => [.lit "define-ob-source", .lit "builtin", .lit id, .lit f]
  | .ob (.linear id _) => [.lit "define-ob-source", .lit "linear-combination", .lit id]
  | .ob (.product id a b J0 x) =>
    [.lit "define-ob-source", .lit "tensor-product", .lit id, .lit a, .lit b, .int J0, .num x]
  | .ob (.xform id s x) => [.lit "define-ob-source", .lit "xform", .lit id, .lit s, .lit x]
  | .ob (.generated _ _ _ _ _) => []
  | .addOb id x => [.lit "add-ob-source", .lit id, .num x]
  | .tb (.input id f) => [.lit "define-tb-source", .lit "input", .lit id, .lit f]
  | .tb (.builtin id) => [.lit "define-tb-source", .lit "builtin", .lit id]
  | .tb (.opU id a) => [.lit "define-tb-source", .lit "operatorU", .lit id, .lit a]
  | .tb (.opV id a b x) => [.lit "define-tb-source", .lit "operatorV", .lit id, .lit a, .lit b, .num x]
  | .tb (.xform id f w x) =>
    [.lit "define-tb-source", .lit "xform", .lit id, .lit f] ++ w.tokens ++ [.lit x]
  | .target f => [.lit "define-target", .lit f]
  | .add id x => [.lit "add-source", .lit id, .num x]

/-- The words of a command whose last argument is left to its default. -/
inductive Short : Cmd → List Token → Prop where
  | builtin (id : String) : Short (.ob (.builtin id "")) [.lit "define-ob-source", .lit "builtin", .lit id]
  | product (id a b : String) (J0 : Int) : Short (.ob (.product id a b J0 1))
      [.lit "define-ob-source", .lit "tensor-product", .lit id, .lit a, .lit b, .int J0]
  | opV (id a b : String) : Short (.tb (.opV id a b 1))
      [.lit "define-tb-source", .lit "operatorV", .lit id, .lit a, .lit b]

/-- `define-xform` with missing arguments. -/
inductive Missing : Cmd → List Token → Prop where
  | file (id : String) : Missing (.xform id "") [.lit "define-xform", .lit id]
  | both : Missing (.xform "" "") [.lit "define-xform"]

/-- What a line means. -/
def Means (nm : Numbers) (l : CLine) (c : Cmd) : Prop :=
  Expressible c ∧ ((∃ lead rest, l.words = lead ++ rest ∧ List.Forall₂ (Token.reads nm) (pattern c) lead) ∨
    (∃ p, Short c p ∧ l.trailing = false ∧ List.Forall₂ (Token.reads nm) p l.words) ∨
    ∃ p, Missing c p ∧ List.Forall₂ (Token.reads nm) p l.words)

theorem word_ok {ws : List String} {r : String × List String} : word ws = .ok r ↔ ws = r.1 :: r.2 := by
  cases ws with
  | nil => simp [word]
  | cons a l => simp [word, Prod.ext_iff, eq_comm]

theorem int_ok {nm : Numbers} {ws : List String} {r : Int × List String} :
    int nm ws = .ok r ↔ ∃ w, ws = w :: r.2 ∧ nm.int? w = some r.1 := by
  cases ws with
  | nil => simp [int]
  | cons a l =>
    simp only [int, List.cons.injEq]
    cases h : nm.int? a with
    | none =>
      simp only [reduceCtorEq, false_iff]
      rintro ⟨w, ⟨rfl, -⟩, h'⟩
      rw [h] at h'
      cases h'
    | some i =>
      simp only [Except.ok.injEq]
      constructor
      · rintro rfl
        exact ⟨a, ⟨rfl, rfl⟩, h⟩
      · rintro ⟨w, ⟨rfl, rfl⟩, h'⟩
        rw [h] at h'
        cases h'
        rfl

theorem num_ok {nm : Numbers} {ws : List String} {r : ℝ × List String} :
    num nm ws = .ok r ↔ ∃ w, ws = w :: r.2 ∧ nm.num? w = some r.1 := by
  cases ws with
  | nil => simp [num]
  | cons a l =>
    simp only [num, List.cons.injEq]
    cases h : nm.num? a with
    | none =>
      simp only [reduceCtorEq, false_iff]
      rintro ⟨w, ⟨rfl, -⟩, h'⟩
      rw [h] at h'
      cases h'
    | some i =>
      simp only [Except.ok.injEq]
      constructor
      · rintro rfl
        exact ⟨a, ⟨rfl, rfl⟩, h⟩
      · rintro ⟨w, ⟨rfl, rfl⟩, h'⟩
        rw [h] at h'
        cases h'
        rfl

theorem int_some {nm : Numbers} {w : String} {i : Int} {ws : List String} (h : nm.int? w = some i) :
    int nm (w :: ws) = .ok (i, ws) := by simp [int, h]

theorem num_some {nm : Numbers} {w : String} {x : ℝ} {ws : List String} (h : nm.num? w = some x) :
    num nm (w :: ws) = .ok (x, ws) := by simp [num, h]

theorem weights_ok {nm : Numbers} {ws : List String} {r : Weights × List String} : weights nm ws = .ok r ↔
    ∃ x1 x2 x3 x4 x5, ws = x1 :: x2 :: x3 :: x4 :: x5 :: r.2 ∧ nm.num? x1 = some r.1.wp ∧ nm.num? x2 = some r.1.wn ∧
      nm.num? x3 = some r.1.wpp ∧ nm.num? x4 = some r.1.wnn ∧ nm.num? x5 = some r.1.wpn := by
  simp only [weights, Except.bind_eq_ok, num_ok, Except.pure_ok, Except.ok.injEq]
  constructor
  · rintro ⟨a, ⟨x1, rfl, h1⟩, b, ⟨x2, ha, h2⟩, c, ⟨x3, hb, h3⟩, d, ⟨x4, hc, h4⟩, e, ⟨x5, hd, h5⟩, rfl⟩
    exact ⟨x1, x2, x3, x4, x5, by rw [ha, hb, hc, hd], h1, h2, h3, h4, h5⟩
  · obtain ⟨⟨a, b, c, d, e⟩, ws'⟩ := r
    rintro ⟨x1, x2, x3, x4, x5, rfl, h1, h2, h3, h4, h5⟩
    exact ⟨(a, _), ⟨x1, rfl, h1⟩, (b, _), ⟨x2, rfl, h2⟩, (c, _), ⟨x3, rfl, h3⟩, (d, _), ⟨x4, rfl, h4⟩, (e, _),
      ⟨x5, rfl, h5⟩, rfl⟩

theorem optWord_ok {t : Bool} {ws : List String} {f : String} : optWord t ws = .ok f ↔
    (ws = [] ∧ t = false ∧ f = "") ∨ ∃ rest, ws = f :: rest := by
  unfold optWord atEnd
  cases ws with
  | nil => cases t <;> simp [word, Except.error_bind', eq_comm]
  | cons a l => simp [word, Except.ok_bind', Except.pure_ok, eq_comm]

theorem optNum_ok {nm : Numbers} {t : Bool} {ws : List String} {x : ℝ} : optNum nm t ws = .ok x ↔
    (ws = [] ∧ t = false ∧ x = 1) ∨ ∃ w rest, ws = w :: rest ∧ nm.num? w = some x := by
  unfold optNum atEnd
  cases ws with
  | nil => cases t <;> simp [num, Except.error_bind', eq_comm]
  | cons a l =>
    simp only [List.isEmpty_cons, Bool.false_and, Bool.false_eq_true, if_false, Except.bind_eq_ok, num_ok,
      Except.pure_ok, Except.ok.injEq, List.cons.injEq, reduceCtorEq, false_and, false_or]
    constructor
    · rintro ⟨r, ⟨w, ⟨rfl, rfl⟩, h⟩, rfl⟩
      exact ⟨a, _, ⟨rfl, rfl⟩, h⟩
    · rintro ⟨w, rest, ⟨rfl, rfl⟩, h⟩
      exact ⟨(x, l), ⟨a, ⟨rfl, rfl⟩, h⟩, rfl⟩

theorem parseOb_ok {nm : Numbers} {t : Bool} {ws : List String} {d : ObDecl} (h : parseOb nm t ws = .ok d) :
    Means nm ⟨"define-ob-source" :: ws, t⟩ (.ob d) := by
  unfold parseOb at h
  rw [Except.bind_eq_ok] at h
  obtain ⟨sub, hs, h⟩ := h
  rw [word_ok] at hs
  subst hs
  split at h
  · next e =>
    simp only [Except.bind_eq_ok, word_ok, int_ok, Except.pure_ok, Except.ok.injEq] at h
    obtain ⟨id, h1, f, h2, J0, ⟨x1, h3, h3'⟩, g0, ⟨x2, h4, h4'⟩, Tz0, ⟨x3, h5, h5'⟩, rfl⟩ := h
    refine ⟨trivial, .inl ⟨["define-ob-source", sub.1, id.1, f.1, x1, x2, x3], Tz0.2, ?_, ?_⟩⟩
    · simp [h1, h2, h3, h4, h5]
    · simp [pattern, QN.tokens, Token.reads, e, h3', h4', h5']
  split at h
  · next e =>
    simp only [Except.bind_eq_ok, word_ok, optWord_ok] at h
    obtain ⟨id, h1, f, h2, h⟩ := h
    split at h
    · next hn =>
      cases h
      refine ⟨obNames_iff.mp hn, ?_⟩
      rcases h2 with ⟨h2, rfl, rfl⟩ | ⟨rest, h2⟩
      · refine .inr (.inl ⟨_, .builtin _, rfl, ?_⟩)
        simp [Token.reads, e, h1, h2]
      · refine .inl ⟨["define-ob-source", sub.1, id.1, f], rest, ?_, ?_⟩
        · simp [h1, h2]
        · simp [pattern, Token.reads, e]
    · cases h
  split at h
  · next e =>
    simp only [Except.bind_eq_ok, word_ok, Except.pure_ok, Except.ok.injEq] at h
    obtain ⟨id, h1, rfl⟩ := h
    refine ⟨rfl, .inl ⟨["define-ob-source", sub.1, id.1], id.2, ?_, ?_⟩⟩
    · simp [h1]
    · simp [pattern, Token.reads, e]
  split at h
  · next e =>
    simp only [Except.bind_eq_ok, word_ok, int_ok, optNum_ok, Except.pure_ok, Except.ok.injEq] at h
    obtain ⟨id, h1, a, h2, b, h3, J0, ⟨w, h4, h4'⟩, x, h5, rfl⟩ := h
    refine ⟨trivial, ?_⟩
    rcases h5 with ⟨h5, rfl, rfl⟩ | ⟨x1, rest, h5, h5'⟩
    · refine .inr (.inl ⟨_, .product _ _ _ _, rfl, ?_⟩)
      simp [Token.reads, e, h1, h2, h3, h4, h5, h4']
    · refine .inl ⟨["define-ob-source", sub.1, id.1, a.1, b.1, w, x1], rest, ?_, ?_⟩
      · simp [h1, h2, h3, h4, h5]
      · simp [pattern, Token.reads, e, h4', h5']
  split at h
  · next e =>
    simp only [Except.bind_eq_ok, word_ok, Except.pure_ok, Except.ok.injEq] at h
    obtain ⟨id, h1, a, h2, b, h3, rfl⟩ := h
    refine ⟨trivial, .inl ⟨["define-ob-source", sub.1, id.1, a.1, b.1], b.2, ?_, ?_⟩⟩
    · simp [h1, h2, h3]
    · simp [pattern, Token.reads, e]
  · cases h

theorem parseTb_ok {nm : Numbers} {t : Bool} {ws : List String} {d : TbDecl} (h : parseTb nm t ws = .ok d) :
    Means nm ⟨"define-tb-source" :: ws, t⟩ (.tb d) := by
  unfold parseTb at h
  rw [Except.bind_eq_ok] at h
  obtain ⟨sub, hs, h⟩ := h
  rw [word_ok] at hs
  subst hs
  split at h
  · next e =>
    simp only [Except.bind_eq_ok, word_ok, Except.pure_ok, Except.ok.injEq] at h
    obtain ⟨id, h1, f, h2, rfl⟩ := h
    refine ⟨trivial, .inl ⟨["define-tb-source", sub.1, id.1, f.1], f.2, ?_, ?_⟩⟩
    · simp [h1, h2]
    · simp [pattern, Token.reads, e]
  split at h
  · next e =>
    simp only [Except.bind_eq_ok, word_ok] at h
    obtain ⟨id, h1, h⟩ := h
    split at h
    · next hn =>
      cases h
      refine ⟨tbNames_iff.mp hn, .inl ⟨["define-tb-source", sub.1, id.1], id.2, ?_, ?_⟩⟩
      · simp [h1]
      · simp [pattern, Token.reads, e]
    · cases h
  split at h
  · next e =>
    simp only [Except.bind_eq_ok, word_ok, Except.pure_ok, Except.ok.injEq] at h
    obtain ⟨id, h1, f, h2, rfl⟩ := h
    refine ⟨trivial, .inl ⟨["define-tb-source", sub.1, id.1, f.1], f.2, ?_, ?_⟩⟩
    · simp [h1, h2]
    · simp [pattern, Token.reads, e]
  split at h
  · next e =>
    simp only [Except.bind_eq_ok, word_ok, optNum_ok, Except.pure_ok, Except.ok.injEq] at h
    obtain ⟨id, h1, a, h2, b, h3, x, h5, rfl⟩ := h
    refine ⟨trivial, ?_⟩
    rcases h5 with ⟨h5, rfl, rfl⟩ | ⟨x1, rest, h5, h5'⟩
    · refine .inr (.inl ⟨_, .opV _ _ _, rfl, ?_⟩)
      simp [Token.reads, e, h1, h2, h3, h5]
    · refine .inl ⟨["define-tb-source", sub.1, id.1, a.1, b.1, x1], rest, ?_, ?_⟩
      · simp [h1, h2, h3, h5]
      · simp [pattern, Token.reads, e, h5']
  split at h
  · next e =>
    simp only [Except.bind_eq_ok, word_ok, weights_ok, Except.pure_ok, Except.ok.injEq] at h
    obtain ⟨id, h1, f, h2, w, ⟨x1, x2, x3, x4, x5, h3, g1, g2, g3, g4, g5⟩, x, h4, rfl⟩ := h
    refine ⟨trivial, .inl ⟨["define-tb-source", sub.1, id.1, f.1, x1, x2, x3, x4, x5, x.1], x.2, ?_, ?_⟩⟩
    · simp [h1, h2, h3, h4]
    · simp [pattern, Weights.tokens, Token.reads, e, g1, g2, g3, g4, g5]
  · cases h

/-- **C92.** A line is accepted exactly if it begins with the words of a command, of which the last argument may be
left out for three commands if nothing follows, and its meaning is that command; `define-xform` needs no arguments. -/
theorem parse_iff {nm : Numbers} {l : CLine} {c : Cmd} : parse nm l = .ok c ↔ Means nm l c := by
  obtain ⟨words, t⟩ := l
  constructor
  · intro h
    unfold parse at h
    cases words with
    | nil => cases h
    | cons kw ws =>
      simp only at h
      split at h
      · next e =>
        simp only [Except.bind_eq_ok, word_ok, weights_ok, Except.pure_ok, Except.ok.injEq] at h
        obtain ⟨f, h2, w, ⟨x1, x2, x3, x4, x5, h3, g1, g2, g3, g4, g5⟩, rfl⟩ := h
        refine ⟨trivial, .inl ⟨[kw, f.1, x1, x2, x3, x4, x5], w.2, ?_, ?_⟩⟩
        · simp [h2, h3]
        · simp [pattern, Weights.tokens, Token.reads, e, g1, g2, g3, g4, g5]
      split at h
      · next e =>
        simp only [parseOsc, Except.bind_eq_ok, word_ok, int_ok] at h
        obtain ⟨f, h2, N, ⟨x1, h3, g1⟩, h⟩ := h
        split at h
        · next e' =>
          cases h
          refine ⟨trivial, .inl ⟨[kw, f.1, x1], N.2, ?_, ?_⟩⟩
          · simp [h2, h3]
          · simp [pattern, Token.reads, e, e', g1]
        split at h
        · next e' =>
          cases h
          refine ⟨trivial, .inl ⟨[kw, f.1, x1], N.2, ?_, ?_⟩⟩
          · simp [h2, h3]
          · simp [pattern, Token.reads, e, e', g1]
        · cases h
      split at h
      · next e =>
        simp only [Except.bind_eq_ok, int_ok, Except.pure_ok, Except.ok.injEq] at h
        obtain ⟨J0, ⟨x1, h3, h3'⟩, g0, ⟨x2, h4, h4'⟩, Tz0, ⟨x3, h5, h5'⟩, rfl⟩ := h
        refine ⟨trivial, .inl ⟨[kw, x1, x2, x3], Tz0.2, ?_, ?_⟩⟩
        · simp [h3, h4, h5]
        · simp [pattern, QN.tokens, Token.reads, e, h3', h4', h5']
      split at h
      · next e =>
        simp only [Except.bind_eq_ok, int_ok, Except.pure_ok, Except.ok.injEq] at h
        obtain ⟨A, ⟨x1, h3, h3'⟩, rfl⟩ := h
        refine ⟨trivial, .inl ⟨[kw, x1], A.2, ?_, ?_⟩⟩
        · simp [h3]
        · simp [pattern, Token.reads, e, h3']
      split at h
      · next e =>
        simp only [Except.bind_eq_ok, int_ok, Except.pure_ok, Except.ok.injEq] at h
        obtain ⟨A, ⟨x1, h3, h3'⟩, rfl⟩ := h
        refine ⟨trivial, .inl ⟨[kw, x1], A.2, ?_, ?_⟩⟩
        · simp [h3]
        · simp [pattern, Token.reads, e, h3']
      split at h
      · next e =>
        cases h
        refine ⟨trivial, ?_⟩
        match ws with
        | [] => exact .inr (.inr ⟨_, .both, by simp [Token.reads, e]⟩)
        | [a] => exact .inr (.inr ⟨_, .file a, by simp [Token.reads, e]⟩)
        | a :: b :: rest => exact .inl ⟨[kw, a, b], rest, rfl, by simp [pattern, parseXf, Token.reads, e]⟩
      split at h
      · next e =>
        simp only [Except.bind_eq_ok, Except.pure_ok, Except.ok.injEq] at h
        obtain ⟨d, h, rfl⟩ := h
        rw [e]
        exact parseOb_ok h
      split at h
      · next e =>
        simp only [parseTerm, Except.bind_eq_ok, word_ok, num_ok, Except.pure_ok, Except.ok.injEq] at h
        obtain ⟨r, ⟨f, h2, N, ⟨x1, h3, g1⟩, rfl⟩, rfl⟩ := h
        refine ⟨trivial, .inl ⟨[kw, f.1, x1], N.2, ?_, ?_⟩⟩
        · simp [h2, h3]
        · simp [pattern, Token.reads, e, g1]
      split at h
      · next e =>
        simp only [Except.bind_eq_ok, Except.pure_ok, Except.ok.injEq] at h
        obtain ⟨d, h, rfl⟩ := h
        rw [e]
        exact parseTb_ok h
      split at h
      · next e =>
        simp only [Except.bind_eq_ok, word_ok, Except.pure_ok, Except.ok.injEq] at h
        obtain ⟨f, h2, rfl⟩ := h
        refine ⟨trivial, .inl ⟨[kw, f.1], f.2, ?_, ?_⟩⟩
        · simp [h2]
        · simp [pattern, Token.reads, e]
      split at h
      · next e =>
        simp only [parseTerm, Except.bind_eq_ok, word_ok, num_ok, Except.pure_ok, Except.ok.injEq] at h
        obtain ⟨r, ⟨f, h2, N, ⟨x1, h3, g1⟩, rfl⟩, rfl⟩ := h
        refine ⟨trivial, .inl ⟨[kw, f.1, x1], N.2, ?_, ?_⟩⟩
        · simp [h2, h3]
        · simp [pattern, Token.reads, e, g1]
      · cases h
  · rintro ⟨he, ⟨lead, rest, hw, hp⟩ | ⟨p, hs, ht, hp⟩ | ⟨p, hs, hp⟩⟩
    · simp only at hw
      subst hw
      cases c with
      | indexing f w =>
        simp only [pattern, Weights.tokens, List.forall₂_cons_left_iff, List.forall₂_nil_left_iff, Token.reads] at hp
        obtain ⟨_, _, rfl, ⟨_, _, rfl, ⟨x1, _, g1, ⟨x2, _, g2, ⟨x3, _, g3, ⟨x4, _, g4, ⟨x5, _, g5, rfl, rfl⟩, rfl⟩, rfl⟩,
          rfl⟩, rfl⟩, rfl⟩, rfl⟩ := hp
        have := weights_ok (nm := nm) (r := (w, rest)) |>.mpr ⟨x1, x2, x3, x4, x5, rfl, g1, g2, g3, g4, g5⟩
        simp [parse, word, this, Except.ok_bind', Except.pure_ok]
      | oscillator r N =>
        cases r <;>
        · simp only [pattern, List.forall₂_cons_left_iff, List.forall₂_nil_left_iff, Token.reads] at hp
          obtain ⟨_, _, rfl, ⟨_, _, rfl, ⟨x1, _, g1, rfl, rfl⟩, rfl⟩, rfl⟩ := hp
          simp [parse, parseOsc, word, int_some g1, Except.ok_bind', Except.pure_ok]
      | multipolarity q =>
        simp only [pattern, QN.tokens, List.forall₂_cons_left_iff, List.forall₂_nil_left_iff, Token.reads] at hp
        obtain ⟨_, _, rfl, ⟨x1, _, g1, ⟨x2, _, g2, ⟨x3, _, g3, rfl, rfl⟩, rfl⟩, rfl⟩, rfl⟩ := hp
        simp [parse, int_some g1, int_some g2, int_some g3, Except.ok_bind', Except.pure_ok]
      | mass A =>
        simp only [pattern, List.forall₂_cons_left_iff, List.forall₂_nil_left_iff, Token.reads] at hp
        obtain ⟨_, _, rfl, ⟨x1, _, g1, rfl, rfl⟩, rfl⟩ := hp
        simp [parse, int_some g1, Except.ok_bind', Except.pure_ok]
      | format f =>
        simp only [pattern, List.forall₂_cons_left_iff, List.forall₂_nil_left_iff, Token.reads] at hp
        obtain ⟨_, _, rfl, ⟨x1, _, g1, rfl, rfl⟩, rfl⟩ := hp
        simp [parse, int_some g1, Except.ok_bind', Except.pure_ok]
      | xform id f =>
        simp only [pattern, List.forall₂_cons_left_iff, List.forall₂_nil_left_iff, Token.reads] at hp
        obtain ⟨_, _, rfl, ⟨_, _, rfl, ⟨_, _, rfl, rfl, rfl⟩, rfl⟩, rfl⟩ := hp
        simp [parse, parseXf]
      | addOb id x =>
        simp only [pattern, List.forall₂_cons_left_iff, List.forall₂_nil_left_iff, Token.reads] at hp
        obtain ⟨_, _, rfl, ⟨_, _, rfl, ⟨x1, _, g1, rfl, rfl⟩, rfl⟩, rfl⟩ := hp
        simp [parse, parseTerm, word, num_some g1, Except.ok_bind', Except.pure_ok]
      | add id x =>
        simp only [pattern, List.forall₂_cons_left_iff, List.forall₂_nil_left_iff, Token.reads] at hp
        obtain ⟨_, _, rfl, ⟨_, _, rfl, ⟨x1, _, g1, rfl, rfl⟩, rfl⟩, rfl⟩ := hp
        simp [parse, parseTerm, word, num_some g1, Except.ok_bind', Except.pure_ok]
      | target f =>
        simp only [pattern, List.forall₂_cons_left_iff, List.forall₂_nil_left_iff, Token.reads] at hp
        obtain ⟨_, _, rfl, ⟨_, _, rfl, rfl, rfl⟩, rfl⟩ := hp
        simp [parse, word, Except.ok_bind', Except.pure_ok]
      | ob d =>
        cases d with
        | input id f q =>
          simp only [pattern, QN.tokens, List.forall₂_cons_left_iff, List.forall₂_nil_left_iff, Token.reads] at hp
          obtain ⟨_, _, rfl, ⟨_, _, rfl, ⟨_, _, rfl, ⟨_, _, rfl, ⟨x1, _, g1, ⟨x2, _, g2, ⟨x3, _, g3, rfl, rfl⟩, rfl⟩,
            rfl⟩, rfl⟩, rfl⟩, rfl⟩, rfl⟩ := hp
          simp [parse, parseOb, word, int_some g1, int_some g2, int_some g3, Except.ok_bind', Except.pure_ok]
        | builtin id f =>
          have h' := obNames_iff.mpr he
          simp only [pattern, List.forall₂_cons_left_iff, List.forall₂_nil_left_iff, Token.reads] at hp
          obtain ⟨_, _, rfl, ⟨_, _, rfl, ⟨_, _, rfl, ⟨_, _, rfl, rfl, rfl⟩, rfl⟩, rfl⟩, rfl⟩ := hp
          simp [parse, parseOb, word, optWord, atEnd, h', Except.ok_bind', Except.pure_ok]
        | generated _ _ _ _ _ => exact he.elim
        | linear id ts =>
          have h' : ts = [] := he
          simp only [pattern, List.forall₂_cons_left_iff, List.forall₂_nil_left_iff, Token.reads] at hp
          obtain ⟨_, _, rfl, ⟨_, _, rfl, ⟨_, _, rfl, rfl, rfl⟩, rfl⟩, rfl⟩ := hp
          simp [parse, parseOb, word, h', Except.ok_bind', Except.pure_ok]
        | product id a b J0 x =>
          simp only [pattern, List.forall₂_cons_left_iff, List.forall₂_nil_left_iff, Token.reads] at hp
          obtain ⟨_, _, rfl, ⟨_, _, rfl, ⟨_, _, rfl, ⟨_, _, rfl, ⟨_, _, rfl, ⟨x1, _, g1, ⟨x2, _, g2, rfl, rfl⟩, rfl⟩,
            rfl⟩, rfl⟩, rfl⟩, rfl⟩, rfl⟩ := hp
          simp [parse, parseOb, word, optNum, atEnd, int_some g1, num_some g2, Except.ok_bind', Except.pure_ok]
        | xform id s x =>
          simp only [pattern, List.forall₂_cons_left_iff, List.forall₂_nil_left_iff, Token.reads] at hp
          obtain ⟨_, _, rfl, ⟨_, _, rfl, ⟨_, _, rfl, ⟨_, _, rfl, ⟨_, _, rfl, rfl, rfl⟩, rfl⟩, rfl⟩, rfl⟩, rfl⟩ := hp
          simp [parse, parseOb, word, Except.ok_bind', Except.pure_ok]
      | tb d =>
        cases d with
        | input id f =>
          simp only [pattern, List.forall₂_cons_left_iff, List.forall₂_nil_left_iff, Token.reads] at hp
          obtain ⟨_, _, rfl, ⟨_, _, rfl, ⟨_, _, rfl, ⟨_, _, rfl, rfl, rfl⟩, rfl⟩, rfl⟩, rfl⟩ := hp
          simp [parse, parseTb, word, Except.ok_bind', Except.pure_ok]
        | builtin id =>
          have h' := tbNames_iff.mpr he
          simp only [pattern, List.forall₂_cons_left_iff, List.forall₂_nil_left_iff, Token.reads] at hp
          obtain ⟨_, _, rfl, ⟨_, _, rfl, ⟨_, _, rfl, rfl, rfl⟩, rfl⟩, rfl⟩ := hp
          simp [parse, parseTb, word, h', Except.ok_bind', Except.pure_ok]
        | opU id a =>
          simp only [pattern, List.forall₂_cons_left_iff, List.forall₂_nil_left_iff, Token.reads] at hp
          obtain ⟨_, _, rfl, ⟨_, _, rfl, ⟨_, _, rfl, ⟨_, _, rfl, rfl, rfl⟩, rfl⟩, rfl⟩, rfl⟩ := hp
          simp [parse, parseTb, word, Except.ok_bind', Except.pure_ok]
        | opV id a b x =>
          simp only [pattern, List.forall₂_cons_left_iff, List.forall₂_nil_left_iff, Token.reads] at hp
          obtain ⟨_, _, rfl, ⟨_, _, rfl, ⟨_, _, rfl, ⟨_, _, rfl, ⟨_, _, rfl, ⟨x1, _, g1, rfl, rfl⟩, rfl⟩, rfl⟩, rfl⟩,
            rfl⟩, rfl⟩ := hp
          simp [parse, parseTb, word, optNum, atEnd, num_some g1, Except.ok_bind', Except.pure_ok]
        | xform id f w x =>
          simp only [pattern, Weights.tokens, List.cons_append, List.nil_append, List.forall₂_cons_left_iff,
            List.forall₂_nil_left_iff, Token.reads] at hp
          obtain ⟨_, _, rfl, ⟨_, _, rfl, ⟨_, _, rfl, ⟨_, _, rfl, ⟨x1, _, g1, ⟨x2, _, g2, ⟨x3, _, g3, ⟨x4, _, g4,
            ⟨x5, _, g5, ⟨y, _, rfl, rfl, rfl⟩, rfl⟩, rfl⟩, rfl⟩, rfl⟩, rfl⟩, rfl⟩, rfl⟩, rfl⟩, rfl⟩ := hp
          have := weights_ok (nm := nm) (r := (w, y :: rest)) |>.mpr ⟨x1, x2, x3, x4, x5, rfl, g1, g2, g3, g4, g5⟩
          simp [parse, parseTb, word, this, Except.ok_bind', Except.pure_ok]
    · simp only at ht hp
      subst ht
      cases hs with
      | builtin id =>
        have h' := obNames_iff.mpr he
        simp only [List.forall₂_cons_left_iff, List.forall₂_nil_left_iff, Token.reads] at hp
        obtain ⟨_, _, rfl, ⟨_, _, rfl, ⟨_, _, rfl, rfl, rfl⟩, rfl⟩, rfl⟩ := hp
        simp [parse, parseOb, word, optWord, atEnd, h', Except.ok_bind', Except.pure_ok]
      | product id a b J0 =>
        simp only [List.forall₂_cons_left_iff, List.forall₂_nil_left_iff, Token.reads] at hp
        obtain ⟨_, _, rfl, ⟨_, _, rfl, ⟨_, _, rfl, ⟨_, _, rfl, ⟨_, _, rfl, ⟨x1, _, g1, rfl, rfl⟩, rfl⟩,
          rfl⟩, rfl⟩, rfl⟩, rfl⟩ := hp
        simp [parse, parseOb, word, optNum, atEnd, int_some g1, Except.ok_bind', Except.pure_ok]
      | opV id a b =>
        simp only [List.forall₂_cons_left_iff, List.forall₂_nil_left_iff, Token.reads] at hp
        obtain ⟨_, _, rfl, ⟨_, _, rfl, ⟨_, _, rfl, ⟨_, _, rfl, ⟨_, _, rfl, rfl, rfl⟩, rfl⟩, rfl⟩, rfl⟩, rfl⟩ := hp
        simp [parse, parseTb, word, optNum, atEnd, Except.ok_bind', Except.pure_ok]
    · simp only at hp
      cases hs with
      | file id =>
        simp only [List.forall₂_cons_left_iff, List.forall₂_nil_left_iff, Token.reads] at hp
        obtain ⟨_, _, rfl, ⟨_, _, rfl, rfl, rfl⟩, rfl⟩ := hp
        simp [parse, parseXf]
      | both =>
        simp only [List.forall₂_cons_left_iff, List.forall₂_nil_left_iff, Token.reads] at hp
        obtain ⟨_, _, rfl, rfl, rfl⟩ := hp
        simp [parse, parseXf]

theorem bind_parse {α β : Type} {x : Except Err α} {f : α → Except Err β} (hx : ∀ e, x = .error e → e = .parseError)
    (hf : ∀ a e, f a = .error e → e = .parseError) (e : Err) (h : (x >>= f) = .error e) : e = .parseError := by
  cases x with
  | error e' =>
    rw [Except.error_bind'] at h
    cases h
    exact hx _ rfl
  | ok a =>
    rw [Except.ok_bind'] at h
    exact hf a e h

theorem word_err (ws : List String) (e : Err) (h : word ws = .error e) : e = .parseError := by
  cases ws <;> simp_all [word, eq_comm]

theorem int_err (nm : Numbers) (ws : List String) (e : Err) (h : int nm ws = .error e) : e = .parseError := by
  unfold int at h
  split at h
  · split at h <;> simp_all [eq_comm]
  · simp_all [eq_comm]

theorem num_err (nm : Numbers) (ws : List String) (e : Err) (h : num nm ws = .error e) : e = .parseError := by
  unfold num at h
  split at h
  · split at h <;> simp_all [eq_comm]
  · simp_all [eq_comm]

theorem pure_err {α : Type} (a : α) (e : Err) (h : (pure a : Except Err α) = .error e) : e = .parseError := by cases h

theorem weights_err (nm : Numbers) (ws : List String) (e : Err) (h : weights nm ws = .error e) : e = .parseError :=
  bind_parse (num_err nm ws) (fun _ => bind_parse (num_err nm _) fun _ => bind_parse (num_err nm _) fun _ =>
    bind_parse (num_err nm _) fun _ => bind_parse (num_err nm _) fun _ => pure_err _) e h

theorem optWord_err (t : Bool) (ws : List String) (e : Err) (h : optWord t ws = .error e) : e = .parseError := by
  unfold optWord at h
  split at h
  · cases h
  · exact bind_parse (word_err _) (fun _ => pure_err _) e h

theorem optNum_err (nm : Numbers) (t : Bool) (ws : List String) (e : Err) (h : optNum nm t ws = .error e) :
    e = .parseError := by
  unfold optNum at h
  split at h
  · cases h
  · exact bind_parse (num_err _ _) (fun _ => pure_err _) e h

theorem parseOb_err (nm : Numbers) (t : Bool) (ws : List String) (e : Err) (h : parseOb nm t ws = .error e) :
    e = .parseError := by
  refine bind_parse (word_err ws) (fun sub e h => ?_) e h
  split at h
  · exact bind_parse (word_err _) (fun _ => bind_parse (word_err _) fun _ => bind_parse (int_err _ _) fun _ =>
      bind_parse (int_err _ _) fun _ => bind_parse (int_err _ _) fun _ => pure_err _) e h
  split at h
  · refine bind_parse (word_err _) (fun _ => bind_parse (optWord_err _ _) fun _ e h => ?_) e h
    split at h <;> cases h
    rfl
  split at h
  · exact bind_parse (word_err _) (fun _ => pure_err _) e h
  split at h
  · exact bind_parse (word_err _) (fun _ => bind_parse (word_err _) fun _ => bind_parse (word_err _) fun _ =>
      bind_parse (int_err _ _) fun _ => bind_parse (optNum_err _ _ _) fun _ => pure_err _) e h
  split at h
  · exact bind_parse (word_err _) (fun _ => bind_parse (word_err _) fun _ => bind_parse (word_err _) fun _ =>
      pure_err _) e h
  · cases h
    rfl

theorem parseTb_err (nm : Numbers) (t : Bool) (ws : List String) (e : Err) (h : parseTb nm t ws = .error e) :
    e = .parseError := by
  refine bind_parse (word_err ws) (fun sub e h => ?_) e h
  split at h
  · exact bind_parse (word_err _) (fun _ => bind_parse (word_err _) fun _ => pure_err _) e h
  split at h
  · refine bind_parse (word_err _) (fun _ e h => ?_) e h
    split at h <;> cases h
    rfl
  split at h
  · exact bind_parse (word_err _) (fun _ => bind_parse (word_err _) fun _ => pure_err _) e h
  split at h
  · exact bind_parse (word_err _) (fun _ => bind_parse (word_err _) fun _ => bind_parse (word_err _) fun _ =>
      bind_parse (optNum_err _ _ _) fun _ => pure_err _) e h
  split at h
  · exact bind_parse (word_err _) (fun _ => bind_parse (word_err _) fun _ => bind_parse (weights_err _ _) fun _ =>
      bind_parse (word_err _) fun _ => pure_err _) e h
  · cases h
    rfl

/-- **C92.** A line that is not accepted is reported as such. -/
theorem parse_error {nm : Numbers} {l : CLine} : parse nm l = .error .parseError ↔ ∀ c, ¬ Means nm l c := by
  constructor
  · intro h c hc
    rw [← parse_iff, h] at hc
    cases hc
  · intro h
    cases he : parse nm l with
    | ok c => exact absurd (parse_iff.mp he) (h c)
    | error e =>
      suffices e = .parseError by rw [this]
      clear h
      rename' he => h
      unfold parse at h
      split at h
      · cases h
        rfl
      split at h
      · exact bind_parse (word_err _) (fun _ => bind_parse (weights_err _ _) fun _ => pure_err _) e h
      split at h
      · refine bind_parse (word_err _) (fun _ => bind_parse (int_err _ _) fun _ e h => ?_) e h
        split at h
        · cases h
        split at h
        · cases h
        · cases h
          rfl
      split at h
      · exact bind_parse (int_err _ _) (fun _ => bind_parse (int_err _ _) fun _ => bind_parse (int_err _ _) fun _ =>
          pure_err _) e h
      split at h
      · exact bind_parse (int_err _ _) (fun _ => pure_err _) e h
      split at h
      · exact bind_parse (int_err _ _) (fun _ => pure_err _) e h
      split at h
      · cases h
      split at h
      · exact bind_parse (parseOb_err _ _ _) (fun _ => pure_err _) e h
      split at h
      · exact bind_parse (fun e h => bind_parse (word_err _) (fun _ => bind_parse (num_err _ _) fun _ => pure_err _) e h)
          (fun _ => pure_err _) e h
      split at h
      · exact bind_parse (parseTb_err _ _ _) (fun _ => pure_err _) e h
      split at h
      · exact bind_parse (word_err _) (fun _ => pure_err _) e h
      split at h
      · exact bind_parse (fun e h => bind_parse (word_err _) (fun _ => bind_parse (num_err _ _) fun _ => pure_err _) e h)
          (fun _ => pure_err _) e h
      · cases h
        rfl

/-- **C95, refuted.** Surplus words are not reported: a line that gives a command in full may go on with anything. -/
theorem surplus_ignored {nm : Numbers} {c : Cmd} (he : Expressible c) {lead : List String}
    (h : List.Forall₂ (Token.reads nm) (pattern c) lead) (surplus : List String) (t : Bool) :
    parse nm ⟨lead ++ surplus, t⟩ = .ok c := parse_iff.mpr ⟨he, .inl ⟨lead, surplus, rfl, h⟩⟩

/-- **C95, refuted.** Blanks at the end of a line matter: where the last argument is left to its default, they turn an
accepted line into an error. -/
theorem trailing_blank {nm : Numbers} {c : Cmd} (he : Expressible c) {p : List Token} (hs : Short c p)
    {ws : List String} (h : List.Forall₂ (Token.reads nm) p ws) :
    parse nm ⟨ws, false⟩ = .ok c ∧ parse nm ⟨ws, true⟩ = .error .parseError := by
  refine ⟨parse_iff.mpr ⟨he, .inr (.inl ⟨p, hs, rfl, h⟩)⟩, ?_⟩
  cases hs with
  | builtin id =>
    simp only [List.forall₂_cons_left_iff, List.forall₂_nil_left_iff, Token.reads] at h
    obtain ⟨_, _, rfl, ⟨_, _, rfl, ⟨_, _, rfl, rfl, rfl⟩, rfl⟩, rfl⟩ := h
    simp [parse, parseOb, word, optWord, atEnd, Except.ok_bind', Except.error_bind']
  | product id a b J0 =>
    simp only [List.forall₂_cons_left_iff, List.forall₂_nil_left_iff, Token.reads] at h
    obtain ⟨_, _, rfl, ⟨_, _, rfl, ⟨_, _, rfl, ⟨_, _, rfl, ⟨_, _, rfl, ⟨x1, _, g1, rfl, rfl⟩, rfl⟩,
      rfl⟩, rfl⟩, rfl⟩, rfl⟩ := h
    simp [parse, parseOb, word, optNum, num, atEnd, int_some g1, Except.ok_bind', Except.error_bind']
  | opV id a b =>
    simp only [List.forall₂_cons_left_iff, List.forall₂_nil_left_iff, Token.reads] at h
    obtain ⟨_, _, rfl, ⟨_, _, rfl, ⟨_, _, rfl, ⟨_, _, rfl, ⟨_, _, rfl, rfl, rfl⟩, rfl⟩, rfl⟩, rfl⟩, rfl⟩ := h
    simp [parse, parseTb, word, optNum, num, atEnd, Except.ok_bind', Except.error_bind']

/-- **C93, refuted.** A transformation line without name and file is accepted. -/
theorem xform_without_file (nm : Numbers) : read nm [⟨["define-xform"], false⟩] =
    .ok { xforms := [("", "")] } := by
  rw [read_ok]
  exact ⟨[.xform "" ""], by simp [parse, parseXf, Except.ok_bind', Except.pure_ok], rfl⟩

/-! ## Which orbitals the target has -/

/-- **C94.** The orbitals of the target: those of the oscillator up to the cutoff of the last
`set-target-indexing-oscillator` line if there is one and its cutoff is not negative, wherever it stands, and
else those of the file of the last `set-target-indexing` line within the weights of the last line of either kind. -/
theorem target_orbitals {nm : Numbers} {ls : List CLine} {cfg : Config} (h : read nm ls = .ok cfg) :
    ∃ cs, ls.mapM (parse nm) = .ok cs ∧
      (∀ N, (cs.filterMap Cmd.cutoff?).getLast? = some N → 0 ≤ N → cfg.targetOrbitals = .oscillator N) ∧
      ((∀ N, (cs.filterMap Cmd.cutoff?).getLast? = some N → N < 0) →
        cfg.targetOrbitals = .file (lastOf Cmd.orbitals? "" cs) (lastOf Cmd.weights? .default cs)) := by
  obtain ⟨cs, h1, -, -, -, h2, h3, h4, -⟩ := settings h
  refine ⟨cs, h1, ?_, ?_⟩
  · intro N hN h0
    have : cfg.cutoff = N := by rw [h2, lastOf, hN]; rfl
    unfold Config.targetOrbitals
    rw [if_pos (by omega), this]
  · intro hN
    have : cfg.cutoff < 0 := by
      rw [h2, lastOf]
      cases hl : (cs.filterMap Cmd.cutoff?).getLast? with
      | none => simp
      | some N => simpa using hN N hl
    unfold Config.targetOrbitals
    rw [if_neg (by omega), h3, h4]

/-- **C94, refuted.** The last line that sets the indexing does not decide it: a file given after an oscillator
truncation is ignored, but its weights are used. -/
theorem indexing_mixed {nm : Numbers} (pr : Printer nm) (f : String) (w : Weights) (r : Rank) (N : Int) (hN : 0 ≤ N) :
    ∃ cfg, read nm [⟨wordsOf pr (.oscillator r N), false⟩, ⟨wordsOf pr (.indexing f w), false⟩] = .ok cfg ∧
      cfg.targetOrbitals = .oscillator N ∧ cfg.weights = .general w ∧ cfg.orbitals = f := by
  refine ⟨{ cutoff := N, orbitals := f, weights := .general w }, read_ok.mpr ⟨[.oscillator r N, .indexing f w], ?_, rfl⟩,
    ?_, rfl, rfl⟩
  · rw [List.mapM_cons, List.mapM_cons, parse_words pr (c := .oscillator r N) trivial,
      parse_words pr (c := .indexing f w) trivial]
    rfl
  · unfold Config.targetOrbitals
    rw [if_pos hN]

/-! ## Example -/

namespace Ex

/-- The words for one and two, for examples. -/
noncomputable def nums : Numbers :=
  ⟨fun s => if s = "1" then some 1 else if s = "2" then some 2 else none,
   fun s => if s = "1" then some 1 else if s = "2" then some 2 else none⟩

def lines : List CLine :=
  [⟨["define-target", "out.bin"], false⟩, ⟨["set-mass", "2"], false⟩, ⟨["add-source", "A", "2"], true⟩,
   ⟨["define-ob-source", "linear-combination", "X"], false⟩, ⟨["define-tb-source", "operatorV", "A", "X", "X"], false⟩,
   ⟨["add-ob-source", "l2", "1"], false⟩, ⟨["define-target", "other.bin"], false⟩, ⟨["add-source", "B", "1"], false⟩,
   ⟨["add-source", "A", "1", "surplus"], false⟩]

example : read nums lines = .ok
    { A := some 2, ob := [.linear "X" [("l2", 1)]], tb := [.opV "A" "X" "X" 1],
      targets := [("out.bin", [("A", 2)]), ("other.bin", [("B", 1), ("A", 1)])] } := by
  rw [read_ok]
  refine ⟨[.target "out.bin", .mass 2, .add "A" 2, .ob (.linear "X" []), .tb (.opV "A" "X" "X" 1), .addOb "l2" 1,
    .target "other.bin", .add "B" 1, .add "A" 1], ?_, rfl⟩
  simp [lines, parse, parseOb, parseTb, parseTerm, word, int, num, optNum, atEnd, nums, Except.ok_bind',
    Except.pure_ok]

end Ex

end Verif.Mixer.Control
