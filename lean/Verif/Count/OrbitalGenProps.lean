import Verif.Count.OrbitalGen
import Mathlib.Data.List.Sort

/-!
# What `orbital-gen` writes (C154, C155)
-/

namespace Verif.Count.OrbitalGen
open Verif Verif.Mixer.Control

/-! ## Specification -/

/-- The command line is one of the three documented forms and asks for the parameters. -/
inductive Asks {Text : Type} (nm : Numbers) (disk : String → Option Text) : List String → Params → Prop
  | convert {f g i o : String} {a b : Int} {t : Text} : nm.int? f = some a → nm.int? g = some b → disk i = some t →
      Asks nm disk ["--convert", f, i, g, o] ⟨.convert a i, b, o⟩
  | Nmax {n o : String} {N : Int} : nm.int? n = some N → Asks nm disk ["--Nmax", n, o] ⟨.Nmax N, 15099, o⟩
  | triangular {w a b o : String} {x y z : ℝ} : nm.num? w = some x → nm.num? a = some y → nm.num? b = some z →
      Asks nm disk ["--triangular", w, a, b, o] ⟨.triangular x y z, 15099, o⟩

/-- What identifies an orbital. -/
def labels (o : OrbitalInfo) : ℕ × ℕ × ℕ × ℤ := (o.species, o.n, o.l, o.tj)

/-- A format of the library: what is written is read back in the same order, with weights rounded. -/
def RoundTrip {Text : Type} (bs : Basis Text) (f : Int) : Prop :=
  ∃ rnd : ℝ → ℝ, ∀ l, bs.parse f (bs.text f l) = .ok (l.map fun o => { o with weight := rnd o.weight })

/-- The library's oscillator space: the orbitals with `2n + l` up to `N`, of both species, each once, with that as weight. -/
def Standard {Text : Type} (bs : Basis Text) : Prop :=
  ∀ N : ℕ, (bs.ofNmax N).Nodup ∧ ∀ o, o ∈ bs.ofNmax N ↔ o.species ≤ 1 ∧ 2 * o.n + o.l ≤ N ∧
    (o.tj = 2 * o.l + 1 ∨ (o.tj = 2 * o.l - 1 ∧ 0 < o.tj)) ∧ o.weight = 2 * o.n + o.l

/-- The comparison of the library is a strict weak order. -/
structure Comparison {Text : Type} (bs : Basis Text) : Prop where
  irrefl : ∀ x, ¬ bs.before x x
  incomp : ∀ x y z, ¬ bs.before y x → ¬ bs.before z y → ¬ bs.before z x
  asymm : ∀ x y, bs.before x y → ¬ bs.before y x

/-! ## Lemmas -/

theorem need_ok {α : Type} {o : Option α} {x : α} : need o = .ok x ↔ o = some x := by
  cases o <;> simp [need]

theorem arguments_ok {Text : Type} {nm : Numbers} {disk : String → Option Text} {args : List String} {p : Params} :
    arguments nm disk args = .ok p ↔ Asks nm disk args p := by
  constructor
  · intro h
    unfold arguments at h
    split at h
    · cases h
    · split at h
      · cases h
      · rename_i m rest _
        split at h
        · rename_i hm
          subst hm
          split at h
          · simp only [H2.Except.bind_eq_ok, need_ok] at h
            obtain ⟨f, hf, t, ht, g, hg, e⟩ := h
            cases e
            exact .convert hf hg ht
          · cases h
        · split at h
          · rename_i hm
            subst hm
            split at h
            · simp only [H2.Except.bind_eq_ok, need_ok] at h
              obtain ⟨n, hn, e⟩ := h
              cases e
              exact .Nmax hn
            · cases h
          · split at h
            · rename_i hm
              subst hm
              split at h
              · simp only [H2.Except.bind_eq_ok, need_ok] at h
                obtain ⟨w, hw, a, ha, b, hb, e⟩ := h
                cases e
                exact .triangular hw ha hb
              · cases h
            · cases h
  · intro h
    cases h with
    | convert h1 h2 h3 => simp [arguments, h1, h2, h3, need]
    | Nmax h1 => simp [arguments, h1, need]
    | triangular h1 h2 h3 => simp [arguments, h1, h2, h3, need]

theorem sorts_exists {Text : Type} {bs : Basis Text} (hc : Comparison bs) (l : List OrbitalInfo) : ∃ l', Sorts bs l l' := by
  classical
  let r : OrbitalInfo → OrbitalInfo → Prop := fun x y => ¬ bs.before y x
  have : Std.Total r := ⟨fun x y => by
    by_cases h : bs.before y x
    · exact .inr (hc.asymm _ _ h)
    · exact .inl h⟩
  have : IsTrans OrbitalInfo r := ⟨fun x y z h1 h2 => hc.incomp x y z h1 h2⟩
  exact ⟨l.insertionSort r, List.perm_insertionSort r l, List.pairwise_insertionSort r l⟩

/-! ## Properties -/

/-- **C155.** The program writes a file exactly for a documented command line whose input can be read and which gives at least one
orbital; the file is that of the output named. -/
theorem orbgen_arguments {Text : Type} {bs : Basis Text} (hc : Comparison bs) (nm : Numbers) (disk : String → Option Text)
    (args : List String) (o : String) :
    (∃ t, Run bs nm disk args (.ok (o, t))) ↔
      ∃ p l, Asks nm disk args p ∧ p.output = o ∧ Generated bs disk p.mode (.ok l) ∧ l ≠ [] := by
  constructor
  · rintro ⟨t, h⟩
    cases h with
    | written h1 h2 h3 h4 => exact ⟨_, _, arguments_ok.mp h1, rfl, h2, h3⟩
  · rintro ⟨p, l, h1, rfl, h2, h3⟩
    obtain ⟨l', hl⟩ := sorts_exists hc l
    exact ⟨_, .written (arguments_ok.mpr h1) h2 h3 hl⟩

/-- **C155, refusal.** Any other command line ends with failure, and only so. -/
theorem orbgen_refuses {Text : Type} (bs : Basis Text) (nm : Numbers) (disk : String → Option Text) (args : List String)
    (h : ∀ p, ¬ Asks nm disk args p) (r : Except Err (String × Text)) : Run bs nm disk args r ↔ r = .error .exitFailure := by
  have key : arguments nm disk args = .error .exitFailure := by
    cases ha : arguments nm disk args with
    | ok p => exact absurd (arguments_ok.mp ha) (h p)
    | error e =>
      congr 1
      unfold arguments at ha
      have hn : ∀ {α : Type} {o : Option α} {e : Err}, need o = .error e → e = .exitFailure := by
        intro α o e h
        cases o <;> simp [need] at h
        try exact h.symm
      split at ha
      · cases ha; rfl
      · split at ha
        · cases ha; rfl
        · split at ha
          · split at ha
            · rename_i f i g o _
              cases h1 : need (nm.int? f) with
              | error e1 => rw [h1] at ha; cases ha; exact hn h1
              | ok a =>
                cases h2 : need (disk i) with
                | error e1 => rw [h1, h2] at ha; cases ha; exact hn h2
                | ok t =>
                  cases h3 : need (nm.int? g) with
                  | error e1 => rw [h1, h2, h3] at ha; cases ha; exact hn h3
                  | ok b => rw [h1, h2, h3] at ha; cases ha
            · cases ha; rfl
          · split at ha
            · split at ha
              · rename_i n o _
                cases h1 : need (nm.int? n) with
                | error e1 => rw [h1] at ha; cases ha; exact hn h1
                | ok a => rw [h1] at ha; cases ha
              · cases ha; rfl
            · split at ha
              · split at ha
                · rename_i w a b o _
                  cases h1 : need (nm.num? w) with
                  | error e1 => rw [h1] at ha; cases ha; exact hn h1
                  | ok x =>
                    cases h2 : need (nm.num? a) with
                    | error e1 => rw [h1, h2] at ha; cases ha; exact hn h2
                    | ok y =>
                      cases h3 : need (nm.num? b) with
                      | error e1 => rw [h1, h2, h3] at ha; cases ha; exact hn h3
                      | ok z => rw [h1, h2, h3] at ha; cases ha
                · cases ha; rfl
              · cases ha; rfl
  constructor
  · intro hr
    cases hr with
    | refused h1 => rw [key] at h1; cases h1; rfl
    | unread h1 _ => rw [key] at h1; cases h1
    | none _ _ => rfl
    | written h1 _ _ _ => rw [key] at h1; cases h1
  · rintro rfl
    exact .refused key

/-- **C154, conversion.** `--convert` writes the orbitals read from the input, each as often as there, in the order of weight and in
the format asked for. -/
theorem orbgen_convert {Text : Type} {bs : Basis Text} {nm : Numbers} {disk : String → Option Text} {f g i o : String} {a b : Int}
    (hf : nm.int? f = some a) (hg : nm.int? g = some b) {t : Text} (hi : disk i = some t) {l : List OrbitalInfo}
    (hp : bs.parse a t = .ok l) (hl : l ≠ []) (r : Except Err (String × Text)) :
    Run bs nm disk ["--convert", f, i, g, o] r ↔
      ∃ l', l'.Perm l ∧ l'.Pairwise (fun x y => ¬ bs.before y x) ∧ r = .ok (o, bs.text b l') := by
  have ha : arguments nm disk ["--convert", f, i, g, o] = .ok ⟨.convert a i, b, o⟩ := arguments_ok.mpr (.convert hf hg hi)
  have hgen : ∀ r, Generated bs disk (.convert a i) r → r = .ok l := by
    intro r h
    cases h with
    | convert h =>
      rw [hi] at h
      cases h
      exact hp
  constructor
  · intro h
    cases h with
    | refused h1 => rw [ha] at h1; cases h1
    | unread h1 h2 => rw [ha] at h1; cases h1; cases hgen _ h2
    | none h1 h2 => rw [ha] at h1; cases h1; cases hgen _ h2; exact absurd rfl hl
    | written h1 h2 h3 h4 => rw [ha] at h1; cases h1; cases hgen _ h2; exact ⟨_, h4.1, h4.2, rfl⟩
  · rintro ⟨l', h1, h2, rfl⟩
    exact .written ha (hp ▸ .convert hi) hl ⟨h1, h2⟩

/-- **C154, there and back.** A file converted to another format and the result converted back holds the same orbitals, each as often. -/
theorem orbgen_convert_back {Text : Type} {bs : Basis Text} {nm : Numbers} {disk : String → Option Text} {f g i o o' : String}
    {a b : Int} (hf : nm.int? f = some a) (hg : nm.int? g = some b) (ra : RoundTrip bs a) (rb : RoundTrip bs b) {t : Text}
    (hi : disk i = some t) {l : List OrbitalInfo} (hp : bs.parse a t = .ok l) (hl : l ≠ []) {out : String} {t' : Text}
    (h1 : Run bs nm disk ["--convert", f, i, g, o] (.ok (out, t'))) {disk' : String → Option Text} (hd : disk' o = some t')
    {out' : String} {t'' : Text} (h2 : Run bs nm disk' ["--convert", g, o, f, o'] (.ok (out', t''))) :
    out = o ∧ out' = o' ∧ ∃ l'', bs.parse a t'' = .ok l'' ∧ (l''.map labels).Perm (l.map labels) := by
  obtain ⟨l1, p1, -, e1⟩ := (orbgen_convert hf hg hi hp hl _).mp h1
  cases e1
  obtain ⟨rnd, hr⟩ := rb
  have hb := hr l1
  have hne : l1.map (fun o : OrbitalInfo => { o with weight := rnd o.weight }) ≠ [] := by
    intro e
    rw [List.map_eq_nil_iff] at e
    rw [e] at p1
    exact hl p1.nil_eq.symm
  obtain ⟨l2, p2, -, e2⟩ := (orbgen_convert hg hf hd hb hne _).mp h2
  cases e2
  obtain ⟨rnd', hr'⟩ := ra
  refine ⟨rfl, rfl, _, hr' l2, ?_⟩
  rw [List.map_map]
  have e : labels ∘ (fun o : OrbitalInfo => { o with weight := rnd' o.weight }) = labels := rfl
  rw [e]
  have e' : labels ∘ (fun o : OrbitalInfo => { o with weight := rnd o.weight }) = labels := rfl
  refine (p2.map labels).trans ?_
  rw [List.map_map, e']
  exact p1.map labels

/-- **C154, shells.** `--Nmax` writes the orbitals of the shells up to `Nmax`, both species, each once. -/
theorem orbgen_Nmax {Text : Type} {bs : Basis Text} (hs : Standard bs) (hr : RoundTrip bs 15099) {nm : Numbers}
    {disk : String → Option Text} {n o : String} {N : ℕ} (hn : nm.int? n = some (N : Int)) {out : String} {t : Text}
    (h : Run bs nm disk ["--Nmax", n, o] (.ok (out, t))) :
    out = o ∧ ∃ l, bs.parse 15099 t = .ok l ∧ (l.map labels).Nodup ∧
      ∀ s n l' (tj : ℕ), s ≤ 1 → ((s, n, l', (tj : ℤ)) ∈ l.map labels ↔ (n, l', tj) ∈ nlj N) := by
  have ha : arguments nm disk ["--Nmax", n, o] = .ok ⟨.Nmax N, 15099, o⟩ := arguments_ok.mpr (.Nmax hn)
  cases h with
  | written h1 h2 h3 h4 =>
    rw [ha] at h1
    cases h1
    cases h2
    obtain ⟨rnd, hr⟩ := hr
    obtain ⟨hnd, hmem⟩ := hs N
    refine ⟨rfl, _, hr _, ?_, ?_⟩
    · rw [List.map_map]
      have e : labels ∘ (fun o : OrbitalInfo => { o with weight := rnd o.weight }) = labels := rfl
      rw [e, (h4.1.map labels).nodup_iff]
      refine List.Nodup.map_on ?_ hnd
      intro x hx y hy hxy
      obtain ⟨-, -, -, wx⟩ := (hmem x).mp hx
      obtain ⟨-, -, -, wy⟩ := (hmem y).mp hy
      obtain ⟨x1, x2, x3, x4, x5⟩ := x
      obtain ⟨y1, y2, y3, y4, y5⟩ := y
      simp only [labels, Prod.mk.injEq] at hxy
      obtain ⟨rfl, rfl, rfl, rfl⟩ := hxy
      simp only at wx wy
      rw [wx, wy]
    · intro s n l' tj hsp
      rw [List.map_map]
      have e : labels ∘ (fun o : OrbitalInfo => { o with weight := rnd o.weight }) = labels := rfl
      rw [e, (h4.1.map labels).mem_iff, List.mem_map]
      simp only [nlj, Finset.mem_filter, Finset.mem_product, Finset.mem_range]
      constructor
      · rintro ⟨x, hx, hxl⟩
        obtain ⟨-, h5, h6, -⟩ := (hmem x).mp hx
        simp only [labels, Prod.mk.injEq] at hxl
        obtain ⟨-, rfl, rfl, h7⟩ := hxl
        rw [h7] at h6
        omega
      · rintro ⟨-, h5, h6⟩
        refine ⟨⟨s, n, l', tj, 2 * n + l'⟩, (hmem _).mpr ⟨hsp, h5, ?_, rfl⟩, rfl⟩
        simp only
        omega

/-- **C154, two ways to shells.** `--Nmax N` and `--triangular N 2 1` write the same orbitals with the same weights. -/
theorem orbgen_Nmax_triangular {Text : Type} {bs : Basis Text} (hs : Standard bs) (hr : RoundTrip bs 15099) {nm : Numbers}
    {disk : String → Option Text} {n o w a b o' : String} {N : ℕ} (hn : nm.int? n = some (N : Int)) (hw : nm.num? w = some (N : ℝ))
    (ha : nm.num? a = some 2) (hb : nm.num? b = some 1) {out out' : String} {t t' : Text}
    (h : Run bs nm disk ["--Nmax", n, o] (.ok (out, t))) (h' : Run bs nm disk ["--triangular", w, a, b, o'] (.ok (out', t'))) :
    ∃ l l', bs.parse 15099 t = .ok l ∧ bs.parse 15099 t' = .ok l' ∧ l'.Perm l := by
  have e1 : arguments nm disk ["--Nmax", n, o] = .ok ⟨.Nmax N, 15099, o⟩ := arguments_ok.mpr (.Nmax hn)
  have e2 : arguments nm disk ["--triangular", w, a, b, o'] = .ok ⟨.triangular N 2 1, 15099, o'⟩ :=
    arguments_ok.mpr (.triangular hw ha hb)
  obtain ⟨rnd, hr⟩ := hr
  cases h with
  | written h1 h2 h3 h4 =>
    rw [e1] at h1
    cases h1
    cases h2
    cases h' with
    | written k1 k2 k3 k4 =>
      rw [e2] at k1
      cases k1
      cases k2 with
      | triangular k2 =>
        refine ⟨_, _, hr _, hr _, (List.Perm.map _ ?_)⟩
        refine k4.1.trans (List.Perm.trans ?_ h4.1.symm)
        obtain ⟨m1, n1⟩ := triangular_orbitals (by norm_num) (by norm_num) k2
        obtain ⟨n2, m2⟩ := hs N
        refine (List.perm_ext_iff_of_nodup n1 n2).mpr fun x => ?_
        rw [m1, m2]
        have hcast : (2 * (x.n : ℝ) + x.l ≤ N) ↔ 2 * x.n + x.l ≤ N := by
          exact_mod_cast Iff.rfl
        simp only [Inside, one_mul, hcast]

/-- **C154, triangle.** `--triangular` writes, for a largest weight that is not negative and positive coefficients, the orbitals
inside the triangle, each once, in the order of weight; for a negative largest weight it fails, and else it does not end. -/
theorem orbgen_triangular {Text : Type} {bs : Basis Text} {nm : Numbers} {disk : String → Option Text} {w a b o : String} {x y z : ℝ}
    (hw : nm.num? w = some x) (ha : nm.num? a = some y) (hb : nm.num? b = some z) :
    (∀ out t, Run bs nm disk ["--triangular", w, a, b, o] (.ok (out, t)) → out = o ∧ ∃ l, t = bs.text 15099 l ∧
      (∀ q, q ∈ l ↔ Inside x y z q) ∧ l.Nodup ∧ l.Pairwise fun p q => ¬ bs.before q p) ∧
    (x < 0 → ∀ r, Run bs nm disk ["--triangular", w, a, b, o] r ↔ r = .error .exitFailure) ∧
    (0 ≤ x → (y ≤ 0 ∨ z ≤ 0) → ∀ r, ¬ Run bs nm disk ["--triangular", w, a, b, o] r) := by
  have e2 : arguments nm disk ["--triangular", w, a, b, o] = .ok ⟨.triangular x y z, 15099, o⟩ :=
    arguments_ok.mpr (.triangular hw ha hb)
  have hgen : ∀ r, Generated bs disk (.triangular x y z) r ↔ ∃ l, r = .ok l ∧ Triangular x y z l := by
    intro r
    constructor
    · intro h
      cases h with
      | triangular h => exact ⟨_, rfl, h⟩
    · rintro ⟨l, rfl, h⟩
      exact .triangular h
  refine ⟨?_, ?_, ?_⟩
  · intro out t h
    cases h with
    | written h1 h2 h3 h4 =>
      rw [e2] at h1
      cases h1
      obtain ⟨l, hl, ht⟩ := (hgen _).mp h2
      cases hl
      obtain ⟨-, -, -, h5, h6⟩ := (triangular_file x y z).1 _ (.some ht h3 h4.1)
      exact ⟨rfl, _, rfl, h5, h6, h4.2⟩
  · intro hneg r
    have hno : ∀ l, Triangular x y z l → l = [] := by
      intro l h
      by_contra hne
      have := ((triangular_file x y z).1 _ (.some h hne (List.Perm.refl _))).1
      linarith
    constructor
    · intro h
      cases h with
      | refused h1 => rw [e2] at h1; cases h1
      | unread h1 h2 => rw [e2] at h1; cases h1; obtain ⟨l, hl, _⟩ := (hgen _).mp h2; cases hl
      | none h1 h2 => rfl
      | written h1 h2 h3 h4 =>
        rw [e2] at h1
        cases h1
        obtain ⟨l, hl, ht⟩ := (hgen _).mp h2
        cases hl
        exact absurd (hno _ ht) h3
    · rintro rfl
      obtain ⟨l, hl⟩ := (triangular_ends x y z).mpr (.inl hneg)
      exact .none e2 ((hgen _).mpr ⟨[], rfl, hno l hl ▸ hl⟩)
  · intro hx hyz r h
    have : ∃ l, Triangular x y z l := by
      cases h with
      | refused h1 => rw [e2] at h1; cases h1
      | unread h1 h2 => rw [e2] at h1; cases h1; obtain ⟨l, hl, h⟩ := (hgen _).mp h2; exact ⟨l, h⟩
      | none h1 h2 => rw [e2] at h1; cases h1; obtain ⟨l, hl, h⟩ := (hgen _).mp h2; exact ⟨l, h⟩
      | written h1 h2 h3 h4 => rw [e2] at h1; cases h1; obtain ⟨l, hl, h⟩ := (hgen _).mp h2; exact ⟨l, h⟩
    rcases (triangular_ends x y z).mp this with h | ⟨h1, h2⟩
    · linarith
    · rcases hyz with h | h <;> linarith

/-! ## Examples -/

namespace Ex

/-- A library whose files are the format code and the list itself, compared by weight. -/
noncomputable def bs : Basis (Int × List OrbitalInfo) where
  parse := fun f t => if f = t.1 then .ok t.2 else .error .exitFailure
  text := fun f l => (f, l)
  ofNmax := fun N => Classical.choose ((triangular_ends (N.toNat : ℝ) 2 1).mpr (.inr ⟨by norm_num, by norm_num⟩))
  before := fun x y => x.weight < y.weight

theorem comparison : Comparison bs where
  irrefl := fun x => lt_irrefl _
  incomp := fun x y z h1 h2 => by
    simp only [bs, not_lt] at *
    exact h1.trans h2
  asymm := fun x y h => by
    simp only [bs, not_lt] at *
    exact h.le

theorem roundTrip (f : Int) : RoundTrip bs f := ⟨id, fun l => by simp [bs]⟩

theorem standard : Standard bs := by
  intro N
  have hT : Triangular N 2 1 (bs.ofNmax N) :=
    Classical.choose_spec ((triangular_ends (((N : Int).toNat : ℕ) : ℝ) 2 1).mpr (.inr ⟨by norm_num, by norm_num⟩))
  obtain ⟨h1, h2⟩ := triangular_orbitals (by norm_num) (by norm_num) hT
  refine ⟨h2, fun o => ?_⟩
  rw [h1]
  have hcast : (2 * (o.n : ℝ) + o.l ≤ N) ↔ 2 * o.n + o.l ≤ N := by
    exact_mod_cast Iff.rfl
  simp only [Inside, one_mul, hcast]

noncomputable def nm : Numbers :=
  ⟨fun w => if w = "1" then some 1 else if w = "15099" then some 15099 else if w = "15200" then some 15200 else none,
    fun w => if w = "1" then some 1 else if w = "2" then some 2 else if w = "-1" then some (-1) else none⟩

/-- Two orbitals not in the order of weight. -/
noncomputable def two : List OrbitalInfo := [⟨0, 0, 1, 3, 1⟩, ⟨0, 0, 0, 1, 0⟩]

noncomputable def disk : String → Option (Int × List OrbitalInfo) := fun i => if i = "in" then some (15099, two) else none

/-- The conversion exchanges them. -/
example (r : Except Err (String × (Int × List OrbitalInfo))) :
    Run bs nm disk ["--convert", "15099", "in", "15200", "out"] r ↔ r = .ok ("out", (15200, two.reverse)) := by
  rw [orbgen_convert (a := 15099) (b := 15200) (t := (15099, two)) (l := two) (by simp [nm]) (by simp [nm]) (by simp [disk])
    (by simp [bs]) (by simp [two])]
  constructor
  · rintro ⟨l', h1, h2, rfl⟩
    have hl := h1.length_eq
    obtain ⟨x, y, rfl⟩ := List.length_eq_two.mp hl
    have hx : x ∈ two := h1.mem_iff.mp (by simp)
    have hy : y ∈ two := h1.mem_iff.mp (by simp)
    have hnd : [x, y].Nodup := h1.nodup_iff.mpr (by simp [two])
    simp only [two, List.mem_cons, List.not_mem_nil, or_false] at hx hy
    rcases hx with rfl | rfl <;> rcases hy with rfl | rfl
    · simp at hnd
    · simp [bs] at h2
      norm_num at h2
    · rfl
    · simp at hnd
  · rintro rfl
    exact ⟨_, List.reverse_perm _, by simp [two, bs], rfl⟩

/-- There and back. -/
example {t t'' : Int × List OrbitalInfo} {out out' : String}
    (h1 : Run bs nm disk ["--convert", "15099", "in", "15200", "out"] (.ok (out, t)))
    (h2 : Run bs nm (fun _ => some t) ["--convert", "15200", "out", "15099", "new"] (.ok (out', t''))) :
    ∃ l, bs.parse 15099 t'' = .ok l ∧ (0, 0, 1, (3 : ℤ)) ∈ l.map labels := by
  obtain ⟨-, -, l, h3, h4⟩ := orbgen_convert_back (a := 15099) (b := 15200) (by simp [nm]) (by simp [nm]) (roundTrip _) (roundTrip _)
    (t := (15099, two)) (by simp [disk]) (l := two) (by simp [bs]) (by simp [two]) h1 (disk' := fun _ => some t) rfl h2
  exact ⟨l, h3, h4.mem_iff.mpr (by simp [two, labels])⟩

theorem shells : ∃ t, Run bs nm disk ["--Nmax", "1", "out"] (.ok ("out", t)) := by
  refine (orbgen_arguments comparison nm disk _ _).mpr ⟨_, _, .Nmax (N := 1) (by simp [nm]), rfl, .Nmax, ?_⟩
  intro e
  have := ((standard 1).2 ⟨0, 0, 0, 1, 0⟩).mpr (by simp)
  rw [show ((1 : ℕ) : Int) = 1 from rfl, e] at this
  cases this

theorem triangle : ∃ t, Run bs nm disk ["--triangular", "1", "2", "1", "out"] (.ok ("out", t)) := by
  obtain ⟨l, hl⟩ := (triangular_ends 1 2 1).mpr (.inr ⟨by norm_num, by norm_num⟩)
  refine (orbgen_arguments comparison nm disk _ _).mpr ⟨_, l, .triangular (x := 1) (y := 2) (z := 1) (by simp [nm]) (by simp [nm])
    (by simp [nm]), rfl, .triangular hl, ?_⟩
  rintro rfl
  have := ((triangular_orbitals (by norm_num) (by norm_num) hl).1 ⟨0, 0, 0, 1, 0⟩).mpr (by simp [Inside])
  cases this

/-- The lowest two shells hold the orbital `0p3/2` of both species. -/
example : ∃ t l, Run bs nm disk ["--Nmax", "1", "out"] (.ok ("out", t)) ∧ bs.parse 15099 t = .ok l ∧
    (1, 0, 1, (3 : ℤ)) ∈ l.map labels := by
  obtain ⟨t, h⟩ := shells
  obtain ⟨-, l, h1, -, h3⟩ := orbgen_Nmax standard (roundTrip _) (N := 1) (by simp [nm]) h
  exact ⟨t, l, h, h1, (h3 1 0 1 3 le_rfl).mpr (by decide)⟩

/-- Both ways give the same. -/
example : ∃ t t' l l', Run bs nm disk ["--Nmax", "1", "out"] (.ok ("out", t)) ∧
    Run bs nm disk ["--triangular", "1", "2", "1", "out"] (.ok ("out", t')) ∧ bs.parse 15099 t = .ok l ∧
    bs.parse 15099 t' = .ok l' ∧ l'.Perm l := by
  obtain ⟨t, h⟩ := shells
  obtain ⟨t', h'⟩ := triangle
  obtain ⟨l, l', h1, h2, h3⟩ := orbgen_Nmax_triangular standard (roundTrip _) (N := 1) (by simp [nm]) (by simp [nm]) (by simp [nm])
    (by simp [nm]) h h'
  exact ⟨t, t', l, l', h, h', h1, h2, h3⟩

/-- A negative largest weight fails; a negative coefficient never ends. -/
example : Run bs nm disk ["--triangular", "-1", "2", "1", "out"] (.error .exitFailure) ∧
    ∀ r, ¬ Run bs nm disk ["--triangular", "1", "-1", "1", "out"] r :=
  ⟨((orbgen_triangular (x := -1) (y := 2) (z := 1) (by simp [nm]) (by simp [nm]) (by simp [nm])).2.1 (by norm_num) _).mpr rfl,
    (orbgen_triangular (x := 1) (y := -1) (z := 1) (by simp [nm]) (by simp [nm]) (by simp [nm])).2.2 (by norm_num) (.inl (by norm_num))⟩

/-- An output format that is not a number is refused. -/
example (r : Except Err (String × (Int × List OrbitalInfo))) :
    Run bs nm disk ["--convert", "15099", "in", "x", "out"] r ↔ r = .error .exitFailure := by
  refine orbgen_refuses bs nm disk _ (fun p hp => ?_) r
  have hp := arguments_ok.mpr hp
  simp [arguments, nm, disk, need] at hp

end Ex

end Verif.Count.OrbitalGen
