import Verif.Obme.Extract
import Verif.Obme.FileProps
import Verif.Density.NatorbProps

/-!
# What radial-extract and radial-plot show

The specification: a transformation `U` gives each orbital of the ket space as a combination
`∑ p, U p q · |p⟩` of the orbitals of the bra space.  A line of `radial-extract` must hold the quantum numbers of the
orbital and all the coefficients that can differ from zero; a column of `radial-plot` must hold the values of the
radial function of the orbital.
-/

namespace Verif.Obme.Show
open Verif Verif.Mapping Verif.Xform Verif.Obme Verif.Density
open Verif.Mixer.Control (Numbers)
open Verif.H2 hiding Mat

/-! ## Specification -/

/-- The orbitals of a space in the order of the indexing. -/
def ordered (s : Space) : List ((_ : ℕ) × ℕ) :=
  (List.range s.length).flatMap fun k => (List.range (dim s k)).map fun c => ⟨k, c⟩

/-- The orbitals of the ket space carry labels that occur in the bra space. -/
def Partnered (bra ket : Space) : Prop := ∀ k ∈ ket, ∃ b ∈ bra, b.labels = k.labels

/-- The line tells the expansion of orbital `q`: its quantum numbers, the number of coefficients, and the
coefficients with the orbitals of the bra space that have the same `l`, `j` and charge, in their order. -/
def Expands (rnd : ℝ → ℝ) (bra ket : Space) (U : ℕ → ℕ → ℕ → ℕ → ℝ) (q : (_ : ℕ) × ℕ) (line : Line) : Prop :=
  ∃ i b, bra[i]? = some b ∧ b.labels = (orbital ket q).labels ∧
    line = [.int (orbital ket q).n, .int (orbital ket q).l, .num (((orbital ket q).tj : ℝ) / 2),
      .num (match (orbital ket q).sp with | .p => 1 / 2 | .n => -1 / 2), .int b.ns.length] ++
      (List.range b.ns.length).map fun a => Tok.num (rnd (U i a q.1 q.2))

/-- Only orbitals with the same labels mix. -/
def Diagonal (bra ket : Space) (U : ℕ → ℕ → ℕ → ℕ → ℝ) : Prop :=
  ∀ p ∈ states bra, ∀ q ∈ states ket, (orbital bra p).labels ≠ (orbital ket q).labels → U p.1 p.2 q.1 q.2 = 0

/-- The radial function of orbital `q`: the combination of the functions of the bra space. -/
noncomputable def transformed (wave : ℕ → ℕ → ℝ → ℝ) (bra : Space) (U : ℕ → ℕ → ℕ → ℕ → ℝ) (q : (_ : ℕ) × ℕ) (r : ℝ) : ℝ :=
  ∑ p ∈ states bra, U p.1 p.2 q.1 q.2 * wave (orbital bra p).n (orbital bra p).l r

/-! ## Lemmas -/

theorem checkXform_ok {h : Header} (t : h.type = some 'R') (q : h.secs.qn = scalarQN) : checkXform h = .ok () := by
  simp [checkXform, t, q, scalarQN, assertE]

theorem checkXform_eq_ok {h : Header} (hc : checkXform h = .ok ()) : h.type = some 'R' ∧ h.secs.qn = scalarQN := by
  obtain ⟨ty, br, kt, ⟨⟨J, g, T⟩, ps⟩⟩ := h
  cases ty with
  | none => simp [checkXform] at hc
  | some c =>
    simp only [checkXform, Except.bind_eq_ok, assertE_ok, decide_eq_true_eq] at hc
    obtain ⟨_, h1, _, h2, _, h3, h4⟩ := hc
    simp_all [scalarQN]

theorem allowed_scalar {a b : Labels} (ha : a.tj = 2 * a.l + 1 ∨ a.tj + 1 = 2 * a.l)
    (hb : b.tj = 2 * b.l + 1 ∨ b.tj + 1 = 2 * b.l) : Allowed scalarQN a b ↔ a = b := by
  constructor
  · rintro ⟨⟨h1, h2⟩, h3, h4⟩
    simp only [scalarQN, mul_zero, sub_zero, add_zero] at h1 h2 h3 h4
    rw [abs_of_nonneg (by positivity)] at h1
    have hj : a.tj = b.tj := by omega
    have hl : a.l = b.l := by omega
    obtain ⟨l, tj, sp⟩ := a
    obtain ⟨l', tj', sp'⟩ := b
    simp only at hj hl
    subst hj hl
    cases sp <;> cases sp' <;> simp [Labels.tz] at h4 ⊢
  · rintro rfl
    simp only [Allowed, scalarQN, mul_zero, sub_zero, add_zero, sub_self, and_true]
    refine ⟨⟨by rw [abs_of_nonneg (by positivity)], le_refl _⟩, by omega⟩

/-- What a file of radial type holds. -/
theorem read_facts {Orb : Type} {lib : Lib Orb} {file : List Line} {h : Header} {mats : List Mat}
    (r : readFile lib file = .ok (h, mats)) : SectorsOf h.secs h.bra h.ket ∧ Fits h.secs mats h.bra h.ket := by
  obtain ⟨rest, r1, r2⟩ := readFile_eq r
  refine ⟨?_, readSectors_fits (secs := h.secs) r2⟩
  rw [readHeader_secs r1]
  exact allSectors_spec _ _ _

theorem orbital_labels {s : Space} {k c : ℕ} {b : Obme.Sub} (hb : s[k]? = some b) :
    (orbital s ⟨k, c⟩).labels = b.labels := by
  simp [orbital, hb, Full.labels]

/-- A scalar transformation mixes only orbitals with the same labels. -/
theorem scalar_diagonal {secs : Sectors} {mats : List Mat} {bra ket : Space} (hs : SectorsOf secs bra ket)
    (q : secs.qn = scalarQN) (gb : GoodSpace bra) (gk : GoodSpace ket) : Diagonal bra ket (elem secs mats) := by
  rintro ⟨i, a⟩ hp ⟨k, c⟩ hq hne
  refine elem_absent ?_ _ _
  intro hm
  obtain ⟨b, k', h1, h2, h3⟩ := (hs.mem i k).mp hm
  rw [q, allowed_scalar (gb.half b (List.mem_of_getElem? h1)) (gk.half k' (List.mem_of_getElem? h2))] at h3
  rw [orbital_labels h1, orbital_labels h2] at hne
  exact hne h3

theorem sector_of_labels {secs : Sectors} {bra ket : Space} (hs : SectorsOf secs bra ket) (q : secs.qn = scalarQN)
    (gb : GoodSpace bra) {i k : ℕ} {b k' : Obme.Sub} (hb : bra[i]? = some b) (hk : ket[k]? = some k')
    (hl : b.labels = k'.labels) : ∃ x, secs.pairs.idxOf? (i, k) = some x := by
  refine idxOf?_mem ((hs.mem i k).mpr ⟨b, k', hb, hk, ?_⟩)
  have := gb.half b (List.mem_of_getElem? hb)
  rw [q, hl, allowed_scalar (hl ▸ this) (hl ▸ this)]

/-! ## radial-extract -/

theorem extractSub_ok {rnd : ℝ → ℝ} {h : Header} {mats : List Mat} (hs : SectorsOf h.secs h.bra h.ket)
    (hf : Fits h.secs mats h.bra h.ket) (q : h.secs.qn = scalarQN) (gb : GoodSpace h.bra) {k i : ℕ} {b k' : Obme.Sub}
    (hk : h.ket[k]? = some k') (hb : h.bra[i]? = some b) (hl : b.labels = k'.labels) :
    extractSub rnd h mats k = .ok ((List.range k'.ns.length).map fun c =>
      [.int (k'.ns.getD c 0), .int k'.labels.l, .num ((k'.labels.tj : ℝ) / 2), .num ((k'.labels.tz : ℝ) / 2),
        .int b.ns.length] ++
      (List.range b.ns.length).map fun a => Tok.num (rnd (elem h.secs mats i a k c))) := by
  obtain ⟨x, hx⟩ := sector_of_labels hs q gb hb hk hl
  obtain ⟨m, hm, hr, hc, hv⟩ := fits_block hf hx
  have hlu : lookUpSub h.bra k'.labels = some i := by rw [← hl]; exact lookUpSub_some gb hb
  simp only [extractSub, getE_ok hk, Except.ok_bind', hlu, unchecked, getE_ok hb, hx, getE_ok hm, Except.pure_ok,
    Except.ok.injEq]
  refine List.map_congr_left fun c hc' => ?_
  simp only [stateLine]
  congr 1
  refine List.map_congr_left fun a ha => ?_
  rw [hv a c (by rw [dim_some hb]; exact List.mem_range.mp ha) (by rw [dim_some hk]; exact List.mem_range.mp hc')]

theorem forall₂_flatten {α β γ : Type} {f : α → List β} {R : β → γ → Prop} : ∀ {xs : List α} {ys : List (List γ)},
    List.Forall₂ (fun x y => List.Forall₂ R (f x) y) xs ys → List.Forall₂ R (xs.flatMap f) ys.flatten
  | [], _, h => by cases h; exact .nil
  | x :: xs, _, h => by
    cases h with
    | cons h1 h2 =>
      rw [List.flatMap_cons, List.flatten_cons]
      exact List.rel_append h1 (forall₂_flatten h2)

/-- **C148.** For a scalar transformation whose ket labels occur in the bra space, `radial-extract` writes one line for
each orbital of the ket space, in order, with the expansion of the orbital, and nothing is left out of it. -/
theorem extract_lists_expansions {Orb : Type} {lib : Lib Orb} (rnd : ℝ → ℝ) {file : List Line} {h : Header}
    {mats : List Mat} (r : readFile lib file = .ok (h, mats)) (t : h.type = some 'R') (q : h.secs.qn = scalarQN)
    (gb : GoodSpace h.bra) (gk : GoodSpace h.ket) (hp : Partnered h.bra h.ket) :
    ∃ out, extract lib rnd file = .ok out ∧
      List.Forall₂ (Expands rnd h.bra h.ket (elem h.secs mats)) (ordered h.ket) out ∧
      Diagonal h.bra h.ket (elem h.secs mats) := by
  obtain ⟨hs, hf⟩ := read_facts r
  obtain ⟨ls, h1, h2⟩ := mapM_forall₂ (f := extractSub rnd h mats) (l := List.range h.ket.length)
    (P := fun k y => List.Forall₂ (Expands rnd h.bra h.ket (elem h.secs mats))
      ((List.range (dim h.ket k)).map fun c => ⟨k, c⟩) y) (by
    intro k hk
    have hk' : h.ket[k]? = some (h.ket[k]'(List.mem_range.mp hk)) := List.getElem?_eq_getElem _
    obtain ⟨b, hb, hl⟩ := hp _ (List.mem_of_getElem? hk')
    obtain ⟨i, hi⟩ := List.mem_iff_getElem?.mp hb
    refine ⟨_, extractSub_ok hs hf q gb hk' hi hl, ?_⟩
    rw [dim_some hk', List.forall₂_map_left_iff, List.forall₂_map_right_iff, List.forall₂_same]
    intro c hc
    refine ⟨i, b, hi, by rw [hl, orbital_labels hk'], ?_⟩
    simp only [orbital, hk']
    congr 5
    cases (h.ket[k]'(List.mem_range.mp hk)).labels with
    | mk l tj sp => cases sp <;> simp [Labels.tz])
  refine ⟨ls.flatten, ?_, forall₂_flatten h2, scalar_diagonal hs q gb gk⟩
  simp only [extract, r, Except.ok_bind', checkXform_ok t q, h1, Except.pure_ok]

/-- A line of `radial-extract` determines the orbital: with unrounded coefficients, the combination of any functions
given for the orbitals of the bra space is the sum over the coefficients in the line. -/
theorem expansion_sum {bra ket : Space} {U : ℕ → ℕ → ℕ → ℕ → ℝ} (gb : GoodSpace bra) (hd : Diagonal bra ket U)
    {q : (_ : ℕ) × ℕ} (hq : q ∈ states ket) {i : ℕ} {b : Obme.Sub} (hi : bra[i]? = some b)
    (hl : b.labels = (orbital ket q).labels) (φ : Full → ℝ) :
    ∑ p ∈ states bra, U p.1 p.2 q.1 q.2 * φ (orbital bra p) =
      ∑ a ∈ Finset.range b.ns.length, U i a q.1 q.2 * φ ⟨b.labels.sp, b.ns.getD a 0, b.labels.l, b.labels.tj⟩ := by
  have hil := (List.getElem?_eq_some_iff.mp hi).1
  rw [states, Finset.sum_sigma, Finset.sum_eq_single i]
  · rw [dim_some hi]
    refine Finset.sum_congr rfl fun a _ => ?_
    simp [orbital, hi]
  · intro i' hi' hne
    have hi'' := Finset.mem_range.mp hi'
    refine Finset.sum_eq_zero fun a ha => ?_
    simp only
    rw [hd ⟨i', a⟩ (mem_states.mpr ⟨hi'', Finset.mem_range.mp ha⟩) q hq, zero_mul]
    have hb' : bra[i']? = some bra[i'] := List.getElem?_eq_getElem hi''
    rw [orbital_labels hb', ← hl]
    intro he
    exact hne (sub_unique gb hb' hi he)
  · intro hn
    exact absurd (Finset.mem_range.mpr hil) hn

/-- Everything that goes wrong after the assertions is undefined behaviour. -/
theorem extractSub_error {rnd : ℝ → ℝ} {h : Header} {mats : List Mat} {k : ℕ} {e : Err}
    (he : extractSub rnd h mats k = .error e) : e = .undefinedBehaviour := by
  unfold extractSub at he
  cases h1 : getE h.ket k with
  | error e' =>
    rw [h1] at he
    simp only [getE] at h1
    split at h1 <;> simp_all
  | ok kt =>
    rw [h1, Except.ok_bind'] at he
    cases h2 : unchecked (lookUpSub h.bra kt.labels) with
    | error e' =>
      rw [h2] at he
      simp only [unchecked] at h2
      split at h2 <;> simp_all
    | ok i =>
      rw [h2, Except.ok_bind'] at he
      cases h3 : getE h.bra i with
      | error e' =>
        rw [h3] at he
        simp only [getE] at h3
        split at h3 <;> simp_all
      | ok br =>
        rw [h3, Except.ok_bind'] at he
        cases h4 : unchecked (h.secs.pairs.idxOf? (i, k)) with
        | error e' =>
          rw [h4] at he
          simp only [unchecked] at h4
          split at h4 <;> simp_all
        | ok x =>
          rw [h4, Except.ok_bind'] at he
          cases h5 : getE mats x with
          | error e' =>
            rw [h5] at he
            simp only [getE] at h5
            split at h5 <;> simp_all
          | ok m =>
            rw [h5, Except.ok_bind'] at he
            simp at he

theorem mapM_error {α β : Type} {f : α → Except Err β} {e : Err} : ∀ {xs : List α},
    (∀ x ∈ xs, ∀ e', f x = .error e' → e' = e) → (∃ x ∈ xs, f x = .error e) → xs.mapM f = .error e
  | [], _, h => by obtain ⟨x, hx, _⟩ := h; simp at hx
  | x :: xs, hall, h => by
    rw [List.mapM_cons]
    cases hx : f x with
    | error e' => rw [hall x (by simp) e' hx]; rfl
    | ok y =>
      rw [Except.ok_bind', mapM_error (fun z hz => hall z (by simp [hz])), Except.error_bind']
      obtain ⟨z, hz, hzz⟩ := h
      rcases List.mem_cons.mp hz with rfl | hz
      · rw [hx] at hzz; cases hzz
      · exact ⟨z, hz, hzz⟩

/-- **C148, refuted.** A ket subspace whose labels do not occur in the bra space is not reported: the program uses the
index it did not find. -/
theorem extract_missing_labels_undefined {Orb : Type} {lib : Lib Orb} (rnd : ℝ → ℝ) {file : List Line} {h : Header}
    {mats : List Mat} (r : readFile lib file = .ok (h, mats)) (t : h.type = some 'R') (q : h.secs.qn = scalarQN)
    (hp : ¬ Partnered h.bra h.ket) : extract lib rnd file = .error .undefinedBehaviour := by
  have : (List.range h.ket.length).mapM (extractSub rnd h mats) = .error .undefinedBehaviour := by
    refine mapM_error (fun k _ e' he => extractSub_error he) ?_
    unfold Partnered at hp
    push Not at hp
    obtain ⟨k', hk', hn⟩ := hp
    obtain ⟨k, hk⟩ := List.mem_iff_getElem?.mp hk'
    refine ⟨k, List.mem_range.mpr (List.getElem?_eq_some_iff.mp hk).1, ?_⟩
    have : lookUpSub h.bra k'.labels = none := by
      rcases hx : lookUpSub h.bra k'.labels with _ | i
      · rfl
      · obtain ⟨b, hb, hl⟩ := lookUpSub_eq_some hx
        exact absurd hl (hn b (List.mem_of_getElem? hb))
    simp only [extractSub, getE_ok hk, Except.ok_bind', this, unchecked, Except.error_bind']
  simp only [extract, r, Except.ok_bind', checkXform_ok t q, this, Except.error_bind']

/-- **C148, partial.** Whatever `radial-extract` writes comes from a scalar transformation of radial type whose ket
labels occur in the bra space, and any other file that can be read stops it before anything is written.  Missing:
files with ket labels that the bra space lacks, on which the behaviour is undefined instead of an error. -/
theorem extract_refuses_partial {Orb : Type} {lib : Lib Orb} {rnd : ℝ → ℝ} {file out : List Line}
    (he : extract lib rnd file = .ok out) : ∃ h mats, readFile lib file = .ok (h, mats) ∧ h.type = some 'R' ∧
      h.secs.qn = scalarQN ∧ Partnered h.bra h.ket := by
  have he' := he
  simp only [extract, Except.bind_eq_ok] at he'
  obtain ⟨⟨h, mats⟩, r, _, hc, _⟩ := he'
  obtain ⟨t, q⟩ := checkXform_eq_ok hc
  refine ⟨h, mats, r, t, q, ?_⟩
  by_contra hp
  rw [extract_missing_labels_undefined rnd r t q hp] at he
  cases he

/-- Files of another type or another tensor character stop the program. -/
theorem extract_refuses_other {Orb : Type} {lib : Lib Orb} {rnd : ℝ → ℝ} {file : List Line} {h : Header}
    {mats : List Mat} (r : readFile lib file = .ok (h, mats)) {c : Char} (t : h.type = some c)
    (hn : c ≠ 'R' ∨ h.secs.qn ≠ scalarQN) : extract lib rnd file = .error .assertFail := by
  obtain ⟨ty, br, kt, ⟨⟨J, g, T⟩, ps⟩⟩ := h
  simp only at t
  subst t
  simp only [extract, r, Except.ok_bind', checkXform]
  by_cases h1 : c = 'R'
  · by_cases h2 : J = 0
    · by_cases h3 : g = 0
      · by_cases h4 : T = 0
        · subst h1 h2 h3 h4
          simp [scalarQN] at hn
        · simp [h1, h2, h3, h4, assertE]
      · simp [h1, h2, h3, assertE]
    · simp [h1, h2, assertE]
  · simp [h1, assertE]

/-- **C148.** The program takes the names of the two files, the first of which must exist. -/
theorem extract_arguments {Orb : Type} {lib : Lib Orb} {rnd : ℝ → ℝ} {disk : String → Option (List Line)}
    {args : List String} {name : String} {out : List Line} :
    extractRun lib rnd disk args = .ok (name, out) ↔
      ∃ xform file, args = [xform, name] ∧ disk xform = some file ∧ extract lib rnd file = .ok out := by
  unfold extractRun
  split
  · rename_i xform output
    simp only [Except.bind_eq_ok, Except.pure_ok, Except.ok.injEq, Prod.mk.injEq, existing]
    constructor
    · rintro ⟨file, h1, ls, h2, rfl, rfl⟩
      refine ⟨xform, file, rfl, ?_, h2⟩
      split at h1 <;> simp_all
    · rintro ⟨x, file, h1, h2, h3⟩
      simp only [List.cons.injEq, and_true] at h1
      obtain ⟨rfl, rfl⟩ := h1
      exact ⟨file, by rw [h2], out, h3, rfl, rfl⟩
  · rename_i hn
    simp only [reduceCtorEq, false_iff]
    rintro ⟨x, file, rfl, _⟩
    exact hn _ _ rfl

/-! ## radial-plot -/

/-- The points of the table: evenly spaced from zero to the largest radius; a single point is the largest radius. -/
noncomputable def gridPoint (n : ℕ) (rMax : ℝ) (r : ℕ) : ℝ := if n = 1 then rMax else rMax * r / (n - 1 : ℝ)

theorem linSpaced_eq (n : ℕ) (x : ℝ) (r : ℕ) : linSpaced n x r = gridPoint n x r := by
  unfold linSpaced gridPoint
  split
  · rfl
  · ring

/-- The table starts at zero and ends at the largest radius. -/
theorem gridPoint_ends {n : ℕ} (hn : 2 ≤ n) (rMax : ℝ) :
    gridPoint n rMax 0 = 0 ∧ gridPoint n rMax (n - 1) = rMax := by
  have h1 : (n : ℝ) - 1 ≠ 0 := by
    have : (2 : ℝ) ≤ n := by exact_mod_cast hn
    linarith
  have h2 : n ≠ 1 := by omega
  constructor
  · simp [gridPoint, h2]
  · rw [gridPoint, if_neg h2, Nat.cast_sub (by omega), Nat.cast_one, mul_div_assoc, div_self h1, mul_one]

/-- The labels asked for: `l`, `2j` and the code of the species, 0 for protons and 1 for neutrons. -/
def Asked (p : Plot) (x : Labels) : Prop := p.l = x.l ∧ p.tj = x.tj ∧ (p.species, x.sp) ∈ [((0 : Int), Species1.p), (1, .n)]

theorem asked_iff {p : Plot} {x : Labels} : Asked p x ↔ plotLabels p = some x := by
  obtain ⟨l, j, sp⟩ := x
  simp only [Asked, plotLabels, List.mem_cons, Prod.mk.injEq, List.not_mem_nil, or_false]
  constructor
  · rintro ⟨h1, h2, h3⟩
    rw [if_pos (by omega)]
    have e1 : p.l.toNat = l := by omega
    have e2 : p.tj.toNat = j := by omega
    rcases h3 with ⟨h3, rfl⟩ | ⟨h3, rfl⟩
    · rw [if_pos h3, e1, e2]
    · rw [if_neg (by omega), if_pos h3, e1, e2]
  · split_ifs with h1 h2 h3 <;> simp only [Option.some.injEq, Labels.mk.injEq, reduceCtorEq, false_imp_iff]
    · rintro ⟨rfl, rfl, rfl⟩
      exact ⟨by omega, by omega, .inl ⟨h2, rfl⟩⟩
    · rintro ⟨rfl, rfl, rfl⟩
      exact ⟨by omega, by omega, .inr ⟨h3, rfl⟩⟩

/-- What `plot` does once the subspace of the bra space is found. -/
theorem plot_eq {Orb : Type} {lib : Lib Orb} (wave : Basis → ℕ → ℕ → ℝ → ℝ → ℝ) (rnd6 : ℝ → ℝ) {p : Plot}
    {file : List Line} {h : Header} {mats : List Mat} (r : readFile lib file = .ok (h, mats)) (t : h.type = some 'R')
    (q : h.secs.qn = scalarQN) (gb : GoodSpace h.bra) {i : ℕ} {b : Obme.Sub} (hb : h.bra[i]? = some b)
    (hl : Asked p b.labels) (hn : 0 ≤ p.points) :
    plot lib wave rnd6 p file = (do
      let y ← unchecked (h.secs.pairs.idxOf? (i, i))
      let m ← getE mats y
      let prod ← Mat.mul ⟨p.points.toNat, b.ns.length, fun r a => wave p.basis (b.ns.getD a 0) b.labels.l p.scale
        (linSpaced p.points.toNat p.rMax r)⟩ m
      let block ← assignBlock p.points.toNat b.ns.length prod
      pure ((List.range p.points.toNat).map fun r => Tok.num (rnd6 (linSpaced p.points.toNat p.rMax r)) ::
        (List.range b.ns.length).map fun c => Tok.num (rnd6 (block.val r c)))) := by
  have h1 : (plotLabels p).bind (lookUpSub h.bra) = some i := by rw [asked_iff.mp hl, Option.bind_some, lookUpSub_some gb hb]
  have h2 : assertE (decide (0 ≤ p.points)) = .ok () := by simp [assertE, hn]
  simp only [plot, r, Except.ok_bind', checkXform_ok t q, h1, unchecked, getE_ok hb, h2]

/-- **C149, partial.** When the ket space has a subspace with the labels asked for at the same place as the bra space,
and of the same size, the table holds, for each point, the radius and the values of the transformed radial functions.
Missing: other ket spaces. -/
theorem plot_tabulates_partial {Orb : Type} {lib : Lib Orb} (wave : Basis → ℕ → ℕ → ℝ → ℝ → ℝ) (rnd6 : ℝ → ℝ) {p : Plot}
    {file : List Line} {h : Header} {mats : List Mat} (r : readFile lib file = .ok (h, mats)) (t : h.type = some 'R')
    (q : h.secs.qn = scalarQN) (gb : GoodSpace h.bra) (gk : GoodSpace h.ket) {i : ℕ} {b k : Obme.Sub}
    (hb : h.bra[i]? = some b) (hk : h.ket[i]? = some k) (hbl : Asked p b.labels) (hkl : k.labels = b.labels)
    (hd : k.ns.length = b.ns.length) (hn : 0 ≤ p.points) :
    plot lib wave rnd6 p file = .ok ((List.range p.points.toNat).map fun x =>
      Tok.num (rnd6 (gridPoint p.points.toNat p.rMax x)) :: (List.range k.ns.length).map fun c => Tok.num (rnd6
        (transformed (fun n l => wave p.basis n l p.scale) h.bra (elem h.secs mats) ⟨i, c⟩
          (gridPoint p.points.toNat p.rMax x)))) := by
  obtain ⟨hs, hf⟩ := read_facts r
  obtain ⟨y, hy⟩ := sector_of_labels hs q gb hb hk hkl.symm
  obtain ⟨m, hm, hr, hc, hv⟩ := fits_block hf hy
  rw [dim_some hb] at hr
  rw [dim_some hk, hd] at hc
  rw [plot_eq wave rnd6 r t q gb hb hbl hn]
  simp only [hy, unchecked, Except.ok_bind', getE_ok hm, mul_ok (a := ⟨p.points.toNat, b.ns.length, _⟩) hr.symm, assignBlock,
    hc, and_self, decide_true, Except.pure_ok, linSpaced_eq]
  rw [show assertE true = .ok () from rfl, Except.ok_bind', Except.ok_bind', hd, Except.ok.injEq]
  refine List.map_congr_left fun x _ => ?_
  congr 1
  refine List.map_congr_left fun c hc' => ?_
  have hc'' := List.mem_range.mp hc'
  have hq : (⟨i, c⟩ : (_ : ℕ) × ℕ) ∈ states h.ket :=
    mem_states.mpr ⟨(List.getElem?_eq_some_iff.mp hk).1, by rw [dim_some hk]; exact hd ▸ hc''⟩
  have := expansion_sum gb (scalar_diagonal (mats := mats) hs q gb gk) hq hb (by rw [orbital_labels hk, hkl])
    (fun o => wave p.basis o.n o.l p.scale (gridPoint p.points.toNat p.rMax x))
  rw [transformed, this]
  dsimp only
  refine congrArg (fun y => Tok.num (rnd6 y)) (Finset.sum_congr rfl fun a ha => ?_)
  rw [hv a c (by rw [dim_some hb]; exact Finset.mem_range.mp ha) (by rw [dim_some hk, hd]; exact hc''), mul_comm]

/-- The program refuses any other number of words, any other basis, and a transformation file that does not exist
(when the numbers are there). -/
theorem plot_refuses {nm : Numbers} {disk : String → Option (List Line)} {args : List String} {x : Plot × List Line}
    (h : plotArguments nm disk args = .ok x) : ∃ w1 w2 w3 w4 w5 w6 w7,
      args = [w1, w2, w3, w4, w5, w6, w7, x.1.xform, x.1.output] ∧
      (w1, x.1.basis) ∈ [("oscillator", Basis.oscillator), ("laguerre", Basis.laguerre)] ∧
      disk x.1.xform = some x.2 := by
  unfold plotArguments at h
  split at h
  · rename_i w1 w2 w3 w4 w5 w6 w7 w8 w9
    simp only [Except.bind_eq_ok, Except.pure_ok, Except.ok.injEq] at h
    obtain ⟨b, hb, s, _, l, _, j, _, sp, _, n, _, r, _, file, hf, rfl⟩ := h
    refine ⟨w1, w2, w3, w4, w5, w6, w7, rfl, ?_, ?_⟩
    · unfold basisType at hb
      split_ifs at hb <;> simp_all
    · simp only [existing] at hf
      split at hf <;> simp_all
  · cases h

/-- **C149.** Files of another type or another tensor character stop the program. -/
theorem plot_refuses_other {Orb : Type} {lib : Lib Orb} (wave : Basis → ℕ → ℕ → ℝ → ℝ → ℝ) (rnd6 : ℝ → ℝ) (p : Plot)
    {file : List Line} {h : Header} {mats : List Mat} (r : readFile lib file = .ok (h, mats)) {c : Char} (t : h.type = some c)
    (hn : c ≠ 'R' ∨ h.secs.qn ≠ scalarQN) : plot lib wave rnd6 p file = .error .assertFail := by
  have e := extract_refuses_other (rnd := id) r t hn
  simp only [extract, r, Except.ok_bind'] at e
  cases hc : checkXform h with
  | error e' =>
    rw [hc, Except.error_bind'] at e
    simp only [plot, r, Except.ok_bind', hc, Except.error_bind', e]
  | ok u =>
    obtain ⟨t', q⟩ := checkXform_eq_ok hc
    rw [t] at t'
    cases t'
    simp [q] at hn

/-- **C149.** The table goes to the last file named. -/
theorem plot_run {Orb : Type} {lib : Lib Orb} {wave : Basis → ℕ → ℕ → ℝ → ℝ → ℝ} {rnd6 : ℝ → ℝ} {nm : Numbers}
    {disk : String → Option (List Line)} {args : List String} {name : String} {out : List Line}
    (h : plotRun lib wave rnd6 nm disk args = .ok (name, out)) : args[8]? = some name ∧
      ∃ p file, plotArguments nm disk args = .ok (p, file) ∧ args[7]? = some p.xform ∧ disk p.xform = some file ∧
        plot lib wave rnd6 p file = .ok out := by
  simp only [plotRun, Except.bind_eq_ok, Except.pure_ok, Except.ok.injEq, Prod.mk.injEq] at h
  obtain ⟨⟨p, file⟩, h1, ls, h2, rfl, rfl⟩ := h
  obtain ⟨w1, w2, w3, w4, w5, w6, w7, ha, -, hd⟩ := plot_refuses h1
  simp only at ha
  exact ⟨by rw [ha]; rfl, p, file, h1, by rw [ha]; rfl, hd, h2⟩

/-- **C149, refuted.** The ket space is searched at the place found in the bra space: when it has its subspaces in
another order, the behaviour is undefined. -/
theorem plot_other_order_undefined {Orb : Type} {lib : Lib Orb} (wave : Basis → ℕ → ℕ → ℝ → ℝ → ℝ) (rnd6 : ℝ → ℝ)
    {p : Plot} {file : List Line} {h : Header} {mats : List Mat} (r : readFile lib file = .ok (h, mats))
    (t : h.type = some 'R') (q : h.secs.qn = scalarQN) (gb : GoodSpace h.bra) (gk : GoodSpace h.ket) {i : ℕ}
    {b : Obme.Sub} (hb : h.bra[i]? = some b) (hbl : Asked p b.labels)
    (hk : ∀ k, h.ket[i]? = some k → k.labels ≠ b.labels) (hn : 0 ≤ p.points) :
    plot lib wave rnd6 p file = .error .undefinedBehaviour := by
  obtain ⟨hs, hf⟩ := read_facts r
  have : h.secs.pairs.idxOf? (i, i) = none := by
    rw [idxOf?_none]
    intro hm
    obtain ⟨b', k, h1, h2, h3⟩ := (hs.mem i i).mp hm
    rw [hb] at h1
    cases h1
    rw [q, allowed_scalar (gb.half b (List.mem_of_getElem? hb)) (gk.half k (List.mem_of_getElem? h2))] at h3
    exact hk k h2 h3.symm
  rw [plot_eq wave rnd6 r t q gb hb hbl hn, this]
  rfl

/-- **C149, refuted.** When the subspace of the ket space has another size, the program stops at an assertion inside
Eigen. -/
theorem plot_other_size_stops {Orb : Type} {lib : Lib Orb} (wave : Basis → ℕ → ℕ → ℝ → ℝ → ℝ) (rnd6 : ℝ → ℝ) {p : Plot}
    {file : List Line} {h : Header} {mats : List Mat} (r : readFile lib file = .ok (h, mats)) (t : h.type = some 'R')
    (q : h.secs.qn = scalarQN) (gb : GoodSpace h.bra) {i : ℕ} {b k : Obme.Sub}
    (hb : h.bra[i]? = some b) (hk : h.ket[i]? = some k) (hbl : Asked p b.labels) (hkl : k.labels = b.labels)
    (hd : k.ns.length ≠ b.ns.length) (hn : 0 ≤ p.points) : plot lib wave rnd6 p file = .error .assertFail := by
  obtain ⟨hs, hf⟩ := read_facts r
  obtain ⟨y, hy⟩ := sector_of_labels hs q gb hb hk hkl.symm
  obtain ⟨m, hm, hr, hc, hv⟩ := fits_block hf hy
  rw [dim_some hb] at hr
  rw [dim_some hk] at hc
  rw [plot_eq wave rnd6 r t q gb hb hbl hn]
  simp only [hy, unchecked, Except.ok_bind', getE_ok hm, mul_ok (a := ⟨p.points.toNat, b.ns.length, _⟩) hr.symm, assignBlock,
    hc, hd, and_false, decide_false]
  rfl

/-- **C149, refuted.** Labels that the bra space lacks are not reported either. -/
theorem plot_unknown_labels_undefined {Orb : Type} {lib : Lib Orb} (wave : Basis → ℕ → ℕ → ℝ → ℝ → ℝ) (rnd6 : ℝ → ℝ)
    {p : Plot} {file : List Line} {h : Header} {mats : List Mat} (r : readFile lib file = .ok (h, mats))
    (t : h.type = some 'R') (q : h.secs.qn = scalarQN) (hl : ∀ b ∈ h.bra, ¬ Asked p b.labels) :
    plot lib wave rnd6 p file = .error .undefinedBehaviour := by
  have : (plotLabels p).bind (lookUpSub h.bra) = none := by
    rcases hx : (plotLabels p).bind (lookUpSub h.bra) with _ | i
    · rfl
    · obtain ⟨L, h1, h2⟩ := Option.bind_eq_some_iff.mp hx
      obtain ⟨b, hb, rfl⟩ := lookUpSub_eq_some h2
      exact absurd (asked_iff.mpr h1) (hl b (List.mem_of_getElem? hb))
  simp only [plot, r, Except.ok_bind', checkXform_ok t q, this, unchecked, Except.error_bind']

/-! ## Arguments of radial-plot -/

/-- The words of the command line and the plot they ask for. -/
structure Asks (nm : Numbers) (args : List String) (p : Plot) : Prop where
  words : ∃ w1 w2 w3 w4 w5 w6 w7, args = [w1, w2, w3, w4, w5, w6, w7, p.xform, p.output] ∧
    (w1, p.basis) ∈ [("oscillator", Basis.oscillator), ("laguerre", Basis.laguerre)] ∧
    nm.num? w2 = some p.scale ∧ nm.int? w3 = some p.l ∧ nm.num? w4 = some ((p.tj : ℝ) / 2) ∧
    nm.int? w5 = some p.species ∧ nm.int? w6 = some p.points ∧ nm.num? w7 = some p.rMax

/-- Nothing can be extracted from nothing. -/
structure NumbersLaw (nm : Numbers) : Prop where
  int : nm.int? "" = none
  num : nm.num? "" = none

theorem twice_half (n : Int) : Density.twice ((n : ℝ) / 2) = n := by
  unfold Density.twice
  rw [mul_div_cancel₀ _ (two_ne_zero)]
  split <;> simp

/-- **C150, partial.** Nine words which ask for a plot, with a transformation file that exists, are understood.
Missing: other command lines need not be refused. -/
theorem plot_arguments_partial {nm : Numbers} (law : NumbersLaw nm) {disk : String → Option (List Line)}
    {args : List String} {p : Plot} {file : List Line} (ha : Asks nm args p) (hf : disk p.xform = some file) :
    plotArguments nm disk args = .ok (p, file) := by
  obtain ⟨w1, w2, w3, w4, w5, w6, w7, rfl, h1, h2, h3, h4, h5, h6, h7⟩ := ha.words
  have hne : ∀ {w : String} {x : ℝ}, nm.num? w = some x → w ≠ "" := by
    rintro w x h rfl
    rw [law.num] at h; cases h
  have hne' : ∀ {w : String} {x : Int}, nm.int? w = some x → w ≠ "" := by
    rintro w x h rfl
    rw [law.int] at h; cases h
  have hb : basisType w1 = .ok p.basis := by
    simp only [List.mem_cons, Prod.mk.injEq, List.not_mem_nil, or_false] at h1
    rcases h1 with ⟨rfl, hb⟩ | ⟨rfl, hb⟩ <;> rw [hb] <;> simp [basisType]
  simp only [plotArguments, hb, Except.ok_bind', extractNum, extractInt, hne h2, hne' h3, hne h4, hne' h5, hne' h6, hne h7,
    if_false, h2, h3, h4, h5, h6, h7, Option.getD_some, existing, hf, twice_half, Except.pure_ok]

/-- **C150, refuted.** A word that is no number counts as zero: here for `l`, so that the plot of an s orbital is made. -/
theorem plot_number_not_checked (nm : Numbers) (disk : String → Option (List Line)) (w1 w2 w3 w3' w4 w5 w6 w7 w8 w9 : String)
    (h : w3 ≠ "") (h' : w3' ≠ "") (hn : nm.int? w3 = none) (hz : nm.int? w3' = some 0) :
    plotArguments nm disk [w1, w2, w3, w4, w5, w6, w7, w8, w9] =
      plotArguments nm disk [w1, w2, w3', w4, w5, w6, w7, w8, w9] := by
  simp only [plotArguments, extractInt, h, h', hn, hz, if_false, Option.getD_none, Option.getD_some]

/-- **C150, refuted.** A `j` that is not a half-integer is cut to one: 0.7 is taken for 1/2. -/
theorem plot_momentum_cut (nm : Numbers) (disk : String → Option (List Line)) (w1 w2 w3 w4 w4' w5 w6 w7 w8 w9 : String)
    (h : w4 ≠ "") (h' : w4' ≠ "") {x : ℝ} {n : ℕ} (hx : nm.num? w4 = some x) (h0 : (n : ℝ) ≤ 2 * x)
    (h1 : 2 * x < n + 1) (hn : nm.num? w4' = some ((n : ℝ) / 2)) :
    plotArguments nm disk [w1, w2, w3, w4, w5, w6, w7, w8, w9] =
      plotArguments nm disk [w1, w2, w3, w4', w5, w6, w7, w8, w9] := by
  have hx0 : 0 ≤ x := by
    have : (0 : ℝ) ≤ n := by positivity
    linarith
  have e1 : Density.twice x = n := by
    rw [Density.twice, if_pos hx0, Int.floor_eq_iff]
    exact ⟨by exact_mod_cast h0, by exact_mod_cast h1⟩
  have e2 : Density.twice ((n : ℝ) / 2) = n := by simpa using twice_half n
  simp only [plotArguments, extractNum, h, h', hx, hn, if_false, Option.getD_some, Except.ok_bind', e1, e2]

/-! ## After natorb-gen -/

/-- **C151.** Run on the transformation written by `natorb-gen` for a symmetric scalar density, `radial-extract` lists,
up to the rounding of the two files, the natural orbitals in terms of the orbitals of the run. -/
theorem extract_natural_orbitals {Orb : Type} {lib : Density.Lib Orb} (laws : LibLaws lib.toLib) (slaw : SpaceLaw lib) {e : Ext Orb}
    (law : EigLaw e) (sort : SortLaw e) {rnd : ℝ → ℝ} (h0 : rnd 0 = 0) (hr : ∀ x, rnd (rnd x) = rnd x) {space : Space}
    (hg : GoodSpace space) (hb : Built lib.toLib space) {bra ket : Density.State} {Zb Nb Zk Nk tMb tMk lo hi : Int} {d : Density}
    {es : List Entry} (hd : Means space bra ket Zb Nb Zk Nk tMb tMk lo hi d es) (hp : g0 bra ket = 0)
    (ht : tz0 Zb Nb Zk Nk = 0) (hJ : lo ≤ 0 ∧ 0 ≤ hi) (hsym : ∀ x y, finalValue es 0 x y = finalValue es 0 y x) :
    ∃ o out U occ lines, natorb lib e rnd space space d = .ok o ∧ NaturalOrbitals space out (finalValue es 0) U occ ∧
      (∀ x, InSpace out x ↔ InSpace space x) ∧ extract lib.toLib rnd o.xform = .ok lines ∧
      List.Forall₂ (Expands (fun x => rnd (chop x)) space out U) (ordered out) lines := by
  obtain ⟨o, out, mats, U, occ, h1, h2, h3, h4, h5, h6, h7, h8⟩ :=
    natural_orbitals laws slaw law sort h0 hg hb hd hp ht hJ hsym
  obtain ⟨ho, hbo, hx⟩ := slaw space o.orbitals hg hb h3
  rw [← h2] at ho hbo hx
  have hpart : Partnered space out := by
    intro k hk
    obtain ⟨j, hj⟩ := List.mem_iff_getElem?.mp hk
    obtain ⟨n, hn⟩ : ∃ n, k.ns[0]? = some n := by
      have := hbo.nonempty k hk
      exact ⟨_, List.getElem?_eq_getElem (List.length_pos_iff.mpr this)⟩
    obtain ⟨i, a, b, e1, e2, _⟩ := (hx ⟨k.labels.sp, n, k.labels.l, k.labels.tj⟩).mp ⟨j, 0, k, hj, rfl, hn⟩
    exact ⟨b, List.mem_of_getElem? e1, e2⟩
  obtain ⟨lines, l1, l2, _⟩ := extract_lists_expansions rnd h6 rfl rfl hg ho hpart
  refine ⟨o, out, U, occ, lines, h1, h5, h4, l1, l2.imp ?_⟩
  rintro q line ⟨i, b, hi, hl, he⟩
  refine ⟨i, b, hi, hl, he.trans ?_⟩
  simp only [h7, hr]

/-- **C151.** When the library keeps the order of the subspaces, `radial-plot` run on that file tabulates, for any
labels of the orbitals of the run, the radial functions of the natural orbitals with the coefficients of the file. -/
theorem plot_natural_orbitals {Orb : Type} {lib : Density.Lib Orb} (laws : LibLaws lib.toLib) (slaw : SpaceLaw lib)
    {e : Ext Orb} (law : EigLaw e) (sort : SortLaw e) {rnd : ℝ → ℝ} (h0 : rnd 0 = 0) {space : Space}
    (hg : GoodSpace space) (hb : Built lib.toLib space)
    (horder : (lib.mkSpace (e.sortOrb (lib.info space))).map Obme.Sub.labels = space.map Obme.Sub.labels)
    {bra ket : Density.State} {Zb Nb Zk Nk tMb tMk lo hi : Int} {d : Density} {es : List Entry}
    (hd : Means space bra ket Zb Nb Zk Nk tMb tMk lo hi d es) (hp : g0 bra ket = 0) (ht : tz0 Zb Nb Zk Nk = 0)
    (hJ : lo ≤ 0 ∧ 0 ≤ hi) (hsym : ∀ x y, finalValue es 0 x y = finalValue es 0 y x)
    (wave : Basis → ℕ → ℕ → ℝ → ℝ → ℝ) (rnd6 : ℝ → ℝ) {p : Plot} {i : ℕ} {b : Obme.Sub} (hi : space[i]? = some b)
    (hl : Asked p b.labels) (hn : 0 ≤ p.points) :
    ∃ o out U occ, natorb lib e rnd space space d = .ok o ∧ NaturalOrbitals space out (finalValue es 0) U occ ∧
      dim out i = dim space i ∧
      plot lib.toLib wave rnd6 p o.xform = .ok ((List.range p.points.toNat).map fun x =>
        Tok.num (rnd6 (gridPoint p.points.toNat p.rMax x)) :: (List.range (dim out i)).map fun c => Tok.num (rnd6
          (transformed (fun n l => wave p.basis n l p.scale) space (fun i a k c => rnd (chop (U i a k c))) ⟨i, c⟩
            (gridPoint p.points.toNat p.rMax x)))) := by
  obtain ⟨o, out, mats, U, occ, h1, h2, h3, h4, h5, h6, h7, h8⟩ :=
    natural_orbitals laws slaw law sort h0 hg hb hd hp ht hJ hsym
  obtain ⟨ho, hbo, hx⟩ := slaw space o.orbitals hg hb h3
  have hos : o.orbitals = e.sortOrb (lib.info space) := by
    have h1' := h1
    simp only [natorb, Except.bind_eq_ok, Except.pure_ok, Except.ok.injEq] at h1'
    obtain ⟨_, _, _, _, _, _, rfl⟩ := h1'
    rfl
  rw [hos] at h2
  rw [← h2] at horder
  rw [hos, ← h2] at ho hbo hx
  have hk : (out.map Obme.Sub.labels)[i]? = some b.labels := by rw [horder, List.getElem?_map, hi]; rfl
  rw [List.getElem?_map, Option.map_eq_some_iff] at hk
  obtain ⟨k, hk, hkl⟩ := hk
  obtain ⟨π, hπ, _⟩ := exists_partner hg ho hb.nonempty hbo.nonempty hx
  obtain ⟨k', e1, e2, e3⟩ := hπ i b hi
  have hki : i = π i := sub_unique ho hk e1 (hkl.trans e2.symm)
  rw [← hki, hk] at e1
  cases e1
  refine ⟨o, out, U, occ, h1, h5, by rw [dim_some hk, dim_some hi, e3], ?_⟩
  rw [plot_tabulates_partial wave rnd6 h6 rfl rfl hg ho (i := i) (b := b) (k := k) hi hk hl hkl e3 hn, dim_some hk]
  have : elem (allSectors ⟨0, 0, 0⟩ space out) mats = fun i a k c => rnd (chop (U i a k c)) := by
    funext i a k c
    exact h7 i a k c
  simp only [this]

/-! ## Examples -/

namespace Ex

/-- A space with the subspaces of `sampleSpace` in the other order. -/
def swapped : Space := [⟨⟨1, 1, .p⟩, [0]⟩, ⟨⟨0, 1, .p⟩, [0, 1]⟩]

theorem swapped_good : GoodSpace swapped := ⟨by decide, by decide, by decide⟩

/-- A space with fewer orbitals of one subspace. -/
def smaller : Space := [⟨⟨0, 1, .p⟩, [0]⟩, ⟨⟨1, 1, .p⟩, [0]⟩]

/-- Blocks of ones between two spaces. -/
noncomputable def ones (bra ket : Space) : List Mat := (allSectors scalarQN bra ket).pairs.map fun p =>
  ⟨dim bra p.1, dim ket p.2, fun _ _ => 1⟩

theorem ones_fits (bra ket : Space) : Fits (allSectors scalarQN bra ket) (ones bra ket) bra ket := by
  refine ⟨by simp [ones], ?_⟩
  intro x i k m hx hm
  simp only [ones, List.getElem?_map, hx, Option.map_some, Option.some.injEq] at hm
  subst hm
  exact ⟨rfl, rfl⟩

/-- A transformation file between two spaces. -/
theorem file {bra ket : Space} (hb : ∀ b ∈ bra, b.ns ≠ []) (hk : ∀ b ∈ ket, b.ns ≠ []) : ∃ f mats,
    readFile toyLib f = .ok (⟨some 'R', bra, ket, allSectors scalarQN bra ket⟩, mats) := by
  obtain ⟨f, m, _, r, _⟩ := file_round_trip toyLib_laws (rnd := id) rfl true 'R' scalarQN (bra := bra) (ket := ket)
    ⟨rfl, hb⟩ ⟨rfl, hk⟩ (ones_fits bra ket) []
  rw [List.append_nil] at r
  exact ⟨f, m, r⟩

/-- The plot of the proton s orbitals. -/
noncomputable def request : Plot := ⟨.oscillator, 2, 0, 1, 0, 3, 10, "xform.dat", "plot.dat"⟩

/-- Subspaces in another order are listed by `radial-extract`, but not plotted. -/
example (wave : Basis → ℕ → ℕ → ℝ → ℝ → ℝ) : ∃ f out, extract toyLib id f = .ok out ∧ out.length = 3 ∧
    plot toyLib wave id request f = .error .undefinedBehaviour := by
  obtain ⟨f, mats, r⟩ := file (bra := sampleSpace) (ket := swapped) (by decide) (by decide)
  obtain ⟨out, h1, h2, _⟩ := extract_lists_expansions id r rfl rfl sampleSpace_good swapped_good
    (by simp [Partnered, swapped, sampleSpace])
  refine ⟨f, out, h1, by rw [← h2.length_eq]; rfl, ?_⟩
  exact plot_other_order_undefined wave id r rfl rfl sampleSpace_good swapped_good (i := 0) rfl
    (by simp [Asked, request]) (by intro k hk; cases hk; decide) (by simp [request])

/-- Fewer transformed orbitals are listed by `radial-extract`; `radial-plot` stops. -/
example (wave : Basis → ℕ → ℕ → ℝ → ℝ → ℝ) : ∃ f out, extract toyLib id f = .ok out ∧ out.length = 2 ∧
    plot toyLib wave id request f = .error .assertFail := by
  obtain ⟨f, mats, r⟩ := file (bra := sampleSpace) (ket := smaller) (by decide) (by decide)
  obtain ⟨out, h1, h2, _⟩ := extract_lists_expansions id r rfl rfl sampleSpace_good ⟨by decide, by decide, by decide⟩
    (by simp [Partnered, smaller, sampleSpace])
  refine ⟨f, out, h1, by rw [← h2.length_eq]; rfl, ?_⟩
  exact plot_other_size_stops wave id r rfl rfl sampleSpace_good (i := 0) rfl rfl (by simp [Asked, request]) rfl
    (by decide) (by simp [request])

/-- More labels in the ket space: undefined. -/
example : ∃ f, extract toyLib id f = .error .undefinedBehaviour := by
  obtain ⟨f, mats, r⟩ := file (bra := [⟨⟨0, 1, .p⟩, [0]⟩]) (ket := sampleSpace) (by decide) (by decide)
  exact ⟨f, extract_missing_labels_undefined id r rfl rfl (by simp [Partnered, sampleSpace])⟩

/-- A file that can be plotted. -/
example (wave : Basis → ℕ → ℕ → ℝ → ℝ → ℝ) : ∃ f out, plot toyLib wave id request f = .ok out ∧ out.length = 3 := by
  obtain ⟨f, mats, r⟩ := file (bra := sampleSpace) (ket := sampleSpace) (by decide) (by decide)
  refine ⟨f, _, plot_tabulates_partial wave id r rfl rfl sampleSpace_good sampleSpace_good (i := 0) rfl rfl
    (by simp [Asked, request]) rfl rfl (by simp [request]), ?_⟩
  simp [request]

example (wave : Basis → ℕ → ℕ → ℝ → ℝ → ℝ) : ∃ f, plot toyLib wave id { request with species := 1 } f =
    .error .undefinedBehaviour := by
  obtain ⟨f, mats, r⟩ := file (bra := sampleSpace) (ket := sampleSpace) (by decide) (by decide)
  exact ⟨f, plot_unknown_labels_undefined wave id r rfl rfl (by simp [Asked, request, sampleSpace])⟩

/-- A spherical tensor operator is refused. -/
example (wave : Basis → ℕ → ℕ → ℝ → ℝ → ℝ) : ∃ f, extract toyLib id f = .error .assertFail ∧
    plot toyLib wave id request f = .error .assertFail := by
  obtain ⟨f, m, _, r, _⟩ := file_round_trip toyLib_laws (rnd := id) rfl true 'S' ⟨1, 1, 0⟩
    sampleSpace_built sampleSpace_built (sampleOp_fits ⟨1, 1, 0⟩) []
  rw [List.append_nil] at r
  exact ⟨f, extract_refuses_other r rfl (Or.inl (by decide)), plot_refuses_other wave id request r rfl (Or.inl (by decide))⟩


/-- Numbers of the words used here. -/
noncomputable def nm : Numbers :=
  ⟨fun w => if w = "0" then some 0 else if w = "3" then some 3 else none,
    fun w => if w = "2.0" then some 2 else if w = "0.5" then some (1 / 2) else if w = "0.7" then some 0.7 else
      if w = "10" then some 10 else none⟩

theorem asks : Asks nm ["oscillator", "2.0", "0", "0.5", "0", "3", "10", "xform.dat", "plot.dat"] request :=
  ⟨"oscillator", "2.0", "0", "0.5", "0", "3", "10", rfl, by simp [request], by simp [nm, request], by simp [nm, request],
    by simp [nm, request], by simp [nm, request], by simp [nm, request], by simp [nm, request]⟩

example (f : List Line) : plotArguments nm (fun _ => some f)
    ["oscillator", "2.0", "0", "0.5", "0", "3", "10", "xform.dat", "plot.dat"] = .ok (request, f) :=
  plot_arguments_partial ⟨by simp [nm], by simp [nm]⟩ asks rfl

/-- The table of the request is written to `plot.dat`. -/
example (wave : Basis → ℕ → ℕ → ℝ → ℝ → ℝ) : ∃ f out name, plotRun toyLib wave id nm (fun _ => some f)
      ["oscillator", "2.0", "0", "0.5", "0", "3", "10", "xform.dat", "plot.dat"] = .ok (name, out) ∧ name = "plot.dat" := by
  obtain ⟨f, mats, r⟩ := file (bra := sampleSpace) (ket := sampleSpace) (by decide) (by decide)
  have h := plot_tabulates_partial wave id r rfl rfl sampleSpace_good sampleSpace_good (i := 0) rfl rfl
    (p := request) (by simp [Asked, request]) rfl rfl (by simp [request])
  have e := plot_arguments_partial ⟨by simp [nm], by simp [nm]⟩ asks (disk := fun _ => some f) rfl
  replace e := congrArg (· >>= fun x : Plot × List Line => plot toyLib wave id x.1 x.2 >>= fun ls =>
    (Except.ok (x.1.output, ls) : Except Err (String × List Line))) e
  simp only [Except.ok_bind', h] at e
  exact ⟨f, _, _, e, by simpa using (plot_run e).1.symm⟩

/-- The letter for `l` is read as zero, and `j = 0.7` as 1/2. -/
example (f : List Line) : plotArguments nm (fun _ => some f)
    ["oscillator", "2.0", "p", "0.7", "0", "3", "10", "xform.dat", "plot.dat"] = .ok (request, f) := by
  rw [plot_number_not_checked nm _ _ _ "p" "0" _ _ _ _ _ _ (by decide) (by decide) (by simp [nm]) (by simp [nm]),
    plot_momentum_cut nm _ _ _ _ "0.7" "0.5" _ _ _ _ _ (by decide) (by decide) (x := 0.7) (n := 1) (by simp [nm])
      (by norm_num) (by norm_num) (by simp [nm])]
  exact plot_arguments_partial ⟨by simp [nm], by simp [nm]⟩ asks rfl

example (f out : List Line) (he : extract toyLib id f = .ok out) :
    extractRun toyLib id (fun _ => some f) ["xform.dat", "out.dat"] = .ok ("out.dat", out) :=
  extract_arguments.mpr ⟨"xform.dat", f, rfl, rfl, he⟩

/-- The hypotheses of `extract_natural_orbitals` are met by the density of `full_file`. -/
example : ∃ d o lines, readSingle Density.Ex.lib sampleSpace Density.Ex.state Density.Ex.state
      ⟨Density.Ex.header ++ Density.Ex.data, true⟩ = .ok d ∧
    natorb Density.Ex.lib Density.Ex.ext id sampleSpace sampleSpace d = .ok o ∧
    extract Density.Ex.lib.toLib id o.xform = .ok lines := by
  obtain ⟨d, h1, h2⟩ := Density.Ex.full_file
  have hb : Built Density.Ex.lib.toLib sampleSpace :=
    ⟨Density.Ex.rebuild sampleSpace_good.nodup (by decide), by decide⟩
  obtain ⟨o, out, U, occ, lines, h3, _, _, h4, _⟩ := extract_natural_orbitals Density.Ex.laws Density.Ex.space_law
    (solver_law _ _ _) Density.Ex.ext_sort (rnd := id) rfl (fun _ => rfl) sampleSpace_good hb h2 rfl (by decide)
    (by decide) Density.Ex.entries_symmetric
  exact ⟨d, o, lines, h1, h3, h4⟩

/-- The hypotheses of `plot_natural_orbitals` are met when the orbitals are left in their order. -/
example (wave : Basis → ℕ → ℕ → ℝ → ℝ → ℝ) : ∃ d o lines, readSingle Density.Ex.lib sampleSpace Density.Ex.state
      Density.Ex.state ⟨Density.Ex.header ++ Density.Ex.data, true⟩ = .ok d ∧
    natorb Density.Ex.lib (solver Full id id) id sampleSpace sampleSpace d = .ok o ∧
    plot Density.Ex.lib.toLib wave id request o.xform = .ok lines := by
  obtain ⟨d, h1, h2⟩ := Density.Ex.full_file
  have hr := Density.Ex.rebuild sampleSpace_good.nodup (by decide)
  have hb : Built Density.Ex.lib.toLib sampleSpace := ⟨hr, by decide⟩
  obtain ⟨o, out, U, occ, h3, _, _, h4⟩ := plot_natural_orbitals Density.Ex.laws Density.Ex.space_law
    (solver_law Full id id) ⟨fun os => List.Perm.refl os, fun os => List.Perm.refl os⟩ (rnd := id) rfl sampleSpace_good hb
    (congrArg (List.map Obme.Sub.labels) hr) h2 rfl (by decide) (by decide) Density.Ex.entries_symmetric wave id
    (p := request) (i := 0) rfl (by simp [Asked, request]) (by simp [request])
  exact ⟨d, o, _, h1, h3, h4⟩

end Ex

end Verif.Obme.Show
