import Verif.Relative.JPVStat
import Verif.Obme.Lemmas

/-!
# What `jpvstat` shows (C152, C153)
-/

namespace Verif.Relative.JpvStat
open Verif Verif.H2 Verif.Relative.Jpv2Rel

/-! ## Specification -/

/-- A section with all fields of its header. -/
structure Full extends Section where
  ipcut : Int
  id : Int
  mn : ℝ
  hw : ℝ

/-- The lines of such a section. -/
def Full.Lines (f : Full) (ls : List Line) : Prop :=
  ∃ rest body, ls = (.int f.J :: .int f.S :: .int f.L :: .int f.Lp :: .int f.ipcut :: .int f.dim :: .dbl f.mn :: .dbl f.hw ::
    .int f.id :: rest) :: body ∧ f.J ≠ 99999 ∧ SectorLines (f.dim * (f.dim + 1) / 2) body ∧ Encodes (allValues body) f.dim f.v

/-- A file of such sections. -/
def IsFull (fs : List Full) (lines : List Line) : Prop :=
  ∃ chunks last more, List.Forall₂ Full.Lines fs chunks ∧ lines = chunks.flatten ++ ((.int 99999 :: last) :: more)

/-- The number of elements of a triangle. -/
def triangleSize (dim : ℕ) : ℕ := ((Finset.range dim ×ˢ Finset.range dim).filter fun p => p.1 ≤ p.2).card

/-- The number of radial functions with `2n+L` up to the cutoff. -/
def levels (Nmax L : ℕ) : ℕ := ((Finset.range (Nmax + 1)).filter fun n => 2 * n + L ≤ Nmax).card

/-- The number of stored elements of a sector. -/
def storedSize (x y : RelSub) : ℕ :=
  if x = y then triangleSize y.size else (Finset.range x.size ×ˢ Finset.range y.size).card

/-- The subspace has the labels `L`, `S`, `J` with the isospin of antisymmetry. -/
def Labelled (x : RelSub) (L S J : ℕ) : Prop := x.L = L ∧ x.S = S ∧ x.J = J ∧ x.T ≤ 1 ∧ (L + S + x.T) % 2 = 1

/-- The report describes the section, as seen from a space of truncation `Nmax`, `Jmax`; nothing is said of `entries`. -/
structure Describes (Nmax Jmax : ℕ) (f : Full) (r : Report) : Prop where
  raw : r.raw = ⟨f.J, f.S, f.L, f.Lp, f.ipcut, f.dim, f.mn, f.hw, f.id⟩
  transposed : (r.LpShown = f.Lp ∧ r.LShown = f.L ∧ f.Lp ≤ f.L ∧ r.flip = false) ∨
    (r.LpShown = f.L ∧ r.LShown = f.Lp ∧ f.L < f.Lp ∧ r.flip = true)
  expected : r.expected = triangleSize f.dim
  nmax : r.nmax + 1 = f.dim
  NmaxBra : r.NmaxBra = 2 * r.nmax + r.LpShown
  NmaxKet : r.NmaxKet = 2 * r.nmax + r.LShown
  bra : Labelled r.bra (min f.L f.Lp) f.S f.J
  ket : Labelled r.ket (max f.L f.Lp) f.S f.J
  dimBra : r.dimBra = levels Nmax (min f.L f.Lp)
  dimKet : r.dimKet = levels Nmax (max f.L f.Lp)
  indexBra : (relSpace Nmax Jmax)[r.indexBra]? = some r.bra
  indexKet : (relSpace Nmax Jmax)[r.indexKet]? = some r.ket
  sector : (relSectors (scalarLabels 0) (relSpace Nmax Jmax) 0)[r.sector]? = some (r.bra, r.ket)

/-! ## Lemmas -/

theorem triangleSize_eq (n : ℕ) : triangleSize n = n * (n + 1) / 2 := by
  unfold triangleSize
  have h : (Finset.range n ×ˢ Finset.range n).filter (fun p => p.1 ≤ p.2) =
      (Finset.range n).biUnion fun j => (Finset.range (j + 1)).image fun i => (i, j) := by
    ext ⟨i, j⟩
    simp only [Finset.mem_filter, Finset.mem_product, Finset.mem_range, Finset.mem_biUnion, Finset.mem_image, Prod.mk.injEq]
    constructor
    · rintro ⟨⟨h1, h2⟩, h3⟩
      exact ⟨j, h2, i, by omega, rfl, rfl⟩
    · rintro ⟨j', h1, i', h2, rfl, rfl⟩
      omega
  rw [h, Finset.card_biUnion]
  · have : ∀ j ∈ Finset.range n, ((Finset.range (j + 1)).image fun i => (i, j)).card = j + 1 := by
      intro j _
      rw [Finset.card_image_of_injective _ (by intro a b h; simpa using h), Finset.card_range]
    rw [Finset.sum_congr rfl this]
    clear h this
    induction n with
    | zero => rfl
    | succ n ih =>
      rw [Finset.sum_range_succ, ih]
      have : (n + 1) * (n + 1 + 1) = n * (n + 1) + 2 * (n + 1) := by ring
      omega
  · intro a _ b _ hab
    simp only [Function.onFun, Finset.disjoint_left, Finset.mem_image, not_exists, not_and]
    rintro _ ⟨i, _, rfl⟩ i' _ h
    simp only [Prod.mk.injEq] at h
    exact hab h.2.symm

theorem levels_eq {Nmax L : ℕ} (h : L ≤ Nmax) : levels Nmax L = (Nmax - L) / 2 + 1 := by
  unfold levels
  have : (Finset.range (Nmax + 1)).filter (fun n => 2 * n + L ≤ Nmax) = Finset.range ((Nmax - L) / 2 + 1) := by
    ext n
    simp only [Finset.mem_filter, Finset.mem_range]
    omega
  rw [this, Finset.card_range]

theorem parseRaw_header (l : Line) : parseHeader l = (parseRaw l).map (Option.map Raw.header) := by
  fun_cases parseRaw l
  all_goals (unfold parseHeader; simp_all [Except.map, Raw.header])

theorem idxOf_at {Nmax Jmax : ℕ} {s : RelSub} (h : s ∈ relSpace Nmax Jmax) :
    (relSpace Nmax Jmax)[(relSpace Nmax Jmax).idxOf s]? = some s := by
  rw [List.getElem?_eq_getElem (List.idxOf_lt_length_of_mem h)]
  simp

theorem describe_ok {Nmax Jmax : ℕ} {h : JHeader} {t : Target} (hp : prepare (jspace Nmax Jmax 0) h = .ok t) (r : Raw) :
    ∃ rep, describe Nmax Jmax r t = .ok rep := by
  have : ∃ p, (relSectors (scalarLabels 0) (relSpace Nmax Jmax) 0)[t.idx]? = some p := by
    unfold prepare at hp
    simp only [Except.bind_eq_ok] at hp
    obtain ⟨_, _, _, _, hp⟩ := hp
    split at hp
    · simp only [Except.bind_eq_ok] at hp
      obtain ⟨_, _, hp⟩ := hp
      split at hp
      · cases hp
      · rename_i idx hs
        cases hp
        change secIndex _ _ _ _ = some idx at hs
        unfold secIndex at hs
        split at hs
        · rw [List.findIdx?_eq_some_iff_getElem] at hs
          obtain ⟨hl, -⟩ := hs
          exact ⟨_, List.getElem?_eq_getElem hl⟩
        · cases hs
    · cases hp
  obtain ⟨⟨x, y⟩, hp⟩ := this
  simp only [describe, hp]
  exact ⟨_, rfl⟩

/-- The lines of a section are consumed, and no more. -/
theorem readSector_consumes (t : Target) (dim : ℕ) (he : t.expected = dim * (dim + 1) / 2) (blk : Block) (ls rest : List Line)
    (hl : SectorLines (dim * (dim + 1) / 2) ls) :
    ∃ st, readSector t ⟨0, 0, 0, blk⟩ (ls ++ rest) = .ok (st, rest) ∧ st.blk = filled t dim blk (allValues ls) := by
  have hen : dim * (dim + 1) / 2 ≤ (allValues (ls ++ rest)).length := by
    rw [allValues_append, List.length_append]; have := hl.1; omega
  obtain ⟨st, k, h1, h2, h3, h4⟩ := (triangle_enumeration t dim he blk (ls ++ rest)).2 hen
  have hk : k = ls.length := by
    rcases lt_trichotomy k ls.length with hlt | e | hgt
    · have := hl.2 k hlt
      rw [List.take_append_of_le_length hlt.le] at h3
      omega
    · exact e
    · have := h4 ls.length hgt
      rw [List.take_left] at this
      have := hl.1
      omega
  subst hk
  refine ⟨st, by rw [h1, List.drop_left], ?_⟩
  rw [h2, allValues_append]
  funext i j
  simp only [filled]
  set r := if t.flip then j else i
  set c := if t.flip then i else j
  split
  · rename_i hc
    simp only [List.getD_eq_getElem?_getD]
    rw [List.getElem?_append_left]
    have := (pos_lt_tri hc.1).mpr hc.2.1
    have := hl.1
    unfold triangular at *
    omega
  · rfl

/-! ## Properties -/

/-- **C152, agreement.** On every text the reporting reader ends as the reader proper does: it stops with the same error, or both
reach the end. -/
theorem reports_agree (Nmax Jmax : ℕ) (op : ℕ → Block) (lines : List Line) :
    (reports Nmax Jmax op lines).map (fun _ => ()) = (readJPV (jspace Nmax Jmax 0) op lines).map fun _ => () := by
  induction hn : lines.length using Nat.strong_induction_on generalizing lines op with
  | _ n ih =>
  cases lines with
  | nil => rw [reports, readJPV]; rfl
  | cons h ls =>
    rw [reports, readJPV, parseRaw_header]
    cases hp : parseRaw h with
    | error e => rfl
    | ok o =>
      cases o with
      | none => rfl
      | some r =>
        simp only [Except.map, Option.map]
        cases ht : prepare (jspace Nmax Jmax 0) r.header with
        | error e => rfl
        | ok t =>
          simp only
          obtain ⟨rep, hrep⟩ := describe_ok ht r
          rw [hrep]
          simp only
          cases hr : readSector t ⟨0, 0, 0, op t.idx⟩ ls with
          | error e => simp only
          | ok q =>
            have hl := readSector_length hr
            have := ih q.2.length (by simp only [← hn, List.length_cons]; omega) (Function.update op t.idx q.1.blk) q.2 rfl
            simp only
            simp only [Except.map] at this
            rw [← this]
            cases reports Nmax Jmax (Function.update op t.idx q.1.blk) q.2 <;> rfl

theorem Full.Lines.section {f : Full} {ls : List Line} (h : f.Lines ls) : SectionLines f.toSection ls := by
  obtain ⟨rest, body, rfl, h1, h2, h3⟩ := h
  exact .mk f.ipcut f.id f.mn f.hw rest body h1 h2 h3

theorem IsFull.isFile {fs : List Full} {lines : List Line} (h : IsFull fs lines) :
    IsFile (fs.map Full.toSection) lines := by
  obtain ⟨chunks, last, more, hc, rfl⟩ := h
  refine ⟨chunks, last, more, ?_, rfl⟩
  rw [List.forall₂_map_left_iff]
  exact hc.imp fun _ _ h => h.section

/-- One section. -/
theorem report_section {Nmax Jmax : ℕ} {f : Full} (hf : f.In Nmax Jmax) {ls : List Line} (hl : f.Lines ls) (op : ℕ → Block) :
    ∃ (r : Report) (op' : ℕ → Block), Describes Nmax Jmax f r ∧
      (f.L ≠ f.Lp → r.entries = storedSize r.bra r.ket) ∧ (f.L = f.Lp → r.entries = 2 * storedSize r.bra r.ket) ∧
      ∀ rest, reports Nmax Jmax op (ls ++ rest) = (reports Nmax Jmax op' rest).map (r :: ·) := by
  obtain ⟨more, body, rfl, hJ, hn, hv⟩ := hl
  obtain ⟨k, hk, hprep⟩ := prepare_in (T0max := 0) hf
  have hraw : ∀ rest : Line, parseRaw (.int f.J :: .int f.S :: .int f.L :: .int f.Lp :: .int f.ipcut :: .int f.dim ::
      .dbl f.mn :: .dbl f.hw :: .int f.id :: rest) = .ok (some ⟨f.J, f.S, f.L, f.Lp, f.ipcut, f.dim, f.mn, f.hw, f.id⟩) := by
    intro rest
    have : (f.J : Int) ≠ 99999 := by omega
    simp [parseRaw, this, Tok.toReal]
  obtain ⟨-, hx, hy, -, -⟩ := mem_sectors.mp (List.mem_of_getElem? hk)
  simp only at hx hy
  obtain ⟨h1, h2, h3, h4, h5, h6, h7⟩ := hf
  set x := relSub Nmax (min f.L f.Lp) f.S f.J with hxdef
  set y := relSub Nmax (max f.L f.Lp) f.S f.J with hydef
  have hix := idxOf_at hx
  have hiy := idxOf_at hy
  have hsame : ((relSpace Nmax Jmax).idxOf x = (relSpace Nmax Jmax).idxOf y) ↔ f.L = f.Lp := by
    constructor
    · intro e
      rw [e, hiy] at hix
      have := congrArg RelSub.L (Option.some.inj hix)
      simp only [hxdef, hydef, relSub] at this
      omega
    · intro e
      rw [hxdef, hydef, e]
      simp
  have hxy : x = y ↔ f.L = f.Lp := by
    constructor
    · intro e
      have := congrArg RelSub.L e
      simp only [hxdef, hydef, relSub] at this
      omega
    · intro e
      rw [hxdef, hydef, e]
      simp
  have hend : ∃ rep, describe Nmax Jmax ⟨f.J, f.S, f.L, f.Lp, f.ipcut, f.dim, f.mn, f.hw, f.id⟩
      ⟨k, decide (f.Lp > f.L), x.size, y.size, f.dim * (f.dim + 1) / 2⟩ = .ok rep ∧ Describes Nmax Jmax f rep ∧
      (f.L ≠ f.Lp → rep.entries = storedSize rep.bra rep.ket) ∧ (f.L = f.Lp → rep.entries = 2 * storedSize rep.bra rep.ket) := by
    simp only [describe, hk]
    refine ⟨_, rfl, ?_, ?_, ?_⟩
    · refine ⟨rfl, ?_, ?_, ?_, rfl, rfl, ?_, ?_, ?_, ?_, hix, hiy, hk⟩
      · by_cases hfl : f.Lp > f.L
        · right
          have : (f.Lp : Int) > f.L := by omega
          simp only [this, decide_true, if_true, and_true, true_and]
          exact hfl
        · left
          have : ¬ (f.Lp : Int) > f.L := by omega
          simp only [this, decide_false, Bool.false_eq_true, if_false, and_true, true_and]
          omega
      · rw [triangleSize_eq]
        push_cast
        rfl
      · simp
      · refine ⟨rfl, rfl, rfl, ?_, ?_⟩ <;> simp only [hxdef, relSub] <;> omega
      · refine ⟨rfl, rfl, rfl, ?_, ?_⟩ <;> simp only [hydef, relSub] <;> omega
      · rw [levels_eq (by omega)]; rfl
      · rw [levels_eq (by omega)]; rfl
    · intro hne
      simp only [mt hsame.mp hne, if_false, storedSize, mt hxy.mp hne, Finset.card_product, Finset.card_range]
    · intro he
      simp only [if_true, storedSize, hxy.mpr he, triangleSize_eq]
      have h2 : y.size * (y.size + 1) % 2 = 0 := by
        rcases Nat.even_mul_succ_self y.size with ⟨m, hm⟩
        omega
      omega
  obtain ⟨rep, hrep, hd, he1, he2⟩ := hend
  refine ⟨rep, Function.update op k (filled ⟨k, decide (f.Lp > f.L), x.size, y.size, f.dim * (f.dim + 1) / 2⟩ f.dim (op k)
    (allValues body)), hd, he1, he2, fun rest => ?_⟩
  obtain ⟨st, hst, hb⟩ := readSector_consumes ⟨k, decide (f.Lp > f.L), x.size, y.size, f.dim * (f.dim + 1) / 2⟩ f.dim rfl (op k) body
    rest hn
  rw [List.cons_append, reports, hraw]
  have hprep' : prepare (jspace Nmax Jmax 0) (Raw.header ⟨f.J, f.S, f.L, f.Lp, f.ipcut, f.dim, f.mn, f.hw, f.id⟩) =
      .ok ⟨k, decide (f.Lp > f.L), x.size, y.size, f.dim * (f.dim + 1) / 2⟩ := hprep
  simp only [hprep', hrep]
  split
  · rename_i e heq
    rw [hst] at heq
    cases heq
  · rename_i q heq
    rw [hst] at heq
    cases heq
    rw [hb]
    cases reports Nmax Jmax (Function.update op k (filled ⟨k, decide (f.Lp > f.L), x.size, y.size, f.dim * (f.dim + 1) / 2⟩ f.dim
      (op k) (allValues body))) rest <;> rfl

/-- **C152, what holds.** For a file whose channels have `L` and `J` up to 99, the program shows one report for each section of
the file, in order: the fields of its header, the transposition to the upper triangle, the number of values, the cutoffs, the
subspaces with their labels, dimensions and places, and the place of the sector; the number of entries is that of the stored
elements if the section joins different subspaces, and twice that otherwise. -/
theorem jpvstat_reports_partial {file? : String → Option (List Line)} {a : String} (ha : a ≠ "--help") {lines : List Line}
    (hl : file? a = some lines) {fs : List Full} (hf : IsFull fs lines) (hin : ∀ f ∈ fs, f.In 99 99) :
    ∃ reps, run file? [a] = .ok (.shown reps) ∧ List.Forall₂ (fun f r => Describes 99 99 f r ∧
      (f.L ≠ f.Lp → r.entries = storedSize r.bra r.ket) ∧ (f.L = f.Lp → r.entries = 2 * storedSize r.bra r.ket)) fs reps := by
  obtain ⟨chunks, last, more, hc, rfl⟩ := hf
  have main : ∀ op : ℕ → Block, ∃ reps, reports 99 99 op (chunks.flatten ++ ((.int 99999 :: last) :: more)) = .ok reps ∧
      List.Forall₂ (fun f r => Describes 99 99 f r ∧
        (f.L ≠ f.Lp → r.entries = storedSize r.bra r.ket) ∧ (f.L = f.Lp → r.entries = 2 * storedSize r.bra r.ket)) fs reps := by
    clear hl
    induction hc with
    | nil =>
      intro op
      refine ⟨[], ?_, .nil⟩
      rw [List.flatten_nil, List.nil_append, reports]
      simp [parseRaw]
    | @cons f ls fs chunks h _ ih =>
      intro op
      obtain ⟨r, op', h1, h2, h3, h4⟩ := report_section (hin f (by simp)) h op
      obtain ⟨reps, hr, hd⟩ := ih (fun f hf => hin f (by simp [hf])) op'
      refine ⟨r :: reps, ?_, .cons ⟨h1, h2, h3⟩ hd⟩
      rw [List.flatten_cons, List.append_assoc, h4, hr]
      rfl
  obtain ⟨reps, hr, hd⟩ := main fun _ _ _ => 0
  refine ⟨reps, ?_, hd⟩
  simp only [run, ha, if_false, if_true, openFile, hl, Except.ok_bind', hr]
  rfl

/-- **C152, refuted.** The number of entries shown for a section within one subspace is not that of the stored elements. -/
theorem jpvstat_entries_doubled {file? : String → Option (List Line)} {a : String} (ha : a ≠ "--help") {lines : List Line}
    (hl : file? a = some lines) {fs : List Full} (hf : IsFull fs lines) (hin : ∀ f ∈ fs, f.In 99 99) {f : Full} (hm : f ∈ fs)
    (h : f.L = f.Lp) :
    ∃ reps, run file? [a] = .ok (.shown reps) ∧ ∃ r ∈ reps, Describes 99 99 f r ∧ r.entries ≠ storedSize r.bra r.ket := by
  obtain ⟨reps, hr, hall⟩ := jpvstat_reports_partial ha hl hf hin
  refine ⟨reps, hr, ?_⟩
  obtain ⟨i, hi⟩ := List.getElem?_of_mem hm
  obtain ⟨r, hri, hd, -, he⟩ := Obme.forall₂_getElem? hall hi
  refine ⟨r, List.mem_of_getElem? hri, hd, ?_⟩
  have he := he h
  have : 0 < storedSize r.bra r.ket := by
    have hm := List.mem_of_getElem? hd.indexKet
    have hpos := (mem_space.mp hm).2.2.2.2.2.2.2
    unfold storedSize
    split
    · rw [triangleSize_eq, hpos]
      apply Nat.div_pos _ (by omega)
      nlinarith [Nat.zero_le ((99 - r.ket.L) / 2)]
    · rw [Finset.card_product, Finset.card_range, Finset.card_range]
      have hpos' := (mem_space.mp (List.mem_of_getElem? hd.indexBra)).2.2.2.2.2.2.2
      rw [hpos, hpos']
      positivity
  omega

/-- **C152, refusal.** A file with a channel of `L` or `J` above 99, or not of two nucleons, is refused. -/
theorem jpvstat_refuses {file? : String → Option (List Line)} {a : String} {more : List String} (ha : a ≠ "--help")
    {lines : List Line} (hl : file? a = some lines) (he : file? "" = none) {fs : List Full} (hf : IsFull fs lines) {f : Full}
    (hm : f ∈ fs) (hout : ¬ f.In 99 99) (o : Output) : run file? (a :: more) ≠ .ok o := by
  simp only [run, ha, if_false]
  intro h
  by_cases hmore : more = []
  · simp only [hmore, if_true, openFile, hl, Except.ok_bind'] at h
    have hno := file_outside_refused (Nmax := 99) (Jmax := 99) (T0max := 0) hf.isFile
      (List.mem_map_of_mem (f := Full.toSection) hm) hout (fun _ _ _ => 0)
    have hag := reports_agree 99 99 (fun _ _ _ => 0) lines
    cases hr : readJPV (jspace 99 99 0) (fun _ _ _ => 0) lines with
    | ok op => exact hno op hr
    | error e =>
      rw [hr] at hag
      cases hq : reports 99 99 (fun _ _ _ => 0) lines with
      | ok q => rw [hq] at hag; cases hag
      | error e' => rw [hq] at h; cases h
  · simp only [hmore, if_false, openFile, he, Except.error_bind'] at h
    cases h

/-- **C153.** Without arguments, or with `--help` first, the program shows its usage and succeeds, whatever follows. -/
theorem jpvstat_usage (file? : String → Option (List Line)) (args : List String) (h : args = [] ∨ args.head? = some "--help") :
    run file? args = .ok .usage := by
  rcases h with rfl | h
  · rfl
  · cases args with
    | nil => rfl
    | cons a more =>
      simp only [List.head?_cons, Option.some.injEq] at h
      simp [run, h]

/-- **C153, arguments.** It shows a file exactly if that is its only argument, can be opened, and is read by the reader of `jpv2rel`
into a space of truncation 99; a second argument makes it fail whatever the files hold. -/
theorem jpvstat_arguments (file? : String → Option (List Line)) (he : file? "" = none) (args : List String) :
    (∃ reps, run file? args = .ok (.shown reps)) ↔
      ∃ a lines op, args = [a] ∧ a ≠ "--help" ∧ file? a = some lines ∧
        readJPV (jspace 99 99 0) (fun _ _ _ => 0) lines = .ok op := by
  constructor
  · rintro ⟨reps, h⟩
    cases args with
    | nil => cases h
    | cons a more =>
      by_cases ha : a = "--help"
      · simp [run, ha] at h
      · simp only [run, ha, if_false] at h
        by_cases hmore : more = []
        · simp only [hmore, if_true] at h
          cases hl : file? a with
          | none => simp only [openFile, hl, Except.error_bind'] at h; cases h
          | some lines =>
            simp only [openFile, hl, Except.ok_bind'] at h
            have hag := reports_agree 99 99 (fun _ _ _ => 0) lines
            cases hr : readJPV (jspace 99 99 0) (fun _ _ _ => 0) lines with
            | ok op => exact ⟨a, lines, op, by rw [hmore], ha, hl, hr⟩
            | error e =>
              rw [hr] at hag
              cases hq : reports 99 99 (fun _ _ _ => 0) lines with
              | ok q => rw [hq] at hag; cases hag
              | error e' => rw [hq] at h; cases h
        · simp only [hmore, if_false, openFile, he, Except.error_bind'] at h
          cases h
  · rintro ⟨a, lines, op, rfl, ha, hl, hr⟩
    have hag := reports_agree 99 99 (fun _ _ _ => 0) lines
    rw [hr] at hag
    cases hq : reports 99 99 (fun _ _ _ => 0) lines with
    | error e' => rw [hq] at hag; cases hag
    | ok q =>
      refine ⟨q, ?_⟩
      simp only [run, ha, if_false, if_true, openFile, hl, Except.ok_bind', hq]
      rfl

/-! ## Examples -/

namespace Ex

/-- The coupled channel `3S1-3D1` with two states on each side, then `1S0` with one. -/
noncomputable def sd : Full := ⟨⟨1, 1, 0, 2, 2, fun i j => 11 + 10 * i + j⟩, 10, 7, 938, 20⟩
noncomputable def s0 : Full := ⟨⟨0, 0, 0, 0, 1, fun _ _ => 5⟩, 10, 8, 938, 20⟩

noncomputable def sdLines : List Line :=
  [[.int 1, .int 1, .int 0, .int 2, .int 10, .int 2, .dbl 938, .dbl 20, .int 7], [.int 11, .int 12], [.int 22]]
noncomputable def s0Lines : List Line :=
  [[.int 0, .int 0, .int 0, .int 0, .int 10, .int 1, .dbl 938, .dbl 20, .int 8], [.int 5]]

noncomputable def lines : List Line := [sdLines, s0Lines].flatten ++ [[.int 99999]]

theorem isFull : IsFull [sd, s0] lines := by
  refine ⟨[sdLines, s0Lines], [], [], .cons ?_ (.cons ?_ .nil), rfl⟩
  · refine ⟨[], [[.int 11, .int 12], [.int 22]], by simp [sdLines, sd], by simp [sd], ⟨?_, ?_⟩, ?_⟩
    · simp [allValues, lineValues, Tok.toReal, sd]
    · intro k hk
      simp only [List.length_cons, List.length_nil] at hk
      have : k = 0 ∨ k = 1 := by omega
      rcases this with rfl | rfl <;> simp [allValues, lineValues, Tok.toReal, sd]
    · intro r c h1 h2
      have h2 : c < 2 := h2
      have : (r = 0 ∧ c = 0) ∨ (r = 0 ∧ c = 1) ∨ (r = 1 ∧ c = 1) := by omega
      rcases this with ⟨rfl, rfl⟩ | ⟨rfl, rfl⟩ | ⟨rfl, rfl⟩ <;>
        simp [allValues, lineValues, Tok.toReal, sd, pos, triangular] <;> norm_num
  · refine ⟨[], [[.int 5]], by simp [s0Lines, s0], by simp [s0], ⟨?_, ?_⟩, ?_⟩
    · simp [allValues, lineValues, Tok.toReal, s0]
    · intro k hk
      simp only [List.length_cons, List.length_nil] at hk
      obtain rfl : k = 0 := by omega
      simp [allValues, s0]
    · intro r c h1 h2
      have h2 : c < 1 := h2
      obtain ⟨rfl, rfl⟩ : r = 0 ∧ c = 0 := by omega
      simp [allValues, lineValues, Tok.toReal, s0, pos, triangular]

theorem inside : ∀ f ∈ [sd, s0], f.In 99 99 := by
  simp only [List.mem_cons, List.not_mem_nil, or_false, forall_eq_or_imp, forall_eq]
  exact ⟨by unfold Section.In sd; decide, by unfold Section.In s0; decide⟩

/-- The coupled channel is transposed, and its 50 by 49 elements are counted right. -/
example : ∃ r₁ r₂, run (fun n => if n = "v" then some lines else none) ["v"] = .ok (.shown [r₁, r₂]) ∧ r₁.flip = true ∧
    r₁.LpShown = 0 ∧ r₁.LShown = 2 ∧ r₁.expected = 3 ∧ r₁.NmaxKet = 4 ∧ r₁.dimBra = 50 ∧ r₁.dimKet = 49 ∧ r₁.bra.T = 0 ∧
    r₁.raw.ipcut = 10 ∧ r₂.raw.id = 8 ∧ r₂.entries ≠ storedSize r₂.bra r₂.ket := by
  obtain ⟨reps, hr, hd⟩ := jpvstat_reports_partial (file? := fun n => if n = "v" then some lines else none) (a := "v")
    (by decide) (by simp) isFull inside
  obtain ⟨reps', hr', r', hm', hd', hne⟩ := jpvstat_entries_doubled (file? := fun n => if n = "v" then some lines else none) (a := "v")
    (by decide) (by simp) isFull inside (f := s0) (by simp) rfl
  rw [hr] at hr'
  cases hr'
  cases hd with
  | cons h1 hd => cases hd with
    | cons h2 hd =>
      cases hd
      rename_i r₁ r₂
      refine ⟨r₁, r₂, hr, ?_⟩
      have t := h1.1.transposed
      have fl : r₁.flip = true ∧ r₁.LpShown = 0 ∧ r₁.LShown = 2 := by
        rcases t with ⟨_, _, h, _⟩ | ⟨h1, h2, _, h4⟩
        · simp [sd] at h
        · exact ⟨h4, h1, h2⟩
      have hn := h1.1.nmax
      have hk := h1.1.NmaxKet
      have hdim : ((sd.dim : ℕ) : Int) = 2 := by simp [sd]
      have hb := h1.1.bra
      refine ⟨fl.1, fl.2.1, fl.2.2, ?_, by omega, ?_, ?_, ?_, ?_, ?_, ?_⟩
      · rw [h1.1.expected]; simp only [sd]; decide
      · rw [h1.1.dimBra]; simp only [sd]; decide
      · rw [h1.1.dimKet]; simp only [sd]; decide
      · obtain ⟨_, _, _, h4, h5⟩ := hb
        simp only [sd] at h5
        omega
      · rw [h1.1.raw]; rfl
      · rw [h2.1.raw]; rfl
      · rcases List.mem_cons.mp hm' with rfl | hm'
        · have := hd'.raw
          rw [h1.1.raw] at this
          simp [sd, s0] at this
        · rw [List.mem_singleton] at hm'
          subst hm'
          exact hne

/-- A channel with `L = 100` is refused. -/
example (o : Output) : run (fun n => if n = "v" then some [[.int 100, .int 0, .int 100, .int 100, .int 10, .int 1, .dbl 938, .dbl 20,
    .int 8], [.int 5], [.int 99999]] else none) ["v"] ≠ .ok o := by
  refine jpvstat_refuses (a := "v") (by decide) rfl rfl (f := ⟨⟨100, 0, 100, 100, 1, fun _ _ => 5⟩, 10, 8, 938, 20⟩)
    (fs := [⟨⟨100, 0, 100, 100, 1, fun _ _ => 5⟩, 10, 8, 938, 20⟩]) ?_ (by simp) (by unfold Section.In; decide) o
  refine ⟨[[[.int 100, .int 0, .int 100, .int 100, .int 10, .int 1, .dbl 938, .dbl 20, .int 8], [.int 5]]], [], [], .cons ?_ .nil, rfl⟩
  refine ⟨[], [[.int 5]], by simp, by simp, ⟨?_, ?_⟩, ?_⟩
  · simp [allValues, lineValues, Tok.toReal]
  · intro k hk
    simp only [List.length_cons, List.length_nil] at hk
    obtain rfl : k = 0 := by omega
    simp [allValues]
  · intro r c h1 h2
    have h2 : c < 1 := h2
    obtain ⟨rfl, rfl⟩ : r = 0 ∧ c = 0 := by omega
    simp [allValues, lineValues, Tok.toReal, pos, triangular]

/-- With a second argument nothing is shown. -/
example : ¬ ∃ reps, run (fun n => if n = "v" then some lines else none) ["v", "v"] = .ok (.shown reps) := by
  rw [jpvstat_arguments _ rfl]
  rintro ⟨a, _, _, h, -⟩
  simp at h

example : run (fun _ => none) ["--help", "v"] = .ok .usage := jpvstat_usage _ _ (.inr rfl)

end Ex

end Verif.Relative.JpvStat
