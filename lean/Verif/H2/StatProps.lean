import Verif.H2.StatLemmas
import Verif.H2.ConvExamples

/-!
# What `h2stat` shows, and what `--verify` detects
-/

namespace Verif.H2.Stat
open Verif Verif.H2

/-! ### Specification -/

/-- `f` is a file which was opened for output with description `d` and into which all sectors were written, sector `k`
by the call `calls[k]`; `r` is the rounding of decimal output (none for binary files). -/
structure Written (lib : BasisLib) (hf : HeaderFloat) (mode : Mode) (fmt : Format) (d : Desc) (r : BitVec 32 → BitVec 32)
    (calls : List WriteCall) (f : File) : Prop where
  notMatrix : mode ≠ .matrix
  expressible : Expressible lib hf mode fmt d
  wf : ∀ s ∈ (d.index lib).sectors, s.WF
  upper : ∀ s ∈ (d.index lib).sectors, s.braIndex ≤ s.ketIndex
  text : mode = .text → ∀ x, hf.fm.scan (hf.fm.fmt x) = some (r x)
  binary : mode = .binary → r = id
  all : calls.length = (d.index lib).sectors.length
  written : ∃ hdr st, openOut lib hf mode fmt d = .ok hdr ∧
    writeHistory ⟨hf.fm, fmt, mode, d.index lib⟩ calls ⟨0, hdr⟩ = .ok st ∧ st.out = f

/-- The sectors of a type are those whose bra subspace has it. -/
def ofType (xs : List Sector) (t : Species) : List Sector := xs.filter fun s => s.bra.species = t

/-- `h` describes the operator `d` in the file `name`. -/
structure Describes (lib : BasisLib) (name : String) (mode : Mode) (fmt : Format) (d : Desc) (h : Header) : Prop where
  filename : h.filename = name
  format : h.format = (match fmt with | .v0 => 0 | .v15099 => 15099 | .v15200 => 15200)
  mode : h.mode = mode
  rank : h.J0 = d.J0 ∧ h.g0 = d.g0 ∧ h.Tz0 = d.Tz0
  orbitals : h.protonOrbitals = d.orbs.p.length ∧ h.neutronOrbitals = d.orbs.n.length
  truncation : h.truncation = d.wmax
  sectors : h.sectors.pp = (ofType (d.index lib).sectors .pp).length ∧
    h.sectors.nn = (ofType (d.index lib).sectors .nn).length ∧
    h.sectors.pn = (ofType (d.index lib).sectors .pn).length ∧ h.sectors.total = (d.index lib).sectors.length
  elements : h.elements.pp = ((ofType (d.index lib).sectors .pp).map storedCount).sum ∧
    h.elements.nn = ((ofType (d.index lib).sectors .nn).map storedCount).sum ∧
    h.elements.pn = ((ofType (d.index lib).sectors .pn).map storedCount).sum ∧
    h.elements.total = ((d.index lib).sectors.map storedCount).sum

/-- What a file holds for the element `(i, j)`, `i ≤ j` in diagonal sectors, of a matrix written. -/
noncomputable def storedValue (fm : FloatModel) (r : BitVec 32 → BitVec 32) (s : Sector) (w : WriteCall) (i j : Nat) : ℝ :=
  fm.ofF32 (r (fm.toF32 (storedFactor w.conv s i j * w.mat.val i j)))

/-- `x` shows sector `k`: all elements, those below the diagonal of a diagonal sector being the ones above it. -/
structure Shows (fm : FloatModel) (r : BitVec 32 → BitVec 32) (k : Nat) (s : Sector) (w : WriteCall) (x : SectorShown) :
    Prop where
  index : x.index = k
  bra : x.bra = (s.bra.species, s.bra.J, s.bra.g)
  ket : x.ket = (s.ket.species, s.ket.J, s.ket.g)
  diagonal : x.diagonal = true ↔ s.braIndex = s.ketIndex
  rows : x.matrix.rows = s.bra.size
  cols : x.matrix.cols = s.ket.size
  upper : ∀ i j, i < s.bra.size → j < s.ket.size → (s.braIndex = s.ketIndex → i ≤ j) →
    x.matrix.val i j = storedValue fm r s w i j
  lower : ∀ i j, i < s.bra.size → j < s.ket.size → s.braIndex = s.ketIndex → j < i →
    x.matrix.val i j = storedValue fm r s w j i

/-! ### Helpers -/

theorem total_of_types (xs : List Sector) (g : Sector → Nat) :
    ((ofType xs .pp).map g).sum + ((ofType xs .nn).map g).sum + ((ofType xs .pn).map g).sum = (xs.map g).sum := by
  induction xs with
  | nil => rfl
  | cons s xs ih =>
    rw [List.map_cons, List.sum_cons, ← ih]
    cases hs : s.bra.species <;> simp [ofType, hs] <;> omega

theorem describes {lib : BasisLib} {name : String} {mode : Mode} {fmt : Format} {d : Desc}
    (hwf : ∀ s ∈ (d.index lib).sectors, s.WF) (hup : ∀ s ∈ (d.index lib).sectors, s.braIndex ≤ s.ketIndex) :
    Describes lib name mode fmt d (diagnostic lib name mode fmt d) := by
  have h := size_by_type_counts_stored (d.index lib).sectors hwf hup
  refine ⟨rfl, by cases fmt <;> rfl, rfl, ⟨rfl, rfl, rfl⟩, ⟨rfl, rfl⟩, rfl, ⟨(h _).2, (h _).2, (h _).2, rfl⟩,
    ⟨(h _).1, (h _).1, (h _).1, ?_⟩⟩
  rw [← total_of_types]
  show sizeByType _ _ + sizeByType _ _ + sizeByType _ _ = _
  rw [(h .pp).1, (h .nn).1, (h .pn).1]
  rfl

theorem name_ne_help {name : String} {m : Mode} (h : deducedIOMode name = .ok m) : name ≠ "--help" := by
  rintro rfl
  have : deducedIOMode "--help" = .error .exitFailure := by decide
  rw [this] at h
  simp at h

/-- The program from the opened stream on. -/
theorem run_opened {w : World} {name : String} {mode : Mode} {f : File} {fmt : Format} {d : Desc} {start : Nat}
    (hn : deducedIOMode name = .ok mode) (hw : w.file? name = some f)
    (ho : openIn w.lib w.hf mode f = .ok (fmt, d, start)) {args : List String} {m : String}
    (ha : processArguments args = .ok (some (m, name))) :
    run w args = (do
      let b ← body w.lib ⟨w.hf.fm, fmt, mode, d.index w.lib⟩ d f start m
      return some (diagnostic w.lib name mode fmt d, b)) := by
  simp only [run, ha, Except.ok_bind', hn, hw, ho]

theorem Written.opens {lib : BasisLib} {hf : HeaderFloat} {mode : Mode} {fmt : Format} {d : Desc}
    {r : BitVec 32 → BitVec 32} {calls : List WriteCall} {f : File} (W : Written lib hf mode fmt d r calls f) :
    ∃ start ms st, openIn lib hf mode f = .ok (fmt, d, start) ∧
      readHistory ⟨hf.fm, fmt, mode, d.index lib⟩ f (List.range (d.index lib).sectors.length) (InState.init start)
        = .ok (ms, st) ∧
      List.Forall₂ (fun k m => ∃ s w, (d.index lib).sectors[k]? = some s ∧ calls[k]? = some w ∧
        IsImage hf.fm r s w m) (List.range (d.index lib).sectors.length) ms ∧
      f.length mode = layoutPos ⟨hf.fm, fmt, mode, d.index lib⟩ start (d.index lib).sectors.length := by
  obtain ⟨hdr, st, hopen, hwrite, rfl⟩ := W.written
  obtain ⟨fmt', d', start, ms, st', h1, rfl, rfl, h2, h3⟩ := written_file_reads_back_partial lib hf mode fmt d W.notMatrix
    W.expressible W.wf r W.text W.binary hdr hopen calls st hwrite W.all
    (List.range (d.index lib).sectors.length) (by simp)
  refine ⟨start, ms, st', h1, h2, h3, ?_⟩
  have hl := written_length (c := ⟨hf.fm, fmt', mode, d'.index lib⟩) W.notMatrix W.wf hwrite
  rw [W.all] at hl
  obtain ⟨_, chunks, _, h4, h5, _⟩ := writeHistory_ok hwrite
  have hout : st.out = hdr.append ⟨(chunks.map File.bytes).flatten, (chunks.map File.lines).flatten⟩ := by
    cases hst : st.out with
    | mk b l => rw [hst] at h4 h5; simp only at h4 h5; simp [File.append, h4, h5]
  have hin := header_round_trip lib hf mode fmt' d' hdr
    ⟨(chunks.map File.bytes).flatten, (chunks.map File.lines).flatten⟩ W.notMatrix hopen W.expressible
  rw [← hout, h1] at hin
  simp only [Except.ok.injEq, Prod.mk.injEq, true_and] at hin
  rw [hin]
  exact hl

theorem nonempty_of_opens {lib : BasisLib} {hf : HeaderFloat} {f : File} {x : Format × Desc × Nat}
    (h : openIn lib hf .binary f = .ok x) : f.bytes ≠ [] := by
  intro h0
  have hv : readVersionB [] 0 = .error .streamFail := rfl
  simp [openIn, h0, hv] at h

theorem args_two {m name : String} {rest : List String} (h1 : m ≠ "--help") (h2 : m.toList.take 2 = "--".toList) :
    processArguments (m :: name :: rest) = .ok (some (String.ofList (m.toList.drop 2), name)) := by
  simp only [processArguments, if_neg h1, if_pos h2]

theorem option_eq {m t o : String} (h2 : m.toList.take 2 = "--".toList) (ht : String.ofList (m.toList.drop 2) = t)
    (ho : "--".toList ++ t.toList = o.toList) : m = o := by
  apply String.toList_inj.mp
  rw [← ho, ← ht, ← h2, String.toList_ofList, List.take_append_drop]

theorem args_header (name : String) (rest : List String) :
    processArguments ("--header" :: name :: rest) = .ok (some ("header", name)) := args_two (by decide) (by decide)
theorem args_orbitals (name : String) (rest : List String) :
    processArguments ("--orbitals" :: name :: rest) = .ok (some ("orbitals", name)) := args_two (by decide) (by decide)
theorem args_indexing (name : String) (rest : List String) :
    processArguments ("--indexing" :: name :: rest) = .ok (some ("indexing", name)) := args_two (by decide) (by decide)
theorem args_verify (name : String) (rest : List String) :
    processArguments ("--verify" :: name :: rest) = .ok (some ("verify", name)) := args_two (by decide) (by decide)
theorem args_matrices (name : String) (rest : List String) :
    processArguments ("--matrices" :: name :: rest) = .ok (some ("matrices", name)) := args_two (by decide) (by decide)

/-! ### An example: the operators of `ConvExamples.lean` -/

namespace Ex
open Convert.Ex

/-- Rounding of the example's decimal output. -/
def rnd (m : Mode) : BitVec 32 → BitVec 32 := if m = .binary then id else fun x => if x = 0 then 0 else 1

/-- Files with the operator exist, in all formats, binary and text. -/
theorem written (m : Mode) (hm : m ≠ .matrix) (fmt : Format) :
    ∃ f, Written lib H2.Ex.hf m fmt (desc true (spaceOrdering fmt) 0 0) (rnd m)
      (calls ((desc true (spaceOrdering fmt) 0 0).index lib).sectors) f := by
  obtain ⟨hdr, hopen⟩ := opens m fmt true 0 0
  have hI := indexed true (spaceOrdering fmt) 0 0 (.inl rfl) (.inl rfl)
  have hup : ∀ s ∈ ((desc true (spaceOrdering fmt) 0 0).index lib).sectors, s.braIndex ≤ s.ketIndex := by
    rw [sectors_eq]
    cases fmt <;> decide
  obtain ⟨st, hw⟩ := valid_operator_can_be_written ⟨H2.Ex.hf.fm, fmt, m, (desc true (spaceOrdering fmt) 0 0).index lib⟩ hI.wf
    (by
      simp only
      rw [sectors_eq]
      cases fmt <;> decide)
    (fun t => by
      have := size_le true (spaceOrdering fmt) 0 0 (.inl rfl) (.inl rfl) t
      simp only
      omega)
    (calls ((desc true (spaceOrdering fmt) 0 0).index lib).sectors) hdr
    (by
      simp only
      unfold calls
      generalize ((desc true (spaceOrdering fmt) 0 0).index lib).sectors = ss
      generalize hi : 0 = n
      clear hi
      induction ss generalizing n with
      | nil => exact .nil
      | cons s ss ih =>
        rw [List.zipIdx_cons, List.map_cons]
        exact .cons ⟨rfl, rfl, .inl rfl⟩ (ih _))
    (by
      rw [calls_length]
      unfold calls
      rw [List.map_map, List.range_eq_range', ← List.zipIdx_map_snd]
      rfl)
  refine ⟨st.out, hm, expressible m hm fmt true 0 0 (.inl rfl) (.inl rfl) (fun _ => ⟨rfl, rfl, rfl⟩) (fun _ => rfl), hI.wf,
    hup, ?_, ?_, calls_length _, hdr, st, hopen, hw, rfl⟩
  · rintro rfl x
    exact H2.Ex.scan_fmt x
  · rintro rfl
    rfl

/-- A file system with one file. -/
noncomputable def world (name : String) (f : File) : World := ⟨lib, H2.Ex.hf, fun n => if n = name then some f else none⟩

end Ex

/-! ### C145 — what is shown of a file -/

/-- **C145.** Write all sectors of an operator to a file (formats 0, 15099 and 15200, binary or text).  `h2stat
--matrices` then shows what the file holds: the header with the properties of the operator, the numbers of orbitals, the
truncation, and the numbers of sectors and stored matrix elements, each by type and in total; and for every sector, in
the order of the file, its labels and its full matrix, in which the elements of a diagonal sector below the diagonal,
which are not in the file, are those above it. -/
theorem matrices_show_what_was_written (w : World) (name : String) (rest : List String) {mode : Mode} {fmt : Format}
    {d : Desc} {r : BitVec 32 → BitVec 32} {calls : List WriteCall} {f : File}
    (W : Written w.lib w.hf mode fmt d r calls f) (hn : deducedIOMode name = .ok mode) (hw : w.file? name = some f) :
    ∃ h xs, run w ("--matrices" :: name :: rest) = .ok (some (h, .matrices xs)) ∧
      Describes w.lib name mode fmt d h ∧ xs.length = (d.index w.lib).sectors.length ∧
      ∀ k s wc, (d.index w.lib).sectors[k]? = some s → calls[k]? = some wc →
        ∃ x, xs[k]? = some x ∧ Shows w.hf.fm r k s wc x := by
  obtain ⟨start, ms, st, ho, hr, hF, -⟩ := W.opens
  obtain ⟨xs, hx, hX⟩ := doMatrices_ok (by simp) hr
  refine ⟨_, xs, ?_, describes W.wf W.upper, ?_, ?_⟩
  · rw [run_opened hn hw ho (args_matrices name rest)]
    simp only [body]
    rw [if_neg (by decide), if_neg (by decide), if_neg (by decide), if_neg (by decide), if_pos trivial]
    rw [hx]
    rfl
  · rw [← hX.length_eq, List.length_zip, ← hF.length_eq]
    simp
  · intro k s wc hs hwc
    have hk : k < (d.index w.lib).sectors.length := by
      by_contra hh; rw [List.getElem?_eq_none (by omega)] at hs; simp at hs
    have hkr : (List.range (d.index w.lib).sectors.length)[k]? = some k := by simp [hk]
    obtain ⟨m, hm, s', w', hs', hw', hI⟩ := forall₂_at hF hkr
    rw [hs] at hs'
    rw [hwc] at hw'
    cases hs'
    cases hw'
    obtain ⟨x, hx', s', hs', rfl⟩ := forall₂_at hX (x := k) (a := (k, m)) (by
      rw [List.getElem?_zip_eq_some]; exact ⟨hkr, hm⟩)
    simp only at hs'
    rw [hs] at hs'
    cases hs'
    refine ⟨_, hx', ?_⟩
    obtain ⟨hI1, hI2, hI3⟩ := hI
    refine ⟨rfl, rfl, rfl, by simp [Sector.isDiagonal], ?_, ?_, ?_, ?_⟩
    · simp only; split_ifs <;> exact hI1
    · simp only; split_ifs <;> exact hI2
    · intro i j hi hj hd
      have hv : m.val i j = storedValue w.hf.fm r s wc i j := by
        rw [hI3, if_pos ⟨hi, hj, hd⟩]; rfl
      simp only
      split_ifs with hdiag
      · have hd' : s.braIndex = s.ketIndex := by simpa [Sector.isDiagonal] using hdiag
        have := hd hd'
        simp only [completeLower]
        rw [if_neg (by omega)]
        exact hv
      · exact hv
    · intro i j hi hj hd hji
      have hb : s.bra = s.ket := W.wf s (List.mem_of_getElem? hs) hd
      have hdiag : s.isDiagonal = true := by simpa [Sector.isDiagonal] using hd
      simp only [hdiag, if_true, completeLower]
      rw [if_pos hji, hI3, if_pos ⟨by omega, by rw [← hb]; exact hi, fun _ => by omega⟩]
      rfl

/-- The hypotheses are met: a file of each format, with two sectors or more, among them a diagonal one of dimension 2. -/
example (fmt : Format) : ∃ f h xs, run (Ex.world "op.bin" f) ["--matrices", "op.bin"] = .ok (some (h, .matrices xs)) ∧
    xs.length = ((Convert.Ex.desc true (spaceOrdering fmt) 0 0).index Convert.Ex.lib).sectors.length := by
  obtain ⟨f, W⟩ := Ex.written .binary (by decide) fmt
  obtain ⟨h, xs, h1, -, h2, -⟩ := matrices_show_what_was_written (Ex.world "op.bin" f) "op.bin" [] W (by decide)
    (by simp [Ex.world])
  exact ⟨f, h, xs, h1, h2⟩

/-- **C145.** The other modes: with only a file name, or with `--header`, the header is all that is shown; `--orbitals`
lists the orbitals of the operator, `--indexing` its orbitals, subspaces and sectors. -/
theorem header_shows_operator (w : World) (name : String) (rest : List String) {mode : Mode} {fmt : Format} {d : Desc}
    {r : BitVec 32 → BitVec 32} {calls : List WriteCall} {f : File}
    (W : Written w.lib w.hf mode fmt d r calls f) (hn : deducedIOMode name = .ok mode) (hw : w.file? name = some f) :
    ∃ h, Describes w.lib name mode fmt d h ∧ run w [name] = .ok (some (h, .nothing)) ∧
      run w ("--header" :: name :: rest) = .ok (some (h, .nothing)) ∧
      run w ("--orbitals" :: name :: rest) = .ok (some (h, .orbitals d.orbs.flat)) ∧
      run w ("--indexing" :: name :: rest) =
        .ok (some (h, .indexing d.orbs (w.lib.space d.orbs d.wmax d.ordering) (d.index w.lib).sectors)) := by
  obtain ⟨start, ms, st, ho, -, -, -⟩ := W.opens
  refine ⟨_, describes W.wf W.upper, ?_, ?_, ?_, ?_⟩
  · rw [run_opened hn hw ho (m := "header") (by simp only [processArguments, if_neg (name_ne_help hn)])]
    rfl
  · rw [run_opened hn hw ho (args_header name rest)]
    rfl
  · rw [run_opened hn hw ho (args_orbitals name rest)]
    simp only [body]
    rw [if_neg (by decide), if_pos trivial]
    rfl
  · rw [run_opened hn hw ho (args_indexing name rest)]
    simp only [body]
    rw [if_neg (by decide), if_neg (by decide), if_pos trivial]
    rfl

/-- The hypotheses are met, for text files. -/
example (fmt : Format) : ∃ f h, run (Ex.world "op.dat" f) ["op.dat"] = .ok (some (h, .nothing)) ∧ h.J0 = 0 := by
  obtain ⟨f, W⟩ := Ex.written .text (by decide) fmt
  obtain ⟨h, h1, h2, -⟩ := header_shows_operator (Ex.world "op.dat" f) "op.dat" [] W (by decide) (by simp [Ex.world])
  exact ⟨f, h, h2, h1.rank.1⟩

/-! ### C146 — what `--verify` detects -/

/-- **C146.** `--verify` accepts every file into which all sectors of an operator were written. -/
theorem verify_accepts_written (w : World) (name : String) (rest : List String) {mode : Mode} {fmt : Format} {d : Desc}
    {r : BitVec 32 → BitVec 32} {calls : List WriteCall} {f : File}
    (W : Written w.lib w.hf mode fmt d r calls f) (hn : deducedIOMode name = .ok mode) (hw : w.file? name = some f) :
    ∃ h, run w ("--verify" :: name :: rest) = .ok (some (h, .verified (d.index w.lib).sectors.length)) ∧
      Describes w.lib name mode fmt d h := by
  obtain ⟨start, ms, st, ho, hr, hF, -⟩ := W.opens
  refine ⟨_, ?_, describes W.wf W.upper⟩
  rw [run_opened hn hw ho (args_verify name rest)]
  simp only [body]
  rw [if_neg (by decide), if_neg (by decide), if_neg (by decide), if_pos trivial, doVerify_eq, hr]
  simp [← hF.length_eq]

theorem truncated_unreadable {lib : BasisLib} {hf : HeaderFloat} {mode : Mode} {fmt : Format} {d : Desc}
    {r : BitVec 32 → BitVec 32} {calls : List WriteCall} {f g : File} (W : Written lib hf mode fmt d r calls (f.append g))
    (hg : 0 < g.length mode) {x : Format × Desc × Nat} (ho : openIn lib hf mode f = .ok x) :
    x.1 = fmt ∧ x.2.1 = d ∧ ∃ e, readHistory ⟨hf.fm, fmt, mode, d.index lib⟩ f (List.range (d.index lib).sectors.length)
      (InState.init x.2.2) = .error e := by
  obtain ⟨start, ms, st, ho', -, -, hl⟩ := W.opens
  obtain ⟨h1, h2⟩ := openIn_local ho
  rw [h2 g] at ho'
  cases ho'
  refine ⟨rfl, rfl, ?_⟩
  cases hr : readHistory ⟨hf.fm, fmt, mode, d.index lib⟩ f (List.range (d.index lib).sectors.length) (InState.init start) with
  | error e => exact ⟨e, rfl⟩
  | ok y =>
    exfalso
    have hs := (readHistory_sound (c := ⟨hf.fm, fmt, mode, d.index lib⟩) W.wf (inv_init _ start) hr).2
    have hfit := layout_fits (c := ⟨hf.fm, fmt, mode, d.index lib⟩) W.wf h1 (d.index lib).sectors.length (by
      intro k hk
      obtain ⟨m, -, p, hp⟩ := forall₂_at hs (x := k) (a := k) (by simp [hk])
      exact ⟨_, hp⟩)
    rw [File.length_append] at hl
    simp only at hfit
    omega

/-- **C146.** `--verify` and `--matrices` refuse every file which is cut off: `f` is what is left of a completely
written file when the end `g`, of at least one byte (line, for text files), is missing. -/
theorem verify_rejects_truncated (w : World) (name : String) (rest : List String) {mode : Mode} {fmt : Format} {d : Desc}
    {r : BitVec 32 → BitVec 32} {calls : List WriteCall} {f g : File}
    (W : Written w.lib w.hf mode fmt d r calls (f.append g)) (hg : 0 < g.length mode)
    (hn : deducedIOMode name = .ok mode) (hw : w.file? name = some f) :
    (∃ e, run w ("--verify" :: name :: rest) = .error e) ∧ ∃ e, run w ("--matrices" :: name :: rest) = .error e := by
  cases ho : openIn w.lib w.hf mode f with
  | error e =>
    refine ⟨⟨e, ?_⟩, ⟨e, ?_⟩⟩
    · simp only [run, args_verify, Except.ok_bind', hn, hw, ho]; rfl
    · simp only [run, args_matrices, Except.ok_bind', hn, hw, ho]; rfl
  | ok x =>
    obtain ⟨fmt', d', start⟩ := x
    obtain ⟨h1, h2, e, he⟩ := truncated_unreadable W hg ho
    simp only at h1 h2 he
    subst h1
    subst h2
    refine ⟨⟨e, ?_⟩, ⟨e, ?_⟩⟩
    · rw [run_opened hn hw ho (args_verify name rest)]
      simp only [body]
      rw [if_neg (by decide), if_neg (by decide), if_neg (by decide), if_pos trivial, doVerify_eq, he]
      rfl
    · rw [run_opened hn hw ho (args_matrices name rest)]
      simp only [body]
      rw [if_neg (by decide), if_neg (by decide), if_neg (by decide), if_neg (by decide), if_pos trivial,
        doMatrices_error (by simp) he]
      rfl

/-- **C146 (what is missing).** The end of the file is not looked for: any data after the last sector, such as sectors
of an operator with more of them, or a second copy of the file, is accepted without notice. -/
theorem verify_accepts_trailing_data (w : World) (name : String) (rest : List String) {mode : Mode} {fmt : Format}
    {d : Desc} {r : BitVec 32 → BitVec 32} {calls : List WriteCall} {f : File} (g : File)
    (W : Written w.lib w.hf mode fmt d r calls f) (hn : deducedIOMode name = .ok mode)
    (hw : w.file? name = some (f.append g)) :
    ∃ h, run w ("--verify" :: name :: rest) = .ok (some (h, .verified (d.index w.lib).sectors.length)) := by
  obtain ⟨start, ms, st, ho, hr, hF, -⟩ := W.opens
  obtain ⟨h1, h2⟩ := openIn_local ho
  have hs := (readHistory_sound (c := ⟨w.hf.fm, fmt, mode, d.index w.lib⟩) W.wf (inv_init _ start) hr).2
  have hall : ∀ k < (d.index w.lib).sectors.length, ∃ x, readAt ⟨w.hf.fm, fmt, mode, d.index w.lib⟩ f start k = .ok x := by
    intro k hk
    obtain ⟨m, -, p, hp⟩ := forall₂_at hs (x := k) (a := k) (by simp [hk])
    exact ⟨_, hp⟩
  obtain ⟨ms', st', hr'⟩ := readHistory_complete (c := ⟨w.hf.fm, fmt, mode, d.index w.lib⟩) (f := f.append g)
    (start := start) (ks := List.range (d.index w.lib).sectors.length) W.wf (inv_init _ start) (by simp) (by
      intro i hi
      obtain ⟨⟨m, p⟩, hx⟩ := hall i hi
      exact ⟨m, p, (readAt_append W.wf h1 _ hall i hi).trans hx⟩)
  have hlen := (readHistory_sound (c := ⟨w.hf.fm, fmt, mode, d.index w.lib⟩) W.wf (inv_init _ start) hr').2.length_eq
  refine ⟨diagnostic w.lib name mode fmt d, ?_⟩
  rw [run_opened hn hw (h2 g) (args_verify name rest)]
  simp only [body]
  rw [if_neg (by decide), if_neg (by decide), if_neg (by decide), if_pos trivial, doVerify_eq, hr']
  simp [← hlen]

/-- The hypotheses are met: the example's file followed by a copy of itself. -/
example (fmt : Format) : ∃ (f : File) (h : Header) (n : Nat), f.bytes ≠ [] ∧
    run (Ex.world "op.bin" (f.append f)) ["--verify", "op.bin"] = .ok (some (h, .verified n)) := by
  obtain ⟨f, W⟩ := Ex.written .binary (by decide) fmt
  obtain ⟨h, h1⟩ := verify_accepts_trailing_data (Ex.world "op.bin" (f.append f)) "op.bin" [] f W (by decide)
    (by simp [Ex.world])
  refine ⟨f, h, _, ?_, h1⟩
  obtain ⟨start, -, -, ho, -⟩ := W.opens
  exact nonempty_of_opens ho

/-- **C146 (partial).** `--verify` accepts every completely written file and refuses all its proper prefixes.  Missing:
it does not refuse a file with data after the last sector (`verify_accepts_trailing_data`), nor can it notice changed
values in a binary file, of which only the record lengths are checked. -/
theorem verify_detects_truncation_partial (w : World) (name : String) (rest : List String) {mode : Mode} {fmt : Format}
    {d : Desc} {r : BitVec 32 → BitVec 32} {calls : List WriteCall} {f g : File}
    (W : Written w.lib w.hf mode fmt d r calls (f.append g)) (hn : deducedIOMode name = .ok mode)
    (hw : w.file? name = some f) :
    (g = .empty → ∃ h, run w ("--verify" :: name :: rest) = .ok (some (h, .verified (d.index w.lib).sectors.length))) ∧
    (0 < g.length mode → ∃ e, run w ("--verify" :: name :: rest) = .error e) := by
  constructor
  · rintro rfl
    have he : f.append .empty = f := by simp [File.append, File.empty]
    rw [he] at W
    obtain ⟨h, hr, -⟩ := verify_accepts_written w name rest W hn hw
    exact ⟨h, hr⟩
  · intro hg
    exact (verify_rejects_truncated w name rest W hg hn hw).1

/-- The hypotheses are met: the example's file without its last byte. -/
example (fmt : Format) : ∃ (f g : File) (e : Err), g.bytes.length = 1 ∧
    Written Convert.Ex.lib H2.Ex.hf .binary fmt (Convert.Ex.desc true (spaceOrdering fmt) 0 0) (Ex.rnd .binary)
      (Convert.Ex.calls ((Convert.Ex.desc true (spaceOrdering fmt) 0 0).index Convert.Ex.lib).sectors) (f.append g) ∧
    run (Ex.world "op.bin" f) ["--verify", "op.bin"] = .error e := by
  obtain ⟨f, W⟩ := Ex.written .binary (by decide) fmt
  have hne : f.bytes ≠ [] := by
    obtain ⟨start, -, -, ho, -⟩ := W.opens
    exact nonempty_of_opens ho
  have hf : f = (⟨f.bytes.dropLast, f.lines⟩ : File).append ⟨[f.bytes.getLast hne], []⟩ := by
    cases f
    simp only [File.append, List.append_nil]
    rw [List.dropLast_append_getLast]
  rw [hf] at W
  obtain ⟨e, he⟩ := (verify_detects_truncation_partial (Ex.world "op.bin" ⟨f.bytes.dropLast, f.lines⟩) "op.bin" [] W
    (by decide) (by simp [Ex.world])).2 (by simp [File.length])
  exact ⟨_, _, e, rfl, W, he⟩

/-! ### C147 — arguments -/

/-- **C147.** The program ends with success only if it is used as documented: without arguments or with `--help` first,
when it shows how to use it; with only the name of a file; or with one of the five options and the name of a file, which
it could open, and then it shows what that option asks for. -/
theorem success_only_as_documented (w : World) (args : List String) (x : Option (Header × Body))
    (h : run w args = .ok x) :
    (x = none ∧ (args = [] ∨ ∃ rest, args = "--help" :: rest)) ∨
    ∃ name hd b, x = some (hd, b) ∧ (∃ f, w.file? name = some f) ∧ hd.filename = name ∧
      ((args = [name] ∧ b = .nothing) ∨ ∃ m rest, args = m :: name :: rest ∧
        ((m = "--header" ∧ b = .nothing) ∨ (m = "--orbitals" ∧ ∃ os, b = .orbitals os) ∨
         (m = "--indexing" ∧ ∃ os ss xs, b = .indexing os ss xs) ∨ (m = "--verify" ∧ ∃ n, b = .verified n) ∨
         (m = "--matrices" ∧ ∃ xs, b = .matrices xs))) := by
  simp only [run, Except.bind_eq_ok] at h
  obtain ⟨a, ha, h⟩ := h
  cases a with
  | none =>
    simp only [Except.pure_ok, Except.ok.injEq] at h
    subst h
    refine .inl ⟨rfl, ?_⟩
    cases args with
    | nil => exact .inl rfl
    | cons a rest =>
      simp only [processArguments] at ha
      by_cases h1 : a = "--help"
      · exact .inr ⟨rest, by rw [h1]⟩
      · rw [if_neg h1] at ha
        cases rest with
        | nil => simp at ha
        | cons b rest =>
          simp only at ha
          split_ifs at ha <;> simp at ha
  | some p =>
    obtain ⟨mode, name⟩ := p
    simp only [Except.bind_eq_ok] at h
    obtain ⟨m, hm, h⟩ := h
    cases hf : w.file? name with
    | none => simp [hf] at h
    | some f =>
      simp only [hf, Except.bind_eq_ok, Except.pure_ok, Except.ok.injEq] at h
      obtain ⟨⟨fmt, d, start⟩, ho, b, hb, rfl⟩ := h
      refine .inr ⟨name, _, b, rfl, ⟨f, hf⟩, rfl, ?_⟩
      cases args with
      | nil => simp [processArguments] at ha
      | cons a rest =>
        simp only [processArguments] at ha
        by_cases h1 : a = "--help"
        · rw [if_pos h1] at ha; simp at ha
        rw [if_neg h1] at ha
        cases rest with
        | nil =>
          simp only [Except.ok.injEq, Option.some.injEq, Prod.mk.injEq] at ha
          obtain ⟨rfl, rfl⟩ := ha
          simp only [body, if_true, Except.ok.injEq] at hb
          exact .inl ⟨rfl, hb.symm⟩
        | cons c rest =>
          simp only at ha
          split_ifs at ha with h2
          simp only [Except.ok.injEq, Option.some.injEq, Prod.mk.injEq] at ha
          obtain ⟨rfl, rfl⟩ := ha
          refine .inr ⟨a, rest, rfl, ?_⟩
          simp only [body] at hb
          split_ifs at hb with k1 k2 k3 k4 k5
          · exact .inl ⟨option_eq h2 k1 (by decide), (Except.ok.inj hb).symm⟩
          · exact .inr (.inl ⟨option_eq h2 k2 (by decide), _, (Except.ok.inj hb).symm⟩)
          · exact .inr (.inr (.inl ⟨option_eq h2 k3 (by decide), _, _, _, (Except.ok.inj hb).symm⟩))
          · simp only [Except.bind_eq_ok, Except.pure_ok, Except.ok.injEq] at hb
            obtain ⟨n, -, rfl⟩ := hb
            exact .inr (.inr (.inr (.inl ⟨option_eq h2 k4 (by decide), n, rfl⟩)))
          · simp only [Except.bind_eq_ok, Except.pure_ok, Except.ok.injEq] at hb
            obtain ⟨n, -, rfl⟩ := hb
            exact .inr (.inr (.inr (.inr ⟨option_eq h2 k5 (by decide), n, rfl⟩)))

/-- **C147.** The usage message, with success, whenever there are no arguments or the first is `--help`. -/
theorem usage_without_arguments (w : World) (rest : List String) :
    run w [] = .ok none ∧ run w ("--help" :: rest) = .ok none := ⟨rfl, rfl⟩

/-- **C147.** With two arguments or more the first must be one of the five options: an option the program does not know
ends it with failure, but only after the file has been opened, so a file that cannot be opened is what is reported. -/
theorem unknown_option_refused (w : World) (m name : String) (rest : List String) (h0 : m ≠ "--help")
    (hm : m ∉ ["--header", "--orbitals", "--indexing", "--verify", "--matrices"]) :
    (∃ e, run w (m :: name :: rest) = .error e) ∧
    ((m.toList.take 2 ≠ "--".toList ∨ ∃ mode f x, deducedIOMode name = .ok mode ∧ w.file? name = some f ∧
      openIn w.lib w.hf mode f = .ok x) → run w (m :: name :: rest) = .error .exitFailure) := by
  constructor
  · cases h : run w (m :: name :: rest) with
    | error e => exact ⟨e, rfl⟩
    | ok x =>
      exfalso
      rcases success_only_as_documented w _ x h with ⟨-, h' | ⟨r, h'⟩⟩ | ⟨n, hd, b, -, -, -, ⟨h', -⟩ | ⟨m', r, h', hm'⟩⟩
      · simp at h'
      · simp only [List.cons.injEq] at h'
        exact h0 h'.1
      · simp at h'
      · simp only [List.cons.injEq] at h'
        obtain ⟨rfl, -, -⟩ := h'
        apply hm
        rcases hm' with ⟨rfl, -⟩ | ⟨rfl, -⟩ | ⟨rfl, -⟩ | ⟨rfl, -⟩ | ⟨rfl, -⟩ <;> simp
  · intro h
    by_cases h2 : m.toList.take 2 = "--".toList
    · rcases h with h | ⟨mode, f, ⟨fmt, d, start⟩, hn, hw, ho⟩
      · exact absurd h2 h
      · rw [run_opened hn hw ho (args_two h0 h2)]
        simp only [List.mem_cons, not_or] at hm
        obtain ⟨n1, n2, n3, n4, n5, -⟩ := hm
        simp only [body]
        rw [if_neg fun h => n1 (option_eq h2 h (by decide)), if_neg fun h => n2 (option_eq h2 h (by decide)), if_neg fun h => n3 (option_eq h2 h (by decide)),
          if_neg fun h => n4 (option_eq h2 h (by decide)), if_neg fun h => n5 (option_eq h2 h (by decide))]
        rfl
    · simp only [run, processArguments, if_neg h0, if_neg h2]
      rfl

/-- The hypotheses are met. -/
example : ∃ f, run (Ex.world "op.bin" f) ["--elements", "op.bin"] = .error .exitFailure ∧
    run (Ex.world "op.bin" f) ["header", "op.bin"] = .error .exitFailure := by
  obtain ⟨f, W⟩ := Ex.written .binary (by decide) .v15200
  obtain ⟨start, -, -, ho, -⟩ := W.opens
  exact ⟨f, (unknown_option_refused _ "--elements" "op.bin" [] (by decide) (by decide)).2
    (.inr ⟨.binary, f, _, by decide, by simp [Ex.world], ho⟩),
    (unknown_option_refused _ "header" "op.bin" [] (by decide) (by decide)).2 (.inl (by decide))⟩

/-- **C147.** Arguments after the file name are not looked at. -/
theorem further_arguments_ignored (w : World) (m name : String) (rest : List String) :
    run w (m :: name :: rest) = run w [m, name] := rfl

end Verif.H2.Stat
