import Verif.H2.HeaderParse
import Verif.H2.Props

/-!
# Properties of the H2 headers (C07, C08)
-/

namespace Verif.H2
open Verif

/-! ### C07 — header round trip -/

/-- **C07.** Opening an H2 file for output and later opening it for input (whatever was appended in
between) gives back the format, the orbitals, the cutoffs, the operator's quantum numbers, and hence
the same subspaces and sectors; and the reader stands exactly behind the header. -/
theorem header_round_trip (lib : BasisLib) (hf : HeaderFloat) (mode : Mode) (fmt : Format) (d : Desc)
    (hdr body : File) (hm : mode ≠ .matrix) (hopen : openOut lib hf mode fmt d = .ok hdr)
    (hx : Expressible lib hf mode fmt d) :
    openIn lib hf mode (hdr.append body) = .ok (fmt, d, hdr.length mode) := by
  cases mode with
  | matrix => exact absurd rfl hm
  | binary =>
    have hv := parses_versionB fmt
    cases fmt with
    | v0 =>
      obtain ⟨hJ, hg, hT, ⟨N1, N2, h1, h2, ho, hwm⟩, hs⟩ := hx
      simp only [openOut, writeHeaderV0, assertE] at hopen
      by_cases hord : d.ordering = .pn
      · simp only [hord, decide_true, if_true, Except.ok_bind', Except.pure_ok, Except.ok.injEq] at hopen
        subst hopen
        have hp := parses_v0B (r := ⟨2, N1, N2, sizeByType (d.index lib).sectors .pp,
          sizeByType (d.index lib).sectors .pn⟩) ⟨by rfl, h1, h2, hs _, hs _⟩
        have hv' := hv [] (wRecord 20 (wInt 2 ++ wInt N1 ++ wInt N2 ++
          wInt (sizeByType (d.index lib).sectors .pp) ++ wInt (sizeByType (d.index lib).sectors .pn)) ++ body.bytes)
        have hp' := hp (wRecord 4 (wInt Format.v0.code)) body.bytes
        obtain ⟨orbs, wmax, ord, J0, g0, Tz0⟩ := d
        simp only at hJ hg hT ho hwm hord
        subst hJ hg hT ho hwm hord
        simp only [List.nil_append, List.length_nil, Nat.zero_add] at hv'
        simp only [openIn, File.append, writeVersion, truncToInt_intCast, narrow_eq (hs _), List.append_assoc] at hv' hp' ⊢
        rw [hv']
        simp only [Except.ok_bind', formatOfCode_code]
        rw [hp']
        simp [finishV0, WeightMax.osc, assertE, File.length]
      · simp [hord] at hopen
    | v15099 =>
      obtain ⟨hJ, hg, hT, hp, hn, ho, hw, hj, hs⟩ := hx
      simp only [openOut, Except.bind_eq_ok, Except.pure_ok, Except.ok.injEq] at hopen
      obtain ⟨f, hf1, rfl⟩ := hopen
      have hord : d.ordering = .pn := by
        unfold writeHeaderV15099 at hf1
        by_contra h; simp [h, assertE] at hf1
      have hp := parses_v15099B hf1 hJ hg (by rw [hT]; decide) hp hn ho hw hj
      simp only [toInt_ofInt32 (hs _)] at hp
      have hv' := hv [] (f.bytes ++ body.bytes)
      have hp' := hp (wRecord 4 (wInt Format.v15099.code)) body.bytes
      simp only [List.nil_append, List.length_nil, Nat.zero_add] at hv'
      simp only [openIn, File.append, writeVersion, List.append_assoc] at hv' hp' ⊢
      rw [hv']
      simp only [Except.ok_bind', formatOfCode_code]
      rw [hp']
      obtain ⟨orbs, wmax, ord, J0, g0, Tz0⟩ := d
      simp only at hT hord
      subst hT hord
      simp [finishV15099, rawV15099, ofFlat_flat, assertE, File.length]
    | v15200 =>
      obtain ⟨hJ, hg, hT, hp, hn, ho, hw1, hw, hs⟩ := hx
      simp only [openOut, Except.bind_eq_ok, Except.pure_ok, Except.ok.injEq] at hopen
      obtain ⟨f, hf1, rfl⟩ := hopen
      obtain ⟨hord, e1, e2⟩ := writeHeaderV15200_ok hf1 (by simp)
      have hp := parses_v15200B hf1 hJ hg hT hp hn ho hw hs
      have hv' := hv [] (f.bytes ++ body.bytes)
      have hp' := hp (wRecord 4 (wInt Format.v15200.code)) body.bytes
      simp only [List.nil_append, List.length_nil, Nat.zero_add] at hv'
      simp only [openIn, File.append, writeVersion, List.append_assoc] at hv' hp' ⊢
      rw [hv']
      simp only [Except.ok_bind', formatOfCode_code]
      rw [hp']
      have a1 := hw1 d.wmax.p (by simp)
      have a2 := hw1 d.wmax.n (by simp)
      obtain ⟨orbs, ⟨wp, wn, wpp, wnn, wpn⟩, ord, J0, g0, Tz0⟩ := d
      simp only at hord e1 e2 a1 a2
      subst hord
      simp [finishV15200, rawV15200, ofFlat_flat, assertE, File.length, e1, e2, a1, a2]
  | text =>
    have hv := parses_versionT fmt
    cases fmt with
    | v0 =>
      obtain ⟨hJ, hg, hT, ⟨N1, N2, h1, h2, ho, hwm⟩, hs⟩ := hx
      simp only [openOut, writeHeaderV0, assertE] at hopen
      by_cases hord : d.ordering = .pn
      · simp only [hord, decide_true, if_true, Except.ok_bind', Except.pure_ok, Except.ok.injEq] at hopen
        subst hopen
        have hp := parses_v0T (r := ⟨2, N1, N2, sizeByType (d.index lib).sectors .pp,
          sizeByType (d.index lib).sectors .pn⟩) ⟨by rfl, h1, h2, hs _, hs _⟩
        have hv' := hv [] ([⟨[2], []⟩, ⟨[N1], []⟩, ⟨[N2], []⟩,
          ⟨[(sizeByType (d.index lib).sectors .pp : Int), (sizeByType (d.index lib).sectors .pn : Int)], []⟩] ++ body.lines)
        have hp' := hp [⟨[Format.v0.code], []⟩] body.lines
        obtain ⟨orbs, wmax, ord, J0, g0, Tz0⟩ := d
        simp only at hJ hg hT ho hwm hord
        subst hJ hg hT ho hwm hord
        simp only [List.nil_append, List.length_nil, Nat.zero_add] at hv'
        simp only [openIn, File.append, writeVersion, truncToInt_intCast, narrow_eq (hs _), List.append_assoc] at hv' hp' ⊢
        rw [hv']
        simp only [Except.ok_bind', formatOfCode_code]
        rw [hp']
        simp [finishV0, WeightMax.osc, assertE, File.length, Nat.add_comm]
      · simp [hord] at hopen
    | v15099 =>
      obtain ⟨hJ, hg, hT, hp, hn, ho, hw, hj, hs⟩ := hx
      simp only [openOut, Except.bind_eq_ok, Except.pure_ok, Except.ok.injEq] at hopen
      obtain ⟨f, hf1, rfl⟩ := hopen
      have hord : d.ordering = .pn := by
        unfold writeHeaderV15099 at hf1
        by_contra h; simp [h, assertE] at hf1
      have hp := parses_v15099T hf1 hJ hg (by rw [hT]; decide) ho hw hj hs
      have hv' := hv [] (f.lines ++ body.lines)
      have hp' := hp [⟨[Format.v15099.code], []⟩] body.lines
      simp only [List.nil_append, List.length_nil, Nat.zero_add] at hv'
      simp only [openIn, File.append, writeVersion, List.append_assoc] at hv' hp' ⊢
      rw [hv']
      simp only [Except.ok_bind', formatOfCode_code]
      rw [hp']
      obtain ⟨orbs, wmax, ord, J0, g0, Tz0⟩ := d
      simp only at hT hord
      subst hT hord
      simp [finishV15099, rawV15099, ofFlat_flat, assertE, File.length, Nat.add_comm]
    | v15200 =>
      obtain ⟨hJ, hg, hT, hp, hn, ho, hw1, hw, hs⟩ := hx
      simp only [openOut, Except.bind_eq_ok, Except.pure_ok, Except.ok.injEq] at hopen
      obtain ⟨f, hf1, rfl⟩ := hopen
      obtain ⟨hord, e1, e2⟩ := writeHeaderV15200_ok hf1 (by simp)
      have hp := parses_v15200T hf1 hJ hg hT ho hw hs
      have hv' := hv [] (f.lines ++ body.lines)
      have hp' := hp [⟨[Format.v15200.code], []⟩] body.lines
      simp only [List.nil_append, List.length_nil, Nat.zero_add] at hv'
      simp only [openIn, File.append, writeVersion, List.append_assoc] at hv' hp' ⊢
      rw [hv']
      simp only [Except.ok_bind', formatOfCode_code]
      rw [hp']
      have a1 := hw1 d.wmax.p (by simp)
      have a2 := hw1 d.wmax.n (by simp)
      obtain ⟨orbs, ⟨wp, wn, wpp, wnn, wpn⟩, ord, J0, g0, Tz0⟩ := d
      simp only at hord e1 e2 a1 a2
      subst hord
      simp [finishV15200, rawV15200, ofFlat_flat, assertE, File.length, e1, e2, a1, a2, Nat.add_comm]

/-! ### Example: a small operator with orbitals and cutoffs -/

namespace Ex

/-- A stand-in for the `basis` library. -/
noncomputable def lib : BasisLib where
  space _ _ _ := [pp0, pp1, nn0, pn0]
  sectors _ J0 _ _ := if J0 = 0 then sectors .v0 else sectors .v15099
  oscOrbitals _ := ⟨[⟨0, 0, 1, 0⟩, ⟨0, 1, 1, 1⟩], [⟨0, 0, 1, 0⟩, ⟨0, 1, 3, 1⟩]⟩
  weightMax _ := 1
  orbLines _ o := o.flat.map fun x =>
    ⟨[twiceTz x.1, x.2.n, x.2.l, x.2.twiceJ], [fm.fmt (fm.toF32 x.2.weight)]⟩
  parseOrbs _ ls := ls.mapM fun l =>
    match l.ints, l.decs with
    | [t, n, l, j], [w] => do
      let p ← speciesOfTz t
      match fm.scan w with
      | some b => .ok (p, ⟨n, l, j, fm.ofF32 b⟩)
      | none => .error .parseError
    | _, _ => .error .parseError

noncomputable def hf : HeaderFloat := ⟨fm, fun x => fm.fmt (fm.toF32 x)⟩

noncomputable def desc : Format → Desc
  | .v0 => ⟨lib.oscOrbitals 1, ⟨(1 : Int), (1 : Int), (1 : Int), (1 : Int), (1 : Int)⟩, .pn, 0, 0, 0⟩
  | .v15099 => ⟨lib.oscOrbitals 1, ⟨1, 1, 1, 0, 1⟩, .pn, 2, 0, 0⟩
  | .v15200 => ⟨lib.oscOrbitals 1, ⟨1, 1, 1, 0, 1⟩, .tz, 2, 0, 1⟩

theorem index_eq (f : Format) (m : Mode) : (desc f).index lib = (cfg f m).ix := by
  cases f <;> simp [desc, Desc.index, lib, cfg, sectors]

theorem exact (m : Mode) (hm : m ≠ .matrix) (x : ℝ) (hx : x = 0 ∨ x = 1) : WeightExact hf m x := by
  cases m with
  | matrix => exact absurd rfl hm
  | binary => rcases hx with rfl | rfl <;> simp [WeightExact, hf, fm]
  | text =>
    rcases hx with rfl | rfl
    · exact ⟨0, by simp [hf, fm], by simp [hf, fm]⟩
    · exact ⟨1, by simp [hf, fm], by simp [hf, fm]⟩

theorem orbs_exact (m : Mode) (hm : m ≠ .matrix) (f : Format) : OrbsExact lib hf m f (desc f).orbs := by
  cases m with
  | matrix => exact absurd rfl hm
  | binary => cases f <;> simp [OrbsExact, desc, lib, OrbOK, hf, fm] <;> decide
  | text =>
    refine ⟨by cases f <;> rfl, ?_⟩
    cases f <;> simp [desc, lib, OrbSpace.flat, speciesOfTz, twiceTz, fm]

theorem size_le (f : Format) (t : Species) : sizeByType ((desc f).index lib).sectors t ≤ 10 := by
  rw [index_eq f .text]
  cases f <;> cases t <;> decide

theorem jmax_le (f : Format) (t : Species) : jmaxByType ((desc f).subspaces lib) t ≤ 1 := by
  have : (desc f).subspaces lib = [pp0, pp1, nn0, pn0] := by cases f <;> rfl
  rw [this]
  cases t <;> decide

theorem expressible (m : Mode) (hm : m ≠ .matrix) (f : Format) : Expressible lib hf m f (desc f) := by
  have hs := size_le f
  have hj := jmax_le f
  have ho := orbs_exact m hm f
  have he := exact m hm
  have hlen : ∀ n : Nat, n = 2 → fitsInt n = true := by rintro n rfl; rfl
  cases f with
  | v0 =>
    refine ⟨rfl, rfl, rfl, ⟨1, 1, by decide, by decide, rfl, rfl⟩, fun t => ?_⟩
    have := hs t
    simp only [fitsInt, decide_eq_true_eq]; omega
  | v15099 =>
    refine ⟨rfl, rfl, rfl, hlen _ rfl, hlen _ rfl, ho, ?_, fun t => ?_, fun t => ?_⟩
    · intro x hx; apply he; simp [desc] at hx; tauto
    · have := hj t
      simp only [fitsInt, decide_eq_true_eq]; omega
    · have := hs t
      simp only [fitsInt, decide_eq_true_eq]; omega
  | v15200 =>
    refine ⟨rfl, rfl, rfl, hlen _ rfl, hlen _ rfl, ho, ?_, ?_, fun t => ?_⟩
    · intro x hx; exact exact .binary (by simp) x (by simp [desc] at hx; tauto)
    · intro x hx; apply he; simp [desc] at hx; tauto
    · have := hs t
      simp only [fitsLong, decide_eq_true_eq]; omega

theorem opens (m : Mode) (f : Format) : ∃ hdr, openOut lib hf m f (desc f) = .ok hdr := by
  cases f <;> cases m <;>
    simp [openOut, writeHeaderV0, writeHeaderV15099, writeHeaderV15200, desc, lib, assertE]

end Ex

/-- The hypotheses of `header_round_trip` are met in all formats, binary and text. -/
example (m : Mode) (hm : m ≠ .matrix) (f : Format) : ∃ hdr, openOut Ex.lib Ex.hf m f (Ex.desc f) = .ok hdr ∧
    Expressible Ex.lib Ex.hf m f (Ex.desc f) := by
  obtain ⟨hdr, h⟩ := Ex.opens m f
  exact ⟨hdr, h, Ex.expressible m hm f⟩

/-- **C07.** Different descriptions never share a header. -/
theorem header_injective (lib : BasisLib) (hf : HeaderFloat) (mode : Mode) (f₁ f₂ : Format) (d₁ d₂ : Desc)
    (hdr : File) (hm : mode ≠ .matrix)
    (h₁ : openOut lib hf mode f₁ d₁ = .ok hdr) (h₂ : openOut lib hf mode f₂ d₂ = .ok hdr)
    (x₁ : Expressible lib hf mode f₁ d₁) (x₂ : Expressible lib hf mode f₂ d₂) : f₁ = f₂ ∧ d₁ = d₂ := by
  have a := header_round_trip lib hf mode f₁ d₁ hdr .empty hm h₁ x₁
  have b := header_round_trip lib hf mode f₂ d₂ hdr .empty hm h₂ x₂
  rw [a] at b
  simpa using b

/-! ### C08 — files the writer produces can be read -/

/-- **C08.** Open a file for output, write all sectors, close it, and open it for input: the reader
accepts it, rebuilds the same description, and any history of reads returns the images of what was
written.  The description must be one the format can express (see below for what happens otherwise).
`r` is the rounding of decimal output. -/
theorem written_file_reads_back_partial (lib : BasisLib) (hf : HeaderFloat) (mode : Mode) (fmt : Format) (d : Desc)
    (hm : mode ≠ .matrix) (hx : Expressible lib hf mode fmt d)
    (hwf : ∀ s ∈ (d.index lib).sectors, s.WF)
    (r : BitVec 32 → BitVec 32) (hr : mode = .text → ∀ x, hf.fm.scan (hf.fm.fmt x) = some (r x))
    (hb : mode = .binary → r = id)
    (hdr : File) (hopen : openOut lib hf mode fmt d = .ok hdr)
    (calls : List WriteCall) (st : OutState)
    (hwrite : writeHistory ⟨hf.fm, fmt, mode, d.index lib⟩ calls ⟨0, hdr⟩ = .ok st)
    (hall : calls.length = (d.index lib).sectors.length)
    (ks : List Nat) (hks : ∀ k ∈ ks, k < (d.index lib).sectors.length) :
    ∃ fmt' d' start ms st', openIn lib hf mode st.out = .ok (fmt', d', start) ∧ fmt' = fmt ∧ d' = d ∧
      readHistory ⟨hf.fm, fmt', mode, d'.index lib⟩ st.out ks (InState.init start) = .ok (ms, st') ∧
      List.Forall₂ (fun k m => ∃ s w, (d.index lib).sectors[k]? = some s ∧ calls[k]? = some w ∧
        IsImage hf.fm r s w m) ks ms := by
  obtain ⟨_, chunks, _, h1, h2, _⟩ := writeHistory_ok hwrite
  have hout : st.out = hdr.append ⟨(chunks.map File.bytes).flatten, (chunks.map File.lines).flatten⟩ := by
    cases hst : st.out with
    | mk b l => rw [hst] at h1 h2; simp only at h1 h2; simp [File.append, h1, h2]
  have hin := header_round_trip lib hf mode fmt d hdr
    ⟨(chunks.map File.bytes).flatten, (chunks.map File.lines).flatten⟩ hm hopen hx
  rw [← hout] at hin
  cases mode with
  | matrix => exact absurd rfl hm
  | binary =>
    obtain ⟨ms, st', a, b⟩ := binary_round_trip ⟨hf.fm, fmt, .binary, d.index lib⟩ rfl hwf hdr calls st
      hwrite hall ks hks
    rw [hb rfl]
    exact ⟨fmt, d, _, ms, st', hin, rfl, rfl, a, b⟩
  | text =>
    obtain ⟨ms, st', a, b⟩ := text_round_trip ⟨hf.fm, fmt, .text, d.index lib⟩ rfl hwf r (hr rfl) hdr calls st
      hwrite hall ks hks
    exact ⟨fmt, d, _, ms, st', hin, rfl, rfl, a, b⟩

/-- The hypotheses are met by the example operator, in all formats, binary and text. -/
example (m : Mode) (f : Format) (hdr : File) (h : openOut Ex.lib Ex.hf m f (Ex.desc f) = .ok hdr) :
    (∀ s ∈ ((Ex.desc f).index Ex.lib).sectors, s.WF) ∧
    (Ex.calls f).length = ((Ex.desc f).index Ex.lib).sectors.length ∧
    ∃ st, writeHistory ⟨Ex.hf.fm, f, m, (Ex.desc f).index Ex.lib⟩ (Ex.calls f) ⟨0, hdr⟩ = .ok st := by
  rw [Ex.index_eq f m]
  refine ⟨Ex.wf f m, Ex.calls_length f m, ?_⟩
  exact valid_operator_can_be_written (Ex.cfg f m) (Ex.wf f m) (Ex.upper f m) (Ex.small f m)
    (Ex.calls f) hdr (Ex.calls_fit f m) (Ex.calls_index f)

/-- **C08, violation.** Format 15099 with `Tz0 ≠ 0`: the writer never complains, the reader always
ends the program, whatever the body of the file. -/
theorem charge_changing_15099_unreadable (lib : BasisLib) (hf : HeaderFloat) (d : Desc)
    (hx : Expressible lib hf .binary .v15099 { d with Tz0 := 0 })
    (hord : d.ordering = .pn) (hT : d.Tz0 ≠ 0) (hTf : fitsInt d.Tz0 = true) :
    ∃ hdr, openOut lib hf .binary .v15099 d = .ok hdr ∧
      ∀ body, openIn lib hf .binary (hdr.append body) = .error .exitFailure := by
  obtain ⟨hJ, hg, -, hp, hn, ho, hw, hj, hs⟩ := hx
  have hex : ∃ f, writeHeaderV15099 lib hf .binary d = .ok f := by
    unfold writeHeaderV15099; simp [hord, assertE]
  obtain ⟨f, hf1⟩ := hex
  refine ⟨(writeVersion .binary .v15099).append f, by simp [openOut, hf1], fun body => ?_⟩
  have hp := parses_v15099B hf1 hJ hg hTf hp hn ho hw hj
  have hv' := parses_versionB .v15099 [] (f.bytes ++ body.bytes)
  have hp' := hp (wRecord 4 (wInt Format.v15099.code)) body.bytes
  simp only [List.nil_append, List.length_nil, Nat.zero_add] at hv'
  simp only [openIn, File.append, writeVersion, List.append_assoc] at hv' hp' ⊢
  rw [hv']
  simp only [Except.ok_bind', formatOfCode_code]
  rw [hp']
  simp [finishV15099, rawV15099, hT]

example : Expressible Ex.lib Ex.hf .binary .v15099 { { Ex.desc .v15099 with Tz0 := 1 } with Tz0 := 0 } :=
  Ex.expressible .binary (by simp) .v15099

/-- **C08, violation.** In `.mat` mode the writer accepts every description its format check admits and
writes nothing at all; the reader then uses a format code that was never assigned. -/
theorem matrix_mode_unreadable (lib : BasisLib) (hf : HeaderFloat) (fmt : Format) (d : Desc)
    (hord : d.ordering = if fmt = .v15200 then .tz else .pn) :
    openOut lib hf .matrix fmt d = .ok .empty ∧
      ∀ f, openIn lib hf .matrix f = .error .undefinedBehaviour := by
  refine ⟨?_, fun f => rfl⟩
  cases fmt <;> simp at hord <;>
    simp [openOut, writeHeaderV0, writeHeaderV15099, writeHeaderV15200, hord, assertE, writeVersion,
      File.append, File.empty]

example (f : Format) : (Ex.desc f).ordering = if f = .v15200 then .tz else .pn := by
  cases f <;> simp [Ex.desc]

/-- **C08, violation.** Format 15099 with `2^31` or more matrix elements of some type: the writer puts a
truncated count in the binary header, and the reader's consistency check aborts. -/
theorem huge_15099_binary_unreadable (lib : BasisLib) (hf : HeaderFloat) (d : Desc) (t : Species)
    (hord : d.ordering = .pn) (hJ : fitsInt d.J0 = true) (hg : fitsInt d.g0 = true) (hT : d.Tz0 = 0)
    (hp : fitsInt d.orbs.p.length = true) (hn : fitsInt d.orbs.n.length = true)
    (ho : OrbsExact lib hf .binary .v15099 d.orbs)
    (hw : ∀ x ∈ [d.wmax.p, d.wmax.n, d.wmax.pp, d.wmax.nn, d.wmax.pn], WeightExact hf .binary x)
    (hj : ∀ t, fitsInt (2 * (jmaxByType (d.subspaces lib) t : Int)) = true)
    (hs : 2 ^ 31 ≤ sizeByType (d.index lib).sectors t) :
    ∃ hdr, openOut lib hf .binary .v15099 d = .ok hdr ∧
      ∀ body, openIn lib hf .binary (hdr.append body) = .error .assertFail := by
  have hex : ∃ f, writeHeaderV15099 lib hf .binary d = .ok f := by
    unfold writeHeaderV15099; simp [hord, assertE]
  obtain ⟨f, hf1⟩ := hex
  refine ⟨(writeVersion .binary .v15099).append f, by simp [openOut, hf1], fun body => ?_⟩
  have hp := parses_v15099B hf1 hJ hg (by rw [hT]; decide) hp hn ho hw hj
  have hv' := parses_versionB .v15099 [] (f.bytes ++ body.bytes)
  have hp' := hp (wRecord 4 (wInt Format.v15099.code)) body.bytes
  simp only [List.nil_append, List.length_nil, Nat.zero_add] at hv'
  simp only [openIn, File.append, writeVersion, List.append_assoc] at hv' hp' ⊢
  rw [hv']
  simp only [Except.ok_bind', formatOfCode_code]
  rw [hp']
  have hne : ¬ (BitVec.ofInt 32 (sizeByType (d.index lib).sectors t : Int)).toInt =
      (sizeByType (d.index lib).sectors t : Int) := by
    intro h
    have := fitsInt_of_toInt h
    simp only [fitsInt, decide_eq_true_eq] at this
    omega
  obtain ⟨orbs, wmax, ord, J0, g0, Tz0⟩ := d
  simp only at hT hord
  subst hT hord
  simp only [finishV15099, rawV15099, ofFlat_flat, Except.ok_bind', ne_eq, not_true_eq_false, if_false]
  have key : ∀ (b₁ b₂ b₃ b₄ b₅ b₆ : Bool) (x : Except Err (Format × Desc × Nat)), (b₁ && b₂ && b₃) = false →
      ((assertE b₁ >>= fun _ => assertE b₂ >>= fun _ => assertE b₃ >>= fun _ => assertE b₄ >>= fun _ =>
        assertE b₅ >>= fun _ => assertE b₆ >>= fun _ => x) = .error .assertFail) := by
    intro b₁ b₂ b₃ b₄ b₅ b₆ x h
    cases b₁ <;> cases b₂ <;> cases b₃ <;> first | rfl | simp at h
  simp only [bind_assoc, pure_bind]
  apply key
  cases t <;> simp only [decide_eq_false hne, Bool.false_and, Bool.and_false]

/-- Text version: the count is printed in full, but does not fit the reader's `int`. -/
theorem huge_15099_text_unreadable (lib : BasisLib) (hf : HeaderFloat) (d : Desc) (t : Species)
    (hord : d.ordering = .pn) (hJ : fitsInt d.J0 = true) (hg : fitsInt d.g0 = true) (hT : fitsInt d.Tz0 = true)
    (ho : OrbsExact lib hf .text .v15099 d.orbs)
    (hw : ∀ x ∈ [d.wmax.p, d.wmax.n, d.wmax.pp, d.wmax.nn, d.wmax.pn], WeightExact hf .text x)
    (hj : ∀ t, fitsInt (2 * (jmaxByType (d.subspaces lib) t : Int)) = true)
    (hs : 2 ^ 31 ≤ sizeByType (d.index lib).sectors t) :
    ∃ hdr, openOut lib hf .text .v15099 d = .ok hdr ∧
      ∀ body, openIn lib hf .text (hdr.append body) = .error .parseError := by
  have hex : ∃ f, writeHeaderV15099 lib hf .text d = .ok f := by
    unfold writeHeaderV15099; simp [hord, assertE]
  obtain ⟨f, hf1⟩ := hex
  refine ⟨(writeVersion .text .v15099).append f, by simp [openOut, hf1], fun body => ?_⟩
  have hp := fails_v15099T hf1 hJ hg hT ho hw hj t (by simp only [fitsInt, decide_eq_false_iff_not]; omega)
  have hv' := parses_versionT .v15099 [] (f.lines ++ body.lines)
  have hp' := hp [⟨[Format.v15099.code], []⟩] body.lines
  simp only [List.nil_append, List.length_nil, Nat.zero_add] at hv'
  simp only [openIn, File.append, writeVersion, List.append_assoc] at hv' hp' ⊢
  rw [hv']
  simp only [Except.ok_bind', formatOfCode_code]
  rw [hp']
  rfl

namespace Ex

/-- One subspace with `n` states. -/
def big (n : Nat) : Subspace := ⟨.pp, 0, 0, List.replicate n ⟨0, 0⟩⟩
noncomputable def bigLib (n : Nat) : BasisLib :=
  { lib with space := fun _ _ _ => [big n], sectors := fun _ _ _ _ => [⟨0, 0, big n, big n⟩] }

theorem big_size (n : Nat) : sizeByType ((desc .v15099).index (bigLib n)).sectors .pp = n * (n + 1) / 2 := by
  have : ((desc .v15099).index (bigLib n)).sectors = [⟨0, 0, big n, big n⟩] := rfl
  rw [this]
  simp [sizeByType, getSectorCount, Sector.isDiagonal, Subspace.size, big]

theorem big_jmax (n : Nat) (t : Species) : jmaxByType ((desc .v15099).subspaces (bigLib n)) t = 0 := by
  have : (desc .v15099).subspaces (bigLib n) = [big n] := rfl
  rw [this]
  cases t <;> rfl

end Ex

/-- With 65536 two-body states in one subspace the hypotheses of the last two theorems hold. -/
example : (∀ t, fitsInt (2 * (jmaxByType ((Ex.desc .v15099).subspaces (Ex.bigLib 65536)) t : Int)) = true) ∧
    2 ^ 31 ≤ sizeByType ((Ex.desc .v15099).index (Ex.bigLib 65536)).sectors .pp ∧
    OrbsExact (Ex.bigLib 65536) Ex.hf .binary .v15099 (Ex.desc .v15099).orbs ∧
    OrbsExact (Ex.bigLib 65536) Ex.hf .text .v15099 (Ex.desc .v15099).orbs := by
  refine ⟨fun t => ?_, ?_, Ex.orbs_exact .binary (by simp) .v15099, Ex.orbs_exact .text (by simp) .v15099⟩
  · rw [Ex.big_jmax]; rfl
  · rw [Ex.big_size]; omega

/-- **C08, violation.** Format 0 does not record the neutron cutoffs: two operators on different spaces
produce identical headers as soon as the proton cutoffs and the pp and pn counts agree. -/
theorem format0_header_ambiguous (lib : BasisLib) (hf : HeaderFloat) (mode : Mode) (d₁ d₂ : Desc)
    (ho₁ : d₁.ordering = .pn) (ho₂ : d₂.ordering = .pn)
    (hp : d₁.wmax.p = d₂.wmax.p) (hpp : d₁.wmax.pp = d₂.wmax.pp)
    (hs : ∀ t, t ≠ .nn → sizeByType (d₁.index lib).sectors t = sizeByType (d₂.index lib).sectors t) :
    ∃ hdr, openOut lib hf mode .v0 d₁ = .ok hdr ∧ openOut lib hf mode .v0 d₂ = .ok hdr := by
  have h1 := hs .pp (by simp)
  have h2 := hs .pn (by simp)
  cases mode <;> simp [openOut, writeHeaderV0, ho₁, ho₂, hp, hpp, h1, h2, assertE]

example : ∃ d₁ d₂ : Desc, d₁ ≠ d₂ ∧ d₁.ordering = .pn ∧ d₂.ordering = .pn ∧ d₁.wmax.p = d₂.wmax.p ∧
    d₁.wmax.pp = d₂.wmax.pp ∧
    ∀ t, t ≠ .nn → sizeByType (d₁.index Ex.lib).sectors t = sizeByType (d₂.index Ex.lib).sectors t := by
  refine ⟨⟨⟨[], []⟩, ⟨1, 1, 1, 1, 1⟩, .pn, 0, 0, 0⟩, ⟨⟨[], []⟩, ⟨1, 0, 1, 0, 1⟩, .pn, 0, 0, 0⟩, ?_, rfl, rfl, rfl, rfl,
    fun t _ => rfl⟩
  intro h
  simp at h

/-- **C07**, the `2*Jmax` fields of formats 0 and 15099: for each species the value is an upper bound
of the `J` of the subspaces of that species, and is attained (or is 0 if there are none). -/
theorem jmax_is_maximum (ss : List Subspace) (t : Species) :
    (∀ s ∈ ss, s.species = t → s.J ≤ jmaxByType ss t) ∧
    ((∃ s ∈ ss, s.species = t ∧ s.J = jmaxByType ss t) ∨ jmaxByType ss t = 0) := by
  have key : ∀ (ss : List Subspace) (f : Species → Nat),
      let r := ss.foldl (fun jm s t => if t = s.species then max (jm t) s.J else jm t) f
      f t ≤ r t ∧ (∀ s ∈ ss, s.species = t → s.J ≤ r t) ∧ ((∃ s ∈ ss, s.species = t ∧ s.J = r t) ∨ r t = f t) := by
    intro ss
    induction ss with
    | nil => intro f; simp
    | cons s ss ih =>
      intro f
      obtain ⟨h1, h2, h3⟩ := ih (fun t => if t = s.species then max (f t) s.J else f t)
      simp only [List.foldl_cons]
      by_cases hst : t = s.species
      · simp only [hst, if_true] at h1 h2 h3 ⊢
        refine ⟨le_trans (le_max_left _ _) h1, ?_, ?_⟩
        · intro x hx hxs
          rcases List.mem_cons.1 hx with rfl | hx
          · exact le_trans (le_max_right _ _) h1
          · exact h2 x hx hxs
        · rcases h3 with ⟨x, hx, hx2⟩ | h3
          · exact .inl ⟨x, List.mem_cons_of_mem _ hx, hx2⟩
          · rcases le_total (f s.species) s.J with hle | hle
            · exact .inl ⟨s, List.mem_cons_self, rfl, by rw [h3, max_eq_right hle]⟩
            · exact .inr (by rw [h3, max_eq_left hle])
      · simp only [hst, if_false] at h1 h3 ⊢
        refine ⟨h1, ?_, ?_⟩
        · intro x hx hxs
          rcases List.mem_cons.1 hx with rfl | hx
          · exact absurd hxs.symm hst
          · exact h2 x hx hxs
        · rcases h3 with ⟨x, hx, hx2⟩ | h3
          · exact .inl ⟨x, List.mem_cons_of_mem _ hx, hx2⟩
          · exact .inr h3
  obtain ⟨-, h2, h3⟩ := key ss (fun _ => 0)
  exact ⟨h2, h3⟩

end Verif.H2
