import Verif.Moshinsky.ProgramLemmas

/-!
# Properties of `moshinsky`
-/

namespace Verif.Moshinsky.Program
open Verif Verif.Moshinsky Verif.Mixer.Control
open Verif.H2 (Format Mode Desc Cfg OutState InState Sector Subspace OrbSpace Orb Species BasisLib WriteCall File writeHistory
  readHistory formatOfCode deducedIOMode openOut openIn storedFactor Stored Expressible)
open Verif.H2 (Except.ok_bind' Except.error_bind' Except.pure_ok Except.bind_eq_ok)
open Verif.Relative (OpLabels RelFile openFile mapM_ok)
open Verif.Relative.Gen (Input)

/-! ## The control file -/

/-- The words for couplings. -/
def couplingName : Coupling → String
  | .rel => "rel" | .relcm => "relcm" | .lsjt => "lsjt" | .jjjt => "jjjt" | .jjjpn => "jjjpn"

/-- What the three lines of the control file ask for; further words are ignored, and a format and an isospin projection are read only for
an H2 file. -/
structure Asks (nm : Numbers) (f : Input) (p : Params) : Prop where
  truncation : ∃ c rest, f.line 0 = (if p.oneBody then "ob" else "tb") :: c :: rest ∧ nm.int? c = some p.cutoff
  source : ∃ rest, f.line 1 = p.input :: couplingName p.source :: rest
  target : ∃ rest, f.line 2 = p.output :: couplingName p.target :: rest ∧
    (p.target = .jjjpn → ∃ a b rest', rest = a :: b :: rest' ∧ nm.int? a = some p.format ∧ nm.int? b = some p.Tz0) ∧
    (p.target ≠ .jjjpn → p.format = -1 ∧ p.Tz0 = 0)

theorem coupling_iff (w : String) (c : Coupling) : coupling w = .ok c ↔ w = couplingName c := by
  constructor
  · intro h
    unfold coupling at h
    repeat' split at h
    all_goals first | (cases h; subst_vars; rfl) | cases h
  · rintro rfl
    cases c <;> rfl

theorem rank_iff (w : String) (b : Bool) : rank w = .ok b ↔ w = if b then "ob" else "tb" := by
  constructor
  · intro h
    unfold rank at h
    repeat' split at h
    all_goals first | (cases h; subst_vars; rfl) | cases h
  · rintro rfl
    cases b <;> rfl

theorem word_iff {ws ws' : List String} {w : String} : word ws = .ok (w, ws') ↔ ws = w :: ws' := by
  cases ws with
  | nil => simp [word]
  | cons a l => simp [word]

theorem int_iff {nm : Numbers} {ws ws' : List String} {i : Int} :
    int nm ws = .ok (i, ws') ↔ ∃ w, ws = w :: ws' ∧ nm.int? w = some i := by
  cases ws with
  | nil => simp [int]
  | cons a l =>
    cases h : nm.int? a with
    | none => simp [int, h]
    | some j => simp [int, h]; tauto

theorem readParams_iff (nm : Numbers) (f : Input) (p : Params) : readParams nm f = .ok p ↔ Asks nm f p := by
  constructor
  · intro h
    unfold readParams at h
    simp only [Except.bind_eq_ok] at h
    obtain ⟨⟨r, w0⟩, h0, ⟨c, w1⟩, h1, b, hb, ⟨a, w2⟩, h2, ⟨s, w3⟩, h3, cs, hcs, ⟨o, w4⟩, h4, ⟨t, w5⟩, h5, ct, hct, h⟩ := h
    rw [word_iff] at h0 h2 h3 h4 h5
    rw [int_iff] at h1
    rw [coupling_iff] at hcs hct
    rw [rank_iff] at hb
    simp only at h0 h1 h2 h3 h4 h5 hcs hct hb
    subst h3 h5 hcs hct hb
    obtain ⟨cw, rfl, hc⟩ := h1
    by_cases ht : ct = .jjjpn
    · rw [if_pos ht] at h
      simp only [Except.bind_eq_ok] at h
      obtain ⟨⟨fm, w6⟩, h6, ⟨z, w7⟩, h7, h⟩ := h
      rw [int_iff] at h6 h7
      obtain ⟨fw, e6, hf⟩ := h6
      obtain ⟨zw, e7, hz⟩ := h7
      cases h
      simp only at e6 e7
      exact ⟨⟨cw, _, h0, hc⟩, ⟨_, h2⟩, ⟨_, h4, fun _ => ⟨fw, zw, _, by rw [e6, e7], hf, hz⟩, fun hn => absurd ht hn⟩⟩
    · rw [if_neg ht] at h
      cases h
      exact ⟨⟨cw, _, h0, hc⟩, ⟨_, h2⟩, ⟨_, h4, fun hn => absurd hn ht, fun _ => ⟨rfl, rfl⟩⟩⟩
  · rintro ⟨⟨c, r0, h0, hc⟩, ⟨r1, h1⟩, ⟨r2, h2, hj, hn⟩⟩
    obtain ⟨ob, cut, inp, src, out, tgt, fmt, z⟩ := p
    simp only at *
    have hr := (rank_iff _ ob).mpr rfl
    have hs := (coupling_iff _ src).mpr rfl
    have ht := (coupling_iff _ tgt).mpr rfl
    unfold readParams
    rw [h0, h1, h2]
    simp only [word, int, hc, hr, hs, ht, Except.ok_bind']
    by_cases hp : tgt = .jjjpn
    · obtain ⟨a, b, r', rfl, ha, hb⟩ := hj hp
      simp only [hp, if_true, ha, hb, Except.ok_bind', Except.pure_ok]
    · obtain ⟨rfl, rfl⟩ := hn hp
      simp only [hp, if_false, Except.pure_ok]

/-- The truncation asked for. -/
def truncOf (p : Params) : Trunc :=
  if p.oneBody then ⟨p.cutoff.toNat, 2 * p.cutoff.toNat⟩ else ⟨p.cutoff.toNat, p.cutoff.toNat⟩

theorem cutoffs_eq (p : Params) : cutoffs p.oneBody p.cutoff.toNat = ((truncOf p).N1max, (truncOf p).N2max) := by
  unfold cutoffs truncOf
  split <;> rfl

theorem run_eq {w : World} {ctl : Input} {p : Params} (ha : Asks w.nm ctl p) (hlt : p.source.code < p.target.code)
    (hc : 0 ≤ p.cutoff) : run w ctl = fromSource w p ((truncOf p).N1max, (truncOf p).N2max) := by
  unfold run
  rw [(readParams_iff _ _ _).mpr ha]
  simp only [Except.ok_bind']
  rw [if_neg (by intro e; rw [e] at hlt; omega), if_neg (by omega), if_neg (by omega), cutoffs_eq]

/-- The kind of file that is written. -/
def Output.kind : Output → Coupling
  | .relcm .. => .relcm
  | .lsjt .. => .lsjt
  | .jjjt .. => .jjjt
  | .h2 .. => .jjjpn

/-- The name of the file that is written. -/
def Output.name : Output → String
  | .relcm n .. => n
  | .lsjt n .. => n
  | .jjjt n .. => n
  | .h2 n .. => n

theorem fromRC_kind {w : World} {p : Params} {t : ℕ × ℕ} {o : OpLabels} {rc : List LSSub} {m : ℕ → Blocks} {out : Output}
    (ht : p.target ≠ .rel) (h : fromRC w p t o rc m = .ok out) : out.kind = p.target ∧ out.name = p.output := by
  unfold fromRC at h
  split at h
  · rename_i e
    cases h
    exact ⟨e.symm, rfl⟩
  · obtain ⟨ml, _, h⟩ := Except.bind_eq_ok.mp h
    split at h
    · rename_i e
      cases h
      exact ⟨e.symm, rfl⟩
    · obtain ⟨mj, _, h⟩ := Except.bind_eq_ok.mp h
      obtain ⟨mt, _, h⟩ := Except.bind_eq_ok.mp h
      split at h
      · rename_i e
        cases h
        exact ⟨e.symm, rfl⟩
      · have hp : p.target = .jjjpn := by
          cases e : p.target <;> simp_all
        unfold branch at h
        simp only [Except.bind_eq_ok] at h
        obtain ⟨_, _, _, _, _, _, _, _, h⟩ := h
        cases h
        exact ⟨hp.symm, rfl⟩

/-- C128: whatever the files hold, a run that succeeds was asked to go from relative or relative-cm coupling to a later one, and wrote the
file asked for, of the coupling asked for. -/
theorem moshinsky_success {w : World} {ctl : Input} {out : Output} (h : run w ctl = .ok out) :
    ∃ p, Asks w.nm ctl p ∧ (p.source = .rel ∨ p.source = .relcm) ∧ p.source.code < p.target.code ∧ 0 ≤ p.cutoff ∧
      out.kind = p.target ∧ out.name = p.output := by
  unfold run at h
  obtain ⟨p, hp, h⟩ := Except.bind_eq_ok.mp h
  split at h
  · cases h
  split at h
  · cases h
  split at h
  · cases h
  rename_i h1 h2 h3
  have hlt : p.source.code < p.target.code := by
    rcases Nat.lt_or_ge p.source.code p.target.code with hc | hc
    · exact hc
    · exact absurd (by cases e : p.source <;> cases e' : p.target <;> simp_all [Coupling.code]) h1
  have ht : p.target ≠ .rel := by
    intro e
    rw [e] at hlt
    simp [Coupling.code] at hlt
  refine ⟨p, (readParams_iff _ _ _).mp hp, ?_⟩
  unfold fromSource at h
  split at h
  · rename_i e
    obtain ⟨f, _, h⟩ := Except.bind_eq_ok.mp h
    split at h
    · cases h
    · obtain ⟨m, _, h⟩ := Except.bind_eq_ok.mp h
      exact ⟨.inl e, hlt, by omega, fromRC_kind ht h⟩
  · rename_i e
    obtain ⟨f, _, h⟩ := Except.bind_eq_ok.mp h
    split at h
    · cases h
    · exact ⟨.inr e, hlt, by omega, fromRC_kind ht h⟩
  · cases h
  · cases h
  · cases h

/-- C128: every other request is refused, whether or not the files exist. -/
theorem moshinsky_refusal {w : World} {ctl : Input} {p : Params} (ha : Asks w.nm ctl p) (hc : 0 ≤ p.cutoff)
    (h : ¬ ((p.source = .rel ∨ p.source = .relcm) ∧ p.source.code < p.target.code)) : run w ctl = .error .exitFailure := by
  unfold run
  rw [(readParams_iff _ _ _).mpr ha]
  simp only [Except.ok_bind']
  split
  · rfl
  split
  · rfl
  rw [if_neg (by omega)]
  rename_i h1 h2
  unfold fromSource
  split
  · rename_i e
    refine absurd ⟨.inl e, ?_⟩ h
    rw [e] at h1 ⊢
    cases e' : p.target <;> simp_all [Coupling.code]
  · rename_i e
    refine absurd ⟨.inr e, ?_⟩ h
    rw [e] at h1 h2 ⊢
    cases e' : p.target <;> simp_all [Coupling.code]
  · rfl
  · rfl
  · rfl

/-! ## Results -/

section
variable {w : World} {ctl : Input} {p : Params} {f : RelFile} {R : ℕ → RelRME}

/-- What the H2 file is opened with: oscillator orbitals, the truncation asked for, the order of subspaces of the format, and the
character of the operator. -/
noncomputable def targetDesc (w : World) (p : Params) (t : Trunc) (o : OpLabels) (fmt : Format) : Desc where
  orbs := w.lib.oscOrbitals t.N1max
  wmax := ⟨t.N1max, t.N1max, t.N2max, t.N2max, t.N2max⟩
  ordering := if fmt = .v15200 then .tz else .pn
  J0 := o.J0
  g0 := o.g0
  Tz0 := p.Tz0

theorem desc_eq (w : World) (p : Params) (t : Trunc) (o : OpLabels) (fmt : Format) :
    desc w p (t.N1max, t.N2max) o fmt = targetDesc w p t o fmt := by
  unfold desc targetDesc H2.WeightMax.osc
  cases fmt <;> simp [H2.spaceOrdering]

/-- What becomes of an H2 file: it is opened, and the matrices of all sectors are written. -/
noncomputable def h2Result (w : World) (p : Params) (t : Trunc) (o : OpLabels) (R : RME) : Except Err Output := do
  let fmt ← formatOfCode p.format
  let mode ← deducedIOMode p.output
  let d := targetDesc w p t o fmt
  let hdr ← openOut w.lib w.hf mode fmt d
  let st ← writeHistory ⟨w.hf.fm, fmt, mode, d.index w.lib⟩ (pnCalls R o d.orbs (d.index w.lib).sectors) ⟨0, hdr⟩
  pure (.h2 p.output st.out)

/-- The elements of the operator of a relative file between states of relative and centre-of-mass motion. -/
noncomputable def relElements (w : World) (f : RelFile) (R : ℕ → RelRME) (T0 : ℕ) : RCOp :=
  relCMSpec w.env.am f.Jmax f.labels.J0 (R T0)

theorem rel_sym (hg : Given w f R) : ∀ T0, f.labels.T0min ≤ T0 → T0 ≤ f.labels.T0max → RCSym w.env.swap T0 (relElements w f R T0) :=
  fun T0 h1 h2 q q' r s => relCMSpec_swap (hg.law T0) (hg.holds T0 h1 h2).sym f.Jmax q q' r s

theorem rc_run (hg : Given w f R) {Nmax : ℕ} (hrc : RCSpace Nmax (w.rcs Nmax)) (hN : Nmax ≤ f.Nmax) :
    ∃ m, components f.labels (rcBlocks w.env f (w.rcs Nmax)) = .ok m ∧ RCHolds w Nmax f.labels (relElements w f R) m :=
  components_ok fun T0 h1 h2 => rc_stage (hg.holds T0 h1 h2) ⟨h1, h2⟩ hN hrc

theorem fromSource_rel (hs : p.source = .rel) (hf : w.rel? p.input = some f) (h2 : f.labels.T0max ≤ 2) (t : ℕ × ℕ) :
    fromSource w p t = (components f.labels (rcBlocks w.env f (w.rcs t.2)) >>= fun m => fromRC w p t f.labels (w.rcs t.2) m) := by
  unfold fromSource openFile
  rw [hs]
  simp only [hf, Except.ok_bind']
  rw [if_neg (by omega)]

theorem fromSource_relcm {g : RCFile} (hs : p.source = .relcm) (hf : w.rc? p.input = some g) (h2 : g.labels.T0max ≤ 2) (t : ℕ × ℕ) :
    fromSource w p t = fromRC w p t g.labels (w.rcs g.Nmax) g.blocks := by
  unfold fromSource openFile
  rw [hs]
  simp only [hf, Except.ok_bind']
  rw [if_neg (by omega)]

theorem fromRC_h2 {t : Trunc} {Nmax : ℕ} {o : OpLabels} {A : ℕ → RCOp} {m : ℕ → Blocks} (hsp : Spaces w t Nmax) (h84 : t.N2max ≤ 84)
    (hm : RCHolds w Nmax o A m) (h2 : o.T0max ≤ 2)
    (hA : ∀ T0, o.T0min ≤ T0 → T0 ≤ o.T0max → RCSym w.env.swap T0 (A T0)) (ht : p.target = .jjjpn)
    (hpn : ∀ fmt, formatOfCode p.format = .ok fmt → PnBasis t w.lib (targetDesc w p t o fmt)) :
    fromRC w p (t.N1max, t.N2max) o (w.rcs Nmax) m = h2Result w p t o (twoBody w.env t A) := by
  obtain ⟨ml, e1, h1⟩ := chain_ls hsp h84 hm
  obtain ⟨mj, mt, e2, e3, h3⟩ := chain_jt hsp hA h1
  unfold fromRC
  rw [if_neg (by simp [ht]), e1, Except.ok_bind', if_neg (by simp [ht]), e2, Except.ok_bind', e3, Except.ok_bind', if_neg (by simp [ht]),
    branch_eq hsp.jt h2 hA h3 (fun fmt h => by rw [desc_eq]; exact hpn fmt h)]
  simp only [desc_eq]
  rfl

theorem h2Result_reads_back {t : Trunc} {o : OpLabels} {B : RME}
    {fmt : Format} {mode : Mode} (hfmt : formatOfCode p.format = .ok fmt) (hmode : deducedIOMode p.output = .ok mode)
    (hmat : mode ≠ .matrix) {d : Desc} (hd : d = targetDesc w p t o fmt)
    (hx : Expressible w.lib w.hf mode fmt d) (hwf : ∀ s ∈ (d.index w.lib).sectors, s.WF)
    (r : BitVec 32 → BitVec 32) (hr : mode = .text → ∀ x, w.hf.fm.scan (w.hf.fm.fmt x) = some (r x)) (hb : mode = .binary → r = id)
    {out : Output} (h : h2Result w p t o B = .ok out) :
    ∃ file, out = .h2 p.output file ∧ ∀ k s, (d.index w.lib).sectors[k]? = some s → ∃ start m st,
      openIn w.lib w.hf mode file = .ok (fmt, d, start) ∧
      readHistory ⟨w.hf.fm, fmt, mode, d.index w.lib⟩ file [k] (InState.init start) = .ok ([m], st) ∧
      m.rows = s.bra.size ∧ m.cols = s.ket.size ∧
      ∀ i j, m.val i j = if Stored s i j then w.hf.fm.ofF32 (r (w.hf.fm.toF32 (storedFactor .asToNAS s i j
        * (pnMatrix B o d.orbs s).val i j))) else 0 := by
  unfold h2Result at h
  simp only [hfmt, hmode, Except.ok_bind', ← hd, Except.bind_eq_ok] at h
  obtain ⟨hdr, hopen, st, hst, h⟩ := h
  cases h
  refine ⟨st.out, rfl, ?_⟩
  intro k s hk
  obtain ⟨fmt', d', start, ms, st', g1, rfl, rfl, g2, g3⟩ := H2.written_file_reads_back_partial w.lib w.hf mode fmt d hmat hx hwf r hr hb
    hdr hopen _ st hst (by simp [pnCalls]) [k] (by simpa using (List.getElem?_eq_some_iff.mp hk).1)
  cases g3 with
  | cons hkm hnil =>
    cases hnil
    rename_i m
    obtain ⟨s', wc, e1, e2, i1, i2, i3⟩ := hkm
    rw [hk] at e1
    cases e1
    refine ⟨start, m, st', g1, g2, i1, i2, ?_⟩
    intro i j
    rw [i3 i j]
    simp only [pnCalls, List.getElem?_map, List.getElem?_zipIdx, hk, Option.map_some, Option.some.injEq] at e2
    rw [← e2]

/-- C129: a run from a relative file to an H2 file writes, whatever the truncation and the operator, the elements of the relative operator
transformed to the proton-neutron scheme: for each sector, the Wigner-Eckart sum over isospin of the `jj`-coupled elements, these the sum
over `L` and `S` of the LS-coupled ones, these the sum over relative and centre-of-mass motion of brackets and relative elements.  The run
fails only if the output file cannot be opened or written. -/
theorem moshinsky_h2 (ha : Asks w.nm ctl p) (hc : 0 ≤ p.cutoff) (hs : p.source = .rel) (ht : p.target = .jjjpn)
    (hf : w.rel? p.input = some f) (hg : Given w f R) (hsp : Spaces w (truncOf p) (truncOf p).N2max)
    (h84 : (truncOf p).N2max ≤ 84) (hN : (truncOf p).N2max ≤ f.Nmax)
    (hpn : ∀ fmt, formatOfCode p.format = .ok fmt →
      PnBasis (truncOf p) w.lib (targetDesc w p (truncOf p) f.labels fmt)) :
    run w ctl = h2Result w p (truncOf p) f.labels (twoBody w.env (truncOf p) (relElements w f R)) := by
  obtain ⟨m, e, hm⟩ := rc_run hg hsp.rc hN
  rw [run_eq ha (by rw [hs, ht]; decide) hc, fromSource_rel hs hf hg.three, e, Except.ok_bind']
  exact fromRC_h2 hsp h84 hm hg.three (rel_sym hg) ht hpn

/-- C129: the file, opened again, holds in every sector the transformed elements in the normalisation of the file, rounded to single
precision by `toF32` and by the medium. -/
theorem moshinsky_h2_reads_back (ha : Asks w.nm ctl p) (hc : 0 ≤ p.cutoff) (hs : p.source = .rel) (ht : p.target = .jjjpn)
    (hf : w.rel? p.input = some f) (hg : Given w f R) (hsp : Spaces w (truncOf p) (truncOf p).N2max)
    (h84 : (truncOf p).N2max ≤ 84) (hN : (truncOf p).N2max ≤ f.Nmax)
    (hpn : ∀ fmt, formatOfCode p.format = .ok fmt →
      PnBasis (truncOf p) w.lib (targetDesc w p (truncOf p) f.labels fmt))
    {fmt : Format} {mode : Mode} (hfmt : formatOfCode p.format = .ok fmt) (hmode : deducedIOMode p.output = .ok mode)
    (hmat : mode ≠ .matrix) {d : Desc} (hd : d = targetDesc w p (truncOf p) f.labels fmt)
    (hx : Expressible w.lib w.hf mode fmt d) (hwf : ∀ s ∈ (d.index w.lib).sectors, s.WF)
    (r : BitVec 32 → BitVec 32) (hr : mode = .text → ∀ x, w.hf.fm.scan (w.hf.fm.fmt x) = some (r x)) (hb : mode = .binary → r = id)
    {out : Output} (h : run w ctl = .ok out) :
    ∃ file, out = .h2 p.output file ∧ ∀ k s, (d.index w.lib).sectors[k]? = some s → ∃ start m st,
      openIn w.lib w.hf mode file = .ok (fmt, d, start) ∧
      readHistory ⟨w.hf.fm, fmt, mode, d.index w.lib⟩ file [k] (InState.init start) = .ok ([m], st) ∧
      m.rows = s.bra.size ∧ m.cols = s.ket.size ∧
      ∀ i j, m.val i j = if Stored s i j then w.hf.fm.ofF32 (r (w.hf.fm.toF32 (storedFactor .asToNAS s i j
        * (pnMatrix (twoBody w.env (truncOf p) (relElements w f R)) f.labels d.orbs s).val i j))) else 0 := by
  rw [moshinsky_h2 ha hc hs ht hf hg hsp h84 hN hpn] at h
  exact h2Result_reads_back hfmt hmode hmat hd hx hwf r hr hb h

/-- C130: a run from a relative file to relative-cm coupling hands over, in each isospin component, the elements of the relative operator
coupled to a centre-of-mass motion that it does not change. -/
theorem moshinsky_relcm (ha : Asks w.nm ctl p) (hc : 0 ≤ p.cutoff) (hs : p.source = .rel) (ht : p.target = .relcm)
    (hf : w.rel? p.input = some f) (hg : Given w f R) (hrc : RCSpace (truncOf p).N2max (w.rcs (truncOf p).N2max))
    (hN : (truncOf p).N2max ≤ f.Nmax) :
    ∃ m, run w ctl = .ok (.relcm p.output f.labels (truncOf p).N2max m) ∧
      ∀ T0, f.labels.T0min ≤ T0 → T0 ≤ f.labels.T0max → Holds f.labels T0 (w.rcs (truncOf p).N2max) LSSub.qn LSSub.states (m T0)
        fun b x k y => relCMSpec w.env.am f.Jmax f.labels.J0 (R T0) (rcState b x) (rcState k y) := by
  obtain ⟨m, e, hm⟩ := rc_run hg hrc hN
  refine ⟨m, ?_, hm⟩
  rw [run_eq ha (by rw [hs, ht]; decide) hc, fromSource_rel hs hf hg.three, e, Except.ok_bind', fromRC, if_pos ht]

/-- C130: the same for LS coupling. -/
theorem moshinsky_lsjt (ha : Asks w.nm ctl p) (hc : 0 ≤ p.cutoff) (hs : p.source = .rel) (ht : p.target = .lsjt)
    (hf : w.rel? p.input = some f) (hg : Given w f R) (hsp : Spaces w (truncOf p) (truncOf p).N2max)
    (h84 : (truncOf p).N2max ≤ 84) (hN : (truncOf p).N2max ≤ f.Nmax) :
    ∃ m, run w ctl = .ok (.lsjt p.output f.labels m) ∧
      ∀ T0, f.labels.T0min ≤ T0 → T0 ≤ f.labels.T0max → Holds f.labels T0 (w.lss ((truncOf p).N1max, (truncOf p).N2max)) LSSub.qn
        LSSub.states (m T0) fun b x k y => lsSpec w.env (relElements w f R T0) b.lsjt x k.lsjt y := by
  obtain ⟨m, e, hm⟩ := rc_run hg hsp.rc hN
  obtain ⟨ml, e1, h1⟩ := chain_ls hsp h84 hm
  refine ⟨ml, ?_, h1⟩
  rw [run_eq ha (by rw [hs, ht]; decide) hc, fromSource_rel hs hf hg.three, e, Except.ok_bind', fromRC, if_neg (by simp [ht]), e1,
    Except.ok_bind', if_pos ht]
  rfl

/-- C130: the same for `jj` coupling with isospin. -/
theorem moshinsky_jjjt (ha : Asks w.nm ctl p) (hc : 0 ≤ p.cutoff) (hs : p.source = .rel) (ht : p.target = .jjjt)
    (hf : w.rel? p.input = some f) (hg : Given w f R) (hsp : Spaces w (truncOf p) (truncOf p).N2max)
    (h84 : (truncOf p).N2max ≤ 84) (hN : (truncOf p).N2max ≤ f.Nmax) :
    ∃ m, run w ctl = .ok (.jjjt p.output f.labels m) ∧
      ∀ T0, f.labels.T0min ≤ T0 → T0 ≤ f.labels.T0max → Holds f.labels T0 (w.jts ((truncOf p).N1max, (truncOf p).N2max)) JTSub.qn
        JTSub.states (m T0) fun b x k y => jjSpec w.env (relElements w f R T0) b.qn (jjOf x.1 x.2) k.qn (jjOf y.1 y.2) := by
  obtain ⟨m, e, hm⟩ := rc_run hg hsp.rc hN
  obtain ⟨ml, e1, h1⟩ := chain_ls hsp h84 hm
  obtain ⟨mj, mt, e2, e3, h3⟩ := chain_jt hsp (rel_sym hg) h1
  refine ⟨mt, ?_, h3⟩
  rw [run_eq ha (by rw [hs, ht]; decide) hc, fromSource_rel hs hf hg.three, e, Except.ok_bind', fromRC, if_neg (by simp [ht]), e1,
    Except.ok_bind', if_neg (by simp [ht]), e2, Except.ok_bind', e3, Except.ok_bind', if_pos ht]
  rfl

/-- C131: two runs, by way of a relative-cm file of the same or a larger truncation that is read as it was written, give the H2 file that
one run gives. -/
theorem moshinsky_in_two_steps {ctl₁ ctl₂ : Input} {p₁ p₂ : Params}
    (ha : Asks w.nm ctl p) (hs : p.source = .rel) (ht : p.target = .jjjpn)
    (ha₁ : Asks w.nm ctl₁ p₁) (hs₁ : p₁.source = .rel) (ht₁ : p₁.target = .relcm) (hi₁ : p₁.input = p.input)
    (ha₂ : Asks w.nm ctl₂ p₂) (hp₂ : p₂ = { p with source := .relcm, input := p₁.output })
    (hc : 0 ≤ p.cutoff) (hc₁ : 0 ≤ p₁.cutoff) (hle : (truncOf p).N2max ≤ (truncOf p₁).N2max)
    (hf : w.rel? p.input = some f) (hg : Given w f R) (hsp : Spaces w (truncOf p) (truncOf p).N2max)
    (hsp₁ : Spaces w (truncOf p) (truncOf p₁).N2max)
    (h84 : (truncOf p).N2max ≤ 84) (hN : (truncOf p₁).N2max ≤ f.Nmax)
    (hpn : ∀ fmt, formatOfCode p.format = .ok fmt →
      PnBasis (truncOf p) w.lib (targetDesc w p (truncOf p) f.labels fmt))
    (hread : ∀ o N m, run w ctl₁ = .ok (.relcm p₁.output o N m) → w.rc? p₁.output = some ⟨o, N, m⟩) :
    run w ctl₂ = run w ctl := by
  rw [moshinsky_h2 ha hc hs ht hf hg hsp h84 (le_trans hle hN) hpn]
  obtain ⟨m, e, hm⟩ := moshinsky_relcm ha₁ hc₁ hs₁ ht₁ (by rw [hi₁]; exact hf) hg hsp₁.rc hN
  have hrc := hread _ _ _ e
  have htr : truncOf p₂ = truncOf p := by rw [hp₂]; rfl
  rw [run_eq ha₂ (by rw [hp₂]; simp only [ht]; decide) (by rw [hp₂]; exact hc),
    fromSource_relcm (g := ⟨f.labels, _, m⟩) (by rw [hp₂]) (by rw [hp₂]; exact hrc) hg.three, htr]
  have := fromRC_h2 (p := p₂) hsp₁ h84 hm hg.three (rel_sym hg) (by rw [hp₂]; exact ht)
    (by rw [hp₂]; exact hpn)
  simp only at this ⊢
  rw [this, hp₂]
  rfl

end

end Verif.Moshinsky.Program
