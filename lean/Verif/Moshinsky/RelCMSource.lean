import Verif.Moshinsky.ProgramExamples

/-!
# `moshinsky` from a relative-cm file

The source need not be an operator on the relative motion: any operator on relative and centre-of-mass motion is transformed.
-/

namespace Verif.Moshinsky.Program
open Verif Verif.Moshinsky Verif.Mixer.Control
open Verif.H2 (Format Mode Desc InState Cfg openIn readHistory formatOfCode deducedIOMode storedFactor Stored Expressible)
open Verif.H2 (Except.ok_bind' Except.error_bind' Except.pure_ok Except.bind_eq_ok)
open Verif.Relative (OpLabels RelFile)
open Verif.Relative.Gen (Input)

/-- What `ReadAndScatterRelativeCM` hands over has, in each of its isospin components, the elements `A`, and these follow by exchange of
bra and ket. -/
structure GivenRC (w : World) (g : RCFile) (A : ℕ → RCOp) : Prop where
  holds : RCHolds w g.Nmax g.labels A g.blocks
  sym : ∀ T0, g.labels.T0min ≤ T0 → T0 ≤ g.labels.T0max → RCSym w.env.swap T0 (A T0)
  three : g.labels.T0max ≤ 2

section
variable {w : World} {ctl : Input} {p : Params} {g : RCFile} {A : ℕ → RCOp}

/-- C144: a run from a relative-cm file to an H2 file writes, for any operator `A` on relative and centre-of-mass motion, also one that
changes the centre-of-mass motion, the Wigner-Eckart sum over isospin of the `jj`-coupled elements, these the sum over `L` and `S` of the
LS-coupled ones, these the sum over relative and centre-of-mass motion of brackets and elements of `A`. -/
theorem moshinsky_relcm_to_h2 (ha : Asks w.nm ctl p) (hc : 0 ≤ p.cutoff) (hs : p.source = .relcm) (ht : p.target = .jjjpn)
    (hf : w.rc? p.input = some g) (hg : GivenRC w g A) (hsp : Spaces w (truncOf p) g.Nmax)
    (h84 : (truncOf p).N2max ≤ 84)
    (hpn : ∀ fmt, formatOfCode p.format = .ok fmt →
      PnBasis (truncOf p) w.lib (targetDesc w p (truncOf p) g.labels fmt)) :
    run w ctl = h2Result w p (truncOf p) g.labels (twoBody w.env (truncOf p) A) := by
  rw [run_eq ha (by rw [hs, ht]; decide) hc, fromSource_relcm hs hf hg.three]
  exact fromRC_h2 hsp h84 hg.holds hg.three hg.sym ht hpn

/-- C144: the file, opened again, holds these elements in the normalisation of the file. -/
theorem moshinsky_relcm_reads_back (ha : Asks w.nm ctl p) (hc : 0 ≤ p.cutoff) (hs : p.source = .relcm) (ht : p.target = .jjjpn)
    (hf : w.rc? p.input = some g) (hg : GivenRC w g A) (hsp : Spaces w (truncOf p) g.Nmax)
    (h84 : (truncOf p).N2max ≤ 84)
    (hpn : ∀ fmt, formatOfCode p.format = .ok fmt →
      PnBasis (truncOf p) w.lib (targetDesc w p (truncOf p) g.labels fmt))
    {fmt : Format} {mode : Mode} (hfmt : formatOfCode p.format = .ok fmt) (hmode : deducedIOMode p.output = .ok mode)
    (hmat : mode ≠ .matrix) {d : Desc} (hd : d = targetDesc w p (truncOf p) g.labels fmt)
    (hx : Expressible w.lib w.hf mode fmt d) (hwf : ∀ s ∈ (d.index w.lib).sectors, s.WF)
    (r : BitVec 32 → BitVec 32) (hr : mode = .text → ∀ x, w.hf.fm.scan (w.hf.fm.fmt x) = some (r x)) (hb : mode = .binary → r = id)
    {out : Output} (h : run w ctl = .ok out) :
    ∃ file, out = .h2 p.output file ∧ ∀ k s, (d.index w.lib).sectors[k]? = some s → ∃ start m st,
      openIn w.lib w.hf mode file = .ok (fmt, d, start) ∧
      readHistory ⟨w.hf.fm, fmt, mode, d.index w.lib⟩ file [k] (InState.init start) = .ok ([m], st) ∧
      m.rows = s.bra.size ∧ m.cols = s.ket.size ∧
      ∀ i j, m.val i j = if Stored s i j then w.hf.fm.ofF32 (r (w.hf.fm.toF32 (storedFactor .asToNAS s i j
        * (pnMatrix (twoBody w.env (truncOf p) A) g.labels d.orbs s).val i j))) else 0 := by
  rw [moshinsky_relcm_to_h2 ha hc hs ht hf hg hsp h84 hpn] at h
  exact h2Result_reads_back hfmt hmode hmat hd hx hwf r hr hb h

/-- C144: the same for LS coupling; here the elements need not follow by exchange of bra and ket. -/
theorem moshinsky_relcm_to_lsjt (ha : Asks w.nm ctl p) (hc : 0 ≤ p.cutoff) (hs : p.source = .relcm) (ht : p.target = .lsjt)
    (hf : w.rc? p.input = some g) (hg : RCHolds w g.Nmax g.labels A g.blocks) (h3 : g.labels.T0max ≤ 2)
    (hsp : Spaces w (truncOf p) g.Nmax) (h84 : (truncOf p).N2max ≤ 84) :
    ∃ m, run w ctl = .ok (.lsjt p.output g.labels m) ∧
      ∀ T0, g.labels.T0min ≤ T0 → T0 ≤ g.labels.T0max → Holds g.labels T0 (w.lss ((truncOf p).N1max, (truncOf p).N2max)) LSSub.qn
        LSSub.states (m T0) fun b x k y => lsSpec w.env (A T0) b.lsjt x k.lsjt y := by
  obtain ⟨ml, e1, h1⟩ := chain_ls hsp h84 hg
  refine ⟨ml, ?_, h1⟩
  rw [run_eq ha (by rw [hs, ht]; decide) hc, fromSource_relcm hs hf h3, fromRC, if_neg (by simp [ht]), e1,
    Except.ok_bind', if_pos ht]
  rfl

/-- C144: the same for `jj` coupling with isospin. -/
theorem moshinsky_relcm_to_jjjt (ha : Asks w.nm ctl p) (hc : 0 ≤ p.cutoff) (hs : p.source = .relcm) (ht : p.target = .jjjt)
    (hf : w.rc? p.input = some g) (hg : GivenRC w g A) (hsp : Spaces w (truncOf p) g.Nmax) (h84 : (truncOf p).N2max ≤ 84) :
    ∃ m, run w ctl = .ok (.jjjt p.output g.labels m) ∧
      ∀ T0, g.labels.T0min ≤ T0 → T0 ≤ g.labels.T0max → Holds g.labels T0 (w.jts ((truncOf p).N1max, (truncOf p).N2max)) JTSub.qn
        JTSub.states (m T0) fun b x k y => jjSpec w.env (A T0) b.qn (jjOf x.1 x.2) k.qn (jjOf y.1 y.2) := by
  obtain ⟨ml, e1, h1⟩ := chain_ls hsp h84 hg.holds
  obtain ⟨mj, mt, e2, e3, h3⟩ := chain_jt hsp hg.sym h1
  refine ⟨mt, ?_, h3⟩
  rw [run_eq ha (by rw [hs, ht]; decide) hc, fromSource_relcm hs hf hg.three, fromRC, if_neg (by simp [ht]), e1,
    Except.ok_bind', if_neg (by simp [ht]), e2, Except.ok_bind', e3, Except.ok_bind', if_pos ht]
  rfl

end

/-! ## Operators that change the centre-of-mass motion -/

/-- A file of any operator. -/
theorem exists_file (w : World) (o : OpLabels) (Nmax : ℕ) (A : ℕ → RCOp) (h3 : o.T0max ≤ 2)
    (hA : ∀ T0, o.T0min ≤ T0 → T0 ≤ o.T0max → RCSym w.env.swap T0 (A T0)) :
    ∃ m, GivenRC w ⟨o, Nmax, m⟩ A := by
  have h : ∀ T0, ∃ m, Holds o T0 (w.rcs Nmax) LSSub.qn LSSub.states m fun b x k y => A T0 (rcState b x) (rcState k y) := by
    intro T0
    obtain ⟨m, _, hm⟩ := stage_ok o T0 (w.rcs Nmax) LSSub.qn LSSub.states (fun b x k y => A T0 (rcState b x) (rcState k y))
      (fun q => match (w.rcs Nmax)[q.1]?, (w.rcs Nmax)[q.2]? with
        | some b, some k => .ok (b.states.map fun x => k.states.map fun y => A T0 (rcState b x) (rcState k y))
        | _, _ => .ok []) (fun b k x y hx hy _ _ => by simp only [hx, hy])
    exact ⟨m, hm⟩
  choose m hm using h
  exact ⟨m, fun T0 _ _ => hm T0, hA, h3⟩

/-- The square of the centre-of-mass coordinate, say: scalar and isoscalar, it changes the quanta of the centre-of-mass motion. -/
noncomputable def cmOperator (c : Int → Int → ℝ) : ℕ → RCOp := fun T0 b k =>
  if T0 = 0 ∧ (b.Nr, b.lr, b.lc, b.L, b.S, b.J, b.T) = (k.Nr, k.lr, k.lc, k.L, k.S, k.J, k.T) then c b.Nc k.Nc else 0

theorem cmOperator_sym {c : Int → Int → ℝ} (hc : ∀ a b, c a b = c b a) (T0 : ℕ) :
    RCSym (fun _ => roseSwap) T0 (cmOperator c T0) := by
  intro q q' r s
  unfold cmOperator
  by_cases h : T0 = 0 ∧ ((motion q r).Nr, (motion q r).lr, (motion q r).lc, (motion q r).L, (motion q r).S, (motion q r).J, (motion q r).T)
      = ((motion q' s).Nr, (motion q' s).lr, (motion q' s).lc, (motion q' s).L, (motion q' s).S, (motion q' s).J, (motion q' s).T)
  · rw [if_pos h, if_pos ⟨h.1, h.2.symm⟩, hc]
    simp only [motion, Prod.mk.injEq, Nat.cast_inj] at h
    obtain ⟨_, _, _, _, _, _, hJ, hT⟩ := h
    rw [hJ, hT]
    simp only [roseSwap]
    have hp : Real.sqrt ((2 * (q'.J : ℝ) + 1) * (2 * q'.T + 1)) ≠ 0 := (Real.sqrt_pos.mpr (by positivity)).ne'
    rw [mul_div_assoc, div_self hp, mul_one, show q'.J + q'.J + q'.T + q'.T = 2 * (q'.J + q'.T) by omega, pow_mul]
    simp
  · rw [if_neg h, if_neg (by tauto), mul_zero]

/-- The two nucleons in the `0s` shell, and with one quantum pair in the centre-of-mass motion: a non-zero element. -/
example : cmOperator (fun a b => a + b) 0 (motion ⟨0, 0, 0, 1⟩ (0, 0, 0, 0)) (motion ⟨0, 0, 0, 1⟩ (0, 0, 2, 0)) = 2 := by
  norm_num [cmOperator, motion]

def relcmControl : Input := ⟨[["tb", "2"], ["op.rc", "relcm"], ["op.dat", "jjjpn", "15099", "0"]], true⟩

def relcmParams : Params := ⟨false, 2, "op.rc", .relcm, "op.dat", .jjjpn, 15099, 0⟩

theorem relcm_asks : Asks sampleNumbers relcmControl relcmParams :=
  ⟨⟨"2", [], rfl, rfl⟩, ⟨[], rfl⟩, ⟨_, rfl, fun _ => ⟨"15099", "0", [], rfl, rfl, rfl⟩, fun h => absurd rfl h⟩⟩

/-- A run on a file of up to four quanta with such an operator. -/
example (six z : Int → Int → Int → Int → Int → Int → ℝ) (mosh : Env) (nine : NineJ) (hf : H2.HeaderFloat) :
    ∃ w : World, w.env.am.z = z ∧ run w relcmControl = h2Result w relcmParams ⟨2, 2⟩ ⟨0, 0, 0, 0⟩
      (twoBody w.env ⟨2, 2⟩ (cmOperator fun a b => a + b)) := by
  obtain ⟨m, hm⟩ := exists_file (world six z mosh nine hf sampleNumbers (fun _ => none) fun _ => none) ⟨0, 0, 0, 0⟩ 4
    (cmOperator fun a b => (a : ℝ) + b) (by decide) fun T0 _ _ => cmOperator_sym (fun a b => add_comm _ _) T0
  refine ⟨world six z mosh nine hf sampleNumbers (fun _ => none) (fun _ => some ⟨⟨0, 0, 0, 0⟩, 4, m⟩), rfl, ?_⟩
  have hg : GivenRC (world six z mosh nine hf sampleNumbers (fun _ => none) (fun _ => some ⟨⟨0, 0, 0, 0⟩, 4, m⟩))
    ⟨⟨0, 0, 0, 0⟩, 4, m⟩ (cmOperator fun a b => (a : ℝ) + b) := ⟨hm.holds, hm.sym, hm.three⟩
  have hsp := world_spaces six z mosh nine hf sampleNumbers (fun _ => none) (fun _ => some ⟨⟨0, 0, 0, 0⟩, 4, m⟩) ⟨2, 2⟩
    (show 2 ≤ 4 by decide)
  have hpn : ∀ fmt, formatOfCode relcmParams.format = .ok fmt → PnBasis ⟨2, 2⟩
      (world six z mosh nine hf sampleNumbers (fun _ => none) (fun _ => some ⟨⟨0, 0, 0, 0⟩, 4, m⟩)).lib
      (targetDesc (world six z mosh nine hf sampleNumbers (fun _ => none) (fun _ => some ⟨⟨0, 0, 0, 0⟩, 4, m⟩)) relcmParams ⟨2, 2⟩
        ⟨0, 0, 0, 0⟩ fmt) := fun fmt _ => pnLib_basis rfl _ _ _ fmt (by decide)
  have ha : Asks (world six z mosh nine hf sampleNumbers (fun _ => none) (fun _ => some ⟨⟨0, 0, 0, 0⟩, 4, m⟩)).nm relcmControl
    relcmParams := relcm_asks
  have hf' : (world six z mosh nine hf sampleNumbers (fun _ => none) (fun _ => some ⟨⟨0, 0, 0, 0⟩, 4, m⟩)).rc? relcmParams.input
    = some ⟨⟨0, 0, 0, 0⟩, 4, m⟩ := rfl
  generalize world six z mosh nine hf sampleNumbers (fun _ => none) (fun _ => some ⟨⟨0, 0, 0, 0⟩, 4, m⟩) = w at *
  have e : truncOf relcmParams = ⟨2, 2⟩ := rfl
  rw [← e] at hsp hpn ⊢
  have h := moshinsky_relcm_to_h2 ha (by decide) rfl rfl hf' hg hsp (by decide) hpn
  exact h

def lsControl : Input := ⟨[["tb", "2"], ["op.rc", "relcm"], ["op.ls", "lsjt"]], true⟩

example (six z : Int → Int → Int → Int → Int → Int → ℝ) (mosh : Env) (nine : NineJ) (hf : H2.HeaderFloat) :
    ∃ (w : World) (m : ℕ → Blocks), run w lsControl = .ok (.lsjt "op.ls" ⟨0, 0, 0, 0⟩ m) ∧
      Holds ⟨0, 0, 0, 0⟩ 0 (w.lss (2, 2)) LSSub.qn LSSub.states (m 0) fun b x k y =>
        lsSpec w.env (cmOperator (fun a b => a + b) 0) b.lsjt x k.lsjt y := by
  obtain ⟨m, hm⟩ := exists_file (world six z mosh nine hf sampleNumbers (fun _ => none) fun _ => none) ⟨0, 0, 0, 0⟩ 4
    (cmOperator fun a b => (a : ℝ) + b) (by decide) fun T0 _ _ => cmOperator_sym (fun a b => add_comm _ _) T0
  obtain ⟨m', e, h⟩ := moshinsky_relcm_to_lsjt (ctl := lsControl)
    (w := world six z mosh nine hf sampleNumbers (fun _ => none) (fun _ => some ⟨⟨0, 0, 0, 0⟩, 4, m⟩))
    (p := ⟨false, 2, "op.rc", .relcm, "op.ls", .lsjt, -1, 0⟩)
    ⟨⟨"2", [], rfl, rfl⟩, ⟨[], rfl⟩, ⟨_, rfl, fun h => (nomatch h), fun _ => ⟨rfl, rfl⟩⟩⟩ (by decide) rfl rfl rfl hm.holds hm.three
    (world_spaces _ _ _ _ _ _ _ _ _ (show 2 ≤ 4 by decide)) (by decide)
  exact ⟨_, m', e, h 0 (le_refl _) (le_refl _)⟩

end Verif.Moshinsky.Program
