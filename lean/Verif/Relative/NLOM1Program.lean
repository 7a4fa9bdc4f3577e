import Verif.Relative.NLOM1Props
import Verif.Relative.GenProps

/-!
# What `relcm-gen` reads and writes
-/

namespace Verif.Relative.Relcm
open Verif Verif.H2 Verif.Osc Verif.Relative Axial
open Verif.Mixer.Control Verif.Relative.Gen

/-! ## The control file -/

/-- The documented operator line, with surplus words; other names have no parameters. -/
inductive OperatorLine (nm : Numbers) : List String → Choice → Prop
  | nlom1 {a b c R l n rest} : nm.num? a = some R → nm.num? b = some l → nm.int? c = some n →
      OperatorLine nm ("LENPIC-NLOM1" :: a :: b :: c :: rest) (.nlom1 R l n)
  | other {name rest} : name ≠ "LENPIC-NLOM1" → OperatorLine nm (name :: rest) (.other name)

/-- The documented control file: the four lines, with surplus words. -/
structure ControlFile (nm : Numbers) (f : Input) (p : Params) : Prop where
  labels : ∃ a b c d rest, f.line 0 = a :: b :: c :: d :: rest ∧ nm.int? a = some p.J0 ∧ nm.int? b = some p.g0 ∧
    nm.int? c = some p.T0min ∧ nm.int? d = some p.T0max
  basis : ∃ a rest, f.line 1 = a :: rest ∧ nm.int? a = some p.Nmax
  operator : OperatorLine nm (f.line 2) p.choice
  file : ∃ rest, f.line 3 = p.file :: rest

theorem choice_ok {nm : Numbers} {ws : List String} {c : Choice} : readChoice nm ws = .ok c ↔ OperatorLine nm ws c := by
  constructor
  · intro h
    simp only [readChoice, Except.bind_eq_ok, word_ok] at h
    obtain ⟨⟨name, rest⟩, rfl, h⟩ := h
    simp only at h
    split_ifs at h with hn
    · subst hn
      simp only [Except.bind_eq_ok, num_ok, int_ok] at h
      obtain ⟨⟨R, l1⟩, ⟨a, e1, h1⟩, ⟨l, l2⟩, ⟨b, e2, h2⟩, ⟨n, l3⟩, ⟨c', e3, h3⟩, h⟩ := h
      simp only at e1 e2 e3 h1 h2 h3
      subst e1 e2 e3
      cases h
      exact .nlom1 h1 h2 h3
    · cases h
      exact .other hn
  · intro h
    cases h with
    | nlom1 h1 h2 h3 =>
      simp only [readChoice, word, Except.ok_bind', int, num, h1, h2, h3]
      rfl
    | other hn =>
      simp only [readChoice, word, Except.ok_bind', hn, if_false]
      rfl

/-- **C143.** What is read is what the documented control file says, and nothing else is accepted. -/
theorem control_file {nm : Numbers} {f : Input} {p : Params} : readParams nm f = .ok p ↔ ControlFile nm f p := by
  simp only [readParams, Except.bind_eq_ok, int_ok, word_ok, choice_ok]
  constructor
  · rintro ⟨r1, ⟨w1, e1, h1⟩, r2, ⟨w2, e2, h2⟩, r3, ⟨w3, e3, h3⟩, r4, ⟨w4, e4, h4⟩, r5, ⟨w5, e5, h5⟩, c, hc, r6, e6, h⟩
    cases h
    exact ⟨⟨w1, w2, w3, w4, r4.2, by rw [e1, e2, e3, e4], h1, h2, h3, h4⟩, ⟨w5, r5.2, e5, h5⟩, hc, ⟨r6.2, e6⟩⟩
  · rintro ⟨⟨a, b, c, d, rest, e, h1, h2, h3, h4⟩, ⟨a5, r5, e5, h5⟩, hc, ⟨r6, e6⟩⟩
    obtain ⟨J0, g0, T0min, T0max, Nmax, choice, file⟩ := p
    simp only at h1 h2 h3 h4 h5 hc e6
    exact ⟨(J0, _), ⟨a, e, h1⟩, (g0, _), ⟨b, rfl, h2⟩, (T0min, _), ⟨c, rfl, h3⟩, (T0max, _), ⟨d, rfl, h4⟩, (Nmax, _),
      ⟨a5, e5, h5⟩, choice, hc, (file, _), e6, rfl⟩

/-- A control file says one thing. -/
theorem ControlFile.unique {nm : Numbers} {f : Input} {p p' : Params} (h : ControlFile nm f p) (h' : ControlFile nm f p') :
    p = p' := by
  have := (control_file.mpr h).symm.trans (control_file.mpr h')
  injection this

/-! ## The sectors -/

/-- The sectors written for component `T0`: pairs of subspaces in the order of the space, bra not after ket, allowed by
angular momentum, isospin and parity. -/
theorem mem_sectorsOf {o : OpLabels} {sp : List Sub} {T0 : ℕ} {s' s : Sub} :
    (s', s) ∈ sectorsOf o sp T0 ↔ (o.T0min ≤ T0 ∧ T0 ≤ o.T0max) ∧ ∃ i j : ℕ, i ≤ j ∧ sp[i]? = some s' ∧ sp[j]? = some s ∧
      tri s'.J o.J0 s.J = true ∧ tri s'.T T0 s.T = true ∧ (s'.g + s.g + o.g0) % 2 = 0 := by
  rw [sectorsOf]
  split_ifs with h
  · simp only [h, and_self, true_and, List.mem_flatMap, List.mem_filterMap, List.mem_range]
    constructor
    · rintro ⟨i, hi, j, hj, e⟩
      rw [List.getElem?_eq_getElem hi, List.getElem?_eq_getElem hj] at e
      simp only at e
      split_ifs at e with hc
      cases e
      exact ⟨i, j, hc.1, List.getElem?_eq_getElem hi, List.getElem?_eq_getElem hj, hc.2⟩
    · rintro ⟨i, j, hij, hi, hj, hc⟩
      refine ⟨i, (List.getElem?_eq_some_iff.mp hi).1, j, (List.getElem?_eq_some_iff.mp hj).1, ?_⟩
      rw [hi, hj]
      simp only
      rw [if_pos ⟨hij, hc⟩]
  · simp [h]

/-! ## The program -/

/-- The labels in the file. -/
def labelsOf (p : Params) : OpLabels := ⟨p.J0.toNat, p.g0.toNat, p.T0min.toNat, p.T0max.toNat⟩

/-- Sensible requests. -/
structure Sensible (p : Params) : Prop where
  J0 : 0 ≤ p.J0
  g0 : 0 ≤ p.g0
  T0min : 0 ≤ p.T0min
  T0max : 0 ≤ p.T0max ∧ p.T0max ≤ 2
  Nmax : 0 ≤ p.Nmax

/-- The subspaces of the space in use, and the laws of the libraries for the sectors of rank one. -/
structure Given (cg : Cg) (C : ℕ → ℕ → ℕ → Int → Int → Int → ℝ) (lib : Lib) (o : OpLabels) (N : ℕ) : Prop where
  pair : PairLaws cg lib.am lib.am12
  sub : ∀ s ∈ lib.space N, SubOK N s
  laws : ∀ sec ∈ sectorsOf o (lib.space N) 1, ∀ p' ∈ sec.1.states, ∀ p ∈ sec.2.states,
    Laws cg lib.am lib.am12 C sec.1 sec.2 p' p

theorem run_eq {nm : Numbers} {lib : Lib} {f : Input} {p : Params} (h : ControlFile nm f p) {R b : ℝ} {n : Int}
    (hc : p.choice = .nlom1 R b n) (hs : Sensible p) :
    run nm lib f = (do
      let op ← constructNLOM1 lib.am lib.am12 lib.cubic (labelsOf p) p.Nmax.toNat
        (sectorsOf (labelsOf p) (lib.space p.Nmax.toNat)) R b 3000
      pure ⟨p.file, labelsOf p, p.Nmax.toNat, sectorsOf (labelsOf p) (lib.space p.Nmax.toNat), op⟩) := by
  obtain ⟨h1, h2, h3, h4, h5⟩ := hs
  rw [run, control_file.mpr h, Except.ok_bind']
  simp only [hc]
  rw [if_neg (by omega)]
  simp only [labelsOf, defaultPoints]
  cases constructNLOM1 lib.am lib.am12 lib.cubic ⟨p.J0.toNat, p.g0.toNat, p.T0min.toNat, p.T0max.toNat⟩ p.Nmax.toNat
    (sectorsOf ⟨p.J0.toNat, p.g0.toNat, p.T0min.toNat, p.T0max.toNat⟩ (lib.space p.Nmax.toNat)) R b 3000 with
  | error e => rfl
  | ok op =>
    simp only [Except.ok_bind']
    rw [if_neg (by omega)]

/-- **C143.** A run for `LENPIC-NLOM1` with the labels of an isovector magnetic dipole writes, to the file named, the
operator of the control file's regulator and oscillator length, in the sectors of the space of the control file's
truncation; the integrals of the relative motion are those of the spline rule on 3000 points. -/
theorem relcm_gen_writes {nm : Numbers} {lib : Lib} {f : Input} {p : Params} (h : ControlFile nm f p) {R b : ℝ} {n : Int}
    (hc : p.choice = .nlom1 R b n) (hs : Sensible p) (hl : M1Labels (labelsOf p)) (hb : 0 < b) {cg : Cg}
    {C : ℕ → ℕ → ℕ → Int → Int → Int → ℝ} (hg : Given cg C lib (labelsOf p) p.Nmax.toNat) :
    ∃ out, run nm lib f = .ok out ∧ out.file = p.file ∧ out.labels = labelsOf p ∧ (out.Nmax : Int) = p.Nmax ∧
      out.sectors = sectorsOf (labelsOf p) (lib.space p.Nmax.toNat) ∧
      Stores cg 1 1 (m1 cg C (radialInt lib.cubic 3000 (Real.sqrt 2 * b)) R b rootError) out.sectors out.blocks := by
  have hsec : ∀ sec ∈ sectorsOf (labelsOf p) (lib.space p.Nmax.toNat) 1, SubOK p.Nmax.toNat sec.1 ∧
      SubOK p.Nmax.toNat sec.2 ∧ ∀ p' ∈ sec.1.states, ∀ q ∈ sec.2.states, Laws cg lib.am lib.am12 C sec.1 sec.2 p' q := by
    rintro ⟨s', s⟩ hm
    obtain ⟨_, i, j, _, hi, hj, _⟩ := mem_sectorsOf.mp hm
    exact ⟨hg.sub _ (List.mem_of_getElem? hi), hg.sub _ (List.mem_of_getElem? hj), hg.laws _ hm⟩
  obtain ⟨op, e, hst⟩ := (nlom1_stored (o := labelsOf p) hg.pair hsec lib.cubic R hb 3000).1 hl
  refine ⟨⟨p.file, labelsOf p, p.Nmax.toNat, _, op⟩, ?_, rfl, rfl, ?_, rfl, hst⟩
  · rw [run_eq h hc hs, e]
    rfl
  · have := hs.Nmax
    simp only
    omega

/-- **C143.** Labels which the operator does not have are reported, and nothing is written. -/
theorem relcm_gen_labels_refused {nm : Numbers} {lib : Lib} {f : Input} {p : Params} (h : ControlFile nm f p) {R b : ℝ}
    {n : Int} (hc : p.choice = .nlom1 R b n) (hs : Sensible p) (hl : ¬ M1Labels (labelsOf p)) :
    run nm lib f = .error .exitFailure := by
  rw [run_eq h hc hs, constructNLOM1, if_pos]
  · rfl
  · rw [M1Labels] at hl
    omega

/-- **C143.** Operators which the program does not know are reported, and nothing is written. -/
theorem relcm_gen_unknown_refused {nm : Numbers} {lib : Lib} {f : Input} {p : Params} (h : ControlFile nm f p)
    {name : String} (hc : p.choice = .other name) : run nm lib f = .error .exitFailure := by
  rw [run, control_file.mpr h, Except.ok_bind']
  simp only [hc]

/-- **C143.** Whenever a file is written, the control file was as documented and asked for `LENPIC-NLOM1` with the labels
of the operator. -/
theorem relcm_gen_only {nm : Numbers} {lib : Lib} {f : Input} {out : Output} (h : run nm lib f = .ok out) :
    ∃ p R b n, ControlFile nm f p ∧ p.choice = .nlom1 R b n ∧ Sensible p ∧ M1Labels (labelsOf p) ∧ out.file = p.file ∧
      out.labels = labelsOf p := by
  rw [run, Except.bind_eq_ok] at h
  obtain ⟨p, hp, h⟩ := h
  cases hc : p.choice with
  | other name => simp only [hc, reduceCtorEq] at h
  | nlom1 R b n =>
    simp only [hc] at h
    split_ifs at h with hn h2
    all_goals
      rw [Except.bind_eq_ok] at h
      obtain ⟨op, e, h⟩ := h
      cases h
    have hl : M1Labels (labelsOf p) := by
      rw [constructNLOM1] at e
      split_ifs at e with hl
      simp only [not_or, not_not, not_lt] at hl
      simp only [M1Labels, labelsOf]
      omega
    exact ⟨p, R, b, n, control_file.mp hp, hc, ⟨by omega, by omega, by omega, by omega, by omega⟩, hl, rfl, rfl⟩

/-- **C143 is false of the number of steps**: the run is the same whatever number of steps is asked for. -/
theorem relcm_gen_steps_ignored {nm : Numbers} {lib : Lib} {f f' : Input} {p : Params} {R b : ℝ} {n n' : Int}
    (h : ControlFile nm f { p with choice := .nlom1 R b n }) (h' : ControlFile nm f' { p with choice := .nlom1 R b n' }) :
    run nm lib f = run nm lib f' := by
  rw [run, run, control_file.mpr h, control_file.mpr h']
  rfl

end Verif.Relative.Relcm
