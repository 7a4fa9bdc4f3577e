import Verif.Obme.RadialGenProps
import Verif.Obme.EwExamples

/-!
# Runs of `radial-gen`: examples and refutations
-/

namespace Verif.Obme.RadialGen
open Verif Verif.Mapping Verif.Xform Verif.Obme
open Verif.H2 hiding Mat
open Verif.Mixer.Control (Coord Numbers)
open Verif.Obme.EwGen (space4 space4_built)

/-- Orbitals `0p3/2` and `1p1/2` without `0p1/2`. -/
def gap : Space := [⟨⟨1, 3, .p⟩, [0]⟩, ⟨⟨1, 1, .p⟩, [1]⟩]

theorem gap_built : Built toyLib gap := ⟨rfl, by decide⟩

theorem gap_good : GoodSpace gap := ⟨by decide, by decide, by decide⟩

theorem space4_good : GoodSpace space4 := ⟨by decide, by decide, by decide⟩

theorem space4_complete : Complete space4 := by unfold Complete; decide

/-- A sample world: orbitals in `orbitals.dat` and `gap.dat`. -/
noncomputable def world : World Sub where
  nm := EwGen.nm
  lib := toyLib
  rnd := id
  orbitals f := if f = "orbitals.dat" then some (.ok space4) else if f = "gap.dat" then some (.ok gap) else none
  spl _ _ _ _ _ _ _ := 1
  ovl _ _ _ _ _ _ _ := 1
  crme _ _ _ := 1
  rme _ _ _ := 1
  inv4pi := 1 / 2

theorem orbitals4 : Orbitals world "orbitals.dat" space4 := ⟨space4, rfl, rfl, space4_built, space4_good⟩

theorem orbitalsGap : Orbitals world "gap.dat" gap := ⟨gap, rfl, rfl, gap_built, gap_good⟩

/-- A control file with targets of all kinds. -/
def sampleLines : List (List String) :=
  [["define-operator-target", "kinematic", "r", "out0"], ["define-operator-target", "am", "s", "out1"],
   ["define-operator-target", "isospin", "t+", "out2"], ["define-operator-target", "am", "j2", "out3"],
   ["set-ket-basis", "laguerre", "gap.dat"], ["define-operator-target", "solid-harmonic", "r", "1", "out4"],
   ["define-radial-target", "k", "2", "1", "1", "1", "out5"], ["define-xform-target", "2.0", "oscillator", "orbitals.dat", "out6"],
   ["define-operator-target", "am", "l", "out7"]]

/-- Its commands. -/
noncomputable def sampleCmds : List Cmd :=
  [.target .position "out0", .target (.am .spin) "out1", .target (.isospin 1) "out2", .target (.amSqr .total) "out3",
   .basis .laguerre "gap.dat", .target (.harmonic .r 1) "out4", .target (.radial .k 2 ⟨1, 1, 1⟩) "out5",
   .target (.overlap 2 .oscillator "orbitals.dat") "out6", .target (.am .orbital) "out7"]

theorem sample_script : Script world.nm sampleLines sampleCmds :=
  .cons (.named _ _ .position) (.cons (.named _ _ .s) (.cons (.named _ _ .plus) (.cons (.named _ _ .j2) (.cons (.basis _ _ .laguerre)
    (.cons (.harmonic _ _ .r (by simp [world, EwGen.nm])) (.cons (.radial _ _ .k (by simp [world, EwGen.nm]) (by simp [world, EwGen.nm])
    (by simp [world, EwGen.nm]) (by simp [world, EwGen.nm])) (.cons (.overlap _ _ _ (by simp [world, EwGen.nm]) .oscillator)
    (.cons (.named _ _ .l) .nil))))))))

theorem sample_ready : Ready world sampleCmds := by
  refine ⟨?_, ?_⟩
  · intro b f h
    simp [sampleCmds] at h
    obtain ⟨rfl, rfl⟩ := h
    simp [world]
  · intro y w out hy
    match y, hy with
    | 0, hy => cases hy; exact ⟨⟨_, orbitals4⟩, trivial⟩
    | 1, hy => cases hy; exact ⟨⟨_, orbitals4⟩, trivial⟩
    | 2, hy => cases hy; exact ⟨⟨_, orbitals4⟩, .inr (.inl rfl)⟩
    | 3, hy => cases hy; exact ⟨⟨_, orbitals4⟩, trivial⟩
    | 4, hy => cases hy
    | 5, hy => cases hy; exact ⟨⟨_, orbitalsGap⟩, by decide⟩
    | 6, hy => cases hy; exact ⟨⟨_, orbitalsGap⟩, trivial⟩
    | 7, hy => cases hy; exact ⟨⟨_, orbitalsGap⟩, ⟨_, orbitals4⟩⟩
    | 8, hy => cases hy; exact ⟨⟨_, orbitalsGap⟩, trivial⟩
    | n + 9, hy => simp [sampleCmds] at hy

/-- **C140, sample.** The sample is carried out. -/
theorem sample_runs : ∃ files, run world sampleLines = .ok files :=
  run_succeeds (W := world) toyLib_laws rfl sample_script sample_ready

/-- **C137, sample.** Position, with the oscillator basis and orbitals set by default, and the solid harmonic and a charge-changing radial
operator, with those of the `set-ket-basis` line. -/
example : ∃ files l0 l4 l5, run world sampleLines = .ok files ∧ files[0]? = some ("out0", l0) ∧ files[4]? = some ("out4", l4) ∧
    files[5]? = some ("out5", l5) ∧
    Stores world l0 'S' space4 space4 ⟨1, 1, 0⟩ (opOf ⟨1, 1, 0⟩ space4 space4 (What.position.value world .oscillator)) ∧
    Stores world l4 'S' gap gap ⟨1, 1, 0⟩ (opOf ⟨1, 1, 0⟩ gap gap ((What.harmonic .r 1).value world .laguerre)) ∧
    Stores world l5 'R' gap gap ⟨1, 1, 1⟩ (opOf ⟨1, 1, 1⟩ gap gap ((What.radial .k 2 ⟨1, 1, 1⟩).value world .laguerre)) := by
  obtain ⟨files, h⟩ := sample_runs
  obtain ⟨l0, a0, b0⟩ := integral_target (W := world) toyLib_laws rfl sample_script h (y := 0) (w := .position) rfl trivial orbitals4
  obtain ⟨l4, a4, b4⟩ := integral_target (W := world) toyLib_laws rfl sample_script h (y := 5) (w := .harmonic .r 1) rfl
    (show (0 : Int) ≤ 1 by decide) orbitalsGap
  obtain ⟨l5, a5, b5⟩ := integral_target (W := world) toyLib_laws rfl sample_script h (y := 6) (w := .radial .k 2 ⟨1, 1, 1⟩) rfl trivial orbitalsGap
  exact ⟨files, l0, l4, l5, h, a0, a4, a5, b0, b4, b5⟩

/-- The position operator between `s1/2` and `p3/2` is not zero. -/
example : opOf ⟨1, 1, 0⟩ space4 space4 ((What.radial .r 3 ⟨1, 1, 0⟩).value world .laguerre) 0 0 1 0 = 1 := by
  have h : Allowed ⟨1, 1, 0⟩ ⟨0, 1, .p⟩ ⟨1, 3, .p⟩ := by decide
  simp [opOf, space4, What.value, radialValue, world, h]

/-- **C138, sample.** Overlaps between the orbitals of the line and those in force. -/
example : ∃ files ls, run world sampleLines = .ok files ∧ files[6]? = some ("out6", ls) ∧
    Stores world ls 'R' space4 gap ⟨0, 0, 0⟩ (opOf ⟨0, 0, 0⟩ space4 gap ((What.overlap 2 .oscillator "orbitals.dat").value world .laguerre)) := by
  obtain ⟨files, h⟩ := sample_runs
  obtain ⟨ls, a, b⟩ := overlap_target (W := world) toyLib_laws rfl sample_script h (y := 7) (x := 2) (b := .oscillator) rfl orbitals4 orbitalsGap
  exact ⟨files, ls, h, a, b⟩

/-- **C139, sample.** Spin, isospin raising and the square of the total angular momentum. -/
example : ∃ files l1 l2 l3, run world sampleLines = .ok files ∧ files[1]? = some ("out1", l1) ∧ files[2]? = some ("out2", l2) ∧
    files[3]? = some ("out3", l3) ∧
    Stores world l1 'S' space4 space4 ⟨1, 0, 0⟩ (opOf ⟨1, 0, 0⟩ space4 space4 ((What.am .spin).value world .oscillator)) ∧
    Stores world l2 'S' space4 space4 ⟨0, 0, 1⟩ (opOf ⟨0, 0, 1⟩ space4 space4 ((What.isospin 1).value world .oscillator)) ∧
    Stores world l3 'S' space4 space4 ⟨0, 0, 0⟩ (opOf ⟨0, 0, 0⟩ space4 space4 ((What.amSqr .total).value world .oscillator)) := by
  obtain ⟨files, h⟩ := sample_runs
  obtain ⟨l1, a1, b1⟩ := diagonal_target_partial (W := world) toyLib_laws rfl sample_script h (y := 1) (w := .am .spin) rfl
    (show (What.am .spin).diagonal space4 from space4_complete) orbitals4
  obtain ⟨l2, a2, b2⟩ := diagonal_target_partial (W := world) toyLib_laws rfl sample_script h (y := 2) (w := .isospin 1) rfl
    (show (What.isospin 1).diagonal space4 from .inr ⟨.inl rfl, space4_complete⟩) orbitals4
  obtain ⟨l3, a3, b3⟩ := diagonal_target_partial (W := world) toyLib_laws rfl sample_script h (y := 3) (w := .amSqr .total) rfl
    (show (What.amSqr .total).diagonal space4 from trivial) orbitals4
  exact ⟨files, l1, l2, l3, h, a1, a2, a3, b1, b2, b3⟩

/-- **C139, refuted for orbitals with gaps.** A complete run in which the file of a target `am l` holds an element that is not zero between
orbitals `0p3/2` and `1p1/2`, of different `n`. -/
theorem angular_incomplete : ∃ (W : World Sub) (lines : List (List String)) (cmds : List Cmd) (files : List (String × List Line)) (y : ℕ)
    (sp : Space) (ls : List Line) (O : EwGen.Op) (b k : Sub), LibLaws W.lib ∧ Script W.nm lines cmds ∧ run W lines = .ok files ∧
    cmds[y]? = some (.target (.am .orbital) "out7") ∧ Orbitals W (basisAt cmds y).2 sp ∧ files[place cmds y]? = some ("out7", ls) ∧
    Stores W ls 'S' sp sp ⟨1, 0, 0⟩ O ∧ sp[0]? = some b ∧ sp[1]? = some k ∧ b.ns = [0] ∧ k.ns = [1] ∧ W.rnd (chop (O 0 0 1 0)) = 1 ∧
    opOf ⟨1, 0, 0⟩ sp sp ((What.am .orbital).value W (basisAt cmds y).1) 0 0 1 0 = 0 := by
  obtain ⟨files, h⟩ := sample_runs
  have hs := allSectors_spec ⟨1, 0, 0⟩ gap gap
  obtain ⟨mats, h1, h2, h3⟩ := eye_blocks (fun p => do
    let b ← getE gap p.1
    let k ← getE gap p.2
    pure (scale (world.rme .orbital b.labels k.labels) (eye b.ns.length k.ns.length)))
    (fun b k => world.rme .orbital b k) hs (by
      intro p hp b k hb hk
      simp only [getE_ok hb, getE_ok hk, Except.ok_bind', Except.pure_ok])
  obtain ⟨ls, b1, b2⟩ := build_stores (W := world) toyLib_laws rfl (p := paramsFor (.laguerre, "gap.dat") (.am .orbital) "out7")
    (d := bodyFor (.am .orbital)) rfl orbitalsGap orbitalsGap (mats := mats) (by
      show angularMomentum world.rme .orbital gap (allSectors ⟨1, 0, 0⟩ gap gap) = .ok mats
      simp only [angularMomentum, allSectors, decide_true, EwGen.assertE_true, Except.ok_bind']
      exact h1) h2 (fun _ _ _ _ => rfl)
  obtain ⟨b, c1, c2⟩ := file_at sample_script h (y := 8) (w := .am .orbital) rfl
  have hbe : basisAt sampleCmds 8 = (.laguerre, "gap.dat") := rfl
  rw [hbe, b1] at c1
  cases c1
  refine ⟨world, sampleLines, sampleCmds, files, 8, gap, ls, _, ⟨⟨1, 3, .p⟩, [0]⟩, ⟨⟨1, 1, .p⟩, [1]⟩, toyLib_laws, sample_script, h, rfl, orbitalsGap,
    c2, b2, rfl, rfl, rfl, rfl, ?_, ?_⟩
  · have he : elem (allSectors (bodyFor (.am .orbital)).q gap gap) mats 0 0 1 0 = 1 := by
      show elem (allSectors ⟨1, 0, 0⟩ gap gap) mats 0 0 1 0 = 1
      rw [h3 0 1 ⟨⟨1, 3, .p⟩, [0]⟩ ⟨⟨1, 1, .p⟩, [1]⟩ 0 0 (by decide) rfl rfl (by decide) (by decide)]
      simp [world]
    rw [he]
    norm_num [world, chop]
  · simp [opOf, gap, What.value]

/-- **C140, sample.** Control files that are refused, and one that is not. -/
example : ∃ e, run world [["define-operator-target", "am", "r", "out"]] = .error e ∧ Reported e := by
  refine refused_partial (W := world) ?_ ?_
  · intro l hl
    simp only [List.mem_singleton] at hl
    subst hl
    rintro ⟨m, rest, he, hu⟩
    cases he
    exact absurd rfl hu.2.2.1
  · rintro ⟨cmds, h⟩
    cases h with
    | cons h _ =>
      generalize hl : ["define-operator-target", "am", "r", "out"] = l at h
      cases h with
      | named _ _ h =>
        simp only [List.cons.injEq] at hl
        obtain ⟨_, h1, h2, _⟩ := hl
        cases h <;> simp at h1 h2
      | harmonic _ _ h _ => simp at hl
      | basis _ _ _ => simp at hl
      | radial _ _ _ _ _ _ _ => simp at hl
      | overlap _ _ _ _ _ => simp at hl

example : run world [["define-operator-target", "spin", "s", "out"]] = .error .undefinedBehaviour :=
  unknown_family (W := world) (by refine ⟨?_, ?_, ?_, ?_⟩ <;> decide) orbitals4

/-! ## The two programs -/

/-- The control file of the first program. -/
def firstLines : List (List String) := [["define-operator-target", "solid-harmonic", "r", "1", "r1"], ["define-operator-target", "am", "s", "s"],
  ["define-operator-target", "isospin", "t+", "t"]]

/-- Its commands. -/
def firstCmds : List Cmd := [.target (.harmonic .r 1) "r1", .target (.am .spin) "s", .target (.isospin 1) "t"]

theorem first_script : Script world.nm firstLines firstCmds :=
  .cons (.harmonic _ _ .r (by simp [world, EwGen.nm])) (.cons (.named _ _ .s) (.cons (.named _ _ .plus) .nil))

theorem first_ready : Ready world firstCmds := by
  refine ⟨by simp [firstCmds], ?_⟩
  intro y w out hy
  match y, hy with
  | 0, hy => cases hy; exact ⟨⟨_, orbitals4⟩, by decide⟩
  | 1, hy => cases hy; exact ⟨⟨_, orbitals4⟩, trivial⟩
  | 2, hy => cases hy; exact ⟨⟨_, orbitals4⟩, .inr (.inl rfl)⟩
  | n + 3, hy => simp [firstCmds] at hy

/-- **C140, sample.** The run read the default orbitals, not a missing file. -/
example : (∃ files, run world firstLines = .ok files) ∧ ∃ os, world.orbitals "orbitals.dat" = some (.ok os) := by
  obtain ⟨files, h⟩ := run_succeeds (W := world) toyLib_laws rfl first_script first_ready
  exact ⟨⟨files, h⟩, (run_read_orbitals first_script h (y := 0) (w := .harmonic .r 1) rfl).1⟩

/-- The control file of the second program. -/
def secondLines : List (List String) := [["set-indexing", "orb"], ["set-basis-scale-factor", "2.0"], ["define-radial-source", "r", "1", "r1"],
  ["define-am-source", "s", "s"], ["define-isospin-source", "t+", "t"], ["define-em-target", "E", "1", "p", "out"], ["define-weak-target", "GT", "gt"]]

/-- Its commands. -/
noncomputable def secondCmds : List EwGen.Cmd := [.indexing "orb", .scale 2, .radial .r 1 "r1", .am .spin "s", .isospin 1 "t",
  .target ⟨.E, 1, .p, "out"⟩, .target ⟨.GT, 1, .total, "gt"⟩]

theorem second_script : EwGen.Script EwGen.nm secondLines secondCmds := by
  have hf : secondLines.filter EwGen.counts = secondLines := by decide
  unfold EwGen.Script
  rw [hf]
  exact .cons (.indexing _ _) (.cons (.scale _ (by simp [EwGen.nm])) (.cons (.radial _ _ .r (by simp [EwGen.nm])) (.cons (.am _ _ .s)
    (.cons (.isospin _ _ .plus) (.cons (.em _ _ .e (by simp [EwGen.nm]) .p) (.cons (.gt _ _) .nil))))))

/-- **C141, sample.** Both programs run, and the files of the first are those that the second reads. -/
example : ∃ (files files' : List (String × List Line)) (V : EwGen.World Sub) (le lg : List Line), run world firstLines = .ok files ∧
    EwGen.run V secondLines = .ok files' ∧ files'[0]? = some ("out", le) ∧ files'[1]? = some ("gt", lg) ∧
    (∃ O, EwGen.Stores V le space4 ⟨1, 1, 0⟩ O) ∧ ∃ O, EwGen.Stores V lg space4 ⟨1, 0, 1⟩ O := by
  obtain ⟨files, h⟩ := run_succeeds (W := world) toyLib_laws rfl first_script first_ready
  obtain ⟨lr, r1, r2⟩ := integral_target (W := world) toyLib_laws rfl first_script h (y := 0) (w := .harmonic .r 1) rfl
    (show (0 : Int) ≤ 1 by decide) orbitals4
  obtain ⟨l1, s1, s2⟩ := diagonal_target_partial (W := world) toyLib_laws rfl first_script h (y := 1) (w := .am .spin) rfl
    (show (What.am .spin).diagonal space4 from space4_complete) orbitals4
  obtain ⟨l2, t1, t2⟩ := diagonal_target_partial (W := world) toyLib_laws rfl first_script h (y := 2) (w := .isospin 1) rfl
    (show (What.isospin 1).diagonal space4 from .inr ⟨.inl rfl, space4_complete⟩) orbitals4
  obtain ⟨cmds, hs, hn⟩ := run_only h
  have hlen : files.length = 3 := by
    have := run_parts first_script h
    simpa [listOf, firstCmds] using this.length_eq.symm
  let V : EwGen.World Sub := EwGen.world fun f => if f = "r1" then some lr else if f = "s" then some l1 else some l2
  have hr : EwGen.Holds V "r1" space4 ⟨1, 1, 0⟩ _ := stores_holds (V := V) rfl r2 rfl
  have hsp : EwGen.Holds V "s" space4 ⟨1, 0, 0⟩ _ := stores_holds (V := V) rfl s2 rfl
  have ht : EwGen.Holds V "t" space4 ⟨0, 0, 1⟩ _ := stores_holds (V := V) rfl t2 rfl
  have hor : EwGen.OrbitalsAre V secondCmds space4 := ⟨"orb", space4, rfl, rfl, rfl⟩
  have htg : EwGen.targetsOf secondCmds = [⟨.E, 1, .p, "out"⟩, ⟨.GT, 1, .total, "gt"⟩] := rfl
  obtain ⟨files', h', _⟩ := EwGen.run_succeeds (W := V) toyLib_laws rfl second_script hor space4_built (s := 2) rfl (by
    intro c hc
    simp only [secondCmds, List.mem_cons, List.not_mem_nil, or_false] at hc
    rcases hc with rfl | rfl | rfl | rfl | rfl | rfl | rfl
    · exact ⟨space4, rfl⟩
    · trivial
    · exact ⟨_, _, _, hr⟩
    · exact ⟨_, _, _, hsp⟩
    · exact ⟨_, _, _, ht⟩
    all_goals trivial) (by
    intro t htt
    rw [htg] at htt
    simp only [List.mem_cons, List.not_mem_nil, or_false] at htt
    rcases htt with rfl | rfl
    · exact ⟨by decide, "r1", _, rfl, hr⟩
    · exact ⟨rfl, ⟨"t", _, rfl, ht⟩, "s", _, rfl, hsp⟩)
  have disk : ∀ (x : ℕ) (f : String) (ls : List Line), files[x]? = some (f, ls) → V.obme f = some ls := by
    intro x f ls hx
    have e0 : place firstCmds 0 = 0 := rfl
    have e1 : place firstCmds 1 = 1 := rfl
    have e2 : place firstCmds 2 = 2 := rfl
    rw [e0] at r1; rw [e1] at s1; rw [e2] at t1
    have : x < 3 := by
      rw [← hlen]
      exact (List.getElem?_eq_some_iff.1 hx).1
    interval_cases x
    · rw [r1] at hx; cases hx; rfl
    · rw [s1] at hx; cases hx; rfl
    · rw [t1] at hx; cases hx; rfl
  obtain ⟨le, a1, a2⟩ := electric_chain (W := world) (V := V) rfl toyLib_laws rfl rfl first_script h (y := 0) (l := 1) (by decide) (src := "r1") rfl
    orbitals4 (disk _ _) second_script h' hor (s := 2) rfl rfl (x := 0) (who := .p) (out := "out") (by rw [htg]; rfl)
  obtain ⟨lg, b1, b2⟩ := gamow_teller_chain (W := world) (V := V) rfl toyLib_laws rfl rfl first_script h (y := 1) (z := 2) (fs := "s") (ft := "t") rfl rfl
    space4_complete orbitals4 orbitals4 disk second_script h' hor rfl rfl (x := 1) (who := .total) (out := "gt") (by rw [htg]; rfl)
  exact ⟨files, files', V, le, lg, h, h', a1, b1, ⟨_, a2⟩, ⟨_, b2⟩⟩

end Verif.Obme.RadialGen
