import Verif.Obme.EwProps

/-!
# Runs of `ew-gen`: examples and refutations
-/

namespace Verif.Obme.EwGen
open Verif Verif.Mapping Verif.Xform Verif.Obme
open Verif.H2 hiding Mat
open Verif.Mixer.Control (Coord Numbers)

/-- **C136, refuted for the scale factor.** Without a `set-basis-scale-factor` line the first electric target of a control file that is otherwise
complete uses an indeterminate number. -/
theorem scale_unset {Orb : Type} [DecidableEq Orb] {W : World Orb} {lines : List (List String)} {cmds : List Cmd}
    (script : Script W.nm lines cmds) {sp : Space} (ho : OrbitalsAre W cmds sp) (hs : scaleOf cmds = none)
    (readable : ∀ c ∈ cmds, Readable W c) {l : Int} {who : Who} {out : String} {ts : List Target}
    (ht : targetsOf cmds = ⟨.E, l, who, out⟩ :: ts) (ready : Ready W cmds sp ⟨.E, l, who, out⟩)
    (sectors : (allSectors ⟨l, l % 2, 0⟩ sp sp).pairs ≠ []) : run W lines = .error .undefinedBehaviour := by
  obtain ⟨cfg, h1⟩ := fold_ok (W := W) cmds {} readable
  have hd := describes W cmds h1
  obtain ⟨hl, g, R, hg, hR⟩ := ready
  simp only at hl hg hR
  have hsp := space_eq hd ho
  obtain ⟨mats, e1, e2, e3⟩ := look_ok hsp (hd.radial .r l) hg hR
  unfold run readParameters
  rw [fold_script W _ script, h1, Except.ok_bind', hd.targets, ht, List.mapM_cons]
  have hgen : generate W cfg ⟨.E, l, who, out⟩ = .error .undefinedBehaviour := by
    simp only [generate, generateE, tmod_two hl, e1, Except.ok_bind', hsp]
    obtain ⟨p, ps, hp⟩ := List.exists_cons_of_ne_nil sectors
    have hlen := e2.length
    rw [hp] at hlen ⊢
    obtain ⟨m, ms, rfl⟩ := List.exists_cons_of_length_eq_add_one hlen
    have hpm : p ∈ (allSectors ⟨l, l % 2, 0⟩ sp sp).pairs := by rw [hp]; simp
    obtain ⟨b, k, hb, hk, _⟩ := mem_pairs hpm
    simp [scaleAll, sectorFactor, getE_ok hb, getE_ok hk, prefactorE, scaleFactor, hd.scale, hs]
  rw [hgen, Except.error_bind']

/-! ## A sample -/

/-- Words read as numbers. -/
noncomputable def nm : Numbers := ⟨fun s => if s = "1" then some 1 else if s = "2" then some 2 else none,
  fun s => if s = "2.0" then some 2 else none⟩

/-- Protons and neutrons, `s1/2` and `p3/2`. -/
def space4 : Space := [⟨⟨0, 1, .p⟩, [0]⟩, ⟨⟨1, 3, .p⟩, [0]⟩, ⟨⟨0, 1, .n⟩, [0]⟩, ⟨⟨1, 3, .n⟩, [0]⟩]

theorem space4_built : Built toyLib space4 := ⟨rfl, by decide⟩

/-- Blocks of ones. -/
noncomputable def ones (q : QN) : List Mat := (allSectors q space4 space4).pairs.map fun _ => ⟨1, 1, fun _ _ => 1⟩

theorem dim4 {i : ℕ} (h : i < 4) : dim space4 i = 1 := by
  have : i = 0 ∨ i = 1 ∨ i = 2 ∨ i = 3 := by omega
  rcases this with rfl | rfl | rfl | rfl <;> rfl

theorem pair4 {q : QN} {p : ℕ × ℕ} (h : p ∈ (allSectors q space4 space4).pairs) : p.1 < 4 ∧ p.2 < 4 := by
  obtain ⟨b, k, hb, hk, _⟩ := mem_pairs h
  obtain ⟨h1, _⟩ := List.getElem?_eq_some_iff.mp hb
  obtain ⟨h2, _⟩ := List.getElem?_eq_some_iff.mp hk
  exact ⟨h1, h2⟩

/-- Blocks of one element fit any sectors of this space. -/
theorem fits4 {q : QN} {ms : List Mat} (hl : ms.length = (allSectors q space4 space4).pairs.length)
    (h : ∀ m ∈ ms, m.rows = 1 ∧ m.cols = 1) : Fits (allSectors q space4 space4) ms space4 space4 := by
  refine ⟨hl, ?_⟩
  intro x i k m hx hm
  have hp := pair4 (List.mem_of_getElem? hx)
  rw [dim4 hp.1, dim4 hp.2]
  exact h m (List.mem_of_getElem? hm)

theorem ones_fits (q : QN) : Fits (allSectors q space4 space4) (ones q) space4 space4 :=
  fits4 (by simp [ones]) (by simp [ones])

/-- Elements one wherever the selection rules allow. -/
noncomputable def oneOp (q : QN) : Op := elem (allSectors q space4 space4) (ones q)

theorem oneOp_one {q : QN} {i k : ℕ} (h : (i, k) ∈ (allSectors q space4 space4).pairs) : oneOp q i 0 k 0 = 1 := by
  obtain ⟨x, hx⟩ := idxOf?_mem h
  have := idxOf?_getElem? hx
  simp only [oneOp, elem, hx, ones, List.getElem?_map, this, Option.map_some]
  simp

theorem oneOp_cases (q : QN) (i a k c : ℕ) : oneOp q i a k c = 1 ∨ oneOp q i a k c = 0 := by
  unfold oneOp elem
  cases hx : (allSectors q space4 space4).pairs.idxOf? (i, k) with
  | none => right; rfl
  | some x =>
    have := idxOf?_getElem? hx
    simp only [ones, List.getElem?_map, this, Option.map_some]
    split
    · exact .inl rfl
    · exact .inr rfl

theorem oneOp_file (q : QN) : ∃ ls, Reads toyLib ls space4 q (oneOp q) := by
  obtain ⟨ls, mats, _, h2, h3, h4⟩ := file_round_trip toyLib_laws (rnd := id) rfl true 'S' q space4_built space4_built (ones_fits q) []
  refine ⟨_, mats, h2, h3, ?_⟩
  intro i a k c
  rw [h4]
  rcases oneOp_cases q i a k c with h | h
  · have h' : elem (allSectors q space4 space4) (ones q) i a k c = 1 := h
    rw [h, h']; norm_num [chop]
  · have h' : elem (allSectors q space4 space4) (ones q) i a k c = 0 := h
    rw [h, h']; norm_num [chop]

/-- A world with given operator files; the orbitals in `orb`. -/
noncomputable def world (files : String → Option (List Line)) : World Sub where
  nm := nm
  lib := toyLib
  rnd := id
  obme := files
  orbitals f := if f = "orb" then .ok space4 else .error .exitFailure
  w _ _ _ _ _ _ := 1
  inv4pi := 1 / 2

/-- A control file with sources and targets of all kinds. -/
def sampleLines : List (List String) :=
  [["#", "electroweak"], [], ["set-indexing", "orb"], ["set-basis-scale-factor", "2.0"], ["define-radial-source", "r", "1", "r1"],
   ["define-am-source", "l", "l"], ["define-am-source", "s", "s"], ["define-isospin-source", "t+", "t"], ["define-em-target", "E", "1", "p", "out1"],
   ["define-em-target", "Ds", "2", "total", "out2"], ["define-em-target", "Dl", "1", "n", "out3"], ["define-em-target", "Dl", "2", "total", "out4"],
   ["define-weak-target", "F", "out5"], ["define-weak-target", "GT", "out6"]]

/-- Its commands. -/
noncomputable def sampleCmds : List Cmd :=
  [.indexing "orb", .scale 2, .radial .r 1 "r1", .am .orbital "l", .am .spin "s", .isospin 1 "t", .target ⟨.E, 1, .p, "out1"⟩,
   .target ⟨.Ds, 2, .total, "out2"⟩, .target ⟨.Dl, 1, .n, "out3"⟩, .target ⟨.Dl, 2, .total, "out4"⟩, .target ⟨.F, 0, .total, "out5"⟩,
   .target ⟨.GT, 1, .total, "out6"⟩]

theorem sample_script : Script nm sampleLines sampleCmds := by
  have hf : sampleLines.filter counts = sampleLines.drop 2 := by decide
  unfold Script
  rw [hf]
  refine .cons (.indexing _ _) (.cons (.scale _ (by simp [nm])) (.cons (.radial _ _ .r (by simp [nm])) (.cons (.am _ _ .l) (.cons (.am _ _ .s)
    (.cons (.isospin _ _ .plus) (.cons (.em _ _ .e (by simp [nm]) .p) (.cons (.em _ _ .s (by simp [nm]) .total)
    (.cons (.em _ _ .l (by simp [nm]) .n) (.cons (.em _ _ .l (by simp [nm]) .total) (.cons (.fermi _ _) (.cons (.gt _ _) .nil)))))))))))

/-- The files of the sample. -/
structure SampleFiles (files : String → Option (List Line)) : Prop where
  r1 : ∃ ls, files "r1" = some ls ∧ Reads toyLib ls space4 ⟨1, 1, 0⟩ (oneOp ⟨1, 1, 0⟩)
  l : ∃ ls, files "l" = some ls ∧ Reads toyLib ls space4 ⟨1, 0, 0⟩ (oneOp ⟨1, 0, 0⟩)
  s : ∃ ls, files "s" = some ls ∧ Reads toyLib ls space4 ⟨1, 0, 0⟩ (oneOp ⟨1, 0, 0⟩)
  t : ∃ ls, files "t" = some ls ∧ Reads toyLib ls space4 ⟨0, 0, 1⟩ (oneOp ⟨0, 0, 1⟩)

theorem sampleFiles : ∃ files, SampleFiles files := by
  obtain ⟨a, ha⟩ := oneOp_file ⟨1, 1, 0⟩
  obtain ⟨b, hb⟩ := oneOp_file ⟨1, 0, 0⟩
  obtain ⟨c, hc⟩ := oneOp_file ⟨0, 0, 1⟩
  exact ⟨fun f => if f = "r1" then some a else if f = "l" ∨ f = "s" then some b else some c,
    ⟨a, by simp, ha⟩, ⟨b, by simp, hb⟩, ⟨b, by simp, hb⟩, ⟨c, by simp, hc⟩⟩

theorem sample_orbitals (files : String → Option (List Line)) : OrbitalsAre (world files) sampleCmds space4 :=
  ⟨"orb", space4, rfl, rfl, rfl⟩

theorem sample_targets : targetsOf sampleCmds = [⟨.E, 1, .p, "out1"⟩, ⟨.Ds, 2, .total, "out2"⟩, ⟨.Dl, 1, .n, "out3"⟩,
    ⟨.Dl, 2, .total, "out4"⟩, ⟨.F, 0, .total, "out5"⟩, ⟨.GT, 1, .total, "out6"⟩] := rfl

/-- The sample meets the hypotheses of `run_succeeds`. -/
theorem sample_runs {files : String → Option (List Line)} (h : SampleFiles files) :
    ∃ out, run (world files) sampleLines = .ok out ∧ out.map Prod.fst = ["out1", "out2", "out3", "out4", "out5", "out6"] := by
  have hr : HarmonicHeld (world files) sampleCmds space4 2 (oneOp ⟨1, 1, 0⟩) := fun _ => ⟨"r1", rfl, h.r1⟩
  refine run_succeeds (W := world files) toyLib_laws rfl sample_script (sample_orbitals files) space4_built (s := 2) rfl ?_ ?_
  · intro c hc
    simp only [sampleCmds, List.mem_cons, List.not_mem_nil, or_false] at hc
    rcases hc with rfl | rfl | rfl | rfl | rfl | rfl | rfl | rfl | rfl | rfl | rfl | rfl
    · exact ⟨space4, rfl⟩
    · trivial
    · exact ⟨_, _, _, h.r1⟩
    · exact ⟨_, _, _, h.l⟩
    · exact ⟨_, _, _, h.s⟩
    · exact ⟨_, _, _, h.t⟩
    all_goals trivial
  · intro t ht
    rw [sample_targets] at ht
    simp only [List.mem_cons, List.not_mem_nil, or_false] at ht
    rcases ht with rfl | rfl | rfl | rfl | rfl | rfl
    · exact ⟨by decide, "r1", _, rfl, h.r1⟩
    · exact ⟨by decide, ⟨"s", _, rfl, h.s⟩, _, hr⟩
    · exact ⟨by decide, ⟨"l", _, rfl, h.l⟩, oneOp ⟨1, 0, 0⟩, fun h => absurd rfl h⟩
    · exact ⟨by decide, ⟨"l", _, rfl, h.l⟩, _, hr⟩
    · exact ⟨rfl, "t", _, rfl, h.t⟩
    · exact ⟨rfl, ⟨"t", _, rfl, h.t⟩, "s", _, rfl, h.s⟩

theorem carries_total {i : ℕ} (h : i < 4) : Carries .total space4 i := ⟨space4[i]'h, by simp [space4, h], trivial⟩

/-- **C133, sample.** The `E1` element between the protons `s1/2` and `p3/2` is twice that of `r`, that between neutrons is zero. -/
example : ∃ files out ls, SampleFiles files ∧ run (world files) sampleLines = .ok out ∧ out[0]? = some ("out1", ls) ∧
    ∃ O, Reads toyLib ls space4 ⟨1, 1, 0⟩ O ∧ O 0 0 1 0 = 2 ∧ O 2 0 3 0 = 0 := by
  obtain ⟨files, h⟩ := sampleFiles
  obtain ⟨out, ho, _⟩ := sample_runs h
  obtain ⟨ls, h1, h2⟩ := electric_target (W := world files) toyLib_laws rfl sample_script ho (sample_orbitals files) space4_built
    (s := 2) rfl (l := 1) (by decide) (g := "r1") rfl h.r1 (x := 0) (by rw [sample_targets]; rfl)
  refine ⟨files, out, ls, h, ho, h1, _, h2, ?_, ?_⟩
  · have hc : Carries .p space4 0 := ⟨_, rfl, rfl⟩
    have := oneOp_one (q := ⟨1, 1, 0⟩) (i := 0) (k := 1) (by decide)
    norm_num [part, hc, world, chop, this]
  · have hc : ¬ Carries .p space4 2 := by
      rintro ⟨b, hb, hs⟩
      simp only [space4, List.getElem?_cons_succ, List.getElem?_cons_zero, Option.some.injEq] at hb
      subst hb
      simp at hs
    simp [part, hc, world, chop]

theorem product_one : withHarmonic (world fun _ => none) space4 2 (oneOp ⟨1, 0, 0⟩) (oneOp ⟨1, 1, 0⟩) 0 0 1 0 ≥ 1 := by
  have hw : Within ⟨2, 1, 0⟩ space4 0 0 1 0 := ⟨_, _, rfl, rfl, by decide, by decide, by decide⟩
  have h1 := oneOp_one (q := ⟨1, 0, 0⟩) (i := 0) (k := 0) (by decide)
  have h2 := oneOp_one (q := ⟨1, 1, 0⟩) (i := 0) (k := 1) (by decide)
  have hnn : ∀ q i a k c, 0 ≤ oneOp q i a k c := fun q i a k c => by rcases oneOp_cases q i a k c with h | h <;> rw [h] <;> norm_num
  have hm : (⟨0, 0⟩ : (_ : ℕ) × ℕ) ∈ states space4 := by rw [mem_states]; exact ⟨by decide, by decide⟩
  simp only [withHarmonic]
  rw [if_neg (by decide)]
  simp only [times, world]
  rw [if_pos (show Within ⟨2, (2 - 1) % 2, 0⟩ space4 0 0 1 0 from hw)]
  norm_num only
  have := Finset.single_le_sum (f := fun t : (_ : ℕ) × ℕ => (1 : ℝ) * (oneOp ⟨1, 0, 0⟩ 0 0 t.1 t.2 * oneOp ⟨1, 1, 0⟩ t.1 t.2 1 0))
    (fun t _ => by have := mul_nonneg (hnn ⟨1, 0, 0⟩ 0 0 t.1 t.2) (hnn ⟨1, 1, 0⟩ t.1 t.2 1 0); linarith) hm
  simp only [h1, h2] at this
  linarith

/-- **C134, refuted.** A complete run in which the file of a target `Dl 2` holds zero where the operator, with the factor `2/(λ+1)`, is not. -/
theorem orbital_target_differs : ∃ (W : World Sub) (lines : List (List String)) (cmds : List Cmd) (out : List (String × List Line)) (ls : List Line)
    (sp : Space) (A R : Op), Script W.nm lines cmds ∧ OrbitalsAre W cmds sp ∧ scaleOf cmds = some 2 ∧
    (∃ f, amOfCmds cmds .orbital = some f ∧ Holds W f sp ⟨1, 0, 0⟩ A) ∧ HarmonicHeld W cmds sp 2 R ∧
    run W lines = .ok out ∧ (targetsOf cmds)[3]? = some ⟨.Dl, 2, .total, "out4"⟩ ∧ out[3]? = some ("out4", ls) ∧
    Reads W.lib ls sp ⟨2, 1, 0⟩ (fun _ _ _ _ => 0) ∧
    0 < part .total sp (magneticFactor 2 2 * (2 / (2 + 1))) (withHarmonic W sp 2 A R) 0 0 1 0 := by
  obtain ⟨files, h⟩ := sampleFiles
  obtain ⟨out, ho, _⟩ := sample_runs h
  have hr : HarmonicHeld (world files) sampleCmds space4 2 (oneOp ⟨1, 1, 0⟩) := fun _ => ⟨"r1", rfl, h.r1⟩
  obtain ⟨ls, h1, h2⟩ := orbital_target_lost (W := world files) toyLib_laws rfl sample_script ho (sample_orbitals files) space4_built
    (s := 2) rfl (l := 2) (by decide) (f := "l") rfl h.l hr (x := 3) (by rw [sample_targets]; rfl)
  refine ⟨world files, sampleLines, sampleCmds, out, ls, space4, oneOp ⟨1, 0, 0⟩, oneOp ⟨1, 1, 0⟩, sample_script, sample_orbitals files, rfl,
    ⟨"l", rfl, h.l⟩, hr, ho, by rw [sample_targets]; rfl, h1, h2, ?_⟩
  have hp : withHarmonic (world files) space4 2 (oneOp ⟨1, 0, 0⟩) (oneOp ⟨1, 1, 0⟩) 0 0 1 0 ≥ 1 := product_one
  simp only [part, carries_total (show 0 < 4 by decide), if_true]
  have hm : 0 < magneticFactor 2 2 := by
    unfold magneticFactor
    refine mul_pos (zpow_pos (by norm_num) _) (Real.sqrt_pos.mpr ?_)
    norm_num
  positivity

/-- **C134, sample.** The hypotheses of `magnetic_target_partial` are met by `Ds 2` and by `Dl 1`. -/
example : ∃ files out ls ls', SampleFiles files ∧ run (world files) sampleLines = .ok out ∧ out[1]? = some ("out2", ls) ∧
    out[2]? = some ("out3", ls') ∧
    Stores (world files) ls space4 ⟨2, 1, 0⟩ (part .total space4 (magneticFactor 2 2 * 1)
      (withHarmonic (world files) space4 2 (oneOp ⟨1, 0, 0⟩) (oneOp ⟨1, 1, 0⟩))) ∧
    Stores (world files) ls' space4 ⟨1, 0, 0⟩ (part .n space4 (magneticFactor 2 1 * 1) fun i a k c => 1 / 2 * oneOp ⟨1, 0, 0⟩ i a k c) := by
  obtain ⟨files, h⟩ := sampleFiles
  obtain ⟨out, ho, _⟩ := sample_runs h
  have hr : HarmonicHeld (world files) sampleCmds space4 2 (oneOp ⟨1, 1, 0⟩) := fun _ => ⟨"r1", rfl, h.r1⟩
  obtain ⟨ls, h1, h2⟩ := magnetic_target_partial (W := world files) toyLib_laws rfl sample_script ho (sample_orbitals files) space4_built
    (s := 2) rfl (kind := .Ds) (am := .spin) rfl (l := 2) (by decide) (by simp) (f := "s") rfl h.s hr (x := 1) (by rw [sample_targets]; rfl)
  obtain ⟨ls', h1', h2'⟩ := magnetic_target_partial (W := world files) toyLib_laws rfl sample_script ho (sample_orbitals files) space4_built
    (s := 2) rfl (kind := .Dl) (am := .orbital) rfl (l := 1) (by decide) (by simp) (f := "l") rfl h.l (R := oneOp ⟨1, 0, 0⟩)
    (fun h => absurd rfl h) (x := 2) (by rw [sample_targets]; rfl)
  refine ⟨files, out, ls, ls', h, ho, h1, h1', ?_, ?_⟩
  · rw [if_neg (by decide)] at h2
    exact h2
  · have e : (magneticFactor 2 1 * if Kind.Dl = .Dl then 2 / (((1 : Int) : ℝ) + 1) else 1) = magneticFactor 2 1 * 1 := by norm_num
    rw [e] at h2'
    exact h2'

/-- **C135, sample.** The weak targets. -/
example : ∃ files out ls ls', SampleFiles files ∧ run (world files) sampleLines = .ok out ∧ out[4]? = some ("out5", ls) ∧
    out[5]? = some ("out6", ls') ∧ Stores (world files) ls space4 ⟨0, 0, 1⟩ (oneOp ⟨0, 0, 1⟩) ∧
    Stores (world files) ls' space4 ⟨1, 0, 1⟩ (times (fun _ _ _ _ _ _ => 1) space4 ⟨1, 0, 0⟩ (oneOp ⟨1, 0, 0⟩) ⟨0, 0, 1⟩ (oneOp ⟨0, 0, 1⟩)
      ⟨1, 0, 1⟩) := by
  obtain ⟨files, h⟩ := sampleFiles
  obtain ⟨out, ho, _⟩ := sample_runs h
  obtain ⟨ls, h1, h2⟩ := fermi_target (W := world files) toyLib_laws rfl sample_script ho (sample_orbitals files) space4_built
    (f := "t") rfl h.t (x := 4) (by rw [sample_targets]; rfl)
  obtain ⟨ls', h1', h2'⟩ := gamow_teller_target (W := world files) toyLib_laws rfl sample_script ho (sample_orbitals files) space4_built
    (f := "t") rfl h.t (g := "s") rfl h.s (x := 5) (by rw [sample_targets]; rfl)
  exact ⟨files, out, ls, ls', h, ho, h1, h1', h2, h2'⟩

example : (oneOp ⟨0, 0, 1⟩) 0 0 2 0 = 1 := oneOp_one (by decide)

/-! ## The tensor character of a source is not looked at -/

/-- A control file with one electric target. -/
def charLines : List (List String) :=
  [["set-indexing", "orb"], ["set-basis-scale-factor", "2.0"], ["define-radial-source", "r", "1", "r1"], ["define-em-target", "E", "1", "total", "out"]]

/-- Its commands. -/
noncomputable def charCmds : List Cmd :=
  [.indexing "orb", .scale 2, .radial .r 1 "r1", .target ⟨.E, 1, .total, "out"⟩]

theorem char_script : Script nm charLines charCmds :=
  .cons (.indexing _ _) (.cons (.scale _ (by simp [nm])) (.cons (.radial _ _ .r (by simp [nm])) (.cons (.em _ _ .e (by simp [nm]) .total) .nil)))

theorem scalar4 : (allSectors ⟨0, 0, 0⟩ space4 space4).pairs = [(0, 0), (1, 1), (2, 2), (3, 3)] := by decide

theorem dipole4 : (allSectors ⟨1, 1, 0⟩ space4 space4).pairs = [(0, 1), (1, 0), (2, 3), (3, 2)] := by decide

/-- **C136, refuted for the tensor character.** A control file names, as source of `r`, a file that holds a scalar operator; the run succeeds, and
the elements of the scalar, which connect each state with itself, are stored as elements of `E1` between states of opposite parity. -/
theorem character_unchecked : ∃ (W : World Sub) (lines : List (List String)) (cmds : List Cmd) (ls : List Line) (sp : Space) (O O' : Op),
    Script W.nm lines cmds ∧ OrbitalsAre W cmds sp ∧ radialOf cmds .r 1 = some "r1" ∧ Holds W "r1" sp ⟨0, 0, 0⟩ O ∧
    targetsOf cmds = [⟨.E, 1, .total, "out"⟩] ∧ run W lines = .ok [("out", ls)] ∧ Reads W.lib ls sp ⟨1, 1, 0⟩ O' ∧
    O 0 0 0 0 = 1 ∧ O 0 0 1 0 = 0 ∧ O' 0 0 1 0 = 2 := by
  obtain ⟨a, ha⟩ := oneOp_file ⟨0, 0, 0⟩
  have hH : Holds (world fun _ => some a) "r1" space4 ⟨0, 0, 0⟩ (oneOp ⟨0, 0, 0⟩) := ⟨a, rfl, ha⟩
  obtain ⟨mats, o1, o2, o3⟩ := openData_holds hH
  have horb : OrbitalsAre (world fun _ => some a) charCmds space4 := ⟨"orb", space4, rfl, rfl, rfl⟩
  obtain ⟨cfg, h1⟩ := fold_ok (W := world fun _ => some a) charCmds {} (by
    intro c hc
    simp only [charCmds, List.mem_cons, List.not_mem_nil, or_false] at hc
    rcases hc with rfl | rfl | rfl | rfl
    · exact ⟨space4, rfl⟩
    · trivial
    · exact ⟨_, _, _, hH⟩
    · trivial)
  have hd := describes _ charCmds h1
  have hsp := space_eq hd horb
  obtain ⟨mats', l1, l2, l3⟩ := look_ok hsp (hd.radial .r 1) (f := "r1") rfl hH
  have hlen : mats'.length = 4 := by rw [l2.length, scalar4]; rfl
  have hone : ∀ m ∈ mats', m.rows = 1 ∧ m.cols = 1 := by
    intro m hm
    obtain ⟨x, hx⟩ := List.mem_iff_getElem?.mp hm
    obtain ⟨hx', _⟩ := List.getElem?_eq_some_iff.mp hx
    have hp : ∃ p, (allSectors ⟨0, 0, 0⟩ space4 space4).pairs[x]? = some p :=
      ⟨_, List.getElem?_eq_getElem (by rw [← l2.length]; exact hx')⟩
    obtain ⟨⟨i, k⟩, hp⟩ := hp
    have h4 := pair4 (List.mem_of_getElem? hp)
    obtain ⟨e1, e2⟩ := l2.size x i k m hp hx
    rw [e1, e2, dim4 h4.1, dim4 h4.2]
    exact ⟨rfl, rfl⟩
  have hfit : Fits (allSectors ⟨1, 1, 0⟩ space4 space4) mats' space4 space4 := fits4 (by rw [hlen, dipole4]; rfl) hone
  obtain ⟨m2, f1, f2, f3⟩ := part_ok (q := ⟨1, 1, 0⟩) rfl (prefactorE_ok (cfg := cfg) (t := ⟨.E, 1, .total, "out"⟩) (s := 2) hd.scale) hfit
    (O := elem (allSectors ⟨1, 1, 0⟩ space4 space4) mats') fun _ _ _ _ => rfl
  obtain ⟨ls, w1, w2⟩ := write_stores (W := world fun _ => some a) toyLib_laws rfl space4_built f2 f3
  refine ⟨world fun _ => some a, charLines, charCmds, ls, space4, oneOp ⟨0, 0, 0⟩, _, char_script, horb, rfl, hH, rfl, ?_, w2, ?_, ?_, ?_⟩
  · have hg : generate (world fun _ => some a) cfg ⟨.E, 1, .total, "out"⟩ = .ok ("out", ls) := by
      have : Int.tmod 1 2 = 1 := rfl
      simp only [generate, generateE, this, l1, Except.ok_bind', hsp, f1, w1, Except.pure_ok]
    unfold run readParameters
    rw [fold_script _ _ char_script, h1, Except.ok_bind', hd.targets]
    simp only [charCmds, targetsOf, List.filterMap_cons, List.filterMap_nil, List.mapM_cons, List.mapM_nil, hg, Except.ok_bind', Except.pure_ok]
  · exact oneOp_one (by decide)
  · exact elem_absent (by decide) _ _
  · have hx : ([(0, 0), (1, 1), (2, 2), (3, 3)] : List (ℕ × ℕ)).idxOf? (0, 0) = some 0 := by decide
    have hy : ([(0, 1), (1, 0), (2, 3), (3, 2)] : List (ℕ × ℕ)).idxOf? (0, 1) = some 0 := by decide
    have e : elem (allSectors ⟨1, 1, 0⟩ space4 space4) mats' 0 0 1 0 = 1 := by
      have h00 : elem (allSectors ⟨0, 0, 0⟩ space4 space4) mats' 0 0 0 0 = 1 := (l3 0 0 0 0).trans (oneOp_one (by decide))
      unfold elem at h00 ⊢
      rw [scalar4, hx] at h00
      rw [dipole4, hy]
      exact h00
    norm_num [part, carries_total (show 0 < 4 by decide), world, chop, e]

/-- The hypotheses of `scale_unset` are met. -/
example : ∃ files, SampleFiles files ∧ run (world files)
    [["set-indexing", "orb"], ["define-radial-source", "r", "1", "r1"], ["define-em-target", "E", "1", "p", "out"]] = .error .undefinedBehaviour := by
  obtain ⟨files, h⟩ := sampleFiles
  refine ⟨files, h, ?_⟩
  refine scale_unset (W := world files) (cmds := [.indexing "orb", .radial .r 1 "r1", .target ⟨.E, 1, .p, "out"⟩]) (sp := space4) (ts := [])
    (.cons (.indexing _ _) (.cons (.radial _ _ .r (by simp [world, nm])) (.cons (.em _ _ .e (by simp [world, nm]) .p) .nil)))
    ⟨"orb", space4, rfl, rfl, rfl⟩ rfl ?_ rfl ⟨by decide, "r1", _, rfl, h.r1⟩ (by decide)
  intro c hc
  simp only [List.mem_cons, List.not_mem_nil, or_false] at hc
  rcases hc with rfl | rfl | rfl
  · exact ⟨space4, rfl⟩
  · exact ⟨_, _, _, h.r1⟩
  · trivial

end Verif.Obme.EwGen
