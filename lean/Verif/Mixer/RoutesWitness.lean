import Verif.Mixer.Routes
import Verif.Mixer.Denote2Witness
import Verif.Moshinsky.NucleonGenExample

/-!
# The mean square distance by two routes

A run of `relative-gen`, one of `moshinsky` and one of `h2mixer` for which all hypotheses of C178 are met.
-/

namespace Verif.Mixer.Control.Ex3
open Verif Verif.Mapping Verif.Xform Verif.Obme Verif.Separable Verif.Mixer Verif.SU2 Verif.Mixer.Control Verif.Mixer.Control.Ex Verif.Mixer.Control.Ex2
open Verif.Moshinsky (numbersC rsqrControl rsqr_request afterGen controlC paramsC scalarDesc fileFrom)
open Verif.Moshinsky.Program (pnLib pnSpace pnSectors StateOK SectorOK oscLabels)
open Verif.H2 hiding Mat Subspace Orb
open scoped TensorProduct

/-! ## The run of `h2mixer` -/

/-- The ratio of the square root of two to the literal of the program. -/
noncomputable def ratio : ℝ := √2 / Verif.Osc.kSqrt2

theorem ratio_ne : ratio ≠ 0 := by
  unfold ratio Verif.Osc.kSqrt2
  positivity

/-- The numbers of the control file; `w` stands for the decimal number of the weight of the product. -/
noncomputable def numbers3 : Numbers where
  int? s := if s = "0" then some 0 else if s = "1" then some 1 else if s = "2" then some 2 else none
  num? s := if s = "1" then some 1 else if s = "w" then some (2 * √3 / ratio ^ 2) else none

noncomputable def setup3 : Setup := { setup2 with nm := numbers3 }

/-- The files of `obmixer`. -/
noncomputable def disk3 (rr r : ObData) : Disk where
  h2 _ := .error .streamFail
  obme f := if f = "rr.dat" then .ok (⟨none, rr.space, rr.space, rr.secs⟩, rr.mats) else if f = "r.dat" then .ok (⟨none, r.space, r.space, r.secs⟩, r.mats) else .error .streamFail
  orbitals _ := .error .streamFail

def lines3 : List CLine :=
  [⟨["set-mass", "2"], false⟩, ⟨["define-ob-source", "input", "R2", "rr.dat", "0", "0", "0"], false⟩, ⟨["define-ob-source", "input", "R", "r.dat", "1", "1", "0"], false⟩,
   ⟨["define-tb-source", "operatorU", "U", "R2"], false⟩, ⟨["define-tb-source", "operatorV", "V", "R", "R"], false⟩,
   ⟨["define-target", "rsqr.bin"], false⟩, ⟨["add-source", "U", "1"], false⟩, ⟨["add-source", "V", "w"], false⟩]

noncomputable def cmds3 : List Cmd :=
  [.mass 2, .ob (.input "R2" "rr.dat" ⟨0, 0, 0⟩), .ob (.input "R" "r.dat" ⟨1, 1, 0⟩), .tb (.opU "U" "R2"), .tb (.opV "V" "R" "R" 1), .target "rsqr.bin", .add "U" 1,
   .add "V" (2 * √3 / ratio ^ 2)]

theorem parse3 : lines3.mapM (parse setup3.nm) = .ok cmds3 := by
  simp [lines3, cmds3, setup3, numbers3, parse, parseXf, parseTb, parseOb, parseTerm, optWord, optNum, atEnd, obNames, tbNames, weights, word, num, int, Except.ok_bind', Except.pure_ok]

noncomputable def cfg3 : Config :=
  { A := some 2, ob := [.input "R2" "rr.dat" ⟨0, 0, 0⟩, .input "R" "r.dat" ⟨1, 1, 0⟩],
    tb := [.opU "U" "R2", .opV "V" "R" "R" 1],
    targets := [("rsqr.bin", [("U", 1), ("V", 2 * √3 / ratio ^ 2)])] }

theorem read3 : read setup3.nm lines3 = .ok cfg3 := by
  rw [read_ok]
  exact ⟨cmds3, parse3, rfl⟩

/-- What `obmixer` has written. -/
structure Made (id : String) (qn : QN) (d : ObData) : Prop where
  space : d.space = orbs
  qn : d.secs.qn = qn
  good : GoodOb d
  means : d.Means form1 nucleon (kinematicOperator 1 id)

/-- The run of `obmixer`. -/
noncomputable def env3 : ObEnv := { obEnvOf setup3 orbs [] with prog := .obmixer }

theorem made_rr : ∃ d, generatedOb env3 "r.r" (.radial .r 2) ⟨0, 0, 0⟩ none = .ok d ∧ Made "r.r" ⟨0, 0, 0⟩ d := by
  obtain ⟨d, h1, h2, h3, h4⟩ := generated_means (env := env3) (space := none) rfl rfl orbs_good orbs_good (by simp) (id := "r.r") (by simp) rfl
  exact ⟨d, h1, h2, generated_character h1, h3, h4⟩

theorem made_r : ∃ d, generatedOb env3 "r" (.radial .r 1) ⟨1, 1, 0⟩ none = .ok d ∧ Made "r" ⟨1, 1, 0⟩ d := by
  obtain ⟨d, h1, h2, h3, h4⟩ := generated_means (env := env3) (space := none) rfl rfl orbs_good orbs_good (by simp) (id := "r") (by simp) rfl
  exact ⟨d, h1, h2, generated_character h1, h3, h4⟩

section
variable {rr r : ObData} (hrr : Made "r.r" ⟨0, 0, 0⟩ rr) (hr : Made "r" ⟨1, 1, 0⟩ r)
include hrr hr

theorem sources3 : SourcesOK (disk3 rr r) cfg3.xforms cfg3.ob where
  orbitals := by intro file s h; cases h
  xform := by
    intro id file f x h1 h2 h3
    cases h1
  input := by
    intro id file qn f h1 h2
    simp only [disk3] at h2
    split_ifs at h2
    · cases h2
      exact ⟨rfl, hrr.good⟩
    · cases h2
      exact ⟨rfl, hr.good⟩
  order := by simp [cfg3]

theorem denotes_rr : Denotes (disk3 rr r) orbs 1 cfg3.xforms cfg3.ob "R2" ⟨0, 0, 0⟩ orbs nucleon (kinematicOperator 1 "r.r") := by
  have := Denotes.input (disk := disk3 rr r) (target := orbs) (len := 1) (xforms := cfg3.xforms) (decls := cfg3.ob) (id := "R2") (file := "rr.dat") (qn := ⟨0, 0, 0⟩)
    (f := (⟨none, rr.space, rr.space, rr.secs⟩, rr.mats)) (st := nucleon) (by simp [cfg3]) (by simp [disk3]) (by decide) hrr.means
  rwa [show (Header.ket _ : Space) = orbs from hrr.space] at this

theorem denotes_r : Denotes (disk3 rr r) orbs 1 cfg3.xforms cfg3.ob "R" ⟨1, 1, 0⟩ orbs nucleon (kinematicOperator 1 "r") := by
  have := Denotes.input (disk := disk3 rr r) (target := orbs) (len := 1) (xforms := cfg3.xforms) (decls := cfg3.ob) (id := "R") (file := "r.dat") (qn := ⟨1, 1, 0⟩)
    (f := (⟨none, r.space, r.space, r.secs⟩, r.mats)) (st := nucleon) (by simp [cfg3]) (by simp [disk3]) (by decide) hr.means
  rwa [show (Header.ket _ : Space) = orbs from hr.space] at this

end

noncomputable def scene3 (rr r : ObData) : Scene :=
  ⟨disk3 rr r, setup3.pre, Mixer.Ex.pTarget, orbs, cfg3.xforms, cfg3.ob, cfg3.tb, cfg3.qn, cfg3.A, nucleon⟩

/-- What the names of the two-body sources mean. -/
noncomputable def op3 (id : String) (q : ℤ) : Op2 :=
  if id = "U" then (1 / (((2 : ℤ) : ℝ) - 1)) • onBoth (kinematicOperator 1 "r.r" q)
  else (1 : ℝ) • onEach 1 1 0 (kinematicOperator 1 "r") (kinematicOperator 1 "r") q

section
variable {rr r : ObData} (hrr : Made "r.r" ⟨0, 0, 0⟩ rr) (hr : Made "r" ⟨1, 1, 0⟩ r)
include hrr hr

theorem denotes_U : Denotes2 (scene3 rr r) "U" (op3 "U") :=
  .upgrade (ob := "R2") (s := orbs) (a := 2) (by simp [scene3, cfg3]) (denotes_rr hrr hr) (nucleon_orthonormal orbs_physical) available rfl (by decide) (by decide)

theorem denotes_V : Denotes2 (scene3 rr r) "V" (op3 "V") :=
  .product (qx := ⟨1, 1, 0⟩) (qy := ⟨1, 1, 0⟩) (x := "R") (y := "R") (s := orbs) (by simp [scene3, cfg3]) (denotes_r hrr hr) (denotes_r hrr hr) available
    (by show |(1 : ℤ) - 1| ≤ 0 ∧ (0 : ℤ) ≤ 1 + 1; decide) (by show (2 : ℤ) ∣ 1 + 1 + 0; decide) rfl

end

/-- The sources add up to the square of the distance. -/
theorem terms3 : ∀ q ∈ projs (2 * 0), ([("U", (1 : ℝ)), ("V", 2 * √3 / ratio ^ 2)].map fun x => x.2 • op3 x.1 q).sum = distance2 := by
  intro q hq
  obtain rfl : q = 0 := by
    rw [mem_projs] at hq
    omega
  have e1 : kinematicOperator 1 "r.r" 0 = square pos1 := by
    have : kinematicOperator 1 "r.r" 0 = square fun q => (1 : ℝ) • onMotion1 (position1 (q / 2)) := rfl
    rw [this]
    simp only [one_smul]
    rfl
  have e2 : ∀ u, kinematicOperator 1 "r" u = ratio • pos1 u := by
    intro u
    simp [kinematicOperator, pos1, ratio]
  have e3 : onEach 1 1 0 (kinematicOperator 1 "r") (kinematicOperator 1 "r") 0 = ratio ^ 2 • onEach 1 1 0 pos1 pos1 0 := by
    unfold onEach
    simp only [Finset.smul_sum, e2, TensorProduct.map_smul_left, TensorProduct.map_smul_right, smul_smul]
    exact Finset.sum_congr rfl fun u _ => Finset.sum_congr rfl fun v _ => by congr 1; ring
  simp only [List.map_cons, List.map_nil, List.sum_cons, List.sum_nil, op3, if_true, e1, e3, distance2, if_neg (by decide : ¬ "V" = "U"), smul_smul, add_zero]
  have := ratio_ne
  congr 1
  · norm_num
  · congr 1
    field_simp

theorem ends3 {rr r : ObData} (hrr : Made "r.r" ⟨0, 0, 0⟩ rr) (hr : Made "r" ⟨1, 1, 0⟩ r) : ∃ out, h2mixer setup3 (disk3 rr r) lines3 = .ok out := by
  have hob : cfg3.ob.mapM (openOb (disk3 rr r)) = .ok [⟨"R2", .input (⟨none, rr.space, rr.space, rr.secs⟩, rr.mats) ⟨0, 0, 0⟩⟩,
    ⟨"R", .input (⟨none, r.space, r.space, r.secs⟩, r.mats) ⟨1, 1, 0⟩⟩] := by rfl
  have v : ∀ {d : ObData} {id : String} {qn : QN} (m : ObMap), d.secs.qn = qn →
      valueOf (obEnvOf setup3 orbs []) m ⟨id, .input (⟨none, d.space, d.space, d.secs⟩, d.mats) qn⟩ = .ok (some d) := by
    rintro d id qn m rfl
    simp [valueOf, readOb, assertE, Except.ok_bind', Except.pure_ok]
  have hm : buildOb (obEnvOf setup3 orbs []) [⟨"R2", .input (⟨none, rr.space, rr.space, rr.secs⟩, rr.mats) ⟨0, 0, 0⟩⟩,
      ⟨"R", .input (⟨none, r.space, r.space, r.secs⟩, r.mats) ⟨1, 1, 0⟩⟩] = .ok (setOb (setOb (fun _ => none) "R2" (some rr)) "R" (some r)) :=
    build_snoc (chans := [_]) (build_snoc (chans := []) rfl rfl (v _ hrr.qn)) (by simp [setOb]) (v _ hr.qn)
  have hch : cfg3.tb.mapM (openTb setup3 (disk3 rr r) cfg3.qn) = .ok [⟨"U", .opU "R2"⟩, ⟨"V", .opV "R" "R" 1⟩] := by rfl
  refine h2mixer_ends (setup := setup3) rfl rfl rfl rfl read3 (target := Mixer.Ex.pTarget) (space := orbs) rfl Mixer.Ex.pTarget_ok orbs_good le_rfl
    target_triangles (sources3 hrr hr) (by decide) nucleon (by decide) (by decide) rfl hob hm hch ?_
  intro d hd
  simp only [cfg3, List.mem_cons, List.not_mem_nil, or_false] at hd
  rcases hd with rfl | rfl
  · exact ⟨_, denotes_U hrr hr⟩
  · exact ⟨_, denotes_V hrr hr⟩

/-! ## The state in the file of `moshinsky` -/

theorem state3 : Moshinsky.Program.pairOf scalarDesc.orbs .pp ⟨2, 2⟩ = ((1, 3), (1, 3)) := by
  decide +kernel

/-- The state of two protons in `0p3/2`. -/
theorem sector3 : ∃ (k : ℕ) (s : H2.Sector) (i : ℕ), (scalarDesc.index pnLib).sectors[k]? = some s ∧ s.bra = s.ket ∧ s.bra.species = .pp ∧ s.bra.J = 0 ∧ s.bra.states[i]? = some ⟨2, 2⟩ := by
  let ss := H2.Desc.subspaces pnLib scalarDesc
  have hsub : ∃ b ∈ ss, b.species = .pp ∧ b.J = 0 ∧ b.g = 0 ∧ (⟨2, 2⟩ : H2.State) ∈ b.states := by
    refine ⟨_, List.mem_map.mpr ⟨(.pp, 0, 0), ?_, rfl⟩, rfl, rfl, rfl, ?_⟩
    · refine List.mem_product.mpr ⟨by simp, List.mem_product.mpr ⟨?_, by simp⟩⟩
      rw [List.mem_range]
      decide +kernel
    · refine List.mem_map.mpr ⟨(2, 2), Moshinsky.mem_having.mpr ⟨?_, ?_⟩, rfl⟩
      · refine List.mem_product.mpr ⟨?_, ?_⟩ <;> (rw [List.mem_range]; decide +kernel)
      · unfold StateOK
        simp only [state3]
        refine ⟨?_, ?_, ?_, ?_⟩
        · show ((1 + 1 : ℕ) : ℝ) ≤ 2
          norm_num
        · decide
        · decide
        · decide
  obtain ⟨b, hb, h1, h2, h3, h4⟩ := hsub
  obtain ⟨n, hn⟩ := List.mem_iff_getElem?.mp hb
  have hz : (b, n) ∈ ss.zipIdx := List.mem_zipIdx_iff_getElem?.mpr hn
  have hs : (⟨n, n, b, b⟩ : H2.Sector) ∈ (scalarDesc.index pnLib).sectors := by
    refine List.mem_map.mpr ⟨((b, n), (b, n)), Moshinsky.mem_having.mpr ⟨List.mem_product.mpr ⟨hz, hz⟩, ?_⟩, rfl⟩
    refine ⟨le_rfl, ?_, ?_, ?_⟩
    · simp [scalarDesc]
    · simp [h3, scalarDesc]
    · simp [scalarDesc]
  obtain ⟨k, hk⟩ := List.mem_iff_getElem?.mp hs
  obtain ⟨i, hi⟩ := List.mem_iff_getElem?.mp h4
  exact ⟨k, _, i, hk, rfl, h1, h2, hi⟩

theorem same3 {s : H2.Sector} {x : H2.Subspace} (hx : x = s.bra) (h1 : s.bra.species = .pp) (h2 : s.bra.J = 0) :
    SameState scalarDesc.orbs x ⟨2, 2⟩ sub Mapping.Ex.p3 Mapping.Ex.p3 := by
  subst hx
  have e : Moshinsky.Program.pairOf scalarDesc.orbs s.bra.species ⟨2, 2⟩ = ((1, 3), (1, 3)) := by rw [h1]; exact state3
  exact ⟨by rw [h1]; rfl, by rw [h2]; rfl, by rw [e]; rfl, by rw [e]; rfl, .inl rfl, .inl rfl⟩

/-- The hypotheses of `routes_agree` are met: the mean square distance of two protons in `0p3/2` by both routes. -/
theorem rsqr_routes (hf : H2.HeaderFloat) {lib : Relative.Gen.Lib} (hlib : lib.am = Relative.amD) :
    ∃ gout rr r file mixed, Relative.Gen.run numbersC lib rsqrControl = .ok gout ∧
      Moshinsky.Program.run (afterGen hf gout) controlC = .ok (.h2 "op.bin" file) ∧
      generatedOb env3 "r.r" (.radial .r 2) ⟨0, 0, 0⟩ none = .ok rr ∧ generatedOb env3 "r" (.radial .r 1) ⟨1, 1, 0⟩ none = .ok r ∧
      h2mixer setup3 (disk3 rr r) lines3 = .ok mixed ∧
      ∃ k s i start m st Ms M, (scalarDesc.index pnLib).sectors[k]? = some s ∧ s.bra.species = .pp ∧ s.bra.J = 0 ∧ s.bra.states[i]? = some ⟨2, 2⟩ ∧
      H2.openIn pnLib hf .binary file = .ok (.v0, scalarDesc, start) ∧
      H2.readHistory ⟨hf.fm, .v0, .binary, scalarDesc.index pnLib⟩ file [k] (H2.InState.init start) = .ok ([m], st) ∧
      mixed[0]? = some ("rsqr.bin", Ms) ∧ Ms[0]? = some M ∧
      m.val i i = hf.fm.ofF32 (hf.fm.toF32 (if |M.val 0 0| < 1e-14 * (H2.pairNorm s.bra.species ⟨2, 2⟩ * H2.pairNorm s.ket.species ⟨2, 2⟩) then 0 else M.val 0 0)) := by
  have hlab : Relative.SqrLabels ⟨0, 0, 0, 0⟩ 0 := by unfold Relative.SqrLabels; decide
  have hlaws : Relative.Gen.SpaceLaws Relative.cgD lib.am Relative.harmD Relative.unitD 2 := hlib ▸ Relative.space_laws 2
  obtain ⟨gout, file, hrun, ho, -⟩ := Moshinsky.rsqr_file hf hlib
  obtain ⟨rr, hrr, mrr⟩ := made_rr
  obtain ⟨r, hr, mr⟩ := made_r
  obtain ⟨mixed, hm⟩ := ends3 mrr mr
  obtain ⟨gout', hrun', hfile, h⟩ := routes_agree (w := afterGen hf gout) (ctl := controlC) (p := paramsC) (f := fileFrom gout) hlaws rsqr_request .rsqr hlab
    (MT0 := 0) (by decide) .rsqr
  obtain rfl : gout = gout' := Except.ok.inj (hrun.symm.trans hrun')
  have hrel : (afterGen hf gout).rel? paramsC.input = some (fileFrom gout) := if_pos hfile.symm
  obtain ⟨file', Ms, e1, e2, e3⟩ := h (Moshinsky.wrote_from gout) (Moshinsky.coefficients_envC _) rfl (fun T0 => Moshinsky.swapLaw_envC _ T0) Moshinsky.asksC (by decide) rfl rfl hrel
    (Moshinsky.worldC_spaces hf numbersC _ _ (Moshinsky.Program.truncOf paramsC)) (by decide) (le_refl 2)
    (fun fmt _ => Moshinsky.Program.pnLib_basis rfl paramsC _ _ fmt (by decide))
    (fmt := .v0) (mode := .binary) rfl (by decide) (by decide)
    (d := scalarDesc) rfl (Moshinsky.scalar_expressible hf _) Moshinsky.scalar_wf id (by simp) (fun _ => rfl) ho
    (setup := setup3) rfl rfl rfl rfl read3 hm (target := Mixer.Ex.pTarget) (space := orbs) rfl Mixer.Ex.pTarget_ok orbs_good rfl target_triangles
    (sources3 mrr mr) (by decide) (t := 0) rfl (op := op3) (by
      intro x hx
      simp only [List.mem_cons, List.not_mem_nil, or_false] at hx
      rcases hx with rfl | rfl
      · exact denotes_U mrr mr
      · exact denotes_V mrr mr) terms3
  obtain rfl : file = file' := by
    injection e1
  obtain ⟨k, s, i, hk, hs, h1, h2, hi⟩ := sector3
  obtain ⟨start, m, st, M, q1, q2, q3, q4⟩ := e3 k s hk (by rw [hs, sub_self]) 0 _ _ _ the_sector
  obtain ⟨e, v1, v2⟩ := q4 i i ⟨2, 2⟩ ⟨2, 2⟩ hi (hs ▸ hi) (fun _ => le_rfl) 0 0 (0, 0) (0, 0) Mapping.Ex.p3 Mapping.Ex.p3 Mapping.Ex.p3 Mapping.Ex.p3 rfl rfl ⟨rfl, rfl⟩ ⟨rfl, rfl⟩
    (same3 rfl h1 h2) (same3 hs.symm h1 h2)
  have : M.val 0 0 = e := v2.2 (abs_nonneg _)
  refine ⟨gout, rr, r, file, mixed, hrun, ho, hrr, hr, hm, k, s, i, start, m, st, Ms, M, hk, h1, h2, hi, q1, q2, e2, q3, ?_⟩
  rw [this]
  exact v1

end Verif.Mixer.Control.Ex3
