import Verif.Obme.RadialGenLemmas
import Verif.Obme.EwProps

/-! # Properties of `radial-gen` -/

namespace Verif.Obme.RadialGen
open Verif Verif.Mapping Verif.Xform Verif.Obme MeasureTheory Set
open Verif.H2 hiding Mat
open Verif.Mixer (mapM_ok_iff)
open Verif.Mixer.Control (Coord Numbers)

variable {Orb : Type}

/-! ## From the control file to the files written -/

theorem run_parts {W : World Orb} {lines : List (List String)} {cmds : List Cmd} (script : Script W.nm lines cmds)
    {files : List (String × List Line)} (ok : run W lines = .ok files) :
    List.Forall₂ (fun p b => build W p = .ok b) (listOf (.oscillator, "orbitals.dat") cmds) files := by
  unfold run readParameters at ok
  rw [Except.bind_eq_ok] at ok
  obtain ⟨s, h1, h2⟩ := ok
  rw [fold_script script] at h1
  have ht := fold_targets h1
  simp only [List.nil_append] at ht
  rwa [mapM_ok_iff, ht] at h2

theorem basisAt_known {W : World Orb} {lines : List (List String)} {cmds : List Cmd} (script : Script W.nm lines cmds) (y : ℕ) :
    (basisAt cmds y).1 ≠ .generic := by
  have hc : ∀ b f, Cmd.basis b f ∈ cmds → b ≠ .generic := by
    intro b f hm
    unfold Script at script
    have key : ∀ (ls : List (List String)) (cs : List Cmd), List.Forall₂ (Says W.nm) ls cs → Cmd.basis b f ∈ cs → b ≠ .generic := by
      intro ls cs h
      induction h with
      | nil => intro h; simp at h
      | cons h _ ih =>
        intro hm
        rcases List.mem_cons.1 hm with rfl | hm
        · cases h with
          | basis _ _ h => cases h <;> simp
        · exact ih hm
    exact key _ _ script hm
  unfold basisAt
  generalize hl : ((cmds.take y).filterMap fun
    | .basis b f => some (b, f)
    | .target .. => none).getLast? = o
  cases o with
  | none => simp
  | some p =>
    have hm := List.mem_of_getLast? hl
    rw [List.mem_filterMap] at hm
    obtain ⟨c, hc1, hc2⟩ := hm
    cases c with
    | basis b f =>
      simp only [Option.some.injEq] at hc2
      subst hc2
      exact hc _ _ (List.mem_of_mem_take hc1)
    | target w out => simp at hc2

theorem file_at {W : World Orb} {lines : List (List String)} {cmds : List Cmd} (script : Script W.nm lines cmds)
    {files : List (String × List Line)} (ok : run W lines = .ok files) {y : ℕ} {w : What} {out : String}
    (hy : cmds[y]? = some (.target w out)) :
    ∃ b, build W (paramsFor (basisAt cmds y) w out) = .ok b ∧ files[place cmds y]? = some b := by
  have h := listOf_at (.oscillator, "orbitals.dat") hy
  obtain ⟨b, h1, h2⟩ := forall₂_getElem? (run_parts script ok) h
  exact ⟨b, h2, h1⟩

theorem open_ok {W : World Orb} {f : String} {sp : Space} (h : Orbitals W f sp) : openOrbitals W f = .ok sp := by
  obtain ⟨os, h1, h2, _⟩ := h
  simp [openOrbitals, h1, Except.map, h2]

/-- Building a target whose blocks are known. -/
theorem build_stores {W : World Orb} (laws : LibLaws W.lib) (h0 : W.rnd 0 = 0) {p : Params} {d : Body} (hd : p.body = some d) {bra ket : Space}
    (hb : Orbitals W p.braFile bra) (hk : Orbitals W p.ketFile ket) {mats : List Mat}
    (hc : construct W p d bra ket (allSectors d.q bra ket) = .ok mats) (hf : Fits (allSectors d.q bra ket) mats bra ket) {O : EwGen.Op}
    (he : ∀ i a k c, elem (allSectors d.q bra ket) mats i a k c = O i a k c) :
    ∃ ls, build W p = .ok (p.out, ls) ∧ Stores W ls (fileType d.mode) bra ket d.q O := by
  obtain ⟨ls, w1, w2⟩ := write_ok laws h0 hb.choose_spec.2.2.1 hk.choose_spec.2.2.1 hf he (fileType d.mode)
  refine ⟨ls, ?_, w2⟩
  simp only [build, open_ok hb, open_ok hk, Except.ok_bind', hd, hc, w1, Except.pure_ok]

/-- Targets that are generated from radial integrals. -/
def What.integral : What → Prop
  | .identity | .position | .momentum | .positionSqr | .momentumSqr | .radial .. => True
  | .harmonic _ l => 0 ≤ l
  | _ => False

theorem build_integral {W : World Orb} (laws : LibLaws W.lib) (h0 : W.rnd 0 = 0) {b : BasisType × String} (hbt : b.1 ≠ .generic) {w : What}
    (hw : w.integral) {sp : Space} (ho : Orbitals W b.2 sp) (out : String) :
    ∃ ls, build W (paramsFor b w out) = .ok (out, ls) ∧ Stores W ls w.code sp sp w.qn (opOf w.qn sp sp (w.value W b.1)) := by
  have g := ho.choose_spec.2.2.2
  have hz : ∀ c : Coord, ∀ q : QN, (fun x n y n' => W.crme x y q.J0 * radialValue W b.1 c 0 q n x.l n' y.l) =
      fun (x : Labels) n (y : Labels) n' => W.crme x y q.J0 * if n = n' ∧ x.l = y.l then 1 else 0 := by
    intro c q
    funext x n y n'
    simp [radialValue]
  cases w with
  | identity =>
    obtain ⟨mats, h1, h2, h3⟩ := generateHarmonic_ok (W := W) hbt .o 0 ⟨0, 0, 0⟩ g
    rw [hz] at h3
    exact build_stores laws h0 (p := paramsFor b .identity out) (d := bodyFor .identity) rfl ho ho h1 h2 h3
  | position =>
    obtain ⟨mats, h1, h2, h3⟩ := generateHarmonic_ok (W := W) hbt .r 1 ⟨1, 1, 0⟩ g
    exact build_stores laws h0 (p := paramsFor b .position out) (d := bodyFor .position) rfl ho ho h1 h2 h3
  | momentum =>
    obtain ⟨mats, h1, h2, h3⟩ := generateHarmonic_ok (W := W) hbt .k 1 ⟨1, 1, 0⟩ g
    exact build_stores laws h0 (p := paramsFor b .momentum out) (d := bodyFor .momentum) rfl ho ho h1 h2 h3
  | positionSqr =>
    obtain ⟨mats, h1, h2, h3⟩ := generateHarmonic_ok (W := W) hbt .r 2 ⟨0, 0, 0⟩ g
    exact build_stores laws h0 (p := paramsFor b .positionSqr out) (d := bodyFor .positionSqr) rfl ho ho h1 h2 h3
  | momentumSqr =>
    obtain ⟨mats, h1, h2, h3⟩ := generateHarmonic_ok (W := W) hbt .k 2 ⟨0, 0, 0⟩ g
    exact build_stores laws h0 (p := paramsFor b .momentumSqr out) (d := bodyFor .momentumSqr) rfl ho ho h1 h2 h3
  | radial c order q =>
    obtain ⟨mats, h1, h2, h3⟩ := generateRadial_ok (W := W) hbt c order q g
    exact build_stores laws h0 (p := paramsFor b (.radial c order q) out) (d := bodyFor (.radial c order q)) rfl ho ho h1 h2 h3
  | harmonic c l =>
    have hl : (0 : Int) ≤ l := hw
    obtain ⟨mats, h1, h2, h3⟩ := generateHarmonic_ok (W := W) hbt c l ⟨l, l % 2, 0⟩ g
    obtain ⟨m1, m2⟩ := map_scale h2 (Real.sqrt (2 * l + 1) * W.inv4pi)
    have hq : (bodyFor (.harmonic c l)).q = ⟨l, l % 2, 0⟩ := by simp only [bodyFor, EwGen.tmod_two hl]
    have := build_stores laws h0 (p := paramsFor b (.harmonic c l) out) (d := bodyFor (.harmonic c l)) rfl ho ho
      (mats := mats.map (scale (Real.sqrt (2 * l + 1) * W.inv4pi))) (O := opOf ⟨l, l % 2, 0⟩ sp sp ((What.harmonic c l).value W b.1)) ?_ ?_ ?_
    · rw [hq] at this
      exact this
    · rw [hq]
      show (generateHarmonic W b.1 c l sp (allSectors ⟨l, l % 2, 0⟩ sp sp)).map _ = _
      rw [h1]
      rfl
    · rw [hq]
      exact m1
    · rw [hq]
      intro i a k d
      rw [m2, h3]
      unfold opOf
      cases sp[i]? with
      | none => simp
      | some x =>
        cases sp[k]? with
        | none => simp
        | some y =>
          simp only [What.value]
          split_ifs <;> simp
  | am t => exact hw.elim
  | amSqr t => exact hw.elim
  | isospin z => exact hw.elim
  | overlap x b' f => exact hw.elim

/-- **C137.** A run that succeeds writes, for a target that is generated from radial integrals — the kinematic operators, solid harmonics and
radial operators —, a file of the right type, with the tensor character of the operator on the orbitals in force, whose elements are the
angular part (and normalisation) times the radial integral in the basis in force. -/
theorem integral_target {W : World Orb} (laws : LibLaws W.lib) (h0 : W.rnd 0 = 0) {lines : List (List String)} {cmds : List Cmd}
    (script : Script W.nm lines cmds) {files : List (String × List Line)} (ok : run W lines = .ok files) {y : ℕ} {w : What} {out : String}
    (hy : cmds[y]? = some (.target w out)) (hw : w.integral) {sp : Space} (ho : Orbitals W (basisAt cmds y).2 sp) :
    ∃ ls, files[place cmds y]? = some (out, ls) ∧
      Stores W ls w.code sp sp w.qn (opOf w.qn sp sp (w.value W (basisAt cmds y).1)) := by
  obtain ⟨b, h1, h2⟩ := file_at script ok hy
  obtain ⟨ls, h3, h4⟩ := build_integral laws h0 (basisAt_known script y) hw ho out
  rw [h3] at h1
  cases h1
  exact ⟨ls, h2, h4⟩

/-! ## Overlaps -/

theorem build_overlap {W : World Orb} (laws : LibLaws W.lib) (h0 : W.rnd 0 = 0) {b : BasisType × String} {x : ℝ} {b' : BasisType} {f : String}
    {bra ket : Space} (hb : Orbitals W f bra) (hk : Orbitals W b.2 ket) (out : String) :
    ∃ ls, build W (paramsFor b (.overlap x b' f) out) = .ok (out, ls) ∧
      Stores W ls 'R' bra ket ⟨0, 0, 0⟩ (opOf ⟨0, 0, 0⟩ bra ket ((What.overlap x b' f).value W b.1)) := by
  obtain ⟨mats, h1, h2, h3⟩ := generate_element (f := fun c n k n' => overlapElement W.ovl b' b.1 x c.l n k.l n')
    (allSectors_spec ⟨0, 0, 0⟩ bra ket)
  refine build_stores laws h0 (p := paramsFor b (.overlap x b' f) out) (d := bodyFor (.overlap x b' f)) rfl hb hk (mats := mats) ?_ h2 ?_
  · show radialOverlaps W.ovl b' b.1 x bra ket (allSectors ⟨0, 0, 0⟩ bra ket) = .ok mats
    simp only [radialOverlaps, allSectors, decide_true, EwGen.assertE_true, Except.ok_bind']
    exact h1
  · refine elem_opOf h2 ?_
    intro i k c k' a d hp hc hk' ha hd
    rw [h3 i k c k' a d hp hc hk' ha hd]
    rfl

/-- **C138.** For an overlap target a run that succeeds writes the radial file, scalar and charge conserving, between the orbitals named and
those in force: overlaps of the radial functions of the two bases with the length ratio given — the unit matrix when basis and length are
the same. -/
theorem overlap_target {W : World Orb} (laws : LibLaws W.lib) (h0 : W.rnd 0 = 0) {lines : List (List String)} {cmds : List Cmd}
    (script : Script W.nm lines cmds) {files : List (String × List Line)} (ok : run W lines = .ok files) {y : ℕ} {x : ℝ} {b : BasisType}
    {f out : String} (hy : cmds[y]? = some (.target (.overlap x b f) out)) {bra ket : Space} (hb : Orbitals W f bra)
    (hk : Orbitals W (basisAt cmds y).2 ket) :
    ∃ ls, files[place cmds y]? = some (out, ls) ∧
      Stores W ls 'R' bra ket ⟨0, 0, 0⟩ (opOf ⟨0, 0, 0⟩ bra ket ((What.overlap x b f).value W (basisAt cmds y).1)) := by
  obtain ⟨p, h1, h2⟩ := file_at script ok hy
  obtain ⟨ls, h3, h4⟩ := build_overlap laws h0 (x := x) (b' := b) hb hk out
  rw [h3] at h1
  cases h1
  exact ⟨ls, h2, h4⟩

/-! ## Angular momentum and isospin -/

/-- Targets whose blocks are multiples of the unit matrix; with the condition under which these are the right blocks: orbitals connected by
the operator lie in one subspace, or subspaces list `n = 0,1,2,…`. -/
def What.diagonal (sp : Space) : What → Prop
  | .am _ => Complete sp
  | .amSqr _ => True
  | .isospin z => z = 0 ∨ ((z = 1 ∨ z = -1) ∧ Complete sp)
  | _ => False

theorem ns_inj {sp : Space} (g : GoodSpace sp) {b : Sub} (hb : b ∈ sp) {a c : ℕ} (ha : a < b.ns.length) (hc : c < b.ns.length) :
    b.ns.getD a 0 = b.ns.getD c 0 ↔ a = c := by
  rw [List.getD_eq_getElem?_getD, List.getD_eq_getElem?_getD, List.getElem?_eq_getElem ha, List.getElem?_eq_getElem hc]
  exact (g.ns b hb).getElem_inj_iff

theorem scalar_same {sp : Space} (g : GoodSpace sp) {i k : ℕ} {b k' : Sub} (hb : sp[i]? = some b) (hk : sp[k]? = some k')
    (h : b.labels = k'.labels) : i = k := by
  have hi : (sp.map Sub.labels)[i]? = some b.labels := by simp [hb]
  have hj : (sp.map Sub.labels)[k]? = some b.labels := by simp [hk, h]
  have := (List.nodup_iff_getElem?_ne_getElem?.1 g.nodup)
  rcases lt_trichotomy i k with hlt | heq | hlt
  · have hk2 : k < (sp.map Sub.labels).length := by
      rw [List.getElem?_eq_some_iff] at hj; exact hj.1
    exact absurd (hi.trans hj.symm) (this i k hlt hk2)
  · exact heq
  · have hk2 : i < (sp.map Sub.labels).length := by
      rw [List.getElem?_eq_some_iff] at hi; exact hi.1
    exact absurd (hj.trans hi.symm) (this k i hlt hk2)

theorem build_diagonal {W : World Orb} (laws : LibLaws W.lib) (h0 : W.rnd 0 = 0) {b : BasisType × String} {w : What} {sp : Space}
    (hw : w.diagonal sp) (ho : Orbitals W b.2 sp) (out : String) :
    ∃ ls, build W (paramsFor b w out) = .ok (out, ls) ∧ Stores W ls 'S' sp sp w.qn (opOf w.qn sp sp (w.value W b.1)) := by
  have g := ho.choose_spec.2.2.2
  cases w with
  | am t =>
    obtain ⟨mats, h1, h2, h3⟩ := angularMomentum_element_partial (rme := W.rme) (type := t) hw (allSectors_spec ⟨1, 0, 0⟩ sp sp) rfl
    refine build_stores laws h0 (p := paramsFor b (.am t) out) (d := bodyFor (.am t)) rfl ho ho h1 h2 (elem_opOf h2 ?_)
    intro i k x y a c hp hx hy ha hc
    exact h3 i a k c x y hp hx hy ha hc
  | amSqr t =>
    obtain ⟨mats, h1, h2, h3⟩ := squared_element (type := t) g (allSectors_spec ⟨0, 0, 0⟩ sp sp) rfl
    refine build_stores laws h0 (p := paramsFor b (.amSqr t) out) (d := bodyFor (.amSqr t)) rfl ho ho h1 h2.fits (elem_opOf h2.fits ?_)
    intro i k x y a c hp hx hy ha hc
    rw [h3 i a k c x y hx hy ha hc]
    simp only [What.value]
    by_cases hxy : x.labels = y.labels
    · have hik := scalar_same g hx hy hxy
      subst hik
      rw [hx] at hy
      cases hy
      simp only [true_and, ns_inj g (List.mem_of_getElem? hx) ha hc]
    · rw [if_neg, if_neg]
      · rintro ⟨h, _⟩; exact hxy h
      · rintro ⟨rfl, _⟩
        rw [hx] at hy
        cases hy
        exact hxy rfl
  | isospin z =>
    rcases hw with rfl | ⟨hz, hc⟩
    · obtain ⟨mats, h1, h2, h3⟩ := isospin_projection g (allSectors_spec ⟨0, 0, 0⟩ sp sp) rfl
      refine build_stores laws h0 (p := paramsFor b (.isospin 0) out) (d := bodyFor (.isospin 0)) rfl ho ho h1 h2.fits (elem_opOf h2.fits ?_)
      intro i k x y a c hp hx hy ha hc
      rw [h3 i a k c x y hx hy ha hc]
      simp only [What.value, ne_eq, not_true_eq_false, if_false]
      obtain ⟨x', y', hx', hy', hal⟩ := ((allSectors_spec ⟨0, 0, 0⟩ sp sp).mem i k).1 hp
      rw [hx] at hx'; rw [hy] at hy'
      cases hx'; cases hy'
      have hsp : x.labels.sp = y.labels.sp := EwGen.allowed_species (q := ⟨0, 0, 0⟩) rfl hal
      by_cases hxy : x.labels.l = y.labels.l ∧ x.labels.tj = y.labels.tj
      · have he : x.labels = y.labels := by
          cases hxl : x.labels; cases hyl : y.labels
          simp_all
        have hik := scalar_same g hx hy he
        subst hik
        rw [hx] at hy
        cases hy
        simp only [true_and, ns_inj g (List.mem_of_getElem? hx) ha hc]
      · rw [if_neg, if_neg]
        · rintro ⟨h1, h2, _⟩; exact hxy ⟨h1, h2⟩
        · rintro ⟨rfl, _⟩
          rw [hx] at hy
          cases hy
          exact hxy ⟨rfl, rfl⟩
    · obtain ⟨mats, h1, h2, h3⟩ := isospin_ladder_partial hz g hc (allSectors_spec ⟨0, 0, z⟩ sp sp) rfl
      refine build_stores laws h0 (p := paramsFor b (.isospin z) out) (d := bodyFor (.isospin z)) rfl ho ho h1 h2 (elem_opOf h2 ?_)
      intro i k x y a c hp hx hy ha hc
      rw [h3 i a k c x y hx hy ha hc]
      have hz0 : z ≠ 0 := by omega
      simp only [What.value, hz0, ne_eq, not_false_eq_true, if_true]
      obtain ⟨x', y', hx', hy', hal⟩ := ((allSectors_spec ⟨0, 0, z⟩ sp sp).mem i k).1 hp
      rw [hx] at hx'; rw [hy] at hy'
      cases hx'; cases hy'
      have hl := (ladder_allowed g (List.mem_of_getElem? hx) (List.mem_of_getElem? hy) hz).1 hal
      simp only [hl, true_and]
  | identity => exact hw.elim
  | position => exact hw.elim
  | momentum => exact hw.elim
  | positionSqr => exact hw.elim
  | momentumSqr => exact hw.elim
  | harmonic c l => exact hw.elim
  | radial c o q => exact hw.elim
  | overlap x b' f => exact hw.elim

/-- **C139 (partial).** A run that succeeds writes, for an angular momentum or isospin target, the spherical tensor operator on the orbitals in
force: angular momenta and isospin ladder operators between orbitals of equal `n`, squared angular momenta and isospin projection diagonal.
Missing: angular momenta and ladder operators on orbitals whose subspaces do not list `n = 0,1,2,…`, where it is false
(`angular_incomplete`). -/
theorem diagonal_target_partial {W : World Orb} (laws : LibLaws W.lib) (h0 : W.rnd 0 = 0) {lines : List (List String)} {cmds : List Cmd}
    (script : Script W.nm lines cmds) {files : List (String × List Line)} (ok : run W lines = .ok files) {y : ℕ} {w : What} {out : String}
    (hy : cmds[y]? = some (.target w out)) {sp : Space} (hw : w.diagonal sp) (ho : Orbitals W (basisAt cmds y).2 sp) :
    ∃ ls, files[place cmds y]? = some (out, ls) ∧
      Stores W ls 'S' sp sp w.qn (opOf w.qn sp sp (w.value W (basisAt cmds y).1)) := by
  obtain ⟨b, h1, h2⟩ := file_at script ok hy
  obtain ⟨ls, h3, h4⟩ := build_diagonal laws h0 hw ho out
  rw [h3] at h1
  cases h1
  exact ⟨ls, h2, h4⟩

/-! ## Success and refusal -/

/-- **C140.** A run that succeeds was given one of the documented control files, and wrote one file for each target, in order, under the name
given. -/
theorem run_only {W : World Orb} {lines : List (List String)} {files : List (String × List Line)} (ok : run W lines = .ok files) :
    ∃ cmds, Script W.nm lines cmds ∧ files.map Prod.fst = (targetsOf cmds).map Prod.snd := by
  have hok := ok
  unfold run readParameters at ok
  rw [Except.bind_eq_ok] at ok
  obtain ⟨s, h1, h2⟩ := ok
  rw [mapM_ok_iff] at h2
  have hout : ∀ p b, build W p = .ok b → b.1 = p.out ∧ p.body ≠ none := by
    intro p b h
    unfold build at h
    simp only [Except.bind_eq_ok] at h
    obtain ⟨_, _, _, _, h⟩ := h
    cases hp : p.body with
    | none => simp [hp] at h
    | some d =>
      simp only [hp, Except.bind_eq_ok, Except.pure_ok, Except.ok.injEq] at h
      obtain ⟨_, _, _, _, rfl⟩ := h
      exact ⟨rfl, by simp⟩
  have hb : ∀ p ∈ s.targets, p.body ≠ none := by
    intro p hp
    obtain ⟨x, hx⟩ := List.mem_iff_getElem?.1 hp
    obtain ⟨b, _, hb⟩ := forall₂_getElem? h2 hx
    exact (hout p b hb).2
  obtain ⟨cmds, hs⟩ := script_of_fold h1 hb
  refine ⟨cmds, hs, ?_⟩
  rw [← listOf_outs cmds (.oscillator, "orbitals.dat")]
  have hf := run_parts hs hok
  generalize listOf (.oscillator, "orbitals.dat") cmds = L at hf
  clear hok h1 h2 hb hs
  induction hf with
  | nil => rfl
  | cons h _ ih => simp only [List.map_cons, ih, (hout _ _ h).1]

/-- **C140.** A run that succeeds found and read the orbital files of every target. -/
theorem run_read_orbitals {W : World Orb} {lines : List (List String)} {cmds : List Cmd} (script : Script W.nm lines cmds)
    {files : List (String × List Line)} (ok : run W lines = .ok files) {y : ℕ} {w : What} {out : String}
    (hy : cmds[y]? = some (.target w out)) :
    (∃ os, W.orbitals (basisAt cmds y).2 = some (.ok os)) ∧ ∀ x b f, w = .overlap x b f → ∃ os, W.orbitals f = some (.ok os) := by
  have hopen : ∀ f sp, openOrbitals W f = .ok sp → ∃ os, W.orbitals f = some (.ok os) := by
    intro f sp h
    unfold openOrbitals at h
    cases e : W.orbitals f with
    | none => simp [e] at h
    | some r =>
      cases r with
      | error => simp [e, Except.map] at h
      | ok os => exact ⟨os, rfl⟩
  obtain ⟨b, h, _⟩ := file_at script ok hy
  unfold build at h
  simp only [Except.bind_eq_ok] at h
  obtain ⟨bra, hb, ket, hk, _⟩ := h
  refine ⟨hopen _ ket ?_, fun x b f e => hopen _ bra ?_⟩
  · cases w <;> exact hk
  · subst e
    exact hb

/-- The files that must be readable: those of `set-ket-basis` and of overlaps exist, and the orbitals of every target are orbitals. -/
def Ready (W : World Orb) (cmds : List Cmd) : Prop :=
  (∀ b f, Cmd.basis b f ∈ cmds → W.orbitals f ≠ none) ∧
  ∀ (y : ℕ) (w : What) (out : String), cmds[y]? = some (.target w out) → (∃ sp, Orbitals W (basisAt cmds y).2 sp) ∧
    match w with
    | .overlap _ _ f => ∃ sp, Orbitals W f sp
    | .harmonic _ l => 0 ≤ l
    | .isospin z => z = 0 ∨ z = 1 ∨ z = -1
    | _ => True

/-- Success of `eye` blocks needs no condition on `n`. -/
theorem build_total {W : World Orb} (laws : LibLaws W.lib) (h0 : W.rnd 0 = 0) {b : BasisType × String} (hbt : b.1 ≠ .generic) {w : What}
    {sp : Space} (ho : Orbitals W b.2 sp) (hw : match w with
      | .overlap _ _ f => ∃ sp, Orbitals W f sp
      | .harmonic _ l => 0 ≤ l
      | .isospin z => z = 0 ∨ z = 1 ∨ z = -1
      | _ => True) (out : String) : ∃ ls, build W (paramsFor b w out) = .ok (out, ls) := by
  have g := ho.choose_spec.2.2.2
  have eyes : ∀ (p : Params) (d : Body), p.body = some d → p.braFile = b.2 → p.ketFile = b.2 → p.out = out → (∃ mats,
      construct W p d sp sp (allSectors d.q sp sp) = .ok mats ∧ Fits (allSectors d.q sp sp) mats sp sp) → ∃ ls, build W p = .ok (out, ls) := by
    rintro p d hd e1 e2 rfl ⟨mats, h1, h2⟩
    obtain ⟨ls, h, _⟩ := build_stores laws h0 hd (e1 ▸ ho) (e2 ▸ ho) h1 h2 (fun _ _ _ _ => rfl)
    exact ⟨ls, h⟩
  cases w with
  | am t =>
    refine eyes _ (bodyFor (.am t)) rfl rfl rfl rfl ?_
    obtain ⟨mats, h1, h2, _⟩ := eye_blocks (fun p => do
      let b ← getE sp p.1
      let k ← getE sp p.2
      pure (scale (W.rme t b.labels k.labels) (eye b.ns.length k.ns.length))) (fun x y => W.rme t x y) (allSectors_spec ⟨1, 0, 0⟩ sp sp) (by
        intro p _ x y hx hy
        simp [getE, hx, hy])
    refine ⟨mats, ?_, h2⟩
    show angularMomentum W.rme t sp (allSectors ⟨1, 0, 0⟩ sp sp) = .ok mats
    simp only [angularMomentum, allSectors, decide_true, EwGen.assertE_true, Except.ok_bind']
    exact h1
  | isospin z =>
    refine eyes _ (bodyFor (.isospin z)) rfl rfl rfl rfl ?_
    obtain ⟨mats, h1, h2, _⟩ := eye_blocks (fun p => do
      let b ← getE sp p.1
      let k ← getE sp p.2
      let me : ℝ := if z = 0 then (k.labels.tz : ℝ) / 2 else 1
      pure (scale me (eye b.ns.length k.ns.length))) (fun _ y => if z = 0 then (y.tz : ℝ) / 2 else 1) (allSectors_spec ⟨0, 0, z⟩ sp sp) (by
        intro p _ x y hx hy
        simp [getE, hx, hy])
    refine ⟨mats, ?_, h2⟩
    show isospin sp (allSectors ⟨0, 0, z⟩ sp sp) = .ok mats
    simp only [isospin, allSectors, decide_true, EwGen.assertE_true, Except.ok_bind']
    exact h1
  | overlap x b' f =>
    obtain ⟨bra, hb⟩ := hw
    obtain ⟨ls, h, _⟩ := build_overlap laws h0 (x := x) (b' := b') hb ho out
    exact ⟨ls, h⟩
  | amSqr t =>
    obtain ⟨ls, h, _⟩ := build_diagonal laws h0 (w := .amSqr t) (sp := sp) trivial ho out
    exact ⟨ls, h⟩
  | harmonic c l =>
    obtain ⟨ls, h, _⟩ := build_integral laws h0 hbt (w := .harmonic c l) hw ho out
    exact ⟨ls, h⟩
  | identity => obtain ⟨ls, h, _⟩ := build_integral laws h0 hbt (w := .identity) trivial ho out; exact ⟨ls, h⟩
  | position => obtain ⟨ls, h, _⟩ := build_integral laws h0 hbt (w := .position) trivial ho out; exact ⟨ls, h⟩
  | momentum => obtain ⟨ls, h, _⟩ := build_integral laws h0 hbt (w := .momentum) trivial ho out; exact ⟨ls, h⟩
  | positionSqr => obtain ⟨ls, h, _⟩ := build_integral laws h0 hbt (w := .positionSqr) trivial ho out; exact ⟨ls, h⟩
  | momentumSqr => obtain ⟨ls, h, _⟩ := build_integral laws h0 hbt (w := .momentumSqr) trivial ho out; exact ⟨ls, h⟩
  | radial c o q => obtain ⟨ls, h, _⟩ := build_integral laws h0 hbt (w := .radial c o q) trivial ho out; exact ⟨ls, h⟩

theorem fold_succeeds {W : World Orb} : ∀ {cmds : List Cmd} {s : State},
    (∀ b f, Cmd.basis b f ∈ cmds → W.orbitals f ≠ none) → (∀ x b f out, Cmd.target (.overlap x b f) out ∈ cmds → W.orbitals f ≠ none) →
    ∃ s', cmds.foldlM (applyCmd W) s = .ok s' := by
  intro cmds
  induction cmds with
  | nil => intro s _ _; exact ⟨s, rfl⟩
  | cons c cs ih =>
    intro s h1 h2
    obtain ⟨s1, hs1⟩ : ∃ s1, applyCmd W s c = .ok s1 := by
      cases c with
      | basis b f =>
        have := mustExist_ok.2 (h1 b f (by simp))
        simp [applyCmd, this]
      | target w out =>
        cases w with
        | overlap x b f =>
          have := mustExist_ok.2 (h2 x b f out (by simp))
          simp [applyCmd, this]
        | _ => exact ⟨_, rfl⟩
    obtain ⟨s', hs'⟩ := ih (s := s1) (fun b f h => h1 b f (by simp [h])) (fun x b f out h => h2 x b f out (by simp [h]))
    exact ⟨s', by simp [hs1, hs']⟩

/-- Every entry of the list of targets comes from a line. -/
theorem listOf_from : ∀ {cmds : List Cmd} (b : BasisType × String) {x : ℕ} {p : Params}, (listOf b cmds)[x]? = some p →
    ∃ (y : ℕ) (w : What) (out : String), cmds[y]? = some (.target w out) ∧ place cmds y = x := by
  intro cmds
  induction cmds with
  | nil => intro b x p h; simp [listOf] at h
  | cons c cs ih =>
    intro b x p h
    cases c with
    | basis b' f =>
      obtain ⟨y, w, out, h1, h2⟩ := ih (b', f) h
      exact ⟨y + 1, w, out, h1, by simpa [place, targetsOf] using h2⟩
    | target w out =>
      cases x with
      | zero => exact ⟨0, w, out, rfl, rfl⟩
      | succ x =>
        obtain ⟨y, w', out', h1, h2⟩ := ih b h
        exact ⟨y + 1, w', out', h1, by simpa [place, targetsOf] using h2⟩

/-- **C140.** A documented control file whose orbital files can be read is carried out. -/
theorem run_succeeds {W : World Orb} (laws : LibLaws W.lib) (h0 : W.rnd 0 = 0) {lines : List (List String)} {cmds : List Cmd}
    (script : Script W.nm lines cmds) (ready : Ready W cmds) : ∃ files, run W lines = .ok files := by
  have hov : ∀ x b f out, Cmd.target (.overlap x b f) out ∈ cmds → W.orbitals f ≠ none := by
    intro x b f out h
    obtain ⟨y, hy⟩ := List.mem_iff_getElem?.1 h
    obtain ⟨sp, os, ho, _⟩ := (ready.2 y _ _ hy).2
    rw [ho]
    simp
  obtain ⟨s, hs⟩ := fold_succeeds (s := {}) ready.1 hov
  have ht := fold_targets hs
  simp only [List.nil_append] at ht
  have hb : ∀ p ∈ s.targets, ∃ b, build W p = .ok b := by
    intro p hp
    rw [ht] at hp
    obtain ⟨x, hx⟩ := List.mem_iff_getElem?.1 hp
    obtain ⟨y, w, out, hy, hpl⟩ := listOf_from _ hx
    have := listOf_at (.oscillator, "orbitals.dat") hy
    rw [hpl, hx] at this
    cases this
    obtain ⟨⟨sp, ho⟩, hw⟩ := ready.2 y w out hy
    obtain ⟨ls, h⟩ := build_total laws h0 (basisAt_known script y) ho hw out
    exact ⟨_, h⟩
  have : ∃ files, s.targets.mapM (build W) = .ok files := by
    clear hs ht
    generalize s.targets = l at hb
    induction l with
    | nil => exact ⟨[], rfl⟩
    | cons p l ih =>
      obtain ⟨b, h1⟩ := hb p (by simp)
      obtain ⟨bs, h2⟩ := ih (fun q hq => hb q (by simp [hq]))
      exact ⟨b :: bs, by simp [h1, h2]⟩
  obtain ⟨files, hf⟩ := this
  refine ⟨files, ?_⟩
  unfold run readParameters
  rw [fold_script script, hs]
  exact hf

/-- Errors that the program reports. -/
def Reported (e : Err) : Prop := e = .parseError ∨ e = .exitFailure

theorem word_err {ws : List String} {e : Err} (h : Verif.Mixer.Control.word ws = .error e) : Reported e := by
  cases ws <;> simp [Verif.Mixer.Control.word] at h
  exact .inl h.symm

theorem int_err {nm : Numbers} {ws : List String} {e : Err} (h : Verif.Mixer.Control.int nm ws = .error e) : Reported e := by
  unfold Verif.Mixer.Control.int at h
  split at h
  · split at h <;> simp at h
    exact .inl h.symm
  · simp at h; exact .inl h.symm

theorem num_err {nm : Numbers} {ws : List String} {e : Err} (h : Verif.Mixer.Control.num nm ws = .error e) : Reported e := by
  unfold Verif.Mixer.Control.num at h
  split at h
  · split at h <;> simp at h
    exact .inl h.symm
  · simp at h; exact .inl h.symm

theorem coord_err {s : String} {e : Err} (h : Verif.Mixer.Control.coordOf s = .error e) : Reported e := by
  unfold Verif.Mixer.Control.coordOf at h
  split_ifs at h
  simp at h
  exact .inr h.symm

theorem basis_err {s : String} {e : Err} (h : basisOf s = .error e) : Reported e := by
  unfold basisOf at h
  split_ifs at h
  simp at h
  exact .inl h.symm

theorem exist_err {W : World Orb} {s : String} {e : Err} (h : mustExist W s = .error e) : Reported e := by
  unfold mustExist at h
  split at h <;> simp at h
  exact .inr h.symm

theorem bind_err {α β : Type} {x : Except Err α} {f : α → Except Err β} {e : Err} (hx : ∀ e, x = .error e → Reported e)
    (hf : ∀ a e, f a = .error e → Reported e) (h : (x >>= f) = .error e) : Reported e := by
  cases x with
  | error e' => exact hx e (by simpa using h)
  | ok a => exact hf a e (by simpa using h)

theorem map_err {α β : Type} {x : Except Err α} {f : α → β} {e : Err} (h : x.map f = .error e) : x = .error e := by
  cases x <;> simp_all [Except.map]

theorem body_err {nm : Numbers} {m i : String} {ws : List String} {e : Err} (h : bodyOf nm m i ws = .error e) : Reported e := by
  unfold bodyOf at h
  split_ifs at h
  · have := map_err h
    unfold kinematicOf at this
    split_ifs at this
    simp at this
    exact .inl this.symm
  · unfold harmonicOf at h
    refine bind_err (fun e h => int_err h) (fun a e h => ?_) h
    exact bind_err (fun e h => coord_err h) (fun a e h => by simp at h) h
  · have := map_err h
    unfold amOf at this
    split_ifs at this
    simp at this
    exact .inl this.symm
  · have := map_err h
    unfold isospinOf at this
    split_ifs at this
    simp at this
    exact .inl this.symm

theorem step_err {W : World Orb} {s : State} {ws : List String} {e : Err} (h : step W s ws = .error e) : Reported e := by
  cases ws with
  | nil => simp [step] at h; exact .inl h.symm
  | cons k ws =>
    unfold step at h
    simp only [] at h
    split_ifs at h
    · refine bind_err (fun e h => word_err h) (fun a e h => ?_) h
      refine bind_err (fun e h => word_err h) (fun a e h => ?_) h
      refine bind_err (fun e h => basis_err h) (fun a e h => ?_) h
      exact bind_err (fun e h => exist_err h) (fun a e h => by simp at h) h
    · refine bind_err (fun e h => word_err h) (fun a e h => ?_) h
      refine bind_err (fun e h => word_err h) (fun a e h => ?_) h
      refine bind_err (fun e h => body_err h) (fun a e h => ?_) h
      exact bind_err (fun e h => word_err h) (fun a e h => by simp at h) h
    · refine bind_err (fun e h => word_err h) (fun a e h => ?_) h
      refine bind_err (fun e h => int_err h) (fun a e h => ?_) h
      refine bind_err (fun e h => int_err h) (fun a e h => ?_) h
      refine bind_err (fun e h => int_err h) (fun a e h => ?_) h
      refine bind_err (fun e h => int_err h) (fun a e h => ?_) h
      refine bind_err (fun e h => word_err h) (fun a e h => ?_) h
      exact bind_err (fun e h => coord_err h) (fun a e h => by simp at h) h
    · refine bind_err (fun e h => num_err h) (fun a e h => ?_) h
      refine bind_err (fun e h => word_err h) (fun a e h => ?_) h
      refine bind_err (fun e h => word_err h) (fun a e h => ?_) h
      refine bind_err (fun e h => word_err h) (fun a e h => ?_) h
      refine bind_err (fun e h => basis_err h) (fun a e h => ?_) h
      exact bind_err (fun e h => exist_err h) (fun a e h => by simp at h) h
    · simp at h; exact .inl h.symm

/-- Lines that name a family of operators that does not exist. -/
def Strange (ws : List String) : Prop := ∃ m rest, ws = "define-operator-target" :: m :: rest ∧ unknown m

theorem fold_refused {W : World Orb} : ∀ {lines : List (List String)} {s : State}, (∀ l ∈ lines, ¬ Strange l) →
    (¬ ∃ cmds, Script W.nm lines cmds) → ∃ e, lines.foldlM (step W) s = .error e ∧ Reported e := by
  intro lines
  induction lines with
  | nil => intro s _ hn; exact absurd ⟨[], .nil⟩ hn
  | cons l lines ih =>
    intro s hk hn
    cases h : step W s l with
    | error e => exact ⟨e, by simp [h], step_err h⟩
    | ok s1 =>
      by_cases hc : ∃ c, Says W.nm l c
      · obtain ⟨c, hc⟩ := hc
        obtain ⟨e, h1, h2⟩ := ih (s := s1) (fun l' hl => hk l' (by simp [hl])) (by
          rintro ⟨cs, hcs⟩
          exact hn ⟨c :: cs, .cons hc hcs⟩)
        exact ⟨e, by simp [h, h1], h2⟩
      · exfalso
        refine hk l (by simp) ?_
        cases l with
        | nil => simp [step] at h
        | cons k ws =>
          unfold step at h
          simp only [] at h
          split_ifs at h with h1 h2 h3 h4
          · exact absurd (step_says (W := W) (ws := k :: ws) (s := s) (s' := s1) (by unfold step; simp only []; rw [if_pos h1]; exact h))
              (by
                rintro (hc' | ⟨p, hp, _⟩)
                · exact hc hc'
                · simp only [Except.bind_eq_ok, Except.pure_ok, Except.ok.injEq] at h
                  obtain ⟨_, _, _, _, _, _, _, _, rfl⟩ := h
                  simpa using congrArg List.length hp)
          · simp only [Except.bind_eq_ok, EwGen.word_ok, Except.pure_ok, Except.ok.injEq] at h
            obtain ⟨⟨m, r⟩, rfl, ⟨i, r'⟩, h5, ⟨b, r''⟩, hb, ⟨o, r3⟩, h6, rfl⟩ := h
            simp only at h5 hb h6
            subst h2; subst h5; subst h6
            rcases bodyOf_some hb with ⟨w, hw, _⟩ | ⟨hu, _⟩
            · exact absurd ⟨_, hw⟩ hc
            · exact ⟨m, _, rfl, hu⟩
          · simp only [Except.bind_eq_ok, EwGen.word_ok, EwGen.int_ok] at h
            obtain ⟨⟨t, r⟩, rfl, ⟨a1, r1⟩, ⟨w1, e1, i1⟩, ⟨a2, r2⟩, ⟨w2, e2, i2⟩, ⟨a3, r3⟩, ⟨w3, e3, i3⟩, ⟨a4, r4⟩, ⟨w4, e4, i4⟩, ⟨o, r5⟩, e5, c, hc', _⟩ := h
            simp only at e1 e2 e3 e4 e5 i1 i2 i3 i4 hc'
            subst h3 e1 e2 e3 e4 e5
            exact absurd ⟨_, .radial _ _ (EwGen.coordOf_iff.1 hc') i1 i2 i3 i4⟩ hc
          · simp only [Except.bind_eq_ok, EwGen.word_ok, EwGen.num_ok] at h
            obtain ⟨⟨x, r⟩, ⟨w1, e1, i1⟩, ⟨t, r1⟩, e2, ⟨f, r2⟩, e3, ⟨o, r3⟩, e4, b, hb, _⟩ := h
            simp only at e1 e2 e3 e4 i1 hb
            subst h4 e1 e2 e3 e4
            exact absurd ⟨_, .overlap _ _ _ i1 (basisOf_iff.1 hb)⟩ hc

/-- **C140 (partial).** Every other control file is refused with a message before anything is written.  Missing: control files with a line
that names an unknown family of operators, for which it is false (`unknown_family`). -/
theorem refused_partial {W : World Orb} {lines : List (List String)} (known : ∀ l ∈ lines, ¬ Strange l)
    (none : ¬ ∃ cmds, Script W.nm lines cmds) : ∃ e, run W lines = .error e ∧ Reported e := by
  obtain ⟨e, h1, h2⟩ := fold_refused (W := W) (s := {}) known none
  exact ⟨e, by unfold run readParameters; simp [h1], h2⟩

/-- **C140, refuted for unknown families.** A line with an unknown family of operators is accepted, and the program goes on with
uninitialised mode, order and tensor character. -/
theorem unknown_family {W : World Orb} {m id out : String} {rest : List String} (hm : unknown m) {sp : Space}
    (ho : Orbitals W "orbitals.dat" sp) :
    run W ["define-operator-target" :: m :: id :: out :: rest] = .error .undefinedBehaviour := by
  obtain ⟨h1, h2, h3, h4⟩ := hm
  have hs : step W {} ("define-operator-target" :: m :: id :: out :: rest) = .ok { targets :=
      [⟨"orbitals.dat", "orbitals.dat", out, .oscillator, .oscillator, 1, none⟩] } := by
    simp [step, Verif.Mixer.Control.word, bodyOf, h1, h2, h3, h4]
  simp [run, readParameters, hs, build, open_ok ho]

/-! ## From `radial-gen` to `ew-gen` -/

/-- A file written by `radial-gen` is a source for `ew-gen`. -/
theorem stores_holds {W : World Orb} {V : EwGen.World Orb} (hl : V.lib = W.lib) {ls : List Line} {sp : Space} {q : QN} {O : EwGen.Op}
    (h : Stores W ls 'S' sp sp q O) {f : String} (hf : V.obme f = some ls) :
    EwGen.Holds V f sp q fun i a k c => W.rnd (chop (O i a k c)) := by
  obtain ⟨mats, h1, h2, h3⟩ := h
  exact ⟨ls, hf, mats, by rw [hl]; exact h1, h2, h3⟩

/-- **C141.** The two programs in sequence: when `radial-gen` writes the solid harmonic `r^λ Y_λ` and `ew-gen` takes this file as the source for
`r^λ`, the file that `ew-gen` writes for a target `E λ who` holds the scale factor to the power `λ` times the printed value of normalisation,
angular part and radial integral, for the nucleons asked for, and zero for the others. -/
theorem electric_chain [DecidableEq Orb] {W : World Orb} {V : EwGen.World Orb} (hlib : V.lib = W.lib) (laws : LibLaws W.lib) (h0 : W.rnd 0 = 0) (v0 : V.rnd 0 = 0)
    -- the first program
    {lines : List (List String)} {cmds : List Cmd} (script : Script W.nm lines cmds) {files : List (String × List Line)}
    (ok : run W lines = .ok files) {y : ℕ} {l : Int} (hl : 0 ≤ l) {src : String} (hy : cmds[y]? = some (.target (.harmonic .r l) src))
    {sp : Space} (ho : Orbitals W (basisAt cmds y).2 sp)
    -- its output is on disk
    (disk : ∀ ls, files[place cmds y]? = some (src, ls) → V.obme src = some ls)
    -- the second program
    {lines' : List (List String)} {cmds' : List EwGen.Cmd} (script' : EwGen.Script V.nm lines' cmds') {files' : List (String × List Line)}
    (ok' : EwGen.run V lines' = .ok files') (ho' : EwGen.OrbitalsAre V cmds' sp) {s : ℝ} (hs : EwGen.scaleOf cmds' = some s)
    (hg : EwGen.radialOf cmds' .r l = some src) {x : ℕ} {who : EwGen.Who} {out : String}
    (hx : (EwGen.targetsOf cmds')[x]? = some ⟨.E, l, who, out⟩) :
    ∃ ls, files'[x]? = some (out, ls) ∧ EwGen.Stores V ls sp ⟨l, l % 2, 0⟩ (EwGen.part who sp (s ^ l) fun i a k c =>
      W.rnd (chop (opOf ⟨l, l % 2, 0⟩ sp sp (fun b n k n' => Real.sqrt (2 * l + 1) * W.inv4pi *
        (W.crme b k l * radialValue W (basisAt cmds y).1 .r l ⟨l, l % 2, 0⟩ n b.l n' k.l)) i a k c))) := by
  obtain ⟨ls, h1, h2⟩ := integral_target laws h0 script ok hy (show (What.harmonic .r l).integral from hl) ho
  have hR := stores_holds hlib h2 (disk ls h1)
  exact EwGen.electric_target (hlib ▸ laws) v0 script' ok' ho' (hlib ▸ ho.choose_spec.2.2.1) hs hl hg hR hx

/-- **C141.** Likewise for the Gamow-Teller operator, from the files of spin and isospin raising. -/
theorem gamow_teller_chain [DecidableEq Orb] {W : World Orb} {V : EwGen.World Orb} (hlib : V.lib = W.lib) (laws : LibLaws W.lib) (h0 : W.rnd 0 = 0) (v0 : V.rnd 0 = 0)
    {lines : List (List String)} {cmds : List Cmd} (script : Script W.nm lines cmds) {files : List (String × List Line)}
    (ok : run W lines = .ok files) {y z : ℕ} {fs ft : String} (hy : cmds[y]? = some (.target (.am .spin) fs))
    (hz : cmds[z]? = some (.target (.isospin 1) ft)) {sp : Space} (hc : Complete sp) (ho : Orbitals W (basisAt cmds y).2 sp)
    (hoz : Orbitals W (basisAt cmds z).2 sp)
    (disk : ∀ (x : ℕ) (f : String) (ls : List Line), files[x]? = some (f, ls) → V.obme f = some ls)
    {lines' : List (List String)} {cmds' : List EwGen.Cmd} (script' : EwGen.Script V.nm lines' cmds') {files' : List (String × List Line)}
    (ok' : EwGen.run V lines' = .ok files') (ho' : EwGen.OrbitalsAre V cmds' sp) (hf : EwGen.isospinOfCmds cmds' 1 = some ft)
    (hg : EwGen.amOfCmds cmds' .spin = some fs) {x : ℕ} {who : EwGen.Who} {out : String}
    (hx : (EwGen.targetsOf cmds')[x]? = some ⟨.GT, 1, who, out⟩) :
    ∃ ls, files'[x]? = some (out, ls) ∧ EwGen.Stores V ls sp ⟨1, 0, 1⟩ (EwGen.times V.w sp
      ⟨1, 0, 0⟩ (fun i a k c => W.rnd (chop (opOf ⟨1, 0, 0⟩ sp sp (fun b n k n' => if n = n' then W.rme .spin b k else 0) i a k c)))
      ⟨0, 0, 1⟩ (fun i a k c => W.rnd (chop (opOf ⟨0, 0, 1⟩ sp sp (fun b n k n' => if b.l = k.l ∧ b.tj = k.tj ∧ n = n' then 1 else 0) i a k c)))
      ⟨1, 0, 1⟩) := by
  obtain ⟨l1, a1, a2⟩ := diagonal_target_partial laws h0 script ok hy (show (What.am .spin).diagonal sp from hc) ho
  obtain ⟨l2, b1, b2⟩ := diagonal_target_partial laws h0 script ok hz (show (What.isospin 1).diagonal sp from .inr ⟨.inl rfl, hc⟩) hoz
  have hS := stores_holds hlib a2 (disk _ _ l1 a1)
  have hT := stores_holds hlib b2 (disk _ _ l2 b1)
  simp only [What.value, What.qn, ne_eq, one_ne_zero, not_false_eq_true, if_true] at hS hT
  exact EwGen.gamow_teller_target (hlib ▸ laws) v0 script' ok' ho' (hlib ▸ ho.choose_spec.2.2.1) hf hT hg hS hx

end Verif.Obme.RadialGen
