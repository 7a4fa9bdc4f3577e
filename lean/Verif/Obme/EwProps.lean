import Verif.Obme.EwLemmas

/-!
# Properties of `ew-gen`
-/

namespace Verif.Obme.EwGen
open Verif Verif.Mapping Verif.Xform Verif.Obme
open Verif.H2 hiding Mat
open Verif.Mixer (mapM_ok_iff)
open Verif.Mixer.Control (Coord Numbers)

variable {Orb : Type} [DecidableEq Orb]

theorem run_parts {W : World Orb} {lines : List (List String)} {cmds : List Cmd} (script : Script W.nm lines cmds)
    {files : List (String × List Line)} (ok : run W lines = .ok files) :
    ∃ cfg, Describes W cmds cfg ∧ List.Forall₂ (fun t b => generate W cfg t = .ok b) (targetsOf cmds) files := by
  unfold run readParameters at ok
  rw [Except.bind_eq_ok] at ok
  obtain ⟨cfg, h1, h2⟩ := ok
  rw [fold_script W _ script] at h1
  have hd := describes W cmds h1
  rw [mapM_ok_iff, hd.targets] at h2
  exact ⟨cfg, hd, h2⟩

theorem assertE_true : assertE true = .ok () := rfl

theorem space_eq {W : World Orb} {cmds : List Cmd} {cfg : Config} (h : Describes W cmds cfg) {sp : Space} (ho : OrbitalsAre W cmds sp) :
    cfg.space = sp := by
  obtain ⟨f, os, h1, h2, rfl⟩ := ho
  have := h.space
  rw [h1] at this
  obtain ⟨os', h3, h4⟩ := this
  rw [h2] at h3
  cases h3
  exact h4

theorem look_ok {W : World Orb} {cfg : Config} {sp : Space} (hs : cfg.space = sp) {o : Option String} {d : Option Data} (hd : From W o d)
    {f : String} (hf : o = some f) {q : QN} {O : Op} (h : Holds W f sp q O) :
    ∃ mats, look W cfg d = .ok ⟨sp, allSectors q sp sp, mats⟩ ∧ Fits (allSectors q sp sp) mats sp sp ∧
      ∀ i a k c, elem (allSectors q sp sp) mats i a k c = O i a k c := by
  obtain ⟨mats, h1, h2, h3⟩ := openData_holds h
  rw [hf] at hd
  obtain ⟨x, hx, ho⟩ := hd
  rw [h1] at ho
  cases ho
  exact ⟨mats, by simp [look, hx, hs, assertE], h2, h3⟩

theorem tmod_two {l : Int} (h : 0 ≤ l) : l.tmod 2 = l % 2 := Int.tmod_eq_emod_of_nonneg h

theorem prefactorE_ok {cfg : Config} {t : Target} {s : ℝ} (hs : cfg.scale = some s) (a b : Labels) (h : a.sp = b.sp) :
    prefactorE cfg t a b = if applies t.who a.sp then .ok (s ^ t.lambda) else .ok 0 := by
  simp [prefactorE, scaleFactor, hs, assertE, h]

/-- The factor of magnetic operators: powers of the scale, and the coefficient of the gradient of a solid harmonic. -/
noncomputable def magneticFactor (s : ℝ) (l : Int) : ℝ := s ^ (l - 1) * Real.sqrt (l * (2 * l + 1))

theorem prefactorM_ok {cfg : Config} {t : Target} {s : ℝ} (hs : cfg.scale = some s) (hl : 0 ≤ t.lambda) (a b : Labels) (h : a.sp = b.sp) :
    prefactorM cfg t a b = if applies t.who a.sp then
      .ok (magneticFactor s t.lambda * (if t.kind = .Dl then ((Int.tdiv 2 (t.lambda + 1) : Int) : ℝ) else 1)) else .ok 0 := by
  have h1 : (0 : ℝ) ≤ 2 * t.lambda + 1 := by
    have : (0 : ℝ) ≤ t.lambda := by exact_mod_cast hl
    linarith
  have h2 : s ^ (t.lambda - 1) * (Real.sqrt (2 * t.lambda + 1) * Real.sqrt t.lambda) = magneticFactor s t.lambda := by
    rw [magneticFactor, ← Real.sqrt_mul h1, mul_comm (t.lambda : ℝ)]
  unfold prefactorM
  simp only [scaleFactor, hs, Except.ok_bind', h, decide_true, assertE_true, Except.pure_ok, h2]
  have hn : ¬ t.lambda < 0 := by omega
  simp only [hn, if_false]
  split_ifs <;> simp

theorem electric_core {W : World Orb} (laws : LibLaws W.lib) (h0 : W.rnd 0 = 0) {cmds : List Cmd} {cfg : Config} (hd : Describes W cmds cfg)
    {sp : Space} (ho : OrbitalsAre W cmds sp) (hb : Built W.lib sp) {s : ℝ} (hs : scaleOf cmds = some s) {l : Int} (hl : 0 ≤ l)
    {g : String} (hg : radialOf cmds .r l = some g) {R : Op} (hR : Holds W g sp ⟨l, l % 2, 0⟩ R) (who : Who) (out : String) :
    ∃ ls, generate W cfg ⟨.E, l, who, out⟩ = .ok (out, ls) ∧ Stores W ls sp ⟨l, l % 2, 0⟩ (part who sp (s ^ l) R) := by
  have hsp := space_eq hd ho
  obtain ⟨mats, e1, e2, e3⟩ := look_ok hsp (hd.radial .r l) hg hR
  obtain ⟨m', f1, f2, f3⟩ := part_ok (q := ⟨l, l % 2, 0⟩) rfl (prefactorE_ok (t := ⟨.E, l, who, out⟩) (hd.scale.trans hs)) e2 e3
  obtain ⟨ls, w1, w2⟩ := write_stores laws h0 hb f2 f3
  refine ⟨ls, ?_, w2⟩
  simp only [generate, generateE, tmod_two hl, e1, Except.ok_bind', hsp, f1, w1, Except.pure_ok]

/-- **C133.** A run that succeeds writes, for a target `E λ who`, the operator of rank `λ` and parity `(-1)^λ` whose elements are those of
the first source declared for `r^λ`, times the scale factor to the power `λ`, for the nucleons asked for and zero for the others. -/
theorem electric_target {W : World Orb} (laws : LibLaws W.lib) (h0 : W.rnd 0 = 0) {lines : List (List String)} {cmds : List Cmd}
    (script : Script W.nm lines cmds) {files : List (String × List Line)} (ok : run W lines = .ok files) {sp : Space}
    (ho : OrbitalsAre W cmds sp) (hb : Built W.lib sp) {s : ℝ} (hs : scaleOf cmds = some s) {l : Int} (hl : 0 ≤ l)
    {g : String} (hg : radialOf cmds .r l = some g) {R : Op} (hR : Holds W g sp ⟨l, l % 2, 0⟩ R) {x : ℕ} {who : Who} {out : String}
    (hx : (targetsOf cmds)[x]? = some ⟨.E, l, who, out⟩) :
    ∃ ls, files[x]? = some (out, ls) ∧ Stores W ls sp ⟨l, l % 2, 0⟩ (part who sp (s ^ l) R) := by
  obtain ⟨cfg, hd, hf⟩ := run_parts script ok
  obtain ⟨b, hb1, hb2⟩ := forall₂_getElem? hf hx
  obtain ⟨ls, e1, e2⟩ := electric_core laws h0 hd ho hb hs hl hg hR who out
  rw [e1] at hb2
  cases hb2
  exact ⟨ls, hb1, e2⟩

/-! ## Magnetic operators -/

/-- Which angular momentum a magnetic operator takes. -/
def MagneticOf : Kind → AMType → Prop
  | .Dl, t => t = .orbital
  | .Ds, t => t = .spin
  | _, _ => False

/-- The angular momentum times the solid harmonic of rank `λ-1`, coupled to rank `λ`; for `λ = 1` the harmonic is the number `1/√4π`. -/
noncomputable def withHarmonic (W : World Orb) (sp : Space) (l : Int) (A R : Op) : Op :=
  if l = 1 then fun i a k c => W.inv4pi * A i a k c
  else times W.w sp ⟨1, 0, 0⟩ A ⟨l - 1, (l - 1) % 2, 0⟩ R ⟨l, (l - 1) % 2, 0⟩

/-- The source of the solid harmonic of a magnetic operator: none is used for `λ = 1`. -/
def HarmonicHeld (W : World Orb) (cmds : List Cmd) (sp : Space) (l : Int) (R : Op) : Prop :=
  l ≠ 1 → ∃ g, radialOf cmds .r (l - 1) = some g ∧ Holds W g sp ⟨l - 1, (l - 1) % 2, 0⟩ R

theorem magnetic_core {W : World Orb} (laws : LibLaws W.lib) (h0 : W.rnd 0 = 0) {cmds : List Cmd} {cfg : Config} (hd : Describes W cmds cfg)
    {sp : Space} (ho : OrbitalsAre W cmds sp) (hb : Built W.lib sp) {s : ℝ} (hs : scaleOf cmds = some s) {kind : Kind} {am : AMType}
    (hk : MagneticOf kind am) {l : Int} (hl : 1 ≤ l) {f : String} (hf : amOfCmds cmds am = some f) {A R : Op}
    (hA : Holds W f sp ⟨1, 0, 0⟩ A) (hR : HarmonicHeld W cmds sp l R) (who : Who) (out : String) :
    ∃ ls, generate W cfg ⟨kind, l, who, out⟩ = .ok (out, ls) ∧ Stores W ls sp ⟨l, (l - 1) % 2, 0⟩
      (part who sp (magneticFactor s l * (if kind = .Dl then ((Int.tdiv 2 (l + 1) : Int) : ℝ) else 1)) (withHarmonic W sp l A R)) := by
  have hsp := space_eq hd ho
  have hkind : generate W cfg ⟨kind, l, who, out⟩ = (do
      let ls ← generateM W cfg ⟨kind, l, who, out⟩
      pure (out, ls)) ∧ (if kind = .Dl then AMType.orbital else .spin) = am := by
    cases kind <;> simp only [MagneticOf] at hk <;> subst hk <;> exact ⟨rfl, rfl⟩
  obtain ⟨mA, a1, a2, a3⟩ := look_ok hsp (hd.am am) hf hA
  obtain ⟨mU, u1, u2, u3⟩ : ∃ mU, unscaledM W cfg (l - 1) ⟨sp, allSectors ⟨1, 0, 0⟩ sp sp, mA⟩ (allSectors ⟨l, (l - 1) % 2, 0⟩ sp sp) = .ok mU ∧
      Fits (allSectors ⟨l, (l - 1) % 2, 0⟩ sp sp) mU sp sp ∧
      ∀ i a k c, elem (allSectors ⟨l, (l - 1) % 2, 0⟩ sp sp) mU i a k c = withHarmonic W sp l A R i a k c := by
    by_cases h1 : l = 1
    · subst h1
      obtain ⟨s1, s2⟩ := scaled_elem a2 fun _ => W.inv4pi
      have hm : ((allSectors ⟨1, 0, 0⟩ sp sp).pairs.zip mA).map (fun x => scale W.inv4pi x.2) = mA.map (scale W.inv4pi) := by
        have := congrArg (List.map (scale W.inv4pi)) (List.map_snd_zip (l₁ := (allSectors ⟨1, 0, 0⟩ sp sp).pairs) (l₂ := mA) (by rw [a2.length]))
        rw [List.map_map] at this
        exact this
      rw [hm] at s1 s2
      refine ⟨_, by simp [unscaledM], s1, ?_⟩
      intro i a k c
      have := s2 i a k c
      rw [a3] at this
      simpa [withHarmonic] using this
    · obtain ⟨g, hg, hR⟩ := hR h1
      obtain ⟨mR, r1, r2, r3⟩ := look_ok hsp (hd.radial .r (l - 1)) hg hR
      obtain ⟨m, t1, t2, t3⟩ := times_ok (w := W.w) (q := ⟨l, (l - 1) % 2, 0⟩) a2 a3 r2 r3
        (by simp only; rw [abs_le]; omega) (by simp only; omega) rfl
      refine ⟨m, ?_, t2, ?_⟩
      · rw [unscaledM, if_neg (by omega), r1, hsp]; exact t1
      · intro i a k c; rw [t3, withHarmonic, if_neg h1]
  obtain ⟨m', f1, f2, f3⟩ := part_ok (q := ⟨l, (l - 1) % 2, 0⟩) rfl
    (prefactorM_ok (t := ⟨kind, l, who, out⟩) (hd.scale.trans hs) (by simp only; omega)) u2 u3
  obtain ⟨ls, w1, w2⟩ := write_stores laws h0 hb f2 f3
  refine ⟨ls, ?_, w2⟩
  simp only [hkind.1, generateM, tmod_two (show (0 : Int) ≤ l - 1 by omega), hkind.2, a1, Except.ok_bind', hsp, u1, f1, w1, Except.pure_ok]

theorem magnetic_file {W : World Orb} (laws : LibLaws W.lib) (h0 : W.rnd 0 = 0) {lines : List (List String)} {cmds : List Cmd}
    (script : Script W.nm lines cmds) {files : List (String × List Line)} (ok : run W lines = .ok files) {sp : Space}
    (ho : OrbitalsAre W cmds sp) (hb : Built W.lib sp) {s : ℝ} (hs : scaleOf cmds = some s) {kind : Kind} {am : AMType}
    (hk : MagneticOf kind am) {l : Int} (hl : 1 ≤ l) {f : String} (hf : amOfCmds cmds am = some f) {A R : Op}
    (hA : Holds W f sp ⟨1, 0, 0⟩ A) (hR : HarmonicHeld W cmds sp l R) {x : ℕ} {who : Who} {out : String}
    (hx : (targetsOf cmds)[x]? = some ⟨kind, l, who, out⟩) :
    ∃ ls, files[x]? = some (out, ls) ∧ Stores W ls sp ⟨l, (l - 1) % 2, 0⟩
      (part who sp (magneticFactor s l * (if kind = .Dl then ((Int.tdiv 2 (l + 1) : Int) : ℝ) else 1)) (withHarmonic W sp l A R)) := by
  obtain ⟨cfg, hd, hf'⟩ := run_parts script ok
  obtain ⟨b, hb1, hb2⟩ := forall₂_getElem? hf' hx
  obtain ⟨ls, e1, e2⟩ := magnetic_core laws h0 hd ho hb hs hk hl hf hA hR who out
  rw [e1] at hb2
  cases hb2
  exact ⟨ls, hb1, e2⟩

/-- **C134 (partial).** A run that succeeds writes, for a target `Ds λ who` of any rank from one on, and for a target `Dl 1 who`, the operator
of rank `λ` and parity `(-1)^(λ-1)`: spin or orbital angular momentum coupled with the solid harmonic of rank `λ-1`, times the scale factor
to the power `λ-1`, the coefficient `√(λ(2λ+1))` of the gradient and, for the orbital part, `2/(λ+1)`.  Missing: the orbital part of rank two
or more, where it is false (`orbital_target_lost`). -/
theorem magnetic_target_partial {W : World Orb} (laws : LibLaws W.lib) (h0 : W.rnd 0 = 0) {lines : List (List String)} {cmds : List Cmd}
    (script : Script W.nm lines cmds) {files : List (String × List Line)} (ok : run W lines = .ok files) {sp : Space}
    (ho : OrbitalsAre W cmds sp) (hb : Built W.lib sp) {s : ℝ} (hs : scaleOf cmds = some s) {kind : Kind} {am : AMType}
    (hk : MagneticOf kind am) {l : Int} (hl : 1 ≤ l) (part_of : kind = .Dl → l = 1) {f : String} (hf : amOfCmds cmds am = some f)
    {A R : Op} (hA : Holds W f sp ⟨1, 0, 0⟩ A) (hR : HarmonicHeld W cmds sp l R) {x : ℕ} {who : Who} {out : String}
    (hx : (targetsOf cmds)[x]? = some ⟨kind, l, who, out⟩) :
    ∃ ls, files[x]? = some (out, ls) ∧ Stores W ls sp ⟨l, (l - 1) % 2, 0⟩
      (part who sp (magneticFactor s l * (if kind = .Dl then (2 : ℝ) / ((l : ℝ) + 1) else 1)) (withHarmonic W sp l A R)) := by
  obtain ⟨ls, e1, e2⟩ := magnetic_file laws h0 script ok ho hb hs hk hl hf hA hR hx
  refine ⟨ls, e1, ?_⟩
  have : (if kind = .Dl then (2 : ℝ) / ((l : ℝ) + 1) else 1) = if kind = .Dl then ((Int.tdiv 2 (l + 1) : Int) : ℝ) else 1 := by
    split
    · rename_i h
      rw [part_of h]
      norm_num
    · rfl
  rwa [this]

/-- **C134, refuted for the orbital part of rank two or more.** The file of a target `Dl λ who` with `λ ≥ 2` holds zero for all pairs of
states: `2/(λ+1)` is computed in integers. -/
theorem orbital_target_lost {W : World Orb} (laws : LibLaws W.lib) (h0 : W.rnd 0 = 0) {lines : List (List String)} {cmds : List Cmd}
    (script : Script W.nm lines cmds) {files : List (String × List Line)} (ok : run W lines = .ok files) {sp : Space}
    (ho : OrbitalsAre W cmds sp) (hb : Built W.lib sp) {s : ℝ} (hs : scaleOf cmds = some s) {l : Int} (hl : 2 ≤ l)
    {f : String} (hf : amOfCmds cmds .orbital = some f) {A R : Op} (hA : Holds W f sp ⟨1, 0, 0⟩ A) (hR : HarmonicHeld W cmds sp l R)
    {x : ℕ} {who : Who} {out : String} (hx : (targetsOf cmds)[x]? = some ⟨.Dl, l, who, out⟩) :
    ∃ ls, files[x]? = some (out, ls) ∧ Reads W.lib ls sp ⟨l, (l - 1) % 2, 0⟩ fun _ _ _ _ => 0 := by
  obtain ⟨ls, e1, mats, e2, e3, e4⟩ := magnetic_file laws h0 script ok ho hb hs (kind := .Dl) (am := .orbital) rfl (by omega) hf hA hR hx
  refine ⟨ls, e1, mats, e2, e3, ?_⟩
  intro i a k c
  have hz : Int.tdiv 2 (l + 1) = 0 := Int.tdiv_eq_zero_of_lt (by omega) (by omega)
  rw [e4, if_pos rfl, hz]
  simp [part, chop, h0]

/-! ## Weak operators -/

theorem fermi_core {W : World Orb} (laws : LibLaws W.lib) (h0 : W.rnd 0 = 0) {cmds : List Cmd} {cfg : Config} (hd : Describes W cmds cfg)
    {sp : Space} (ho : OrbitalsAre W cmds sp) (hb : Built W.lib sp) {f : String} (hf : isospinOfCmds cmds 1 = some f) {T : Op}
    (hT : Holds W f sp ⟨0, 0, 1⟩ T) (who : Who) (out : String) :
    ∃ ls, generate W cfg ⟨.F, 0, who, out⟩ = .ok (out, ls) ∧ Stores W ls sp ⟨0, 0, 1⟩ T := by
  have hsp := space_eq hd ho
  obtain ⟨mats, e1, e2, e3⟩ := look_ok hsp (hd.isospin 1) hf hT
  obtain ⟨ls, w1, w2⟩ := write_stores laws h0 hb e2 e3
  refine ⟨ls, ?_, w2⟩
  simp only [generate, generateWeak, true_or, decide_true, assertE_true, weakMats, e1, Except.ok_bind', hsp, if_true, w1, Except.pure_ok]

theorem gt_core {W : World Orb} (laws : LibLaws W.lib) (h0 : W.rnd 0 = 0) {cmds : List Cmd} {cfg : Config} (hd : Describes W cmds cfg)
    {sp : Space} (ho : OrbitalsAre W cmds sp) (hb : Built W.lib sp) {f : String} (hf : isospinOfCmds cmds 1 = some f) {T : Op}
    (hT : Holds W f sp ⟨0, 0, 1⟩ T) {g : String} (hg : amOfCmds cmds .spin = some g) {S : Op} (hS : Holds W g sp ⟨1, 0, 0⟩ S)
    (who : Who) (out : String) :
    ∃ ls, generate W cfg ⟨.GT, 1, who, out⟩ = .ok (out, ls) ∧
      Stores W ls sp ⟨1, 0, 1⟩ (times W.w sp ⟨1, 0, 0⟩ S ⟨0, 0, 1⟩ T ⟨1, 0, 1⟩) := by
  have hsp := space_eq hd ho
  obtain ⟨mT, e1, e2, e3⟩ := look_ok hsp (hd.isospin 1) hf hT
  obtain ⟨mS, s1, s2, s3⟩ := look_ok hsp (hd.am .spin) hg hS
  obtain ⟨m, t1, t2, t3⟩ := times_ok (w := W.w) (q := ⟨1, 0, 1⟩) s2 s3 e2 e3 (by decide) (by decide) rfl
  obtain ⟨ls, w1, w2⟩ := write_stores laws h0 hb t2 t3
  refine ⟨ls, ?_, w2⟩
  simp only [generate, generateWeak, or_true, decide_true, assertE_true, weakMats, e1, Except.ok_bind', hsp, reduceCtorEq, if_false, s1, t1, w1,
    Except.pure_ok]

/-- **C135.** A run that succeeds writes, for a target `F`, the isospin raising operator of the first source declared for `t+`. -/
theorem fermi_target {W : World Orb} (laws : LibLaws W.lib) (h0 : W.rnd 0 = 0) {lines : List (List String)} {cmds : List Cmd}
    (script : Script W.nm lines cmds) {files : List (String × List Line)} (ok : run W lines = .ok files) {sp : Space}
    (ho : OrbitalsAre W cmds sp) (hb : Built W.lib sp) {f : String} (hf : isospinOfCmds cmds 1 = some f) {T : Op}
    (hT : Holds W f sp ⟨0, 0, 1⟩ T) {x : ℕ} {who : Who} {out : String} (hx : (targetsOf cmds)[x]? = some ⟨.F, 0, who, out⟩) :
    ∃ ls, files[x]? = some (out, ls) ∧ Stores W ls sp ⟨0, 0, 1⟩ T := by
  obtain ⟨cfg, hd, hf'⟩ := run_parts script ok
  obtain ⟨b, hb1, hb2⟩ := forall₂_getElem? hf' hx
  obtain ⟨ls, e1, e2⟩ := fermi_core laws h0 hd ho hb hf hT who out
  rw [e1] at hb2
  cases hb2
  exact ⟨ls, hb1, e2⟩

/-- **C135.** A run that succeeds writes, for a target `GT`, the operator of rank one with unit change of isospin projection: spin coupled with
the isospin raising operator, summed over all intermediate states. -/
theorem gamow_teller_target {W : World Orb} (laws : LibLaws W.lib) (h0 : W.rnd 0 = 0) {lines : List (List String)} {cmds : List Cmd}
    (script : Script W.nm lines cmds) {files : List (String × List Line)} (ok : run W lines = .ok files) {sp : Space}
    (ho : OrbitalsAre W cmds sp) (hb : Built W.lib sp) {f : String} (hf : isospinOfCmds cmds 1 = some f) {T : Op}
    (hT : Holds W f sp ⟨0, 0, 1⟩ T) {g : String} (hg : amOfCmds cmds .spin = some g) {S : Op} (hS : Holds W g sp ⟨1, 0, 0⟩ S)
    {x : ℕ} {who : Who} {out : String} (hx : (targetsOf cmds)[x]? = some ⟨.GT, 1, who, out⟩) :
    ∃ ls, files[x]? = some (out, ls) ∧ Stores W ls sp ⟨1, 0, 1⟩ (times W.w sp ⟨1, 0, 0⟩ S ⟨0, 0, 1⟩ T ⟨1, 0, 1⟩) := by
  obtain ⟨cfg, hd, hf'⟩ := run_parts script ok
  obtain ⟨b, hb1, hb2⟩ := forall₂_getElem? hf' hx
  obtain ⟨ls, e1, e2⟩ := gt_core laws h0 hd ho hb hf hT hg hS who out
  rw [e1] at hb2
  cases hb2
  exact ⟨ls, hb1, e2⟩

/-! ## Success and failure -/

/-- Sources that a target uses. -/
def needs (cmds : List Cmd) (t : Target) : List (Option String) :=
  match t.kind with
  | .E => [radialOf cmds .r t.lambda]
  | .Dl => amOfCmds cmds .orbital :: if t.lambda = 1 then [] else [radialOf cmds .r (t.lambda - 1)]
  | .Ds => amOfCmds cmds .spin :: if t.lambda = 1 then [] else [radialOf cmds .r (t.lambda - 1)]
  | .F => [isospinOfCmds cmds 1]
  | .GT => [isospinOfCmds cmds 1, amOfCmds cmds .spin]

/-- The operator a source of a target must hold. -/
def Ready (W : World Orb) (cmds : List Cmd) (sp : Space) (t : Target) : Prop :=
  match t.kind with
  | .E => 0 ≤ t.lambda ∧ ∃ g R, radialOf cmds .r t.lambda = some g ∧ Holds W g sp ⟨t.lambda, t.lambda % 2, 0⟩ R
  | .Dl => 1 ≤ t.lambda ∧ (∃ f A, amOfCmds cmds .orbital = some f ∧ Holds W f sp ⟨1, 0, 0⟩ A) ∧ ∃ R, HarmonicHeld W cmds sp t.lambda R
  | .Ds => 1 ≤ t.lambda ∧ (∃ f A, amOfCmds cmds .spin = some f ∧ Holds W f sp ⟨1, 0, 0⟩ A) ∧ ∃ R, HarmonicHeld W cmds sp t.lambda R
  | .F => t.lambda = 0 ∧ ∃ f T, isospinOfCmds cmds 1 = some f ∧ Holds W f sp ⟨0, 0, 1⟩ T
  | .GT => t.lambda = 1 ∧ (∃ f T, isospinOfCmds cmds 1 = some f ∧ Holds W f sp ⟨0, 0, 1⟩ T) ∧
      ∃ g S, amOfCmds cmds .spin = some g ∧ Holds W g sp ⟨1, 0, 0⟩ S

/-- Files that a command names for reading can be read. -/
def Readable (W : World Orb) : Cmd → Prop
  | .indexing f => ∃ os, W.orbitals f = .ok os
  | .radial _ _ f => ∃ sp q O, Holds W f sp q O
  | .am _ f => ∃ sp q O, Holds W f sp q O
  | .isospin _ f => ∃ sp q O, Holds W f sp q O
  | _ => True

theorem fold_ok {W : World Orb} : ∀ (cs : List Cmd) (cfg : Config), (∀ c ∈ cs, Readable W c) → ∃ cfg', cs.foldlM (apply W) cfg = .ok cfg' := by
  intro cs
  induction cs with
  | nil => intro cfg _; exact ⟨cfg, rfl⟩
  | cons c cs ih =>
    intro cfg h
    have hc := h c (by simp)
    obtain ⟨c1, h1⟩ : ∃ c1, apply W cfg c = .ok c1 := by
      cases c with
      | indexing f => obtain ⟨os, h⟩ := hc; simp [apply, h]
      | scale x => exact ⟨_, rfl⟩
      | radial c p f => obtain ⟨sp, q, O, h⟩ := hc; obtain ⟨m, h, _⟩ := openData_holds h; simp [apply, h]
      | am t f => obtain ⟨sp, q, O, h⟩ := hc; obtain ⟨m, h, _⟩ := openData_holds h; simp [apply, h]
      | isospin t f => obtain ⟨sp, q, O, h⟩ := hc; obtain ⟨m, h, _⟩ := openData_holds h; simp [apply, h]
      | target t => exact ⟨_, rfl⟩
    rw [List.foldlM_cons, h1]
    exact ih c1 fun c' hc' => h c' (by simp [hc'])

/-- **C136.** When every file named can be read, the scale factor is set and each target's sources hold operators of the tensor character
wanted on the orbitals given, the run succeeds, with one file for each target, in order, under the name given. -/
theorem run_succeeds {W : World Orb} (laws : LibLaws W.lib) (h0 : W.rnd 0 = 0) {lines : List (List String)} {cmds : List Cmd}
    (script : Script W.nm lines cmds) {sp : Space} (ho : OrbitalsAre W cmds sp) (hb : Built W.lib sp) {s : ℝ} (hs : scaleOf cmds = some s)
    (readable : ∀ c ∈ cmds, Readable W c) (ready : ∀ t ∈ targetsOf cmds, Ready W cmds sp t) :
    ∃ files, run W lines = .ok files ∧ files.map Prod.fst = (targetsOf cmds).map Target.file := by
  obtain ⟨cfg, h1⟩ := fold_ok (W := W) cmds {} readable
  have hd := describes W cmds h1
  have hg : ∀ t ∈ targetsOf cmds, ∃ b, generate W cfg t = .ok b ∧ b.1 = t.file := by
    intro t ht
    have := ready t ht
    obtain ⟨kind, l, who, out⟩ := t
    cases kind with
    | E =>
      obtain ⟨hl, g, R, hg, hR⟩ := this
      obtain ⟨ls, e, _⟩ := electric_core laws h0 hd ho hb hs hl hg hR who out
      exact ⟨_, e, rfl⟩
    | Dl =>
      obtain ⟨hl, ⟨f, A, hf, hA⟩, R, hR⟩ := this
      obtain ⟨ls, e, _⟩ := magnetic_core laws h0 hd ho hb hs (kind := .Dl) rfl hl hf hA hR who out
      exact ⟨_, e, rfl⟩
    | Ds =>
      obtain ⟨hl, ⟨f, A, hf, hA⟩, R, hR⟩ := this
      obtain ⟨ls, e, _⟩ := magnetic_core laws h0 hd ho hb hs (kind := .Ds) rfl hl hf hA hR who out
      exact ⟨_, e, rfl⟩
    | F =>
      obtain ⟨rfl, f, T, hf, hT⟩ := this
      obtain ⟨ls, e, _⟩ := fermi_core laws h0 hd ho hb hf hT who out
      exact ⟨_, e, rfl⟩
    | GT =>
      obtain ⟨rfl, ⟨f, T, hf, hT⟩, g, S, hg, hS⟩ := this
      obtain ⟨ls, e, _⟩ := gt_core laws h0 hd ho hb hf hT hg hS who out
      exact ⟨_, e, rfl⟩
  obtain ⟨files, e1, e2⟩ := mapM_forall₂ hg
  refine ⟨files, ?_, ?_⟩
  · unfold run readParameters
    rw [fold_script W _ script, h1, Except.ok_bind', hd.targets, e1]
  · clear hg e1
    generalize targetsOf cmds = ts at e2
    induction e2 with
    | nil => rfl
    | cons h _ ih => simp only [List.map_cons, h, ih]

/-- A file that can serve as a source: it can be read, holds a spherical tensor operator, and its bra and ket orbitals are those of the space. -/
def Usable (W : World Orb) (f : String) (sp : Space) : Prop :=
  ∃ ls h mats, W.obme f = some ls ∧ readFile W.lib ls = .ok (h, mats) ∧ h.type = some 'S' ∧ W.lib.info h.bra = W.lib.info h.ket ∧
    W.lib.info h.bra = W.lib.info sp

theorem openData_usable {W : World Orb} {f : String} {d : Data} (h : openData W f = .ok d) : Usable W f d.space := by
  unfold openData at h
  cases hf : W.obme f with
  | none => simp [hf] at h
  | some ls =>
    simp only [hf, Except.bind_eq_ok] at h
    obtain ⟨⟨hd, rest⟩, h1, h2⟩ := h
    simp only at h2
    split at h2
    · simp at h2
    · rename_i hi
      cases ht : hd.type with
      | none => simp [ht] at h2
      | some c =>
        simp only [ht] at h2
        split at h2
        · simp at h2
        · rename_i hc
          rw [Except.bind_eq_ok] at h2
          obtain ⟨mats, h3, h4⟩ := h2
          simp only [Except.pure_ok, Except.ok.injEq] at h4
          subst h4
          refine ⟨ls, hd, mats, hf, ?_, ?_, not_not.mp hi, rfl⟩
          · simp [readFile, h1, h3]
          · rw [ht, not_not.mp hc]

theorem look_usable {W : World Orb} {cfg : Config} {o : Option String} {d : Option Data} {x : Data} (hd : From W o d)
    (h : look W cfg d = .ok x) : ∃ f, o = some f ∧ Usable W f cfg.space := by
  cases d with
  | none => simp [look] at h
  | some y =>
    cases o with
    | none => simp [From] at hd
    | some f =>
      obtain ⟨z, hz, ho⟩ := hd
      cases hz
      simp only [look, Except.bind_eq_ok] at h
      obtain ⟨_, h1, _⟩ := h
      have hi : W.lib.info y.space = W.lib.info cfg.space := by
        simp only [assertE] at h1
        split at h1
        · rename_i h2; simpa using h2
        · simp at h1
      obtain ⟨ls, hd, mats, u1, u2, u3, u4, u5⟩ := openData_usable ho
      exact ⟨f, rfl, ls, hd, mats, u1, u2, u3, u4, u5.trans hi⟩

/-- **C136.** A run succeeds only when every line that is not blank nor a comment is one of the language, and, for each target, every source it
uses is declared and is a spherical tensor operator on the orbitals given. -/
theorem run_only {W : World Orb} {lines : List (List String)} {files : List (String × List Line)} (ok : run W lines = .ok files) :
    ∃ cmds, Script W.nm lines cmds ∧ ∃ sp, (OrbitalsAre W cmds sp ∨ (indexingOf cmds = none ∧ sp = [])) ∧
      ∀ t ∈ targetsOf cmds, ∀ o ∈ needs cmds t, ∃ f, o = some f ∧ Usable W f sp := by
  have ok' := ok
  unfold run readParameters at ok'
  rw [Except.bind_eq_ok] at ok'
  obtain ⟨_, h1, _⟩ := ok'
  obtain ⟨cmds, script⟩ := script_of_fold W h1
  obtain ⟨cfg, hd, hf⟩ := run_parts script ok
  refine ⟨cmds, script, cfg.space, ?_, ?_⟩
  · have := hd.space
    cases hi : indexingOf cmds with
    | none => rw [hi] at this; exact .inr ⟨rfl, this⟩
    | some f =>
      rw [hi] at this
      obtain ⟨os, e1, e2⟩ := this
      exact .inl ⟨f, os, hi, e1, e2.symm⟩
  · intro t ht o ho
    obtain ⟨x, hx⟩ := List.mem_iff_getElem?.mp ht
    obtain ⟨b, _, hb⟩ := forall₂_getElem? hf hx
    obtain ⟨kind, l, who, out⟩ := t
    have magnetic : ∀ am, (if kind = .Dl then AMType.orbital else .spin) = am →
        (∃ ls, generateM W cfg ⟨kind, l, who, out⟩ = .ok ls) →
        ∀ o ∈ amOfCmds cmds am :: (if l = 1 then [] else [radialOf cmds .r (l - 1)]), ∃ f, o = some f ∧ Usable W f cfg.space := by
      rintro am rfl ⟨ls, h⟩ o ho
      simp only [generateM, Except.bind_eq_ok] at h
      obtain ⟨a, ha, u, hu, _⟩ := h
      rcases List.mem_cons.mp ho with rfl | ho
      · exact look_usable (hd.am _) ha
      · by_cases h1 : l = 1
        · simp [h1] at ho
        · simp only [h1, if_false, List.mem_singleton] at ho
          subst ho
          rw [unscaledM, if_neg (by omega), Except.bind_eq_ok] at hu
          obtain ⟨r, hr, _⟩ := hu
          exact look_usable (hd.radial _ _) hr
    cases kind with
    | E =>
      simp only [needs, List.mem_singleton] at ho
      subst ho
      simp only [generate, generateE, Except.bind_eq_ok] at hb
      obtain ⟨ls, ⟨d, h2, _⟩, _⟩ := hb
      exact look_usable (hd.radial _ _) h2
    | Dl =>
      simp only [generate, Except.bind_eq_ok] at hb
      obtain ⟨ls, h2, _⟩ := hb
      exact magnetic .orbital rfl ⟨ls, h2⟩ o ho
    | Ds =>
      simp only [generate, Except.bind_eq_ok] at hb
      obtain ⟨ls, h2, _⟩ := hb
      exact magnetic .spin rfl ⟨ls, h2⟩ o ho
    | F =>
      simp only [needs, List.mem_singleton] at ho
      subst ho
      simp only [generate, generateWeak, Except.bind_eq_ok] at hb
      obtain ⟨ls, ⟨_, _, d, h2, _⟩, _⟩ := hb
      exact look_usable (hd.isospin _) h2
    | GT =>
      simp only [generate, generateWeak, weakMats, Except.bind_eq_ok, reduceCtorEq, if_false] at hb
      obtain ⟨ls, ⟨_, _, d, h2, m, ⟨e, h3, _⟩, _⟩, _⟩ := hb
      simp only [needs, List.mem_cons, List.not_mem_nil, or_false] at ho
      rcases ho with rfl | rfl
      · exact look_usable (hd.isospin _) h2
      · exact look_usable (hd.am _) h3

end Verif.Obme.EwGen
