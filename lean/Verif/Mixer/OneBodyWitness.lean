import Verif.Mixer.OneBodyTarget
import Verif.Mixer.XformProps
import Verif.Obme.GenProps
import Verif.Obme.FileProps

/-!
# Properties C57, C80, C81, C86, C87: concrete one-body channels, and what the programs do not report
-/

namespace Verif.Mixer
open Verif Verif.Mapping Verif.Xform Verif.Obme
open Verif.H2 hiding Mat Subspace

namespace Ex

/-- One orbital `n s1/2` of protons. -/
def one (n : ℕ) : Space := [⟨⟨0, 1, .p⟩, [n]⟩]

theorem one_good (n : ℕ) : GoodSpace (one n) := ⟨by simp [one], by simp [one], by simp [one]⟩

theorem one_pairs (n : ℕ) : (allSectors scalarQN (one n) (one n)).pairs = [(0, 0)] := rfl

/-- The scalar operator with the element `x`. -/
def num (n : ℕ) (x : ℝ) : ObData := ⟨one n, allSectors scalarQN (one n) (one n), [⟨1, 1, fun _ _ => x⟩]⟩

theorem num_good (n : ℕ) (x : ℝ) : GoodOb (num n x) where
  space := one_good n
  secs := rfl
  fits := by
    refine ⟨rfl, ?_⟩
    intro s i k m hp hm
    have hp' : ([(0, 0)] : List (ℕ × ℕ))[s]? = some (i, k) := hp
    have hs : s = 0 := by
      have := (List.getElem?_eq_some_iff.mp hp').1
      simp only [List.length_singleton] at this
      omega
    subst hs
    simp only [List.getElem?_cons_zero, Option.some.injEq, Prod.mk.injEq] at hp'
    obtain ⟨rfl, rfl⟩ := hp'
    simp only [num, List.getElem?_cons_zero, Option.some.injEq] at hm
    subst hm
    exact ⟨rfl, rfl⟩

theorem num_el (n : ℕ) (x : ℝ) : (num n x).el 0 0 0 0 = x := by
  simp [ObData.el, elem, num, one_pairs]

/-- The file of the operator. -/
def numFile (n : ℕ) (x : ℝ) : Header × List Mat := (⟨some 'S', (num n x).space, (num n x).space, (num n x).secs⟩, (num n x).mats)

/-- A run with the orbital `0s1/2`. -/
noncomputable def obEnv (prog : Prog) : ObEnv where
  prog := prog
  space := one 0
  basis := .oscillator
  length := 2
  w _ _ _ _ _ _ := 1
  rme _ _ _ := 1
  crme _ _ _ := 1
  spl _ _ _ _ _ _ _ := 1
  ovl _ _ _ _ _ _ _ := 0
  inv4pi := 1 / Real.sqrt (4 * Real.pi)
  xf id := if id = "U" then some ⟨one 0, one 0, (num 0 3).secs, (num 0 3).mats⟩ else none

theorem read_num (prog : Prog) (n : ℕ) (x : ℝ) : readOb prog (numFile n x) scalarQN = .ok (num n x) := by
  simp [readOb, numFile, num, allSectors, assertE]

theorem U_good : GoodXf ⟨one 0, one 0, (num 0 3).secs, (num 0 3).mats⟩ where
  bra := one_good 0
  ket := one_good 0
  overlap := ⟨rfl, allSectors_spec _ _ _, (num_good 0 3).fits⟩

theorem xf_good (prog : Prog) : ∀ id x, (obEnv prog).xf id = some x → GoodXf x := by
  intro id x h
  simp only [obEnv] at h
  split at h
  · cases h
    exact U_good
  · cases h

end Ex

/-! ### A combination that names itself -/

/-- **C57**, what a combination that names itself after its first term gives: the entry as built so far. -/
theorem self_reference_value {prog : Prog} {m : ObMap} {id b : String} {s : ObData} (hb : m b = some (some s))
    (gs : GoodOb s) (hne : b ≠ id) (c1 c2 : ℝ) :
    ∃ d, [(b, c1), (id, c2)].foldlM (linearStep prog m id) none = .ok (some d) ∧ GoodOb d ∧
      ∀ i x k y, d.el i x k y = c1 * (1 + c2) * s.el i x k y := by
  obtain ⟨e, h1, ge, e1, e2, e3⟩ := linear_ok (prog := prog) (m := m) (id := id) (terms := [(b, c1)]) (sp := s.space)
    (q := s.secs.qn) (by simp) (by
      intro t ht
      simp only [List.mem_singleton] at ht
      subst ht
      exact ⟨hne, s, hb, gs, rfl, rfl⟩)
  have e3' := e3 (fun _ => s) (by
    intro t ht
    simp only [List.mem_singleton] at ht
    subst ht
    exact hb)
  obtain ⟨mats, hm, fm, hv⟩ := combine_ok (c := c2) ge.fits ge.fits
  refine ⟨⟨e.space, e.secs, mats⟩, ?_, ⟨ge.space, ge.secs, fm⟩, ?_⟩
  · have : [(b, c1), (id, c2)] = [(b, c1)] ++ [(id, c2)] := rfl
    rw [this, List.foldlM_append, h1, Except.ok_bind', List.foldlM_cons]
    have hl : look (setOb m id (some e)) id = .ok e := look_ok.mpr (setOb_same _ _ _)
    have hn : nextOb prog (some e) e = .ok e := laterOb_ok.mpr ⟨fun _ => rfl, rfl, rfl⟩
    simp only [linearStep, hl, hn, hm, List.foldlM_nil, Except.ok_bind', Except.pure_ok]
  · intro i x k y
    have h4 := e3' i x k y
    simp only [List.map_cons, List.map_nil, List.sum_cons, List.sum_nil, add_zero] at h4
    simp only [ObData.el] at h4 hv ⊢
    rw [hv, h4]
    ring

/-- **C57**, the exception is real: a combination that names itself is accepted by both programs; `A = 2 B + 3 A` gives
`8 B`. -/
theorem self_reference_accepted (prog : Prog) : ∃ (env : ObEnv) (chans : List ObChannel) (m : ObMap) (a b : ObData),
    env.prog = prog ∧ RunOK env chans ∧ chans.map (·.id) = ["B", "A"] ∧
      (∃ ch ∈ chans, ch.id = "A" ∧ ch.kind = .linear [("B", 2), ("A", 3)]) ∧
      buildOb env chans = .ok m ∧ m "A" = some (some a) ∧ m "B" = some (some b) ∧ b.el 0 0 0 0 = 1 ∧
      a.el 0 0 0 0 = 8 := by
  have h1 : construct (Ex.obEnv prog) (fun _ => none) ⟨"B", .input (Ex.numFile 0 1) scalarQN⟩ =
      .ok (setOb (fun _ => none) "B" (some (Ex.num 0 1))) := by
    rw [construct_ok]
    refine ⟨rfl, some (Ex.num 0 1), ?_, rfl⟩
    simp only [valueOf]
    rw [show (Ex.obEnv prog).prog = prog from rfl, Ex.read_num]
    rfl
  obtain ⟨d, h2, _, h3⟩ := self_reference_value (prog := prog)
    (m := setOb (fun _ => none) "B" (some (Ex.num 0 1))) (id := "A") (b := "B") (s := Ex.num 0 1) (setOb_same _ _ _)
    (Ex.num_good 0 1) (by decide) 2 3
  have h4 : construct (Ex.obEnv prog) (setOb (fun _ => none) "B" (some (Ex.num 0 1)))
      ⟨"A", .linear [("B", 2), ("A", 3)]⟩ =
      .ok (setOb (setOb (fun _ => none) "B" (some (Ex.num 0 1))) "A" (some d)) := by
    rw [construct_ok]
    exact ⟨rfl, some d, h2, rfl⟩
  refine ⟨Ex.obEnv prog, [⟨"B", .input (Ex.numFile 0 1) scalarQN⟩, ⟨"A", .linear [("B", 2), ("A", 3)]⟩],
    setOb (setOb (fun _ => none) "B" (some (Ex.num 0 1))) "A" (some d), d, Ex.num 0 1, rfl, ⟨Ex.one_good 0, Ex.xf_good prog, ?_⟩, rfl, ⟨⟨"A", .linear [("B", 2), ("A", 3)]⟩, by simp, rfl, rfl⟩, ?_,
    setOb_same _ _ _, rfl, Ex.num_el 0 1, ?_⟩
  · intro ch hch
    simp only [List.mem_cons, List.not_mem_nil, or_false] at hch
    rcases hch with rfl | rfl
    · exact ⟨rfl, Ex.num_good 0 1⟩
    · trivial
  · simp only [buildOb, List.foldlM_cons, List.foldlM_nil, h1, h4, Except.ok_bind', Except.pure_ok]
  · rw [h3, Ex.num_el]
    norm_num

/-! ### Sources on different orbitals -/

/-- **C80**, refuted for `obmixer`: a combination of an operator on `0s1/2` and one on `1s1/2` is accepted, and adds the
element of the second orbital to that of the first.  `h2mixer` refuses it. -/
theorem obmixer_adds_unlike_orbitals : ∃ (env env' : ObEnv) (chans : List ObChannel) (m : ObMap) (a b c : ObData),
    env.prog = .obmixer ∧ env' = { env with prog := .h2mixer } ∧ RunOK env chans ∧
      (∃ ch ∈ chans, ch.id = "A" ∧ ch.kind = .linear [("B", 1), ("C", 1)]) ∧ buildOb env chans = .ok m ∧
      m "A" = some (some a) ∧ m "B" = some (some b) ∧ m "C" = some (some c) ∧
      b.space = [⟨⟨0, 1, .p⟩, [0]⟩] ∧ c.space = [⟨⟨0, 1, .p⟩, [1]⟩] ∧ a.space = b.space ∧
      b.el 0 0 0 0 = 5 ∧ c.el 0 0 0 0 = 7 ∧ a.el 0 0 0 0 = 12 ∧ buildOb env' chans = .error .assertFail := by
  let chans : List ObChannel := [⟨"B", .input (Ex.numFile 0 5) scalarQN⟩, ⟨"C", .input (Ex.numFile 1 7) scalarQN⟩,
    ⟨"A", .linear [("B", 1), ("C", 1)]⟩]
  let m2 : ObMap := setOb (setOb (fun _ => none) "B" (some (Ex.num 0 5))) "C" (some (Ex.num 1 7))
  have h12 : ∀ prog, construct (Ex.obEnv prog) (fun _ => none) ⟨"B", .input (Ex.numFile 0 5) scalarQN⟩ =
      .ok (setOb (fun _ => none) "B" (some (Ex.num 0 5))) ∧
      construct (Ex.obEnv prog) (setOb (fun _ => none) "B" (some (Ex.num 0 5)))
        ⟨"C", .input (Ex.numFile 1 7) scalarQN⟩ = .ok m2 := by
    intro prog
    constructor
    · rw [construct_ok]
      refine ⟨rfl, some (Ex.num 0 5), ?_, rfl⟩
      simp only [valueOf]
      rw [show (Ex.obEnv prog).prog = prog from rfl, Ex.read_num]
      rfl
    · rw [construct_ok]
      refine ⟨rfl, some (Ex.num 1 7), ?_, rfl⟩
      simp only [valueOf]
      rw [show (Ex.obEnv prog).prog = prog from rfl, Ex.read_num]
      rfl
  -- the first term, in both programs
  obtain ⟨e, h1, ge, e1, e2, e3⟩ := linear_ok (prog := .obmixer) (m := m2) (id := "A") (terms := [("B", 1)])
    (sp := Ex.one 0) (q := scalarQN) (by simp) (by
      intro t ht
      simp only [List.mem_singleton] at ht
      subst ht
      exact ⟨by simp, Ex.num 0 5, rfl, Ex.num_good 0 5, rfl, rfl⟩)
  have e3' := e3 (fun _ => Ex.num 0 5) (by
    intro t ht
    simp only [List.mem_singleton] at ht
    subst ht
    rfl) 0 0 0 0
  simp only [List.map_cons, List.map_nil, List.sum_cons, List.sum_nil, add_zero, Ex.num_el, one_mul] at e3'
  have hlB : look (setOb m2 "A" none) "B" = .ok (Ex.num 0 5) := rfl
  have hlC : look (setOb m2 "A" (some e)) "C" = .ok (Ex.num 1 7) := rfl
  have h1' : [("B", (1 : ℝ))].foldlM (linearStep .h2mixer m2 "A") none = .ok (some e) := by
    rw [← h1]
    rfl
  have hsecs : (Ex.num 1 7).secs = e.secs := by
    rw [ge.secs, e1, e2]
    rfl
  have hfit : Fits e.secs (Ex.num 1 7).mats e.space e.space := by
    have hf := (Ex.num_good 1 7).fits
    rw [hsecs] at hf
    rw [e1]
    refine ⟨hf.length, ?_⟩
    intro x i k m hp hm
    obtain ⟨q1, q2⟩ := hf.size x i k m hp hm
    refine ⟨q1.trans ?_, q2.trans ?_⟩
    · rcases i with _ | i <;> rfl
    · rcases k with _ | k <;> rfl
  obtain ⟨mats, hm, fm, hv⟩ := combine_ok (c := 1) ge.fits hfit
  have hA : construct (Ex.obEnv .obmixer) m2 ⟨"A", .linear [("B", 1), ("C", 1)]⟩ =
      .ok (setOb m2 "A" (some ⟨e.space, e.secs, mats⟩)) := by
    rw [construct_ok]
    refine ⟨rfl, some ⟨e.space, e.secs, mats⟩, ?_, rfl⟩
    show [("B", (1 : ℝ)), ("C", 1)].foldlM (linearStep .obmixer m2 "A") none = _
    have : [("B", (1 : ℝ)), ("C", 1)] = [("B", 1)] ++ [("C", 1)] := rfl
    rw [this, List.foldlM_append, h1, Except.ok_bind', List.foldlM_cons]
    have hn : nextOb .obmixer (some e) (Ex.num 1 7) = .ok e :=
      laterOb_ok.mpr ⟨by simp, e2.trans rfl, rfl⟩
    simp only [linearStep, hlC, hn, hm, List.foldlM_nil, Except.ok_bind', Except.pure_ok]
  have hB : construct (Ex.obEnv .h2mixer) m2 ⟨"A", .linear [("B", 1), ("C", 1)]⟩ = .error .assertFail := by
    have hem : emplace m2 "A" = .ok (setOb m2 "A" none) := rfl
    show (do
      let m' ← emplace m2 "A"
      let d ← [("B", (1 : ℝ)), ("C", 1)].foldlM (linearStep .h2mixer m' "A") none
      pure (setOb m' "A" d)) = _
    rw [hem, Except.ok_bind', linearStep_congr (m' := m2) (fun x hx => setOb_other _ hx)]
    have : [("B", (1 : ℝ)), ("C", 1)] = [("B", 1)] ++ [("C", 1)] := rfl
    rw [this, List.foldlM_append, h1', Except.ok_bind', List.foldlM_cons]
    have hn : nextOb .h2mixer (some e) (Ex.num 1 7) = .error .assertFail := by
      have hx : ¬ (Ex.num 1 7).space = e.space := by
        rw [e1]
        simp [Ex.num, Ex.one]
      simp [nextOb, laterOb, assertE, hx, Except.error_bind']
    simp only [linearStep, hlC, hn, Except.ok_bind', Except.error_bind']
  refine ⟨Ex.obEnv .obmixer, Ex.obEnv .h2mixer, chans,
    setOb m2 "A" (some ⟨e.space, e.secs, mats⟩), ⟨e.space, e.secs, mats⟩, Ex.num 0 5, Ex.num 1 7, rfl, rfl,
    ⟨Ex.one_good 0, Ex.xf_good _, ?_⟩, ⟨⟨"A", .linear [("B", 1), ("C", 1)]⟩, by simp [chans], rfl, rfl⟩, ?_, setOb_same _ _ _, rfl, rfl, rfl, rfl, e1,
    Ex.num_el 0 5, Ex.num_el 1 7, ?_, ?_⟩
  · intro ch hch
    simp only [chans, List.mem_cons, List.not_mem_nil, or_false] at hch
    rcases hch with rfl | rfl | rfl
    · exact ⟨rfl, Ex.num_good 0 5⟩
    · exact ⟨rfl, Ex.num_good 1 7⟩
    · trivial
  · simp only [buildOb, chans, List.foldlM_cons, List.foldlM_nil, (h12 .obmixer).1, (h12 .obmixer).2, hA, Except.ok_bind',
      Except.pure_ok]
  · have q1 := hv 0 0 0 0
    have q2 : elem e.secs e.mats 0 0 0 0 = 5 := e3'
    have q3 : elem e.secs (Ex.num 1 7).mats 0 0 0 0 = 7 := by
      rw [← hsecs]
      exact Ex.num_el 1 7
    show elem e.secs mats 0 0 0 0 = 12
    rw [q1, q2, q3]
    norm_num
  · simp only [buildOb, chans, List.foldlM_cons, List.foldlM_nil, (h12 .h2mixer).1, (h12 .h2mixer).2, hB, Except.ok_bind',
      Except.error_bind']

/-! ### Files of operators between different spaces -/

/-- **C86.** An operator file between two different spaces: `obmixer` refuses it; `h2mixer` accepts it and takes the
ket space for both, although the blocks belong to the two spaces of the file. -/
theorem unlike_spaces (file : Header × List Mat) (hne : file.1.bra ≠ file.1.ket) (m : ObMap) (id : String)
    (hid : m id = none) {env env' : ObEnv} (hp : env.prog = .h2mixer) (hp' : env'.prog = .obmixer) :
    construct env m ⟨id, .input file file.1.secs.qn⟩ =
      .ok (setOb m id (some ⟨file.1.ket, file.1.secs, file.2⟩)) ∧
    construct env' m ⟨id, .input file file.1.secs.qn⟩ = .error .assertFail := by
  constructor
  · rw [construct_ok]
    refine ⟨hid, _, ?_, rfl⟩
    simp [valueOf, readOb, hp, assertE]
  · simp [construct, emplace, hid, readOb, hp', hne, assertE, Except.error_bind', Except.ok_bind']

/-- **C86**, an instance in which the operator `h2mixer` holds is not an operator on its space: blocks of two rows for a
space of one state. -/
theorem h2mixer_holds_misfit : ∃ (env : ObEnv) (file : Header × List Mat) (m : ObMap) (d : ObData),
    GoodSpace file.1.bra ∧ GoodSpace file.1.ket ∧ Fits file.1.secs file.2 file.1.bra file.1.ket ∧
      file.1.secs = allSectors scalarQN file.1.bra file.1.ket ∧ env.prog = .h2mixer ∧
      buildOb env [⟨"B", .input file scalarQN⟩] = .ok m ∧ m "B" = some (some d) ∧ ¬ Fits d.secs d.mats d.space d.space := by
  let bra : Space := [⟨⟨0, 1, .p⟩, [0, 1]⟩]
  let file : Header × List Mat := (⟨some 'S', bra, Ex.one 0, allSectors scalarQN bra (Ex.one 0)⟩, [⟨2, 1, fun _ _ => 1⟩])
  have hpairs : (allSectors scalarQN bra (Ex.one 0)).pairs = [(0, 0)] := rfl
  have hne : file.1.bra ≠ file.1.ket := by
    intro h
    have := congrArg (fun s : Space => s.map (·.ns)) h
    simp [file, bra, Ex.one] at this
  have h := (unlike_spaces file hne (fun _ => none) "B" rfl (env := Ex.obEnv .h2mixer) (env' := Ex.obEnv .obmixer) rfl rfl).1
  refine ⟨Ex.obEnv .h2mixer, file, setOb (fun _ => none) "B" (some ⟨file.1.ket, file.1.secs, file.2⟩),
    ⟨file.1.ket, file.1.secs, file.2⟩, ⟨by decide, by decide, by decide⟩, Ex.one_good 0,
    ⟨rfl, ?_⟩, rfl, rfl, ?_, setOb_same _ _ _, ?_⟩
  · intro x i k m hp hm
    have hp' : ([(0, 0)] : List (ℕ × ℕ))[x]? = some (i, k) := hp
    have hs : x = 0 := by
      have := (List.getElem?_eq_some_iff.mp hp').1
      simp only [List.length_singleton] at this
      omega
    subst hs
    simp only [List.getElem?_cons_zero, Option.some.injEq, Prod.mk.injEq] at hp'
    obtain ⟨rfl, rfl⟩ := hp'
    simp only [file, List.getElem?_cons_zero, Option.some.injEq] at hm
    subst hm
    exact ⟨rfl, rfl⟩
  · simp only [buildOb, List.foldlM_cons, List.foldlM_nil]
    have : construct (Ex.obEnv .h2mixer) (fun _ => none) ⟨"B", .input file scalarQN⟩ =
      .ok (setOb (fun _ => none) "B" (some ⟨file.1.ket, file.1.secs, file.2⟩)) := h
    rw [this]
    rfl
  · intro hf
    have := (hf.size 0 0 0 _ rfl rfl).1
    simp [file, dim, Ex.one] at this

/-! ### What a name means -/

/-- **C87**, refuted: in `obmixer` the meaning of a `solid-harmonic` source depends on its name.  Under one of the names
`r`, `ik`, `r.r`, `ik.ik` it is the source under any other name without the factor `√(2λ+1)/√(4π)`. -/
theorem name_changes_operator {env : ObEnv} {id id' : String} {ot : RadType} {order : Int} {qn : QN}
    {space : Option Space} {d : ObData} (hid : id ∈ kinematicNames) (h1 : id ≠ "identity") (hid' : id' ∉ kinematicNames)
    (h : generatedOb env id (.radial ot order) qn space = .ok d) :
    ∃ d', generatedOb env id' (.radial ot order) qn space = .ok d' ∧ d'.space = d.space ∧ d'.secs = d.secs ∧
      ∀ i a k c, d'.el i a k c = Real.sqrt (2 * order + 1) * env.inv4pi * d.el i a k c := by
  have h1' : id' ≠ "identity" := by
    rintro rfl
    exact hid' (by simp [kinematicNames])
  unfold generatedOb at h ⊢
  rw [if_neg h1] at h
  rw [if_neg h1']
  simp only [Except.bind_eq_ok, generateOb, solidHarmonicSource] at h
  obtain ⟨mats, ⟨ms, hms, hm⟩, hd⟩ := h
  cases hm
  cases hd
  have hf := solidHarmonic_fits hms
  simp only [generateOb, solidHarmonicSource, hms, Except.ok_bind', Except.pure_ok, hid, hid', decide_true, decide_false,
    if_true, Bool.false_eq_true, if_false]
  refine ⟨_, rfl, rfl, rfl, ?_⟩
  intro i a k c
  simp only [ObData.el]
  rw [(scale_fits _ hf).2, (scale_fits _ hf).2]
  ring

/-- **C87.** A generated source named `identity` is the identity, whatever operator was declared: one between a state
and itself, zero elsewhere. -/
theorem identity_name {env : ObEnv} {gen : Gen} {qn : QN} {space : Option Space} {d : ObData}
    (h : generatedOb env "identity" gen qn space = .ok d) :
    d.space = space.getD env.space ∧ d.secs = allSectors qn d.space d.space ∧
      ∀ i a k c, (i, k) ∈ d.secs.pairs → a < dim d.space i → c < dim d.space k →
        d.el i a k c = if i = k ∧ a = c then 1 else 0 := by
  unfold generatedOb at h
  rw [if_pos rfl] at h
  simp only [Except.bind_eq_ok] at h
  obtain ⟨mats, hm, hd⟩ := h
  cases hd
  refine ⟨rfl, rfl, ?_⟩
  intro i a k c hp ha hc
  have hfit := identityBlocks_fits hm
  unfold identityBlocks at hm
  rw [mapM_ok_iff] at hm
  obtain ⟨x, hx⟩ := idxOf?_mem hp
  obtain ⟨m, hmx, he⟩ := forall₂_getElem? hm (idxOf?_getElem? hx)
  simp only [Except.bind_eq_ok, getE_eq_ok] at he
  obtain ⟨b, hb, k', hk, he⟩ := he
  cases he
  simp only [ObData.el, elem, hx, hmx]
  rw [dim_some hb] at ha
  rw [dim_some hk] at hc
  by_cases hik : i = k
  · subst hik
    rw [hb] at hk
    cases hk
    simp [eye, ha, hc]
  · simp [hik]

/-- The hypotheses of `name_changes_operator` are met: with `r^0` declared, the operator named `r` is `1` and the
operator named `one` is `1/√(4π)`. -/
example : ∃ d d', generatedOb (Ex.obEnv .obmixer) "r" (.radial .r 0) scalarQN none = .ok d ∧
    generatedOb (Ex.obEnv .obmixer) "one" (.radial .r 0) scalarQN none = .ok d' ∧ d.el 0 0 0 0 = 1 ∧
    d'.el 0 0 0 0 = 1 / Real.sqrt (4 * Real.pi) := by
  obtain ⟨rad, r1, r2, r3⟩ := radial_order_zero (spl := (Ex.obEnv .obmixer).spl) (bt := .oscillator) (ot := .r)
    (allSectors_spec scalarQN (Ex.one 0) (Ex.one 0))
  obtain ⟨mats, m1, m2⟩ := solidHarmonicSource_element (crme := (Ex.obEnv .obmixer).crme)
    (inv4pi := (Ex.obEnv .obmixer).inv4pi) (kin := true) (len := 2) (allSectors_spec scalarQN (Ex.one 0) (Ex.one 0)) r1 r2
  have hd : generatedOb (Ex.obEnv .obmixer) "r" (.radial .r 0) scalarQN none =
      .ok ⟨Ex.one 0, allSectors scalarQN (Ex.one 0) (Ex.one 0), mats⟩ := by
    unfold generatedOb
    rw [if_neg (by decide)]
    have : generateOb (Ex.obEnv .obmixer) .oscillator "r" (.radial .r 0) (Ex.one 0)
        (allSectors scalarQN (Ex.one 0) (Ex.one 0)) = .ok mats := m1
    simp only [Option.getD_none, show (Ex.obEnv .obmixer).space = Ex.one 0 from rfl,
      show (Ex.obEnv .obmixer).basis = .oscillator from rfl, this, Except.ok_bind', Except.pure_ok]
  have hv : ObData.el ⟨Ex.one 0, allSectors scalarQN (Ex.one 0) (Ex.one 0), mats⟩ 0 0 0 0 = 1 := by
    simp only [ObData.el]
    rw [m2 0 0 ⟨⟨0, 1, .p⟩, [0]⟩ ⟨⟨0, 1, .p⟩, [0]⟩ 0 0 rfl rfl,
      r3 0 0 ⟨⟨0, 1, .p⟩, [0]⟩ ⟨⟨0, 1, .p⟩, [0]⟩ 0 0 (by rw [Ex.one_pairs]; simp) rfl rfl (by simp) (by simp)]
    simp [Ex.obEnv]
  obtain ⟨d', h1, _, _, h2⟩ := name_changes_operator (id' := "one") (by decide) (by decide) (by decide) hd
  refine ⟨_, d', hd, h1, hv, ?_⟩
  rw [h2, hv]
  simp [Ex.obEnv]

/-! ### The built-in names of `h2mixer` -/

theorem identityBlocks_total (sp : Space) (q : QN) : ∃ ms, identityBlocks sp (allSectors q sp sp) = .ok ms := by
  suffices hall : ∀ p ∈ (allSectors q sp sp).pairs, ∃ m, (do
      let b ← getE sp p.1
      let k ← getE sp p.2
      pure (if p.1 = p.2 then eye b.ns.length k.ns.length else ⟨b.ns.length, k.ns.length, fun _ _ => 0⟩) :
        Except Err Mat) = .ok m ∧ True by
    obtain ⟨ms, h2, _⟩ := mapM_forall₂ (P := fun _ _ => True) hall
    exact ⟨ms, h2⟩
  intro p hp
  obtain ⟨b, k, hb, hk, _⟩ := sectors_some (allSectors_spec _ _ _) hp
  refine ⟨if p.1 = p.2 then eye b.ns.length k.ns.length else ⟨b.ns.length, k.ns.length, fun _ _ => 0⟩, ?_, trivial⟩
  simp only [getE_ok hb, getE_ok hk, Except.ok_bind', Except.pure_ok]

/-- **C88.** Every name of the tables of `h2mixer`, and `identity`, is accepted on any orbitals, and gives an operator of
the tensor character in the table. -/
theorem builtin_total {env : ObEnv} {id : String} {space : Option Space} (g : GoodSpace (space.getD env.space)) :
    (id = "identity" → ∃ d, builtinOb env id space = .ok d ∧ d.space = space.getD env.space ∧ d.secs.qn = scalarQN) ∧
    (∀ gen qn, builtinTable.lookup id = some (gen, qn) → id ≠ "identity" → ∃ d, builtinOb env id space = .ok d ∧
      d.space = space.getD env.space ∧ d.secs.qn = qn) ∧
    (builtinTable.lookup id = none → id ≠ "identity" → builtinOb env id space = .error .exitFailure) := by
  refine ⟨?_, ?_, ?_⟩
  · intro hid
    obtain ⟨ms, h2⟩ := identityBlocks_total (space.getD env.space) scalarQN
    refine ⟨⟨space.getD env.space, allSectors scalarQN (space.getD env.space) (space.getD env.space), ms⟩, ?_, rfl, rfl⟩
    unfold builtinOb
    rw [if_pos hid]
    simp only [h2, Except.ok_bind', Except.pure_ok]
  · intro gen qn hl hne
    suffices hgen : ∃ mats, generateOb env .oscillator id gen (space.getD env.space)
        (allSectors qn (space.getD env.space) (space.getD env.space)) = .ok mats by
      obtain ⟨mats, hm⟩ := hgen
      refine ⟨⟨space.getD env.space, allSectors qn (space.getD env.space) (space.getD env.space), mats⟩, ?_, rfl, rfl⟩
      unfold builtinOb
      rw [if_neg hne, hl]
      simp only [hm, Except.ok_bind', Except.pure_ok]
    have hs := allSectors_spec qn (space.getD env.space) (space.getD env.space)
    have hmem := lookup_mem hl
    have am1 : ∀ type, ∃ mats, angularMomentum env.rme type (space.getD env.space)
        (allSectors ⟨1, 0, 0⟩ (space.getD env.space) (space.getD env.space)) = .ok mats := by
      intro type
      obtain ⟨mats, h1, _⟩ := eye_blocks (sp := space.getD env.space)
        (secs := allSectors ⟨1, 0, 0⟩ (space.getD env.space) (space.getD env.space)) (fun p => do
          let b ← getE (space.getD env.space) p.1
          let k ← getE (space.getD env.space) p.2
          pure (scale (env.rme type b.labels k.labels) (eye b.ns.length k.ns.length)))
        (fun b k => env.rme type b k) (allSectors_spec _ _ _) (by
          intro p _ b k hb hk
          simp only [getE_ok hb, getE_ok hk, Except.ok_bind', Except.pure_ok])
      refine ⟨mats, ?_⟩
      unfold angularMomentum
      simpa [assertE, allSectors] using h1
    have am2 : ∀ type, ∃ mats, angularMomentumSquared type (space.getD env.space)
        (allSectors ⟨0, 0, 0⟩ (space.getD env.space) (space.getD env.space)) = .ok mats := by
      intro type
      obtain ⟨mats, h1, _⟩ := squared_element (type := type) g
        (allSectors_spec scalarQN (space.getD env.space) (space.getD env.space)) rfl
      exact ⟨mats, h1⟩
    have iso : ∀ t : Int, (t = 0 ∨ t = 1 ∨ t = -1) → ∃ mats, Obme.isospin (space.getD env.space)
        (allSectors ⟨0, 0, t⟩ (space.getD env.space) (space.getD env.space)) = .ok mats := by
      intro t ht
      obtain ⟨mats, h1, _⟩ := eye_blocks (sp := space.getD env.space)
        (secs := allSectors ⟨0, 0, t⟩ (space.getD env.space) (space.getD env.space)) (fun p => do
          let b ← getE (space.getD env.space) p.1
          let k ← getE (space.getD env.space) p.2
          let me : ℝ := if t = 0 then (k.labels.tz : ℝ) / 2 else 1
          pure (scale me (eye b.ns.length k.ns.length)))
        (fun _ k => if t = 0 then (k.tz : ℝ) / 2 else 1) (allSectors_spec _ _ _) (by
          intro p _ b k hb hk
          simp only [getE_ok hb, getE_ok hk, Except.ok_bind', Except.pure_ok])
      refine ⟨mats, ?_⟩
      unfold Obme.isospin
      rcases ht with rfl | rfl | rfl <;> simpa [assertE, allSectors] using h1
    have lad : ∀ raising, ∃ mats, Obme.ladder env.crme .oscillator raising (space.getD env.space)
        (allSectors ⟨1, 1, 0⟩ (space.getD env.space) (space.getD env.space)) = .ok mats := by
      intro raising
      have phys : ∀ n l : ℕ, Verif.Osc.Physical (2 * (n : Int) + l) l := fun n l => ⟨by omega, by omega, by omega⟩
      unfold Obme.ladder
      have num : ∀ (n l n' l' : ℕ), ∃ x, (if raising then Verif.Osc.cDagger (2 * (n : Int) + l) l (2 * (n' : Int) + l') l'
          else Verif.Osc.cLower (2 * (n : Int) + l) l (2 * (n' : Int) + l') l') = .ok x := by
        intro n l n' l'
        cases raising
        · exact (Verif.Osc.elements_are_numbers (phys n l) (phys n' l') 1).2.1
        · exact (Verif.Osc.elements_are_numbers (phys n l) (phys n' l') 1).1
      choose val hval using num
      obtain ⟨mats, h1, _⟩ := generateE_element (secs := allSectors ⟨1, 1, 0⟩ (space.getD env.space) (space.getD env.space))
        (v := fun b n k n' => env.crme b k 1 * val n b.l n' k.l) (hs := allSectors_spec _ _ _)
        (f := fun b n k n' => do
          let me ← if raising then Verif.Osc.cDagger (2 * n + b.l) b.l (2 * n' + k.l) k.l
            else Verif.Osc.cLower (2 * n + b.l) b.l (2 * n' + k.l) k.l
          pure (env.crme b k 1 * me)) (by
          intro b mb k mk hal n hn n' hn'
          have := hval n b.labels.l n' k.labels.l
          cases raising <;> simp_all)
      exact ⟨mats, h1⟩
    simp only [builtinTable, List.mem_cons, List.not_mem_nil, or_false, Prod.mk.injEq] at hmem
    rcases hmem with ⟨_, rfl, rfl⟩ | ⟨_, rfl, rfl⟩ | ⟨_, rfl, rfl⟩ | ⟨_, rfl, rfl⟩ | ⟨_, rfl, rfl⟩ | ⟨_, rfl, rfl⟩ |
      ⟨_, rfl, rfl⟩ | ⟨_, rfl, rfl⟩ | ⟨_, rfl, rfl⟩ | ⟨_, rfl, rfl⟩ | ⟨_, rfl, rfl⟩
    · exact am1 _
    · exact am2 _
    · exact am1 _
    · exact am2 _
    · exact am1 _
    · exact am2 _
    · exact iso 0 (by simp)
    · exact iso 1 (by simp)
    · exact iso (-1) (by simp)
    · exact lad true
    · exact lad false
  · intro hl hne
    unfold builtinOb
    rw [if_neg hne, hl]

/-! ### What is accepted -/

theorem build_snoc {env : ObEnv} {chans : List ObChannel} {m : ObMap} {ch : ObChannel} {d : Option ObData}
    (h : buildOb env chans = .ok m) (hn : m ch.id = none) (hv : valueOf env m ch = .ok d) :
    buildOb env (chans ++ [ch]) = .ok (setOb m ch.id d) := by
  unfold buildOb at h ⊢
  rw [foldlM_append_ok]
  refine ⟨m, h, ?_⟩
  rw [List.foldlM_cons, construct_ok.mpr ⟨hn, d, hv, rfl⟩]
  rfl

/-- **C80.** A combination of defined operators on the same orbitals with the same tensor character is accepted by
both programs. -/
theorem linear_accepted {env : ObEnv} {m : ObMap} {id : String} {terms : List (String × ℝ)} {sp : Space} {q : QN}
    (h : ∀ t ∈ terms, t.1 ≠ id ∧ ∃ s, m t.1 = some (some s) ∧ GoodOb s ∧ s.space = sp ∧ s.secs.qn = q) :
    ∃ r, valueOf env m ⟨id, .linear terms⟩ = .ok r := by
  by_cases hne : terms = []
  · subst hne
    exact ⟨none, rfl⟩
  · obtain ⟨d, hd, _⟩ := linear_ok (prog := env.prog) hne h
    exact ⟨some d, hd⟩

/-- **C80.** A tensor product is accepted if and only if its factors are on the same orbitals and the rank satisfies
the triangle rule. -/
theorem product_accepted {env : ObEnv} {a b : ObData} {J0 : Int} {factor : ℝ} (ga : GoodOb a) (gb : GoodOb b) :
    (∃ d, productOb env a b J0 factor = .ok d) ↔
      a.space = b.space ∧ |a.secs.qn.J0 - b.secs.qn.J0| ≤ J0 ∧ J0 ≤ a.secs.qn.J0 + b.secs.qn.J0 := by
  constructor
  · rintro ⟨d, h⟩
    obtain ⟨_, h1, _, _, h2, _⟩ := product_value ga gb h
    exact ⟨h1.symm, h2⟩
  · rintro ⟨hsp, htri⟩
    obtain ⟨mats, h1, h2, h3⟩ := tensorProduct_element (w := env.w) (sp := a.space) (secsA := a.secs)
      (secsB := b.secs) ga.fits (by rw [hsp]; exact gb.fits)
      (by rw [ga.secs]; exact allSectors_spec _ _ _)
      (allSectors_spec ⟨J0, (a.secs.qn.g0 + b.secs.qn.g0).tmod 2, a.secs.qn.Tz0 + b.secs.qn.Tz0⟩ a.space a.space)
      htri (tmod_parity _) rfl
    refine ⟨⟨a.space, allSectors ⟨J0, (a.secs.qn.g0 + b.secs.qn.g0).tmod 2, a.secs.qn.Tz0 + b.secs.qn.Tz0⟩ a.space a.space,
      scaleOb factor mats⟩, ?_⟩
    unfold productOb
    rw [assertE_ok (u := ()).mpr (by simpa using hsp), assertE_ok (u := ()).mpr (by simpa [tri] using htri)]
    simp only [Except.ok_bind', h1, Except.pure_ok]

/-- **C80.** A transformation is accepted if and only if the source is on the orbitals it starts from. -/
theorem xform_accepted {src : ObData} {x : XfData} (gs : GoodOb src) (gx : GoodXf x) :
    (∃ d, xformOb src x = .ok d) ↔ src.space = x.bra := by
  constructor
  · rintro ⟨d, h⟩
    exact (xform_value gs gx h).2.1
  · intro hsp
    obtain ⟨mats, h1, h2, h3⟩ := similarity_element (osecs := src.secs) (omats := src.mats) gx.bra gx.ket gx.overlap
      (by rw [gs.secs, hsp]; exact allSectors_spec _ _ _) (by rw [← hsp]; exact gs.fits)
      (allSectors_spec src.secs.qn x.ket x.ket) rfl
    refine ⟨⟨x.ket, allSectors src.secs.qn x.ket x.ket, mats⟩, ?_⟩
    unfold xformOb
    rw [assertE_ok (u := ()).mpr (by simpa using hsp)]
    simp only [Except.ok_bind', h1, Except.pure_ok]

/-- **C81.** Once the operators are built, `obmixer` writes the targets if and only if each names an operator. -/
theorem obmixer_total {Orb : Type} {lib : Lib Orb} (laws : LibLaws lib) {rnd : ℝ → ℝ} (h0 : rnd 0 = 0) {env : ObEnv}
    {chans : List ObChannel} {targets : List String} {m : ObMap} (hr : RunOK env chans) (hb : Built lib env.space)
    (hm : buildOb env chans = .ok m) :
    (∃ files, obmixer lib rnd env chans targets = .ok files) ↔ ∀ id ∈ targets, ∃ d, m id = some (some d) := by
  unfold obmixer
  rw [hm]
  simp only [Except.ok_bind']
  constructor
  · rintro ⟨files, h⟩ id hid
    rw [mapM_ok_iff] at h
    obtain ⟨f, _, hf⟩ := forall₂_mem_left h id hid
    simp only [Except.bind_eq_ok] at hf
    obtain ⟨r, h1, _⟩ := hf
    unfold targetOb at h1
    simp only [Except.bind_eq_ok, look_ok] at h1
    obtain ⟨d, hd, _⟩ := h1
    exact ⟨d, hd⟩
  · intro hall
    suffices hall' : ∀ id ∈ targets, ∃ f, (do
        let d ← targetOb env m id
        writeFile lib rnd true 'S' d.space d.space d.secs d.mats) = .ok f ∧ True by
      obtain ⟨fs, h, _⟩ := mapM_forall₂ (P := fun _ _ => True) hall'
      exact ⟨fs, h⟩
    intro id hid
    obtain ⟨d, hd⟩ := hall id hid
    obtain ⟨r, e1, gr, e2, e3, _⟩ := target_element hd (build_good hr hm _ _ hd) hr.space
    have hs := gr.secs
    rw [e2, e3] at hs
    have hfit := gr.fits
    rw [e2, hs] at hfit
    obtain ⟨file, mats', w1, _⟩ := file_round_trip laws h0 true 'S' d.secs.qn hb hb hfit []
    refine ⟨file, ?_, trivial⟩
    rw [e1, Except.ok_bind', e2, hs]
    exact w1

/-- A run with channels of every kind but the generated ones meets the hypotheses of the theorems of C57, C80
and C81: `B` from a file, `A = 2 B`, `P = [A × B]⁰`, `X = Uᵀ P U`, all written by `obmixer`. -/
example (prog : Prog) : ∃ (chans : List ObChannel) (m : ObMap), RunOK (Ex.obEnv prog) chans ∧
    buildOb (Ex.obEnv prog) chans = .ok m ∧ chans.map (·.id) = ["B", "A", "P", "X"] ∧
    ⟨"A", .linear [("B", 2)]⟩ ∈ chans ∧ ⟨"P", .product "A" "B" 0 1⟩ ∈ chans ∧ ⟨"X", .xform "P" "U"⟩ ∈ chans ∧
    (∀ id ∈ ["B", "A", "P", "X"], ∃ d, m id = some (some d)) ∧
    (∃ files, obmixer toyLib id (Ex.obEnv prog) chans ["B", "A", "P", "X"] = .ok files) := by
  have h0 : buildOb (Ex.obEnv prog) [] = .ok fun _ => none := rfl
  have v1 : valueOf (Ex.obEnv prog) (fun _ => none) ⟨"B", .input (Ex.numFile 0 5) scalarQN⟩ = .ok (some (Ex.num 0 5)) := by
    simp only [valueOf]
    rw [show (Ex.obEnv prog).prog = prog from rfl, Ex.read_num]
    rfl
  have h1 := build_snoc h0 rfl v1
  obtain ⟨A, a1, a2, a3, a4, _⟩ := linear_ok (prog := prog) (m := setOb (fun _ => none) "B" (some (Ex.num 0 5)))
    (id := "A") (terms := [("B", 2)]) (sp := Ex.one 0) (q := scalarQN) (by simp) (by
      intro t ht
      simp only [List.mem_singleton] at ht
      subst ht
      exact ⟨by simp, Ex.num 0 5, rfl, Ex.num_good 0 5, rfl, rfl⟩)
  have v2 : valueOf (Ex.obEnv prog) (setOb (fun _ => none) "B" (some (Ex.num 0 5))) ⟨"A", .linear [("B", 2)]⟩ =
    .ok (some A) := a1
  have h2 := build_snoc h1 rfl v2
  obtain ⟨P, p1⟩ := (product_accepted (env := Ex.obEnv prog) (J0 := 0) (factor := 1) a2 (Ex.num_good 0 5)).mpr
    ⟨a3, by rw [a4]; decide, by rw [a4]; decide⟩
  obtain ⟨p2, _, p3, _⟩ := product_value a2 (Ex.num_good 0 5) p1
  have v3 : valueOf (Ex.obEnv prog) (setOb (setOb (fun _ => none) "B" (some (Ex.num 0 5))) "A" (some A))
      ⟨"P", .product "A" "B" 0 1⟩ = .ok (some P) := by
    have e1 : look (setOb (setOb (setOb (fun _ => none) "B" (some (Ex.num 0 5))) "A" (some A)) "P" none) "A" = .ok A := rfl
    have e2 : look (setOb (setOb (setOb (fun _ => none) "B" (some (Ex.num 0 5))) "A" (some A)) "P" none) "B" =
      .ok (Ex.num 0 5) := rfl
    simp only [valueOf, e1, e2, p1, Except.ok_bind', Except.pure_ok]
  have h3 := build_snoc h2 rfl v3
  obtain ⟨X, x1⟩ := (xform_accepted p2 Ex.U_good).mpr (p3.trans a3)
  have v4 : valueOf (Ex.obEnv prog) (setOb (setOb (setOb (fun _ => none) "B" (some (Ex.num 0 5))) "A" (some A)) "P" (some P))
      ⟨"X", .xform "P" "U"⟩ = .ok (some X) := by
    have e1 : look (setOb (setOb (setOb (fun _ => none) "B" (some (Ex.num 0 5))) "A" (some A)) "P" (some P)) "P" = .ok P := rfl
    have e2 : lookXf (Ex.obEnv prog).xf "U" = .ok ⟨Ex.one 0, Ex.one 0, (Ex.num 0 3).secs, (Ex.num 0 3).mats⟩ := rfl
    simp only [valueOf, e1, e2, x1, Except.ok_bind', Except.pure_ok]
  have h4 := build_snoc h3 rfl v4
  have hr : RunOK (Ex.obEnv prog) [⟨"B", .input (Ex.numFile 0 5) scalarQN⟩, ⟨"A", .linear [("B", 2)]⟩,
      ⟨"P", .product "A" "B" 0 1⟩, ⟨"X", .xform "P" "U"⟩] := by
    refine ⟨Ex.one_good 0, Ex.xf_good prog, ?_⟩
    intro ch hch
    simp only [List.mem_cons, List.not_mem_nil, or_false] at hch
    rcases hch with rfl | rfl | rfl | rfl
    · exact ⟨rfl, Ex.num_good 0 5⟩
    all_goals trivial
  have hall : ∀ id ∈ ["B", "A", "P", "X"], ∃ d, setOb (setOb (setOb (setOb (fun _ => none) "B" (some (Ex.num 0 5))) "A"
      (some A)) "P" (some P)) "X" (some X) id = some (some d) := by
    intro id hid
    simp only [List.mem_cons, List.not_mem_nil, or_false] at hid
    rcases hid with rfl | rfl | rfl | rfl
    · exact ⟨Ex.num 0 5, rfl⟩
    · exact ⟨A, rfl⟩
    · exact ⟨P, rfl⟩
    · exact ⟨X, rfl⟩
  refine ⟨_, _, hr, h4, rfl, by simp, by simp, by simp, hall, ?_⟩
  exact (obmixer_total toyLib_laws (rnd := id) rfl hr ⟨rfl, by simp [Ex.obEnv, Ex.one]⟩ h4).mpr hall

end Verif.Mixer
