import Verif.Mixer.RoutesWitness

/-!
# Linear combinations of one-body operators in a run of `h2mixer`

C80 at the level of the program.
-/

namespace Verif.Mixer.Control
open Verif Verif.Mapping Verif.Xform Verif.Obme Verif.Separable Verif.Mixer Verif.SU2
open Verif.H2 hiding Mat Subspace Orb

/-- **C80.** In a run of `h2mixer` that ends, the operators added by the `add-ob-source` lines of a linear combination
are on the same orbitals and have the same tensor character, and the two-body sources are computed from the sum of the
coefficients times these operators. -/
theorem h2mixer_linear {setup : Setup} {disk : Disk} {ls : List CLine} {cfg : Config} (hr : read setup.nm ls = .ok cfg)
    {target : TBIndexing} {space : Space} (hix : setup.indexing cfg.targetOrbitals cfg.weights cfg.format cfg.qn = .ok (target, space))
    (hgs : GoodSpace space) (hok : SourcesOK disk cfg.xforms cfg.ob) {out : List (String × List Mat)} (h : h2mixer setup disk ls = .ok out)
    {id : String} {terms : List (String × ℝ)} (hd : .linear id terms ∈ cfg.ob) (hne : terms ≠ []) (hself : ∀ t ∈ terms, t.1 ≠ id) :
    ∃ env chans mats, mix env chans (cfg.targets.map (·.2)) = .ok mats ∧ out = cfg.targets.mapIdx (fun t f => (f.1, column mats t)) ∧
      env.target = target ∧ env.A = cfg.A ∧
      ∃ (d : ObData) (v : String → ObData), env.ob id = some d ∧
        (∀ t ∈ terms, env.ob t.1 = some (v t.1) ∧ (v t.1).space = d.space ∧ (v t.1).secs.qn = d.secs.qn) ∧
        ∀ i a k c, d.el i a k c = (terms.map fun t => t.2 * (v t.1).el i a k c).sum := by
  unfold h2mixer at h
  simp only [hr, hix, Except.ok_bind', Except.bind_eq_ok, Except.pure_ok, Except.ok.injEq] at h
  obtain ⟨xfs, hxf, obs, hob, m, hm, chans, hch, o, ho, rfl⟩ := h
  have hrun : RunOK (obEnvOf setup space xfs) obs := sources_runOK hob hgs (openXf_lookup hxf).2 hok
  obtain ⟨ch, hmem, hopen⟩ := forall₂_mem_left (mapM_ok_iff.mp hob) _ hd
  cases hopen
  obtain ⟨d, v, h1, -, h2, h3⟩ := linear_operator rfl hrun hm hmem hne hself
  refine ⟨envOf setup cfg target m xfs, chans, o, ho, rfl, rfl, rfl, d, v, ?_, ?_, h3⟩
  · simp [envOf, obView, h1]
  · intro t ht
    exact ⟨by simp [envOf, obView, (h2 t ht).1], (h2 t ht).2⟩

/-- **C80.** `h2mixer` does not end with a linear combination of two one-body files on different orbitals. -/
theorem h2mixer_refuses_unlike {setup : Setup} {disk : Disk} {ls : List CLine} {cfg : Config} (hr : read setup.nm ls = .ok cfg)
    {target : TBIndexing} {space : Space} (hix : setup.indexing cfg.targetOrbitals cfg.weights cfg.format cfg.qn = .ok (target, space))
    (hgs : GoodSpace space) (hok : SourcesOK disk cfg.xforms cfg.ob)
    {id : String} {terms : List (String × ℝ)} (hd : .linear id terms ∈ cfg.ob) (hself : ∀ t ∈ terms, t.1 ≠ id)
    {a b : String × ℝ} (ha : a ∈ terms) (hb : b ∈ terms) {fa fb : String} {qa qb : QN} {da db : Header × List Mat}
    (ia : .input a.1 fa qa ∈ cfg.ob) (ib : .input b.1 fb qb ∈ cfg.ob) (oa : disk.obme fa = .ok da) (ob : disk.obme fb = .ok db)
    (hne : da.1.ket ≠ db.1.ket) : ∀ out, h2mixer setup disk ls ≠ .ok out := by
  intro out h
  unfold h2mixer at h
  simp only [hr, hix, Except.ok_bind', Except.bind_eq_ok, Except.pure_ok, Except.ok.injEq] at h
  obtain ⟨xfs, hxf, obs, hob, m, hm, -⟩ := h
  have hrun : RunOK (obEnvOf setup space xfs) obs := sources_runOK hob hgs (openXf_lookup hxf).2 hok
  obtain ⟨ch, hmem, hopen⟩ := forall₂_mem_left (mapM_ok_iff.mp hob) _ hd
  cases hopen
  obtain ⟨d, v, -, -, h2, -⟩ := linear_operator rfl hrun hm hmem (List.ne_nil_of_mem ha) hself
  have key : ∀ {n f : String} {q : QN} {x : Header × List Mat}, .input n f q ∈ cfg.ob → disk.obme f = .ok x →
      m n = some (some ⟨x.1.ket, x.1.secs, x.2⟩) := by
    intro n f q x hi ho
    obtain ⟨c, hc, hco⟩ := forall₂_mem_left (mapM_ok_iff.mp hob) _ hi
    simp only [openOb, ho, Except.ok_bind', Except.pure_ok, Except.ok.injEq] at hco
    subst hco
    exact (input_operator hm hc).1
  have e1 := (h2 a ha).1
  have e2 := (h2 b hb).1
  rw [key ia oa] at e1
  rw [key ib ob] at e2
  simp only [Option.some.injEq] at e1 e2
  apply hne
  have s1 := (h2 a ha).2.1
  have s2 := (h2 b hb).2.1
  rw [← e1] at s1
  rw [← e2] at s2
  exact s1.trans s2.symm

namespace Ex4
open Verif.Mixer.Control.Ex Verif.Mixer.Control.Ex2 Verif.Mixer.Control.Ex3

/-- A control file with a linear combination of a one-body operator with itself. -/
def lines4 : List CLine :=
  [⟨["set-mass", "2"], false⟩, ⟨["define-ob-source", "input", "R2", "rr.dat", "0", "0", "0"], false⟩, ⟨["define-ob-source", "linear-combination", "L"], false⟩,
   ⟨["add-ob-source", "R2", "1"], false⟩, ⟨["add-ob-source", "R2", "w"], false⟩, ⟨["define-tb-source", "operatorU", "U", "L"], false⟩,
   ⟨["define-target", "u.bin"], false⟩, ⟨["add-source", "U", "1"], false⟩]

noncomputable def terms4 : List (String × ℝ) := [("R2", 1), ("R2", 2 * √3 / ratio ^ 2)]

noncomputable def cfg4 : Config :=
  { A := some 2, ob := [.input "R2" "rr.dat" ⟨0, 0, 0⟩, .linear "L" terms4], tb := [.opU "U" "L"], targets := [("u.bin", [("U", 1)])] }

theorem read4 : read setup3.nm lines4 = .ok cfg4 := by
  rw [read_ok]
  refine ⟨[.mass 2, .ob (.input "R2" "rr.dat" ⟨0, 0, 0⟩), .ob (.linear "L" []), .addOb "R2" 1, .addOb "R2" (2 * √3 / ratio ^ 2), .tb (.opU "U" "L"), .target "u.bin", .add "U" 1], ?_, rfl⟩
  simp [lines4, setup3, numbers3, parse, parseXf, parseTb, parseOb, parseTerm, optWord, optNum, atEnd, obNames, tbNames, weights, word, num, int, Except.ok_bind', Except.pure_ok]

theorem sources4 {rr : ObData} (hrr : Made "r.r" ⟨0, 0, 0⟩ rr) : SourcesOK (disk3 rr rr) cfg4.xforms cfg4.ob where
  orbitals := by intro file s h; cases h
  xform := by
    intro id file f x h1 h2 h3
    cases h1
  input := by
    intro id file qn f h1 h2
    simp only [disk3] at h2
    split_ifs at h2 <;>
    · cases h2
      exact ⟨rfl, hrr.good⟩
  order := by simp [cfg4]

/-- The hypotheses of `h2mixer_linear` are met. -/
example : ∃ rr out, h2mixer setup3 (disk3 rr rr) lines4 = .ok out ∧ SourcesOK (disk3 rr rr) cfg4.xforms cfg4.ob ∧
    .linear "L" terms4 ∈ cfg4.ob ∧ terms4 ≠ [] ∧ ∀ t ∈ terms4, t.1 ≠ "L" := by
  obtain ⟨rr, hrr, mrr⟩ := made_rr
  have hself : ∀ t ∈ terms4, t.1 ≠ "L" := by simp [terms4]
  have den : Denotes (disk3 rr rr) orbs 1 cfg4.xforms cfg4.ob "R2" ⟨0, 0, 0⟩ orbs nucleon (kinematicOperator 1 "r.r") := by
    have := Denotes.input (disk := disk3 rr rr) (target := orbs) (len := 1) (xforms := cfg4.xforms) (decls := cfg4.ob) (id := "R2") (file := "rr.dat") (qn := ⟨0, 0, 0⟩)
      (f := (⟨none, rr.space, rr.space, rr.secs⟩, rr.mats)) (st := nucleon) (by simp [cfg4]) (by simp [disk3]) (by decide) mrr.means
    rwa [show (Header.ket _ : Space) = orbs from mrr.space] at this
  have denL := Denotes.linear (disk := disk3 rr rr) (target := orbs) (len := 1) (xforms := cfg4.xforms) (decls := cfg4.ob) (id := "L") (terms := terms4)
    (qn := ⟨0, 0, 0⟩) (s := orbs) (st := nucleon) (op := fun _ => kinematicOperator 1 "r.r") (by simp [cfg4]) (by simp [terms4]) hself (by
      intro t ht
      have : t.1 = "R2" := by
        simp only [terms4, List.mem_cons, List.not_mem_nil, or_false] at ht
        rcases ht with rfl | rfl <;> rfl
      rw [this]
      exact den)
  have v : valueOf (obEnvOf setup3 orbs []) (fun _ => none) ⟨"R2", .input (⟨none, rr.space, rr.space, rr.secs⟩, rr.mats) ⟨0, 0, 0⟩⟩ = .ok (some rr) := by
    have := mrr.qn
    simp [valueOf, readOb, assertE, Except.ok_bind', Except.pure_ok, this]
  obtain ⟨l, hl⟩ := linear_accepted (env := obEnvOf setup3 orbs []) (m := setOb (fun _ => none) "R2" (some rr)) (id := "L") (terms := terms4)
    (sp := rr.space) (q := rr.secs.qn) (by
      intro t ht
      refine ⟨hself t ht, rr, ?_, mrr.good, rfl, rfl⟩
      have : t.1 = "R2" := by
        simp only [terms4, List.mem_cons, List.not_mem_nil, or_false] at ht
        rcases ht with rfl | rfl <;> rfl
      simp [this, setOb])
  have hm := build_snoc (chans := [_]) (build_snoc (chans := []) rfl rfl v) (ch := ⟨"L", .linear terms4⟩) (by simp [setOb]) hl
  obtain ⟨out, ho⟩ := h2mixer_ends (setup := setup3) rfl rfl rfl rfl read4 (target := Mixer.Ex.pTarget) (space := orbs) rfl Mixer.Ex.pTarget_ok orbs_good le_rfl
    target_triangles (sources4 mrr) (by decide) nucleon (by decide) (by decide) rfl rfl hm rfl (by
      intro d hd
      simp only [cfg4, List.mem_cons, List.not_mem_nil, or_false] at hd
      subst hd
      exact ⟨_, .upgrade (ob := "L") (s := orbs) (a := 2) (by simp [cfg4, TbDecl.id]) denL (nucleon_orthonormal orbs_physical) available rfl (by decide) (by decide)⟩)
  exact ⟨rr, out, ho, sources4 mrr, by simp [cfg4], by simp [terms4], hself⟩

/-- Files on the orbitals `0s1/2` and `1s1/2`. -/
noncomputable def disk5 : Disk where
  h2 _ := .error .streamFail
  obme f := if f = "a.dat" then .ok (Mixer.Ex.numFile 0 5) else if f = "b.dat" then .ok (Mixer.Ex.numFile 1 7) else .error .streamFail
  orbitals _ := .error .streamFail

def lines5 : List CLine :=
  [⟨["define-ob-source", "input", "A", "a.dat", "0", "0", "0"], false⟩, ⟨["define-ob-source", "input", "B", "b.dat", "0", "0", "0"], false⟩,
   ⟨["define-ob-source", "linear-combination", "L"], false⟩, ⟨["add-ob-source", "A", "1"], false⟩, ⟨["add-ob-source", "B", "1"], false⟩]

noncomputable def cfg5 : Config :=
  { ob := [.input "A" "a.dat" ⟨0, 0, 0⟩, .input "B" "b.dat" ⟨0, 0, 0⟩, .linear "L" [("A", 1), ("B", 1)]] }

theorem read5 : read setup3.nm lines5 = .ok cfg5 := by
  rw [read_ok]
  refine ⟨[.ob (.input "A" "a.dat" ⟨0, 0, 0⟩), .ob (.input "B" "b.dat" ⟨0, 0, 0⟩), .ob (.linear "L" []), .addOb "A" 1, .addOb "B" 1], ?_, rfl⟩
  simp [lines5, setup3, numbers3, parse, parseXf, parseTb, parseOb, parseTerm, optWord, optNum, atEnd, obNames, tbNames, weights, word, num, int, Except.ok_bind', Except.pure_ok]

/-- The hypotheses of `h2mixer_refuses_unlike` are met. -/
example : ∀ out, h2mixer setup3 disk5 lines5 ≠ .ok out := by
  refine h2mixer_refuses_unlike read5 (target := Mixer.Ex.pTarget) (space := orbs) rfl orbs_good ⟨?_, ?_, ?_, ?_⟩ (id := "L") (terms := [("A", 1), ("B", 1)])
    (by simp [cfg5]) (by simp) (a := ("A", 1)) (b := ("B", 1)) (by simp) (by simp) (fa := "a.dat") (fb := "b.dat") (qa := ⟨0, 0, 0⟩) (qb := ⟨0, 0, 0⟩)
    (da := Mixer.Ex.numFile 0 5) (db := Mixer.Ex.numFile 1 7) (by simp [cfg5]) (by simp [cfg5]) (by simp [disk5]) (by simp [disk5]) (by decide)
  · intro file s h
    cases h
  · intro id file f x h1 h2 h3
    cases h1
  · intro id file qn f h1 h2
    simp only [disk5] at h2
    split_ifs at h2
    · cases h2
      exact ⟨rfl, Mixer.Ex.num_good 0 5⟩
    · cases h2
      exact ⟨rfl, Mixer.Ex.num_good 1 7⟩
  · simp [cfg5]

end Ex4

end Verif.Mixer.Control
