import Verif.Mixer.Program
import Verif.Mixer.ControlOb
import Verif.Mixer.ControlLines
import Verif.Mixer.OneBodyWitness
import Verif.Mixer.TwoBodyWitness

/-!
# Property C96: from the control file to the target files
-/

namespace Verif.Mixer.Control
open Verif Verif.Mapping Verif.Xform Verif.Obme Verif.Separable Verif.Mixer
open Verif.H2 hiding Mat Subspace

/-! ## Columns -/

theorem column_get {out : List (List Mat)} {t : ℕ} (h : ∀ ms ∈ out, t < ms.length) :
    (column out t).length = out.length ∧ ∀ (s : ℕ), (column out t)[s]? = (out[s]?).bind (·[t]?) := by
  induction out with
  | nil => simp [column]
  | cons ms out ih =>
    have h1 := ih fun x hx => h x (by simp [hx])
    have h0 := h ms (by simp)
    have e : column (ms :: out) t = ms[t] :: column out t := by
      simp [column, List.getElem?_eq_getElem h0]
    rw [e]
    refine ⟨by simp [h1.1], ?_⟩
    rintro (_ | s)
    · simp [List.getElem?_eq_getElem h0]
    · simpa using h1.2 s

theorem lookup_cons_eq {α : Type} (x id : String) (a : α) (l : List (String × α)) :
    ((x, a) :: l).lookup id = if id = x then some a else l.lookup id := by
  by_cases e : id = x
  · simp [e]
  · have : (id == x) = false := by simpa using e
    simp [List.lookup, this, e]

theorem openXf_lookup {disk : Disk} : ∀ {l : List (String × String)} {xfs : List (String × XfData)},
    l.mapM (openXf disk) = .ok xfs → (∀ id, xfs.lookup id = none ↔ l.lookup id = none) ∧
      ∀ id d, xfs.lookup id = some d → ∃ file f, l.lookup id = some file ∧ disk.obme file = .ok f ∧ initXform f = .ok d
  | [], xfs, h => by
    cases h
    simp
  | e :: l, xfs, h => by
    rw [mapM_ok_iff] at h
    obtain ⟨x, xs, he, hl, rfl⟩ := List.forall₂_cons_left_iff.mp h
    obtain ⟨i1, i2⟩ := openXf_lookup (mapM_ok_iff.mpr hl)
    simp only [openXf, Except.bind_eq_ok, Except.pure_ok, Except.ok.injEq] at he
    obtain ⟨f, hf, d, hd, rfl⟩ := he
    obtain ⟨n, file⟩ := e
    refine ⟨?_, ?_⟩
    · intro id
      rw [lookup_cons_eq, lookup_cons_eq]
      split
      · simp
      · exact i1 id
    · intro id d' h'
      rw [lookup_cons_eq] at h'
      rw [lookup_cons_eq]
      split at h'
      · rename_i e
        cases h'
        exact ⟨file, f, by rw [if_pos e], hf, hd⟩
      · rename_i e
        obtain ⟨file', f', a1, a2, a3⟩ := i2 id d' h'
        exact ⟨file', f', by rw [if_neg e, a1], a2, a3⟩

/-- What the commands say, in one statement. -/
theorem read_spec {nm : Numbers} {ls : List CLine} {cfg : Config} (h : read nm ls = .ok cfg) :
    ∃ cs, ls.mapM (parse nm) = .ok cs ∧ cfg.qn = lastOf Cmd.qn? ⟨0, 0, 0⟩ cs ∧
      cfg.A = (cs.filterMap Cmd.mass?).getLast? ∧ cfg.format = lastOf Cmd.format? 0 cs ∧
      cfg.weights = lastOf Cmd.weights? .default cs ∧ cfg.tb = cs.filterMap Cmd.tb? ∧
      (∀ x, cfg.xforms.lookup x = (cs.filterMap Cmd.xform?).lookup x) ∧
      cfg.targets.map (·.1) = cs.filterMap Cmd.target? ∧
      ∀ (k : ℕ) f ts, cfg.targets[k]? = some (f, ts) ↔
        ∃ pre post, cs = pre ++ .target f :: post ∧ (pre.filterMap Cmd.target?).length = k ∧
          ts = (post.takeWhile fun c => c.target?.isNone).filterMap Cmd.add? := by
  obtain ⟨cs, h1, a1, a2, a3, -, -, a4, a5⟩ := settings h
  obtain ⟨cs', h1', a6⟩ := xform_first h
  obtain ⟨cs'', h1'', a7⟩ := target_terms h
  rw [h1] at h1' h1''
  cases h1'
  cases h1''
  refine ⟨cs, h1, a1, a2, a3, a4, a5, a6, ?_, a7⟩
  apply List.ext_getElem?
  intro k
  rw [List.getElem?_map]
  obtain ⟨_, _, h2⟩ := read_ok.mp h
  have key : ∀ (cs : List Cmd) (k : ℕ) f, (cs.filterMap Cmd.target?)[k]? = some f ↔
      ∃ pre post, cs = pre ++ .target f :: post ∧ (pre.filterMap Cmd.target?).length = k := by
    intro cs
    induction cs with
    | nil => simp
    | cons c cs ih =>
      intro k f
      cases hc : c.target? with
      | none =>
        rw [List.filterMap_cons_none hc, ih]
        constructor
        · rintro ⟨pre, post, rfl, hk⟩
          exact ⟨c :: pre, post, rfl, by rw [List.filterMap_cons_none hc]; exact hk⟩
        · rintro ⟨pre, post, e, hk⟩
          rcases pre with _ | ⟨c', pre⟩
          · simp only [List.nil_append, List.cons.injEq] at e
            rw [e.1] at hc
            cases hc
          · simp only [List.cons_append, List.cons.injEq] at e
            obtain ⟨rfl, rfl⟩ := e
            rw [List.filterMap_cons_none hc] at hk
            exact ⟨pre, post, rfl, hk⟩
      | some g =>
        have hg : c = .target g := by
          cases c <;> simp_all [Cmd.target?]
        rw [List.filterMap_cons_some hc]
        rcases k with _ | k
        · simp only [List.getElem?_cons_zero, Option.some.injEq]
          constructor
          · rintro rfl
            exact ⟨[], cs, by rw [hg]; rfl, rfl⟩
          · rintro ⟨pre, post, e, hk⟩
            rcases pre with _ | ⟨c', pre⟩
            · simp only [List.nil_append, List.cons.injEq] at e
              rw [e.1] at hg
              cases hg
              rfl
            · simp only [List.cons_append, List.cons.injEq] at e
              rw [← e.1, List.filterMap_cons_some hc] at hk
              simp at hk
        · rw [List.getElem?_cons_succ, ih]
          constructor
          · rintro ⟨pre, post, rfl, hk⟩
            exact ⟨c :: pre, post, rfl, by rw [List.filterMap_cons_some hc]; simp [hk]⟩
          · rintro ⟨pre, post, e, hk⟩
            rcases pre with _ | ⟨c', pre⟩
            · simp at hk
            · simp only [List.cons_append, List.cons.injEq] at e
              obtain ⟨rfl, rfl⟩ := e
              rw [List.filterMap_cons_some hc] at hk
              exact ⟨pre, post, rfl, by simpa using hk⟩
  apply Option.ext
  intro f
  rw [key]
  rw [Option.map_eq_some_iff]
  constructor
  · rintro ⟨⟨f', ts⟩, ht, rfl⟩
    obtain ⟨pre, post, e, hk, -⟩ := (a7 k f' ts).mp ht
    exact ⟨pre, post, e, hk⟩
  · rintro ⟨pre, post, e, hk⟩
    exact ⟨(f, _), (a7 k f _).mpr ⟨pre, post, e, hk, rfl⟩, rfl⟩

/-! ## `h2mixer` -/

/-- **C96.** From the control file to the targets of `h2mixer`.  When a run ends well, every line was read as a
command; the target files are those of the `define-target` lines, in order; the target indexing is built from the last
settings; the two-body sources are those of the `define-tb-source` lines, in order; and each matrix element of
each sector of a target is the sum, over the `add-source` lines between its `define-target` line and the next, of the
coefficient times the element of the named source, small values being set to zero. -/
theorem h2mixer_run {setup : Setup} {disk : Disk} {ls : List CLine} {out : List (String × List Mat)}
    (h : h2mixer setup disk ls = .ok out) :
    ∃ cs env chans, ls.mapM (parse setup.nm) = .ok cs ∧
      (∃ cfg space, read setup.nm ls = .ok cfg ∧
        setup.indexing cfg.targetOrbitals (lastOf Cmd.weights? .default cs) (lastOf Cmd.format? 0 cs)
          (lastOf Cmd.qn? ⟨0, 0, 0⟩ cs) = .ok (env.target, space) ∧
        ∃ obs m, cfg.ob.mapM (openOb disk) = .ok obs ∧ env.ob = obView m ∧
          ∃ xfs, (∀ id, xfs.lookup id = none ↔ (cs.filterMap Cmd.xform?).lookup id = none) ∧
            (∀ id d, xfs.lookup id = some d → ∃ file f, (cs.filterMap Cmd.xform?).lookup id = some file ∧
              disk.obme file = .ok f ∧ initXform f = .ok d) ∧
            (env.xf = fun id => (xfs.lookup id).map overlapOf) ∧ buildOb (obEnvOf setup space xfs) obs = .ok m) ∧
      env.qn = lastOf Cmd.qn? ⟨0, 0, 0⟩ cs ∧ env.A = (cs.filterMap Cmd.mass?).getLast? ∧ env.tol = setup.tol ∧
      env.am = setup.am ∧
      List.Forall₂ (fun d ch => openTb setup disk env.qn d = .ok ch) (cs.filterMap Cmd.tb?) chans ∧
      out.map (·.1) = cs.filterMap Cmd.target? ∧
      ∀ (t : ℕ) pre f post, cs = pre ++ .target f :: post → (pre.filterMap Cmd.target?).length = t →
        ∃ Ms, out[t]? = some (f, Ms) ∧ Ms.length = env.target.sectors.length ∧
        ∀ (s : ℕ) p, env.target.sectors[s]? = some p →
          ∃ src M, (∀ id, Provides env chans p id (src id)) ∧ Ms[s]? = some M ∧ SectorSize env p M ∧
          ∀ i j, ChopOf env.tol
            (combination src ((post.takeWhile fun c => c.target?.isNone).filterMap Cmd.add?) i j) (M.val i j) := by
  unfold h2mixer at h
  simp only [Except.bind_eq_ok, Except.pure_ok, Except.ok.injEq] at h
  obtain ⟨cfg, hr, ix, hix, xfs, hxf, obs, hob, m, hm, chans, hch, o, ho, rfl⟩ := h
  obtain ⟨cs, hcs, a1, a2, a3, a4, a5, a6, a7, a8⟩ := read_spec hr
  obtain ⟨x1, x2⟩ := openXf_lookup hxf
  obtain ⟨e1, e2⟩ := mix_element ho
  refine ⟨cs, envOf setup cfg ix.1 m xfs, chans, hcs, ⟨cfg, ix.2, hr, ?_, obs, m, hob, rfl, xfs, ?_, ?_, rfl, hm⟩, a1, a2,
    rfl, rfl, ?_, ?_, ?_⟩
  · rw [← a4, ← a3, ← a1]
    exact hix
  · intro id
    rw [x1, a6]
  · intro id d hd
    obtain ⟨file, f, h1, h2, h3⟩ := x2 id d hd
    exact ⟨file, f, (a6 id).symm.trans h1, h2, h3⟩
  · rw [← a5]
    exact mapM_ok_iff.mp hch
  · rw [← a7]
    apply List.ext_getElem?
    intro k
    rw [List.getElem?_map, List.getElem?_mapIdx, List.getElem?_map, Option.map_map]
    rfl
  · intro t pre f post hc ht
    have hget := (a8 t f _).mpr ⟨pre, post, hc, ht, rfl⟩
    have hlt : t < cfg.targets.length := (List.getElem?_eq_some_iff.mp hget).1
    have hall : ∀ ms ∈ o, t < ms.length := by
      intro ms hms
      obtain ⟨s, hs⟩ := List.mem_iff_getElem?.mp hms
      have : s < (envOf setup cfg ix.1 m xfs).target.sectors.length := by
        rw [← e1]
        exact (List.getElem?_eq_some_iff.mp hs).1
      obtain ⟨ms', h1, h2, -⟩ := e2 s _ (List.getElem?_eq_getElem this)
      rw [hs] at h1
      cases h1
      rw [h2, List.length_map]
      exact hlt
    obtain ⟨c1, c2⟩ := column_get hall
    refine ⟨column o t, ?_, c1.trans e1, ?_⟩
    · rw [List.getElem?_mapIdx, hget]
      rfl
    · intro s p hp
      obtain ⟨ms, h1, -, src, h3, h4⟩ := e2 s p hp
      obtain ⟨M, m1, m2, m3⟩ := h4 t _ (by rw [List.getElem?_map, hget]; rfl)
      exact ⟨src, M, h3, by rw [c2, h1]; exact m1, m2, m3⟩

/-- **C96.** Only the order within each kind of line matters for the files `h2mixer` writes. -/
theorem h2mixer_order {setup : Setup} {disk : Disk} {ls ls' : List CLine} {cs cs' : List Cmd}
    (h1 : ls.mapM (parse setup.nm) = .ok cs) (h2 : ls'.mapM (parse setup.nm) = .ok cs')
    (h : ∀ g, cs.filter (fun c => c.group = g) = cs'.filter fun c => c.group = g) (out : List (String × List Mat)) :
    h2mixer setup disk ls = .ok out ↔ h2mixer setup disk ls' = .ok out := by
  have key : ∀ cfg, read setup.nm ls = .ok cfg ↔ read setup.nm ls' = .ok cfg := by
    intro cfg
    rw [read_ok, read_ok, h1, h2]
    simp only [Except.ok.injEq, exists_eq_left']
    exact order_within_kinds h cfg
  unfold h2mixer
  simp only [Except.bind_eq_ok, key]

theorem no_xforms {nm : Numbers} {ls : List CLine} {cfg : Config} (h : read nm ls = .ok cfg) {cs : List Cmd}
    (hcs : ls.mapM (parse nm) = .ok cs) (hx : cs.filterMap Cmd.xform? = []) : cfg.xforms = [] := by
  obtain ⟨cs', h1, h2⟩ := xform_first h
  rw [hcs] at h1
  cases h1
  match he : cfg.xforms with
  | [] => rfl
  | (a, b) :: l =>
    have := h2 a
    rw [hx, he, lookup_cons_eq, if_pos rfl] at this
    cases this

theorem no_ob {nm : Numbers} {ls : List CLine} {cfg : Config} (h : read nm ls = .ok cfg) {cs : List Cmd}
    (hcs : ls.mapM (parse nm) = .ok cs) (hx : cs.filterMap Cmd.ob? = []) : cfg.ob = [] := by
  obtain ⟨cs', h1, h2, -⟩ := ob_terms h
  rw [hcs] at h1
  cases h1
  match he : cfg.ob with
  | [] => rfl
  | d :: l =>
    obtain ⟨pre, e, post, hc, -, -⟩ := (h2 0 d).mp (by rw [he]; rfl)
    rw [hc] at hx
    simp [List.filterMap_cons, Cmd.ob?] at hx

/-- **C96.** A control file that mixes two-body files: if it is accepted, the files it names hold operators and the
libraries deliver an indexing, the run ends well, and each element of each target is the combination, with the
coefficients of its `add-source` lines, of the elements of these operators between the target states. -/
theorem h2mixer_mixes_files {V : Type} [AddCommGroup V] [Module ℝ V] {setup : Setup} {disk : Disk} {ls : List CLine}
    {cs : List Cmd} {cfg : Config} (hcs : ls.mapM (parse setup.nm) = .ok cs) (hr : read setup.nm ls = .ok cfg)
    (hx : cs.filterMap Cmd.xform? = []) (ho : cs.filterMap Cmd.ob? = [])
    {files : List (String × String × H2In)}
    (htb : cs.filterMap Cmd.tb? = files.map fun f => .input f.1 f.2.1) (hn : (files.map (·.1)).Nodup)
    (hdisk : ∀ f ∈ files, disk.h2 f.2.1 = .ok f.2.2) {target : TBIndexing} {space : Space}
    (hix : setup.indexing cfg.targetOrbitals cfg.weights cfg.format cfg.qn = .ok (target, space)) (ht : IndexOK target)
    (hp : ∀ p ∈ target.sectors, p.1 < target.space.length ∧ p.2 < target.space.length) {K : PairKets V}
    {B : String → V →ₗ[ℝ] V →ₗ[ℝ] ℝ}
    (hf : ∀ f ∈ files, IndexOK f.2.2.ix ∧ Holds K (B f.1) f.2.2 ∧ SymWithin K (B f.1) f.2.2.ix) :
    ∃ out, h2mixer setup disk ls = .ok out ∧ out.map (·.1) = cs.filterMap Cmd.target? ∧
      ∀ (t : ℕ) pre name post, cs = pre ++ .target name :: post → (pre.filterMap Cmd.target?).length = t →
        ∃ Ms, out[t]? = some (name, Ms) ∧ Ms.length = target.sectors.length ∧
        ∀ s p b k, IsSector target s p b k → ∃ M, Ms[s]? = some M ∧ M.rows = b.states.length ∧
          M.cols = k.states.length ∧
          ∀ (i j : ℕ) sti stj, b.states[i]? = some sti → k.states[j]? = some stj →
            ChopOf setup.tol
              ((((post.takeWhile fun c => c.target?.isNone).filterMap Cmd.add?).map fun t =>
                t.2 * contribution K B (files.map fun f => (f.1, f.2.2)) target.orbitals b k sti stj t.1).sum)
              (M.val i j) := by
  obtain ⟨cs', hcs', a1, a2, a3, a4, a5, a6, a7, a8⟩ := read_spec hr
  rw [hcs] at hcs'
  cases hcs'
  have hxf := no_xforms hr hcs hx
  have hob := no_ob hr hcs ho
  have hopen : cfg.tb.mapM (openTb setup disk cfg.qn) = .ok (inputChannels (files.map fun f => (f.1, f.2.2))) := by
    rw [a5, htb, mapM_ok_iff, inputChannels, List.map_map, List.forall₂_map_left_iff, List.forall₂_map_right_iff,
      List.forall₂_same]
    intro f hm
    simp only [openTb, hdisk f hm, Except.ok_bind', Except.pure_ok, Function.comp_apply]
  obtain ⟨o, hout, hel⟩ := mix_files (env := envOf setup cfg target (fun _ => none) [])
    (files := files.map fun f => (f.1, f.2.2)) ht hp (by rw [List.map_map]; exact hn) (K := K) (B := B) (by
      intro f hm
      obtain ⟨g, hg, rfl⟩ := List.mem_map.mp hm
      exact hf g hg) (cfg.targets.map (·.2))
  have hrun : h2mixer setup disk ls = .ok (cfg.targets.mapIdx fun t f => (f.1, column o t)) := by
    unfold h2mixer
    rw [hr]
    simp only [Except.ok_bind', hix, hxf, hob, List.mapM_nil, Except.pure_ok, buildOb, List.foldlM_nil, hopen, hout]
  refine ⟨_, hrun, ?_, ?_⟩
  · obtain ⟨cs', env, chans, hcs', -, -, -, -, -, -, hnames, -⟩ := h2mixer_run hrun
    rw [hcs] at hcs'
    cases hcs'
    exact hnames
  · intro t pre name post hc hk
    have hget := (a8 t name _).mpr ⟨pre, post, hc, hk, rfl⟩
    obtain ⟨e1, e2⟩ := mix_element hout
    have hlt : t < cfg.targets.length := (List.getElem?_eq_some_iff.mp hget).1
    have hall : ∀ ms ∈ o, t < ms.length := by
      intro ms hms
      obtain ⟨s, hs⟩ := List.mem_iff_getElem?.mp hms
      have : s < (envOf setup cfg target (fun _ => none) []).target.sectors.length := by
        rw [← e1]
        exact (List.getElem?_eq_some_iff.mp hs).1
      obtain ⟨ms', h1, h2, -⟩ := e2 s _ (List.getElem?_eq_getElem this)
      rw [hs] at h1
      cases h1
      rw [h2, List.length_map]
      exact hlt
    obtain ⟨c1, c2⟩ := column_get hall
    refine ⟨column o t, ?_, c1.trans e1, ?_⟩
    · rw [List.getElem?_mapIdx, hget]
      rfl
    · intro s p b k hs
      obtain ⟨ms, M, h1, h2, h3, h4, h5⟩ := hel s p b k hs t _ (by rw [List.getElem?_map, hget]; rfl)
      exact ⟨M, by rw [c2, h1]; exact h2, h3, h4, h5⟩

/-! ## `obmixer` -/

/-- An operator type a line can declare is one some routine handles. -/
theorem declared_order {nm : Numbers} {l : CLine} {id : String} {t : SrcType} {order : Int} {qn : QN} {file : String}
    (h : parseO nm l = .ok (.source (.generated id t order qn file))) {g : Gen} (hg : genOf t order = some g) :
    GenOK g := by
  have tab : ∀ {tb : List (String × SrcType × Int × QN)} {tr x ws}, (∀ e ∈ tb, ∀ g, genOf e.2.1 e.2.2.1 = some g → GenOK g) →
      tabulated tb tr x ws = .ok (.generated id t order qn file) → GenOK g := by
    intro tb tr x ws hall h
    unfold tabulated at h
    split at h
    · cases h
    · rename_i t' o' q' hl
      simp only [Except.bind_eq_ok, Except.pure_ok, Except.ok.injEq, ObDecl.generated.injEq] at h
      obtain ⟨_, _, _, rfl, rfl, _⟩ := h
      exact hall (x, t', o', q') (lookup_mem hl) g hg
  have src : ∀ {tr ws}, parseSource nm tr ws = .ok (.generated id t order qn file) → GenOK g := by
    intro tr ws h
    unfold parseSource at h
    simp only [Except.bind_eq_ok] at h
    obtain ⟨mode, -, x, -, h⟩ := h
    split at h
    · exact tab (by simp [kinTable, genOf, GenOK]) h
    split at h
    · exact tab (by simp [amTable, genOf, GenOK]) h
    split at h
    · exact tab (by simp [isoTable, genOf, GenOK]) h
    split at h
    · exact tab (by simp [ladTable, genOf, GenOK]) h
    split at h
    · simp only [Except.bind_eq_ok, Except.pure_ok, Except.ok.injEq, ObDecl.generated.injEq] at h
      obtain ⟨_, -, _, -, _, -, c, -, _, -, _, rfl, rfl, _⟩ := h
      cases c <;> simp [genOf] at hg <;> subst hg <;> trivial
    split at h
    · simp only [Except.bind_eq_ok, Except.pure_ok, Except.ok.injEq, reduceCtorEq, and_false, exists_false] at h
    split at h
    · simp only [Except.pure_ok, Except.ok.injEq, reduceCtorEq] at h
    split at h
    · simp only [Except.bind_eq_ok, Except.pure_ok, Except.ok.injEq, reduceCtorEq, and_false, exists_false] at h
    split at h
    · simp only [Except.bind_eq_ok, Except.pure_ok, Except.ok.injEq, reduceCtorEq, and_false, exists_false] at h
    · cases h
  unfold parseO at h
  split at h
  · cases h
  split at h
  · unfold parseBasis at h
    simp only [Except.bind_eq_ok] at h
    obtain ⟨_, -, _, -, h⟩ := h
    split at h
    · cases h
    split at h <;> cases h
  split at h
  · simp only [Except.bind_eq_ok, Except.pure_ok, Except.ok.injEq, reduceCtorEq, and_false, exists_false] at h
  split at h
  · cases h
  split at h
  · simp only [Except.bind_eq_ok, Except.pure_ok, Except.ok.injEq, ObCmd.source.injEq] at h
    obtain ⟨d, h1, rfl⟩ := h
    exact src h1
  split at h
  · simp only [Except.bind_eq_ok, Except.pure_ok, Except.ok.injEq, reduceCtorEq, and_false, exists_false] at h
  split at h
  · simp only [Except.bind_eq_ok, Except.pure_ok, Except.ok.injEq, reduceCtorEq, and_false, exists_false] at h
  · cases h

/-- **C96.** From the control file to the files `obmixer` writes.  When a run with good inputs ends well, the files are
those of the `define-target` lines, in order, and each reads back as the named operator on the orbitals of the last
`set-basis` line, with its elements up to the number format.  Good inputs: orbital files that give good spaces,
transformation files with complete overlaps, operator files with complete operators on one space. -/
theorem obmixer_run {Orb : Type} {lib : Lib Orb} (laws : LibLaws lib) {rnd : ℝ → ℝ} (h0 : rnd 0 = 0) {setup : Setup}
    {disk : Disk} {ls : List CLine} {cs : List ObCmd} {out : List (String × List Obme.Line)}
    (hcs : ls.mapM (parseO setup.nm) = .ok cs) (h : obmixerRun lib rnd setup disk ls = .ok out)
    (hdisk : ∀ file s, disk.orbitals file = .ok s → GoodSpace s ∧ Built lib s) (hnil : Built lib [])
    (hxf : ∀ id file f d, .xform id file ∈ cs → disk.obme file = .ok f → initXform f = .ok d → GoodXf d)
    (hin : ∀ id file qn f, .source (.input id file qn) ∈ cs → disk.obme file = .ok f →
      f.1.bra = f.1.ket ∧ GoodOb ⟨f.1.ket, f.1.secs, f.2⟩) :
    ∃ cfg space xfs obs m, readO setup.nm ls = .ok cfg ∧
      (∀ t f, (cs.filterMap ObCmd.basis?).getLast? = some (t, f) → disk.orbitals f = .ok space) ∧
      ((cs.filterMap ObCmd.basis?).getLast? = none → space = []) ∧
      cfg.xforms.mapM (openXf disk) = .ok xfs ∧ cfg.sources.mapM (openOb disk) = .ok obs ∧
      buildOb (obEnvO setup cfg space xfs) obs = .ok m ∧
      out.map (·.1) = (cs.filterMap ObCmd.target?).map (·.2) ∧
      ∀ (t : ℕ) id file, (cs.filterMap ObCmd.target?)[t]? = some (id, file) →
        ∃ f d r hd mats, out[t]? = some (file, f) ∧ m id = some (some d) ∧
          targetOb (obEnvO setup cfg space xfs) m id = .ok r ∧ readFile lib f = .ok (hd, mats) ∧
          hd.bra = space ∧ hd.ket = space ∧ hd.secs = allSectors d.secs.qn space space ∧
          ∀ i a k c, elem hd.secs mats i a k c = rnd (chop (r.el i a k c)) := by
  unfold obmixerRun at h
  simp only [Except.bind_eq_ok, Except.pure_ok, Except.ok.injEq] at h
  obtain ⟨cfg, hr, space, hsp, xfs, hxfs, obs, hobs, files, hfiles, rfl⟩ := h
  obtain ⟨cs', hcs', a1, a2, a3, a4, a5⟩ := settings_obmixer hr
  obtain ⟨cs'', hcs'', s1, -⟩ := terms_obmixer hr
  rw [hcs] at hcs' hcs''
  cases hcs'
  cases hcs''
  obtain ⟨x1, x2⟩ := openXf_lookup hxfs
  have hgood : GoodSpace space ∧ Built lib space := by
    unfold openTarget at hsp
    split at hsp
    · cases hsp
      exact ⟨⟨by simp, by simp, by simp⟩, hnil⟩
    · exact hdisk _ _ hsp
  have hrun : RunOK (obEnvO setup cfg space xfs) obs := by
    refine ⟨hgood.1, ?_, ?_⟩
    · intro id x hx
      obtain ⟨file, f, h1, h2, h3⟩ := x2 id x hx
      rw [a4] at h1
      obtain ⟨c, hc, e⟩ := List.mem_filterMap.mp (lookup_mem h1)
      have : c = ObCmd.xform id file := by cases c <;> simp_all [ObCmd.xform?]
      exact hxf id file f x (this ▸ hc) h2 h3
    · intro ch hch
      obtain ⟨d, hd, ho⟩ := forall₂_mem_right (mapM_ok_iff.mp hobs) ch hch
      obtain ⟨k, hk⟩ := List.mem_iff_getElem?.mp hd
      obtain ⟨pre, e, post, hc, -, rfl⟩ := (s1 k d).mp hk
      have hmem : .source e ∈ cs := by rw [hc]; simp
      obtain ⟨l, -, hl⟩ := forall₂_mem_right (mapM_ok_iff.mp hcs) _ hmem
      have hsp : ∀ {file s'}, openSpace disk file = .ok s' → ∀ s, s' = some s → GoodSpace s := by
        rintro file _ h1 s rfl
        unfold openSpace at h1
        split at h1
        · cases h1
        · simp only [Except.bind_eq_ok, Except.pure_ok, Except.ok.injEq, Option.some.injEq] at h1
          obtain ⟨s', h2, rfl⟩ := h1
          exact (hdisk _ _ h2).1
      cases e with
      | input id file qn =>
        simp only [ObDecl.withTerms, openOb, Except.bind_eq_ok, Except.pure_ok, Except.ok.injEq] at ho
        obtain ⟨f, hf, rfl⟩ := ho
        exact hin id file qn f hmem hf
      | builtin id file =>
        simp only [ObDecl.withTerms, openOb, Except.bind_eq_ok, Except.pure_ok, Except.ok.injEq] at ho
        obtain ⟨s', hs, rfl⟩ := ho
        exact hsp hs
      | generated id t order qn file =>
        simp only [ObDecl.withTerms, openOb, Except.bind_eq_ok, Except.pure_ok, Except.ok.injEq] at ho
        obtain ⟨s', hs, g, hg, rfl⟩ := ho
        refine ⟨?_, hsp hs⟩
        unfold openGen at hg
        split at hg
        · cases hg
          trivial
        · split at hg
          · rename_i g' hg'
            cases hg
            exact declared_order hl hg'
          · cases hg
      | linear id ts =>
        cases ho
        trivial
      | product id a b J0 x =>
        cases ho
        trivial
      | xform id a b =>
        cases ho
        trivial
  obtain ⟨m, hm, hall⟩ := obmixer_files laws h0 hrun hgood.2 hfiles
  have hlen := hall.length_eq
  rw [List.length_map] at hlen
  refine ⟨cfg, space, xfs, obs, m, hr, ?_, ?_, hxfs, hobs, hm, ?_, ?_⟩
  · intro t f hl
    have := (a1 t f hl).2
    rw [this] at hsp
    exact hsp
  · intro hl
    have := (a2 hl).2
    rw [this] at hsp
    cases hsp
    rfl
  · rw [List.map_fst_zip (by simp [hlen]), a5]
  · intro t id file ht
    rw [← a5] at ht
    obtain ⟨f, hf, d, r, hd, mats, b1, b2, b3, b4, b5, b6, b7⟩ := forall₂_getElem? hall
      (show (cfg.targets.map (·.1))[t]? = some id by rw [List.getElem?_map, ht]; rfl)
    refine ⟨f, d, r, hd, mats, ?_, b1, b2, b3, b4, b5, b6, b7⟩
    rw [List.getElem?_zip_eq_some]
    exact ⟨by rw [List.getElem?_map, ht]; rfl, hf⟩

/-! ## The overlaps of a transformation -/

/-- **C96.** The overlap a transformed two-body source uses is the element of the transformation file between the two
orbitals. -/
theorem overlapOf_element {x : XfData} (g : GoodXf x) {sp : Species1} {a b : Orb} {i r k c : ℕ}
    (ha : At x.bra (⟨a.l, a.twiceJ, sp⟩, a.n) i r) (hb : At x.ket (⟨b.l, b.twiceJ, sp⟩, b.n) k c) :
    overlapOf x sp a b = elem x.secs x.mats i r k c := by
  have find : ∀ {s : Space} (gs : GoodSpace s) {lab : Obme.Labels} {n i r : ℕ}, At s (lab, n) i r →
      s.findIdx? (fun u => u.labels = lab) = some i ∧ (s[i]?).bind (fun u => u.ns.idxOf? n) = some r := by
    intro s gs lab n i r h
    obtain ⟨u, h1, h2, h3⟩ := h
    constructor
    · rcases hf : s.findIdx? (fun u => u.labels = lab) with _ | i'
      · rw [List.findIdx?_eq_none_iff] at hf
        exact absurd h2 (by simpa using hf u (List.mem_of_getElem? h1))
      · obtain ⟨hlt, hl, -⟩ := List.findIdx?_eq_some_iff_getElem.mp hf
        have := sub_unique gs (List.getElem?_eq_getElem hlt) h1 (by simp at hl; rw [hl]; exact h2.symm)
        exact hf.trans (congrArg some this)
    · rw [h1]
      exact idxOf?_of_nodup (gs.ns u (List.mem_of_getElem? h1)) h3
  obtain ⟨a1, a2⟩ := find g.bra ha
  obtain ⟨b1, b2⟩ := find g.ket hb
  simp only [overlapOf, a1, a2, b1, b2]

/-! ## A run -/

namespace Ex

/-- Libraries that deliver the indexing of `Mixer.Ex.target`. -/
noncomputable def setup : Setup where
  nm := nums
  am := Separable.Example.am
  tol := 1 / 10
  w _ _ _ _ _ _ := 1
  rme _ _ _ := 1
  crme _ _ _ := 1
  spl _ _ _ _ _ _ _ := 1
  ovl _ _ _ _ _ _ _ := 0
  inv4pi := 1
  indexing _ _ _ _ := .ok (Mixer.Ex.target, [])
  pre _ _ _ := ([], [])

/-- Two files, with elements `3` and `5`. -/
noncomputable def disk : Disk where
  h2 f := if f = "a.bin" then .ok (Mixer.Ex.file 3) else if f = "b.bin" then .ok (Mixer.Ex.file 5) else .error .streamFail
  obme _ := .error .streamFail
  orbitals _ := .error .streamFail

def mixLines : List CLine :=
  [⟨["define-tb-source", "input", "A", "a.bin"], false⟩, ⟨["define-target", "first.bin"], false⟩,
   ⟨["define-tb-source", "input", "B", "b.bin"], false⟩, ⟨["add-source", "B", "2"], false⟩,
   ⟨["add-source", "A", "1"], false⟩, ⟨["define-target", "second.bin"], false⟩, ⟨["add-source", "A", "2"], false⟩]

def mixCmds : List Cmd :=
  [.tb (.input "A" "a.bin"), .target "first.bin", .tb (.input "B" "b.bin"), .add "B" 2, .add "A" 1,
   .target "second.bin", .add "A" 2]

theorem mix_parse : mixLines.mapM (parse setup.nm) = .ok mixCmds := by
  simp [mixLines, mixCmds, setup, parse, parseTb, parseTerm, word, num, nums, Except.ok_bind', Except.pure_ok]

/-- The hypotheses of `h2mixer_mixes_files` are met: the first target holds `2·5 + 3` between the first and (with the
exchanged orbitals' phase) the second state. -/
example : ∃ out M, h2mixer setup disk mixLines = .ok out ∧ out.map (·.1) = ["first.bin", "second.bin"] ∧
    out[0]? = some ("first.bin", [M]) ∧ M.val 0 1 = (-13 : ℝ) := by
  have hr : read setup.nm mixLines = .ok
      { tb := [.input "A" "a.bin", .input "B" "b.bin"],
        targets := [("first.bin", [("B", 2), ("A", 1)]), ("second.bin", [("A", 2)])] } := by
    rw [read_ok]
    exact ⟨mixCmds, mix_parse, rfl⟩
  let files : List (String × String × H2In) := [("A", "a.bin", Mixer.Ex.file 3), ("B", "b.bin", Mixer.Ex.file 5)]
  have hall : ∀ f ∈ files, disk.h2 f.2.1 = .ok f.2.2 ∧ IndexOK f.2.2.ix ∧
      Holds Mapping.Ex.K (Mixer.Ex.op (if f.1 = "A" then 3 else 5)) f.2.2 ∧
      SymWithin Mapping.Ex.K (Mixer.Ex.op (if f.1 = "A" then 3 else 5)) f.2.2.ix := by
    intro f hf
    simp only [files, List.mem_cons, List.not_mem_nil, or_false] at hf
    rcases hf with rfl | rfl
    · exact ⟨rfl, Mixer.Ex.fileIx_ok, Mixer.Ex.file_holds 3, Mixer.Ex.file_sym 3⟩
    · exact ⟨rfl, Mixer.Ex.fileIx_ok, Mixer.Ex.file_holds 5, Mixer.Ex.file_sym 5⟩
  obtain ⟨out, h1, h2, h3⟩ := h2mixer_mixes_files (disk := disk) mix_parse hr rfl rfl (files := files) rfl
    (by simp [files]) (fun f hf => (hall f hf).1) (target := Mixer.Ex.target) (space := []) rfl Mixer.Ex.target_ok
    Mixer.Ex.target_range (K := Mapping.Ex.K) (B := fun id => Mixer.Ex.op (if id = "A" then 3 else 5))
    (fun f hf => (hall f hf).2)
  obtain ⟨Ms, m1, m2, m3⟩ := h3 0 [.tb (.input "A" "a.bin")] "first.bin" _ rfl rfl
  obtain ⟨M, e1, -, -, e4⟩ := m3 0 _ _ _ Mixer.Ex.theSector
  have hMs : Ms = [M] := by
    obtain ⟨x, rfl⟩ := List.length_eq_one_iff.mp (m2.trans rfl)
    cases e1
    rfl
  rw [hMs] at m1
  refine ⟨out, M, h1, h2, m1, ?_⟩
  have hc := e4 0 1 (0, 0) (0, 1) rfl rfl
  have cov : ∀ id, (id = "A" ∨ id = "B") → ∃ f ∈ files.map (fun f => (f.1, f.2.2)), f.1 = id ∧
      Covers f.2 Mixer.Ex.target.orbitals ⟨Mapping.Ex.lab, [(0, 0), (0, 1)]⟩ ⟨Mapping.Ex.lab, [(0, 0), (0, 1)]⟩ (0, 0) (0, 1) := by
    rintro id (rfl | rfl)
    · exact ⟨("A", Mixer.Ex.file 3), by simp [files], rfl,
        Mixer.Ex.file_covers 3 _ _ _ _ Mixer.Ex.theSector _ (by simp) _ (by simp)⟩
    · exact ⟨("B", Mixer.Ex.file 5), by simp [files], rfl,
        Mixer.Ex.file_covers 5 _ _ _ _ Mixer.Ex.theSector _ (by simp) _ (by simp)⟩
  have val : ∀ id, (id = "A" ∨ id = "B") → contribution Mapping.Ex.K (fun id => Mixer.Ex.op (if id = "A" then 3 else 5))
      (files.map fun f => (f.1, f.2.2)) Mixer.Ex.target.orbitals ⟨Mapping.Ex.lab, [(0, 0), (0, 1)]⟩
      ⟨Mapping.Ex.lab, [(0, 0), (0, 1)]⟩ (0, 0) (0, 1) id = -(if id = "A" then 3 else 5) := by
    intro id hid
    rw [contribution, if_pos (cov id hid)]
    show Mixer.Ex.op _ (Mapping.Ex.K.state Mapping.Ex.tgt Mapping.Ex.lab (0, 0))
      (Mapping.Ex.K.state Mapping.Ex.tgt Mapping.Ex.lab (0, 1)) = _
    rw [Mixer.Ex.tgt_state0, Mixer.Ex.tgt_state1, Mixer.Ex.op_apply]
    ring
  simp only [List.takeWhile, Cmd.target?, Option.isNone, List.filterMap_cons, Cmd.add?, List.filterMap_nil, List.map_cons,
    List.map_nil, List.sum_cons, List.sum_nil, val "A" (.inl rfl), val "B" (.inr rfl)] at hc
  rw [if_neg (show ¬ "B" = "A" by decide), if_pos trivial] at hc
  have := hc.2 (by norm_num [setup])
  norm_num at this
  exact this

def obDisk : Disk where
  h2 _ := .error .streamFail
  obme _ := .error .streamFail
  orbitals f := if f = "orb.dat" then .ok sampleSpace else .error .streamFail

def obLines : List CLine :=
  [⟨["define-source", "am", "j2"], false⟩, ⟨["set-basis", "oscillator", "orb.dat"], false⟩,
   ⟨["define-target", "j2", "j2.dat"], false⟩]

def obCmds : List ObCmd :=
  [.source (.generated "j2" (.am .total) 2 ⟨0, 0, 0⟩ ""), .basis .oscillator "orb.dat", .target "j2" "j2.dat"]

theorem ob_parse : obLines.mapM (parseO setup.nm) = .ok obCmds := by
  simp [obLines, obCmds, setup, parseO, parseSource, parseBasis, tabulated, amTable, optWord, atEnd, word, Except.ok_bind',
    Except.pure_ok, List.lookup]

/-- The hypotheses of `obmixer_run` are met by a run that writes the square of the angular momentum. -/
example : ∃ out f hd mats, obmixerRun toyLib id setup obDisk obLines = .ok out ∧ out = [("j2.dat", f)] ∧
    readFile toyLib f = .ok (hd, mats) ∧ hd.bra = sampleSpace ∧
    elem hd.secs mats 0 0 0 0 = chop (eigenvalue .total 0 1) := by
  let cfg : ObConfig := ⟨.oscillator, some "orb.dat", 1, [], [.generated "j2" (.am .total) 2 ⟨0, 0, 0⟩ ""],
    [("j2", "j2.dat")]⟩
  have hr : readO setup.nm obLines = .ok cfg := by
    rw [readO_ok]
    exact ⟨obCmds, ob_parse, rfl⟩
  let env := obEnvO setup cfg sampleSpace []
  let ch : ObChannel := ⟨"j2", .generated (.am .total 2) ⟨0, 0, 0⟩ none⟩
  obtain ⟨mats, g1, -, g2⟩ := squared_element (type := .total) sampleSpace_good
    (allSectors_spec scalarQN sampleSpace sampleSpace) rfl
  let d : ObData := ⟨sampleSpace, allSectors scalarQN sampleSpace sampleSpace, mats⟩
  have hv : valueOf env (fun _ => none) ch = .ok (some d) := by
    have : generatedOb env "j2" (.am .total 2) ⟨0, 0, 0⟩ none = .ok d := by
      unfold generatedOb
      rw [if_neg (by decide)]
      have : generateOb env env.basis "j2" (.am .total 2) sampleSpace (allSectors ⟨0, 0, 0⟩ sampleSpace sampleSpace) =
        .ok mats := g1
      simp only [Option.getD_none, show env.space = sampleSpace from rfl, this, Except.ok_bind', Except.pure_ok]
      rfl
    simp only [valueOf, ch, this, Except.ok_bind', Except.pure_ok]
  have hb : buildOb env [ch] = .ok (setOb (fun _ => none) "j2" (some d)) :=
    build_snoc (chans := []) rfl rfl hv
  have hrun : RunOK env [ch] :=
    ⟨sampleSpace_good, (by intro id x hx; cases hx), by
      intro c hc
      simp only [List.mem_singleton] at hc
      subst hc
      exact ⟨Or.inr rfl, by simp⟩⟩
  obtain ⟨files, hf⟩ := (obmixer_total toyLib_laws (rnd := id) rfl (targets := ["j2"]) hrun sampleSpace_built hb).mpr (by
    intro i hi
    simp only [List.mem_singleton] at hi
    subst hi
    exact ⟨d, by simp [setOb]⟩)
  have hall : obmixerRun toyLib id setup obDisk obLines = .ok (["j2.dat"].zip files) := by
    have hopen : [ObDecl.generated "j2" (.am .total) 2 ⟨0, 0, 0⟩ ""].mapM (openOb obDisk) = .ok [ch] := by
      simp [openOb, openSpace, openGen, genOf, ch, Except.ok_bind', Except.pure_ok]
    have hsp : openTarget obDisk (some "orb.dat") = .ok sampleSpace := rfl
    unfold obmixerRun
    simp only [hr, Except.ok_bind', show cfg.orbitals = some "orb.dat" from rfl, hsp,
      show cfg.xforms = [] from rfl, show cfg.sources = [.generated "j2" (.am .total) 2 ⟨0, 0, 0⟩ ""] from rfl, hopen,
      show cfg.targets = [("j2", "j2.dat")] from rfl, List.mapM_nil, Except.pure_ok, List.map_cons, List.map_nil]
    have : obmixer toyLib id (obEnvO setup cfg sampleSpace []) [ch] ["j2"] = .ok files := hf
    rw [this]
    rfl
  obtain ⟨cfg', space, xfs, obs, m, r1, r2, -, r2', r3, r4, r5, r6⟩ := obmixer_run toyLib_laws (rnd := id) rfl ob_parse hall (by
    intro f s h
    simp only [obDisk] at h
    split at h
    · cases h
      exact ⟨sampleSpace_good, sampleSpace_built⟩
    · cases h) ⟨rfl, by simp⟩ (by intro _ _ _ _ h; simp [obCmds] at h) (by intro _ _ _ _ h; simp [obCmds] at h)
  obtain ⟨f, d', r, hd, ms, t1, t2, t3, t4, t5, t6, t7, t8⟩ := r6 0 "j2" "j2.dat" rfl
  have hc : cfg' = cfg := by
    rw [hr] at r1
    exact (Except.ok.inj r1).symm
  subst hc
  have hs : space = sampleSpace := (Except.ok.inj (r2 .oscillator "orb.dat" rfl)).symm
  have hx : xfs = [] := (Except.ok.inj r2').symm
  have ho : obs = [ch] := by
    simp [cfg, openOb, openSpace, openGen, genOf, Except.ok_bind', Except.pure_ok] at r3
    exact r3.symm
  subst hs hx ho
  have hm : m = setOb (fun _ => none) "j2" (some d) := (Except.ok.inj (hb.symm.trans r4)).symm
  subst hm
  have hd' : d' = d := by simpa [setOb] using t2.symm
  subst hd'
  have hrd : r = d := by
    have : targetOb env (setOb (fun _ => none) "j2" (some d)) "j2" = .ok d := by
      have : look (setOb (fun _ => none) "j2" (some d)) "j2" = .ok d := rfl
      unfold targetOb
      simp only [this, Except.ok_bind']
      rw [if_pos (show d.space = env.space from rfl)]
      rfl
    exact Except.ok.inj (t3.symm.trans this)
  subst hrd
  refine ⟨_, f, hd, ms, hall, ?_, t4, t5, ?_⟩
  · cases files with
    | nil => simp at t1
    | cons x l =>
      cases l
      all_goals simpa using t1
  · rw [t8]
    have := g2 0 0 0 0 ⟨⟨0, 1, .p⟩, [0, 1]⟩ ⟨⟨0, 1, .p⟩, [0, 1]⟩ rfl rfl (by simp) (by simp)
    simp only [id, ObData.el, d, this, and_self, if_true]

/-- The hypotheses of `overlapOf_element` are met. -/
example : overlapOf ⟨Mixer.Ex.one 0, Mixer.Ex.one 0, (Mixer.Ex.num 0 3).secs, (Mixer.Ex.num 0 3).mats⟩ .p ⟨0, 0, 1⟩ ⟨0, 0, 1⟩ = 3 := by
  rw [overlapOf_element Mixer.Ex.U_good (i := 0) (r := 0) (k := 0) (c := 0) ⟨_, rfl, rfl, rfl⟩ ⟨_, rfl, rfl, rfl⟩]
  exact Mixer.Ex.num_el 0 3

end Ex

end Verif.Mixer.Control
