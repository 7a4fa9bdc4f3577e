import Verif.Moshinsky.ProgramSpec

/-!
# Lemmas on `moshinsky`
-/

namespace Verif.Moshinsky.Program
open Verif Verif.Moshinsky
open Verif.H2 (Format Desc Cfg OutState Sector Subspace OrbSpace Orb Species BasisLib WriteCall writeHistory writeSector getSector
  formatOfCode deducedIOMode openOut)
open Verif.H2 (Except.ok_bind' Except.error_bind' Except.pure_ok Except.bind_eq_ok)
open Verif.Relative (OpLabels RelFile openFile mapM_ok)
open Verif.Relative.Gen (Input)

theorem components_ok {o : OpLabels} {g : ℕ → Except Err Blocks} {P : ℕ → Blocks → Prop}
    (h : ∀ T0, o.T0min ≤ T0 → T0 ≤ o.T0max → ∃ m, g T0 = .ok m ∧ P T0 m) :
    ∃ M, components o g = .ok M ∧ ∀ T0, o.T0min ≤ T0 → T0 ≤ o.T0max → P T0 (M T0) := by
  classical
  let F : ℕ → Blocks := fun T0 => if hT : o.T0min ≤ T0 ∧ T0 ≤ o.T0max then (h T0 hT.1 hT.2).choose else []
  have hF : ∀ T0, o.T0min ≤ T0 → T0 ≤ o.T0max → g T0 = .ok (F T0) ∧ P T0 (F T0) := by
    intro T0 h1 h2
    have : F T0 = (h T0 h1 h2).choose := dif_pos ⟨h1, h2⟩
    rw [this]
    exact (h T0 h1 h2).choose_spec
  refine ⟨fun T0 => (List.map F (List.range' o.T0min (o.T0max + 1 - o.T0min))).getD (T0 - o.T0min) [], ?_, ?_⟩
  · unfold components
    rw [mapM_ok (g := F)]
    · simp only [Except.ok_bind', Except.pure_ok]
    · intro T0 hT0
      rw [List.mem_range'_1] at hT0
      exact (hF T0 (by omega) (by omega)).1
  · intro T0 h1 h2
    have : (List.map F (List.range' o.T0min (o.T0max + 1 - o.T0min))).getD (T0 - o.T0min) [] = F T0 := by
      rw [List.getD_eq_getElem?_getD, List.getElem?_map, List.getElem?_range' (by omega)]
      simp only [Option.map_some, Option.getD_some]
      congr 1
      omega
    simp only [this]
    exact (hF T0 h1 h2).2

/-! ## States and subspaces as seen by the branching -/

theorem labAt_eq (orbs : OrbSpace) (sp : Species) (x : H2.State) :
    labAt (orbsOf orbs sp).1 x.index1 = (pairOf orbs sp x).1 ∧ labAt (orbsOf orbs sp).2 x.index2 = (pairOf orbs sp x).2 := by
  have h : ∀ (os : List Orb) (i : ℕ), labAt os i = match os[i]? with
      | some x => ((2 * x.n + x.l).toNat, x.twiceJ.toNat)
      | none => (0, 0) := by
    intro os i
    rw [labAt, List.getD_eq_getElem?_getD, List.getElem?_map]
    cases os[i]? <;> rfl
  cases sp <;> exact ⟨h _ _, h _ _⟩

theorem tzOf_eq (sp : Species) : tzOf sp = projection sp := by cases sp <;> rfl

theorem nucleon_at {orbs : OrbSpace} (h : OscOrbitals orbs) (b : Bool) (i : ℕ) :
    nucleon orbs b i = ((orbs.p.map fun x => ((2 * x.n + x.l).toNat, x.twiceJ.toNat)).getD i (0, 0)) := by
  have e : ∀ os : List Orb, (match os[i]? with
      | some x => ((2 * x.n + x.l).toNat, x.twiceJ.toNat)
      | none => ((0, 0) : Lab)) = (os.map fun x => ((2 * x.n + x.l).toNat, x.twiceJ.toNat)).getD i (0, 0) := by
    intro os
    rw [List.getD_eq_getElem?_getD, List.getElem?_map]
    cases os[i]? <;> rfl
  cases b
  · rw [h.same]
    exact e orbs.n
  · exact e orbs.p

theorem pn_good {t : Trunc} {orbs : OrbSpace} (h : OscOrbitals orbs) {s : Subspace} (hs : PnStates t orbs s) {x : H2.State}
    (hx : x ∈ s.states) : GoodState (pnState orbs s.species x) ∧
      (pairOf orbs s.species x).1.2 ≤ 2 * (pairOf orbs s.species x).1.1 + 1 ∧
      (pairOf orbs s.species x).2.2 ≤ 2 * (pairOf orbs s.species x).2.1 + 1 := by
  obtain ⟨h1, h2, _⟩ := hs x hx
  obtain ⟨e1, e2⟩ := labAt_eq orbs s.species x
  have n1 := nucleon_at h (isProton s.species).1 x.index1
  have n2 := nucleon_at h (isProton s.species).2 x.index2
  generalize hL : (orbs.p.map fun x => ((2 * x.n + x.l).toNat, x.twiceJ.toNat)) = L at n1 n2
  have hlen : L.length = orbs.p.length := by rw [← hL, List.length_map]
  have ho := h.order
  rw [hL] at ho
  have hodd : ∀ a ∈ L, a.2 % 2 = 1 ∧ a.2 ≤ 2 * a.1 + 1 := by
    intro a ha
    rw [← hL] at ha
    obtain ⟨y, hy, rfl⟩ := List.mem_map.mp ha
    exact h.odd y hy
  have hg : ∀ i, i < L.length → ∃ hi : i < L.length, L.getD i (0, 0) = L[i] := fun i hi =>
    ⟨hi, by rw [List.getD_eq_getElem?_getD, List.getElem?_eq_getElem hi]; rfl⟩
  obtain ⟨i1, g1⟩ := hg x.index1 (by omega)
  obtain ⟨i2, g2⟩ := hg x.index2 (by omega)
  have p1 : (pairOf orbs s.species x).1 = L[x.index1] := by rw [pairOf, n1, g1]
  have p2 : (pairOf orbs s.species x).2 = L[x.index2] := by rw [pairOf, n2, g2]
  have hlt : ∀ i j (hi : i < L.length) (hj : j < L.length), i < j → (L[i].1 < L[j].1 ∨ L[i].1 = L[j].1 ∧ L[i].2 < L[j].2) :=
    fun i j hi hj hij => List.pairwise_iff_getElem.mp ho i j hi hj hij
  refine ⟨⟨?_, ?_, ?_, ?_⟩, ?_, ?_⟩
  · simp only [pnState, e1, e2, p1, p2, labLE]
    rcases lt_trichotomy x.index1 x.index2 with hc | hc | hc
    · have := hlt _ _ i1 i2 hc
      constructor
      · intro _; omega
      · intro _; omega
    · have : L[x.index1] = L[x.index2] := by congr
      rw [this]
      constructor
      · intro _; omega
      · intro _; omega
    · have := hlt _ _ i2 i1 hc
      constructor
      · intro _; omega
      · intro _; omega
  · simp only [pnState, e1, e2, p1, p2]
    rcases lt_trichotomy x.index1 x.index2 with hc | hc | hc
    · have := hlt _ _ i1 i2 hc
      refine ⟨fun e => absurd e (by omega), fun e => ?_⟩
      rw [e] at this
      omega
    · exact ⟨fun _ => by congr, fun _ => hc⟩
    · have := hlt _ _ i2 i1 hc
      refine ⟨fun e => absurd e (by omega), fun e => ?_⟩
      rw [e] at this
      omega
  · simp only [pnState, e1, p1]
    exact (hodd _ (List.getElem_mem _)).1
  · simp only [pnState, e2, p2]
    exact (hodd _ (List.getElem_mem _)).1
  · rw [p1]
    exact (hodd _ (List.getElem_mem _)).2
  · rw [p2]
    exact (hodd _ (List.getElem_mem _)).2

theorem pn_covered {env : ChainEnv} {o : OpLabels} {m : ℕ → Blocks} {t : Trunc} {jt : List JTSub} (hjt : JTSpace t jt)
    {orbs : OrbSpace} (h : OscOrbitals orbs) {s : Subspace} (hs : PnStates t orbs s) {x : H2.State} (hx : x ∈ s.states) :
    Covered (jtSource env o jt m) (pnSub orbs s) (pnState orbs s.species x) := by
  obtain ⟨hg, t1, t2⟩ := pn_good h hs hx
  obtain ⟨_, _, h3, h4, h5⟩ := hs x hx
  obtain ⟨e1, e2⟩ := labAt_eq orbs s.species x
  intro T i hi a b hab hle hp
  simp only [jtSource, pnSub] at hi hp ⊢
  obtain ⟨u, hu, hq⟩ : ∃ u, jt[i]? = some u ∧ ((u.J : Int) = s.J ∧ (u.T : Int) = T ∧ (u.g : Int) = s.g) := by
    rw [List.findIdx?_eq_some_iff_getElem] at hi
    obtain ⟨hlt, hd, _⟩ := hi
    exact ⟨jt[i], List.getElem?_eq_getElem hlt, by simpa using hd⟩
  rw [hu]
  simp only []
  have hmem := List.mem_of_getElem? hu
  have : (a, b) ∈ u.states := by
    rw [hjt.states u hmem]
    have o1 := hg.odd1
    have o2 := hg.odd2
    simp only [pnState, e1, e2] at hab o1 o2
    have hT := hjt.isospin u hmem
    rcases hab with ⟨rfl, rfl⟩ | ⟨rfl, rfl⟩
    · refine ⟨o1, o2, t1, t2, h3, ?_, hT, ?_, hle, ?_⟩
      · simp only [JTSub.qn]; omega
      · simp only [JTSub.qn]
        rw [show u.J = s.J by omega]
        exact h4
      · intro e
        have := hp e
        simp only [JTSub.qn]
        omega
    · refine ⟨o2, o1, t2, t1, ⟨h3.2.1, h3.1, by have := h3.2.2; simp only []; omega⟩, ?_, hT, ?_, hle, ?_⟩
      · simp only [JTSub.qn]; omega
      · simp only [JTSub.qn]
        rw [show u.J = s.J by omega]
        exact ⟨h4.2.1, h4.1, by have := h4.2.2; omega⟩
      · intro e
        have := hp e
        simp only [JTSub.qn]
        omega
  cases hf : u.states.idxOf? (a, b) with
  | some _ => rfl
  | none => exact absurd this (List.idxOf?_eq_none_iff.mp hf)

/-! ## The matrices -/

theorem chopped_eq {R : RME} {o : OpLabels} {orbs : OrbSpace} (s : Sector) :
    chopped s ((pnSub orbs s.bra).states.zipIdx.map fun b => (pnSub orbs s.ket).states.zipIdx.map fun k =>
      if s.isDiagonal = true ∧ k.2 < b.2 then 0 else wignerEckart R o.T0min o.T0max (pnSub orbs s.bra) (pnSub orbs s.ket) b.1 k.1)
      = pnMatrix R o orbs s := by
  unfold chopped pnMatrix
  congr 1
  funext i j
  simp only [at2, pnSub, List.getD_eq_getElem?_getD, List.getElem?_map, List.getElem?_zipIdx]
  cases hx : s.bra.states[i]? with
  | none => simp [Obme.chop]
  | some x =>
    cases hy : s.ket.states[j]? with
    | none => simp [Obme.chop, hy]
    | some y =>
      have he : wignerEckart R o.T0min o.T0max ⟨tzOf s.bra.species, s.bra.J, s.bra.g, s.bra.states.map (pnState orbs s.bra.species)⟩
          ⟨tzOf s.ket.species, s.ket.J, s.ket.g, s.ket.states.map (pnState orbs s.ket.species)⟩ (pnState orbs s.bra.species x)
          (pnState orbs s.ket.species y) = pnElement R o orbs s x y := by
        unfold pnElement wignerEckart
        simp only [pnState, labAt_eq, tzOf_eq]
      simp only [Option.map_some, List.getElem?_map, List.getElem?_zipIdx, hy, Option.getD_some, Nat.zero_add, he]
      unfold Obme.chop
      have hd : s.isDiagonal = true ↔ s.braIndex = s.ketIndex := by simp [Sector.isDiagonal]
      simp only [hd]
      by_cases h1 : s.braIndex = s.ketIndex ∧ j < i
      · simp [h1]
      · simp [h1]

theorem branchLoop_eq {c : Cfg} {src : JTSource} {o : OpLabels} {orbs : OrbSpace} {R : RME}
    (h : ∀ s ∈ c.ix.sectors, branchMatrix src o.T0min o.T0max s.isDiagonal (pnSub orbs s.bra) (pnSub orbs s.ket)
      = .ok ((pnSub orbs s.bra).states.zipIdx.map fun b => (pnSub orbs s.ket).states.zipIdx.map fun k =>
      if s.isDiagonal = true ∧ k.2 < b.2 then 0 else wignerEckart R o.T0min o.T0max (pnSub orbs s.bra) (pnSub orbs s.ket) b.1 k.1)) :
    ∀ (l : List Sector) (n : ℕ), c.ix.sectors.drop n = l → ∀ st,
      branchLoop c src o orbs (List.range' n l.length) st
        = writeHistory c ((l.zipIdx n).map fun p => ⟨p.2, pnMatrix R o orbs p.1, .asToNAS⟩) st
  | [], n, _, st => rfl
  | s :: l, n, hl, st => by
    have hn : c.ix.sectors[n]? = some s := by
      have := congrArg (fun l => l[0]?) hl
      simpa [List.getElem?_drop] using this
    have ih := branchLoop_eq h l (n + 1) (by
      have := congrArg List.tail hl
      simpa [List.tail_drop] using this)
    rw [List.length_cons, List.range'_succ, branchLoop, List.zipIdx_cons, List.map_cons, writeHistory]
    have hs : getSector c.ix.sectors n = .ok s := by rw [getSector, hn]
    rw [hs, Except.ok_bind', h s (List.mem_of_getElem? hn), Except.ok_bind', chopped_eq]
    congr 1
    funext st'
    exact ih st'

/-! ## The chain -/

section
variable {w : World} {t : Trunc} {Nmax : ℕ} {o : OpLabels} {A : ℕ → RCOp} {m : ℕ → Blocks}

/-- The relative-cm operator has the elements `A`. -/
def RCHolds (w : World) (Nmax : ℕ) (o : OpLabels) (A : ℕ → RCOp) (m : ℕ → Blocks) : Prop :=
  ∀ T0, o.T0min ≤ T0 → T0 ≤ o.T0max → Holds o T0 (w.rcs Nmax) LSSub.qn LSSub.states (m T0) fun b x k y =>
    A T0 (rcState b x) (rcState k y)

theorem chain_ls (hsp : Spaces w t Nmax) (h84 : t.N2max ≤ 84) (hm : RCHolds w Nmax o A m) :
    ∃ ml, components o (fun T0 => lsBlocks w.env o (w.rcs Nmax) (m T0) (w.lss (t.N1max, t.N2max)) T0) = .ok ml ∧
      ∀ T0, o.T0min ≤ T0 → T0 ≤ o.T0max → Holds o T0 (w.lss (t.N1max, t.N2max)) LSSub.qn LSSub.states (ml T0) fun b x k y =>
        lsSpec w.env (A T0) b.lsjt x k.lsjt y :=
  components_ok fun T0 h1 h2 => ls_stage hsp.rc hsp.ls hsp.order h84 (hm T0 h1 h2)

theorem chain_jt (hsp : Spaces w t Nmax)
    (hA : ∀ T0, o.T0min ≤ T0 → T0 ≤ o.T0max → RCSym w.env.swap T0 (A T0)) {ml : ℕ → Blocks}
    (hm : ∀ T0, o.T0min ≤ T0 → T0 ≤ o.T0max → Holds o T0 (w.lss (t.N1max, t.N2max)) LSSub.qn LSSub.states (ml T0) fun b x k y =>
        lsSpec w.env (A T0) b.lsjt x k.lsjt y) :
    ∃ mj mt, components o (fun T0 => jjBlocks w.env o (w.lss (t.N1max, t.N2max)) (ml T0) (w.jjs (t.N1max, t.N2max)) T0) = .ok mj ∧
      components o (fun T0 => jtBlocks w.env o (w.jjs (t.N1max, t.N2max)) (mj T0) (w.jts (t.N1max, t.N2max)) T0) = .ok mt ∧
      ∀ T0, o.T0min ≤ T0 → T0 ≤ o.T0max → Holds o T0 (w.jts (t.N1max, t.N2max)) JTSub.qn JTSub.states (mt T0) fun b x k y =>
        jjSpec w.env (A T0) b.qn (jjOf x.1 x.2) k.qn (jjOf y.1 y.2) := by
  obtain ⟨mj, e1, h1⟩ := components_ok (o := o) fun T0 a b => jj_stage (hA T0 a b) hsp.ls hsp.jj (hm T0 a b)
  obtain ⟨mt, e2, h2⟩ := components_ok (o := o) fun T0 a b => jt_stage (hA T0 a b) hsp.jj hsp.jt (h1 T0 a b)
  exact ⟨mj, mt, e1, e2, h2⟩

theorem branch_eq (hjt : JTSpace t (w.jts (t.N1max, t.N2max))) {p : Params} (h2 : o.T0max ≤ 2)
    (hA : ∀ T0, o.T0min ≤ T0 → T0 ≤ o.T0max → RCSym w.env.swap T0 (A T0)) {mt : ℕ → Blocks}
    (hm : ∀ T0, o.T0min ≤ T0 → T0 ≤ o.T0max → Holds o T0 (w.jts (t.N1max, t.N2max)) JTSub.qn JTSub.states (mt T0) fun b x k y =>
        jjSpec w.env (A T0) b.qn (jjOf x.1 x.2) k.qn (jjOf y.1 y.2))
    (hpn : ∀ fmt, formatOfCode p.format = .ok fmt → PnBasis t w.lib (desc w p (t.N1max, t.N2max) o fmt)) :
    branch w p (t.N1max, t.N2max) o (jtSource w.env o (w.jts (t.N1max, t.N2max)) mt) = (do
      let fmt ← formatOfCode p.format
      let mode ← deducedIOMode p.output
      let d := desc w p (t.N1max, t.N2max) o fmt
      let hdr ← openOut w.lib w.hf mode fmt d
      let st ← writeHistory ⟨w.hf.fm, fmt, mode, d.index w.lib⟩
        (pnCalls (twoBody w.env t A) o d.orbs (d.index w.lib).sectors) ⟨0, hdr⟩
      pure (.h2 p.output st.out)) := by
  unfold branch
  cases hf : formatOfCode p.format with
  | error e => simp only [Except.error_bind']
  | ok fmt =>
    have hb := hpn fmt hf
    simp only [Except.ok_bind']
    congr 1
    funext mode
    congr 1
    funext hdr
    congr 1
    have hR := jt_represents (t := t) (jt := w.jts (t.N1max, t.N2max)) hA hjt hm
    have hsec : ∀ s ∈ ((desc w p (t.N1max, t.N2max) o fmt).index w.lib).sectors,
        branchMatrix (jtSource w.env o (w.jts (t.N1max, t.N2max)) mt) o.T0min o.T0max s.isDiagonal
          (pnSub (w.lib.oscOrbitals t.N1max) s.bra) (pnSub (w.lib.oscOrbitals t.N1max) s.ket) = .ok _ := fun s hs =>
      branch_matrix hR ⟨hb.momentum s hs, hb.parity s hs⟩
        (by
          intro b hb'
          obtain ⟨x, hx, rfl⟩ := List.mem_map.mp hb'
          exact ⟨(pn_good hb.orbitals (hb.bra s hs) hx).1, pn_covered hjt hb.orbitals (hb.bra s hs) hx⟩)
        (by
          intro b hb'
          obtain ⟨x, hx, rfl⟩ := List.mem_map.mp hb'
          exact ⟨(pn_good hb.orbitals (hb.ket s hs) hx).1, pn_covered hjt hb.orbitals (hb.ket s hs) hx⟩)
        (Int.natCast_nonneg _) (Int.natCast_nonneg _)
        (by
          have := hb.charge s hs
          simp only [pnSub, tzOf_eq]
          omega) (by omega) _
    have := branchLoop_eq (c := ⟨w.hf.fm, fmt, mode, (desc w p (t.N1max, t.N2max) o fmt).index w.lib⟩)
      (orbs := w.lib.oscOrbitals t.N1max) (o := o) hsec _ 0 rfl ⟨0, hdr⟩
    rw [List.drop_zero] at this
    rw [List.range_eq_range']
    exact this

end

end Verif.Moshinsky.Program
