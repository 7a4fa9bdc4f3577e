import Verif.Mixer.Props

/-!
# Properties C55, C78-C80: the sources of `h2mixer`
-/

namespace Verif.Mixer
open Verif Verif.Mapping Verif.Xform Verif.Obme Verif.Separable
open Verif.H2 hiding Mat Subspace

/-! ### Remapping onto the same space -/

theorem identity_entry {o : Orbitals} {sp : List Subspace} (ho : o.WF) (hw : SpaceWF o sp) {m : TwoBodyMapping}
    (hm : twoBodyMapping o sp o sp = .ok m) {i k : ℕ} {s : Subspace} (hi : sp[i]? = some s)
    (hk : k < s.states.length) : (m.stateMapping[i]?).bind (·[k]?) = some (k, toSizeT 1) := by
  obtain ⟨m', h1, -, h3, -⟩ := mapping_result hw hw
  rw [hm] at h1
  cases h1
  have hmem := List.mem_of_getElem? hi
  have hst : s.states[k] ∈ s.states := List.getElem_mem hk
  rw [h3, List.getElem?_map, hi]
  simp only [Option.map_some, Option.bind_some, entries, targetOf_eq hw.labelsNodup hmem rfl, List.getElem?_map,
    List.getElem?_eq_getElem hk, Option.some.injEq]
  obtain ⟨a, b, hab⟩ := isPair_of_inRange (hw.inRange s hmem _ hst)
  rw [mapEntry_eq hab]
  have l1 := lookUp_of_getElem (ho.nodup _) hab.1
  have l2 := lookUp_of_getElem (ho.nodup _) hab.2
  have hsw : (decide (s.labels.species.first = s.labels.species.second) &&
      decide ((s.states[k]).1 > (s.states[k]).2)) = false := by
    rw [Bool.and_eq_false_iff]
    by_cases hp : s.labels.species = .pn
    · left
      simp [hp, Species2.first, Species2.second]
    · right
      have := hw.canonical s hmem hp _ hst
      simpa using this
  have l3 : lookUp ((s.states[k]).1, (s.states[k]).2) s.states = k :=
    lookUp_of_getElem (hw.statesNodup s hmem) (List.getElem?_eq_getElem hk)
  have hne : k ≠ kNone := by
    have := hw.statesSmall s hmem
    omega
  unfold mapped
  simp only [l1, l2, hsw, Bool.false_eq_true, if_false]
  simp only [l3, if_neg hne]

/-- **C78.** Remapping a matrix onto the indexing it already has returns the same elements. -/
theorem remap_same_indexing {o : Orbitals} {sp : List Subspace} (ho : o.WF) (hw : SpaceWF o sp) {m : TwoBodyMapping}
    (hm : twoBodyMapping o sp o sp = .ok m) {xs : SectorInfo} {sb sk : Subspace} (hs : SectorOf sp xs sb sk)
    {a : Mat} (hr : a.rows = sb.states.length) (hc : a.cols = sk.states.length) :
    ∃ T, remappedMatrix m xs xs a = .ok T ∧ T.rows = a.rows ∧ T.cols = a.cols ∧
      ∀ i j, i < a.rows → j < a.cols → T.val i j = a.val i j := by
  have hin : InputsOK o sp o sp := ⟨ho, ho, hw, hw⟩
  have eb := fun {k : ℕ} (hk : k < sb.states.length) => identity_entry ho hw hm hs.bra hk
  have ek := fun {k : ℕ} (hk : k < sk.states.length) => identity_entry ho hw hm hs.ket hk
  obtain ⟨T, h1, h2, h3, h4, h5⟩ := runIterations_spec (m := m) (src := xs) (source := a) (iterations xs)
    ⟨xs.braSize, xs.ketSize, fun _ _ => 0⟩
    (by
      intro bk hbk
      obtain ⟨g1, g2⟩ := mem_iterations.1 hbk
      have g1' := hs.braSize ▸ g1
      have g2' := hs.ketSize ▸ g2
      exact ⟨bk.1, toSizeT 1, bk.2, toSizeT 1, eb g1', ek g2', .inr g1, .inr g2, by omega, by omega⟩)
    ((nodup_iterations xs).imp fun {x y} hxy kx vx ky vy hx hy => writes_distinct hin hm hxy hx hy)
  refine ⟨T, h1, by rw [h2, hr, ← hs.braSize], by rw [h3, hc, ← hs.ketSize], ?_⟩
  intro i j hi hj
  rw [hr] at hi
  rw [hc] at hj
  have ni : i ≠ kNone := by
    have := hw.statesSmall sb (List.mem_of_getElem? hs.bra)
    omega
  have nj : j ≠ kNone := by
    have := hw.statesSmall sk (List.mem_of_getElem? hs.ket)
    omega
  have e1 : toIntFromSizeT (toSizeT 1) = 1 := by rfl
  refine h4 (i, j) (mem_iterations.2 ⟨by rw [hs.braSize]; exact hi, by rw [hs.ketSize]; exact hj⟩) i j _ ?_
  simp only [writeOf, eb hi, ek hj, e1]
  simp [ni, nj]

/-! ### Sectors by labels -/

theorem idxOf?_of_nodup {α : Type} [BEq α] [LawfulBEq α] {l : List α} {a : α} {x : ℕ} (hn : l.Nodup)
    (h : l[x]? = some a) : l.idxOf? a = some x := by
  obtain ⟨y, hy⟩ := idxOf?_mem (List.mem_of_getElem? h)
  have h' := idxOf?_getElem? hy
  obtain ⟨hx, ex⟩ := List.getElem?_eq_some_iff.mp h
  obtain ⟨hy', ey⟩ := List.getElem?_eq_some_iff.mp h'
  rw [hy, (hn.getElem_inj_iff (hi := hx) (hj := hy')).mp (ex.trans ey.symm)]

/-- The sector `n` is between the subspaces `b` and `k`. -/
structure IsSector (ix : TBIndexing) (n : ℕ) (p : ℕ × ℕ) (b k : Subspace) : Prop where
  sector : ix.sectors[n]? = some p
  bra : ix.space[p.1]? = some b
  ket : ix.space[p.2]? = some k

theorem findSector_eq {ix : TBIndexing} (hl : (ix.space.map (·.labels)).Nodup) (hs : ix.sectors.Nodup) {n : ℕ}
    {p : ℕ × ℕ} {b k : Subspace} (h : IsSector ix n p b k) : findSector ix b.labels k.labels = some n := by
  have e1 : (ix.space.map (·.labels)).idxOf? b.labels = some p.1 :=
    idxOf?_of_nodup hl (by rw [List.getElem?_map, h.bra]; rfl)
  have e2 : (ix.space.map (·.labels)).idxOf? k.labels = some p.2 :=
    idxOf?_of_nodup hl (by rw [List.getElem?_map, h.ket]; rfl)
  unfold findSector
  rw [e1, e2]
  exact idxOf?_of_nodup hs h.sector

theorem findSector_some {ix : TBIndexing} {n : ℕ} {lb lk : Mapping.Labels} (h : findSector ix lb lk = some n) :
    ∃ p b k, IsSector ix n p b k ∧ b.labels = lb ∧ k.labels = lk := by
  unfold findSector at h
  split at h
  · rename_i b k hb hk
    have h1 := idxOf?_getElem? hb
    have h2 := idxOf?_getElem? hk
    rw [List.getElem?_map, Option.map_eq_some_iff] at h1 h2
    obtain ⟨sb, g1, e1⟩ := h1
    obtain ⟨sk, g2, e2⟩ := h2
    exact ⟨(b, k), sb, sk, ⟨idxOf?_getElem? h, g1, g2⟩, e1, e2⟩
  · cases h

/-! ### Input files -/

variable {V : Type} [AddCommGroup V] [Module ℝ V]

/-- The indexing is as the `basis` library delivers it. -/
structure IndexOK (ix : TBIndexing) : Prop where
  orb : ix.orbitals.WF
  odd : ix.orbitals.HalfOdd
  space : SpaceWF ix.orbitals ix.space
  sectors : ix.sectors.Nodup

/-- The file holds the operator `B`: every sector can be read and has the elements of `B`, in a diagonal sector
at least in the upper triangle. -/
def Holds (K : PairKets V) (B : V →ₗ[ℝ] V →ₗ[ℝ] ℝ) (file : H2In) : Prop :=
  ∀ n p b k, IsSector file.ix n p b k → ∃ a, file.read n = .ok a ∧ a.rows = b.states.length ∧
    a.cols = k.states.length ∧ ∀ (i j : ℕ) sti stj, b.states[i]? = some sti → k.states[j]? = some stj →
      (p.1 = p.2 → i ≤ j) →
      a.val i j = B (K.state file.ix.orbitals b.labels sti) (K.state file.ix.orbitals k.labels stj)

/-- `B` is symmetric in the diagonal sectors. -/
def SymWithin (K : PairKets V) (B : V →ₗ[ℝ] V →ₗ[ℝ] ℝ) (ix : TBIndexing) : Prop :=
  ∀ n p s, IsSector ix n p s s → p.1 = p.2 → ∀ st ∈ s.states, ∀ st' ∈ s.states,
    B (K.state ix.orbitals s.labels st) (K.state ix.orbitals s.labels st') =
      B (K.state ix.orbitals s.labels st') (K.state ix.orbitals s.labels st)

/-- The file has a sector with these labels and the two target states among its states. -/
def Covers (file : H2In) (tgt : Orbitals) (b k : Subspace) (sti stj : ℕ × ℕ) : Prop :=
  ∃ n p sb sk, IsSector file.ix n p sb sk ∧ sb.labels = b.labels ∧ sk.labels = k.labels ∧
    (∃ st ∈ sb.states, SameOrbitals file.ix.orbitals tgt b.labels.species st sti) ∧
    (∃ st ∈ sk.states, SameOrbitals file.ix.orbitals tgt k.labels.species st stj)

/-- Reading and completing a sector gives the elements of the operator. -/
theorem readInput_represents {K : PairKets V} {B : V →ₗ[ℝ] V →ₗ[ℝ] ℝ} {file : H2In} (hh : Holds K B file)
    (hB : SymWithin K B file.ix) {n : ℕ} {p : ℕ × ℕ} {b k : Subspace} (hs : IsSector file.ix n p b k) :
    ∃ a, readInput file n = .ok (⟨p.1, p.2, b.states.length, k.states.length⟩, a) ∧
      Represents K B file.ix.orbitals b k a := by
  obtain ⟨a, h1, h2, h3, h4⟩ := hh n p b k hs
  unfold readInput
  simp only [getE_ok hs.sector, sectorInfo_eq hs.bra hs.ket, h1, Except.ok_bind', Except.pure_ok]
  refine ⟨_, rfl, ?_⟩
  by_cases hd : p.1 = p.2
  · have hbk : b = k := by
      have h5 := hs.bra
      rw [hd, hs.ket] at h5
      exact (Option.some.inj h5).symm
    subst hbk
    rw [if_pos hd]
    refine ⟨h2, h3, ?_⟩
    intro i j sti stj hi hj
    unfold completeLowerTriangle
    simp only
    split
    · rename_i hlt
      rw [h4 j i stj sti hj hi fun _ => by omega]
      exact hB n p b hs hd _ (List.mem_of_getElem? hj) _ (List.mem_of_getElem? hi)
    · rename_i hlt
      exact h4 i j sti stj hi hj fun _ => by omega
  · rw [if_neg hd]
    exact ⟨h2, h3, fun i j sti stj hi hj => h4 i j sti stj hi hj fun e => absurd e hd⟩

/-- **C55, C21.** What an input file contributes to a sector: the elements of its operator between the target
states that it covers, zero for the others; nothing if the file has no such sector. -/
theorem input_source {env : Env} {id : String} {file : H2In} (hf : IndexOK file.ix) (ht : IndexOK env.target)
    {K : PairKets V} {B : V →ₗ[ℝ] V →ₗ[ℝ] ℝ} (hh : Holds K B file) (hB : SymWithin K B file.ix)
    {p : ℕ × ℕ} {b k : Subspace} (hb : env.target.space[p.1]? = some b) (hk : env.target.space[p.2]? = some k) :
    ∃ r, source env ⟨id, .input file⟩ p = .ok r ∧ (∀ T, r = some T → SectorSize env p T) ∧
      ∀ (i j : ℕ) sti stj, b.states[i]? = some sti → k.states[j]? = some stj →
        (Covers file env.target.orbitals b k sti stj → elemOf r i j =
          B (K.state env.target.orbitals b.labels sti) (K.state env.target.orbitals k.labels stj)) ∧
        (¬ Covers file env.target.orbitals b k sti stj → elemOf r i j = 0) := by
  have hin : InputsOK file.ix.orbitals file.ix.space env.target.orbitals env.target.space :=
    ⟨hf.orb, ht.orb, hf.space, ht.space⟩
  obtain ⟨m, hm⟩ := mapping_total hin
  have hsrc : source env ⟨id, .input file⟩ p = populateInput env file (some m) p := by
    simp only [source, initChannel, hm, Except.ok_bind', Except.pure_ok, populate]
  rw [hsrc]
  unfold populateInput
  rw [getE_ok hb, getE_ok hk, Except.ok_bind', Except.ok_bind']
  cases hfs : findSector file.ix b.labels k.labels with
  | none =>
    refine ⟨none, rfl, by simp, ?_⟩
    intro i j sti stj _ _
    refine ⟨?_, fun _ => rfl⟩
    rintro ⟨n, q, sb, sk, hs, e1, e2, -, -⟩
    rw [← e1, ← e2, findSector_eq hf.space.labelsNodup hf.sectors hs] at hfs
    cases hfs
  | some n =>
    obtain ⟨q, sb, sk, hs, e1, e2⟩ := findSector_some hfs
    obtain ⟨a, ha, hrep⟩ := readInput_represents hh hB hs
    obtain ⟨T, h1, h2, h3, h4⟩ := remapped_elements hin hf.odd hm
      (xs := ⟨q.1, q.2, sb.states.length, sk.states.length⟩)
      (xt := ⟨p.1, p.2, b.states.length, k.states.length⟩) ⟨hs.bra, hs.ket, rfl, rfl⟩ ⟨hb, hk, rfl, rfl⟩ e1.symm
      e2.symm K B hrep
    simp only [ha, sectorInfo_eq hb hk, mappingE, h1, Except.ok_bind', Except.pure_ok]
    refine ⟨_, rfl, ?_, ?_⟩
    · intro T' e
      cases e
      exact ⟨b, k, hb, hk, h2, h3⟩
    · intro i j sti stj hi hj
      obtain ⟨g1, g2⟩ := h4 i j sti stj hi hj
      rw [e1, e2] at g1 g2
      constructor
      · rintro ⟨n', q', sb', sk', hs', e1', e2', c1, c2⟩
        have hn : n = n' := by
          have := findSector_eq hf.space.labelsNodup hf.sectors hs'
          rw [e1', e2', hfs] at this
          exact Option.some.inj this
        subst hn
        have hq : q = q' := Option.some.inj (hs.sector.symm.trans hs'.sector)
        subst hq
        have h5 : sb = sb' := Option.some.inj (hs.bra.symm.trans hs'.bra)
        have h6 : sk = sk' := Option.some.inj (hs.ket.symm.trans hs'.ket)
        subst h5 h6
        exact g1 c1 c2
      · intro hn
        refine g2 ?_
        by_contra hc
        push Not at hc
        exact hn ⟨n, q, sb, sk, hs, e1, e2, hc.1, hc.2⟩

/-- With different names each name stands for its channel. -/
theorem provides_of_nodup {env : Env} {chans : List Channel} (hn : (chans.map (·.id)).Nodup) {ch : Channel}
    (hc : ch ∈ chans) {p : ℕ × ℕ} {r : Option Mat} (hs : source env ch p = .ok r) :
    Provides env chans p ch.id r := by
  cases r with
  | none =>
    intro c hm he
    rw [List.inj_on_of_nodup_map hn hm hc he]
    exact hs
  | some m =>
    obtain ⟨pre, post, e⟩ := List.append_of_mem hc
    refine ⟨pre, ch, post, e, rfl, hs, ?_⟩
    intro c hm he
    exfalso
    rw [e, List.map_append, List.map_cons] at hn
    have := (List.nodup_cons.mp (List.nodup_append.mp hn).2.1).1
    exact this (List.mem_map.mpr ⟨c, hm, he⟩)

theorem provides_none {env : Env} {chans : List Channel} {p : ℕ × ℕ} {id : String}
    (h : ∀ c ∈ chans, c.id ≠ id) : Provides env chans p id none :=
  fun c hc he => absurd he (h c hc)

/-- The channels of `define-tb-source input` lines. -/
def inputChannels (files : List (String × H2In)) : List Channel := files.map fun f => ⟨f.1, .input f.2⟩

open Classical in
/-- Contribution of a name: the element of its operator where its file covers the two states. -/
noncomputable def contribution (K : PairKets V) (B : String → V →ₗ[ℝ] V →ₗ[ℝ] ℝ) (files : List (String × H2In))
    (tgt : Orbitals) (b k : Subspace) (sti stj : ℕ × ℕ) (id : String) : ℝ :=
  if ∃ f ∈ files, f.1 = id ∧ Covers f.2 tgt b k sti stj then
    B id (K.state tgt b.labels sti) (K.state tgt k.labels stj)
  else 0

/-- **C55.** Mixing files that hold operators: the run ends well, and each element written is the linear
combination of the elements of the operators between the target states, small values being set to zero; a file
contributes zero where it does not cover the states. -/
theorem mix_files {env : Env} (ht : IndexOK env.target)
    (hp : ∀ p ∈ env.target.sectors, p.1 < env.target.space.length ∧ p.2 < env.target.space.length)
    {files : List (String × H2In)} (hn : (files.map (·.1)).Nodup) {K : PairKets V}
    {B : String → V →ₗ[ℝ] V →ₗ[ℝ] ℝ}
    (hf : ∀ f ∈ files, IndexOK f.2.ix ∧ Holds K (B f.1) f.2 ∧ SymWithin K (B f.1) f.2.ix)
    (targets : List (List (String × ℝ))) :
    ∃ out, mix env (inputChannels files) targets = .ok out ∧
    ∀ s p b k, IsSector env.target s p b k → ∀ (t : ℕ) cs, targets[t]? = some cs →
      ∃ ms M, out[s]? = some ms ∧ ms[t]? = some M ∧ M.rows = b.states.length ∧ M.cols = k.states.length ∧
      ∀ (i j : ℕ) sti stj, b.states[i]? = some sti → k.states[j]? = some stj →
        ChopOf env.tol
          ((cs.map fun t => t.2 * contribution K B files env.target.orbitals b k sti stj t.1).sum) (M.val i j) := by
  have hsrc : ∀ {p : ℕ × ℕ} {b k : Subspace}, env.target.space[p.1]? = some b → env.target.space[p.2]? = some k →
      ∀ f ∈ files, _ := fun hb hk f hm =>
    input_source (id := f.1) (hf f hm).1 ht (hf f hm).2.1 (hf f hm).2.2 hb hk
  have hnd : ((inputChannels files).map (·.id)).Nodup := by
    unfold inputChannels
    rw [List.map_map]
    exact hn
  obtain ⟨out, hout⟩ : ∃ out, mix env (inputChannels files) targets = .ok out := by
    refine mix_total ?_ ?_ hp
    · intro c hc
      obtain ⟨f, hm, rfl⟩ := List.mem_map.mp hc
      obtain ⟨m, hm'⟩ := mapping_total (⟨(hf f hm).1.orb, ht.orb, (hf f hm).1.space, ht.space⟩ :
        InputsOK f.2.ix.orbitals f.2.ix.space env.target.orbitals env.target.space)
      exact ⟨some m, by simp only [initChannel, hm', Except.ok_bind', Except.pure_ok]⟩
    · intro p hpm c hc
      obtain ⟨f, hm, rfl⟩ := List.mem_map.mp hc
      obtain ⟨r, h1, h2, -⟩ := hsrc (List.getElem?_eq_getElem (hp p hpm).1) (List.getElem?_eq_getElem (hp p hpm).2) f hm
      exact ⟨r, h1, h2⟩
  refine ⟨out, hout, ?_⟩
  intro s p b k hs t cs hts
  obtain ⟨ms, h1, -, src, h2, h3⟩ := (mix_element hout).2 s p hs.sector
  obtain ⟨M, h4, ⟨b', k', q1, q2, q3, q4⟩, h5⟩ := h3 t cs hts
  rw [hs.bra] at q1
  rw [hs.ket] at q2
  cases q1
  cases q2
  refine ⟨ms, M, h1, h4, q3, q4, ?_⟩
  intro i j sti stj hi hj
  have e : combination src cs i j =
      (cs.map fun t => t.2 * contribution K B files env.target.orbitals b k sti stj t.1).sum := by
    unfold combination
    congr 1
    refine List.map_congr_left fun t _ => ?_
    congr 1
    by_cases hm : t.1 ∈ files.map (·.1)
    · obtain ⟨f, hm, e⟩ := List.mem_map.mp hm
      obtain ⟨r, g1, -, g3⟩ := hsrc hs.bra hs.ket f hm
      have hpr := provides_of_nodup hnd (List.mem_map.mpr ⟨f, hm, rfl⟩) g1
      simp only at hpr
      rw [e] at hpr
      rw [provides_unique (h2 t.1) hpr]
      obtain ⟨c1, c2⟩ := g3 i j sti stj hi hj
      unfold contribution
      split
      · rename_i hc
        obtain ⟨f', hm', e', hc⟩ := hc
        have : f = f' := List.inj_on_of_nodup_map hn hm hm' (e.trans e'.symm)
        subst this
        rw [c1 hc, e]
      · rename_i hc
        exact c2 fun hcov => hc ⟨f, hm, e, hcov⟩
    · have hpr : Provides env (inputChannels files) p t.1 none := by
        refine provides_none ?_
        intro c hc he
        obtain ⟨f, hm', rfl⟩ := List.mem_map.mp hc
        exact hm (List.mem_map.mpr ⟨f, hm', he⟩)
      rw [provides_unique (h2 t.1) hpr]
      unfold contribution
      rw [if_neg]
      · rfl
      · rintro ⟨f, hm', e, -⟩
        exact hm (List.mem_map.mpr ⟨f, hm', e⟩)
  rw [← e]
  exact h5 i j

/-- Linear combination of operators. -/
noncomputable def opSum (B : String → V →ₗ[ℝ] V →ₗ[ℝ] ℝ) (cs : List (String × ℝ)) : V →ₗ[ℝ] V →ₗ[ℝ] ℝ :=
  (cs.map fun t => t.2 • B t.1).sum

theorem opSum_apply (B : String → V →ₗ[ℝ] V →ₗ[ℝ] ℝ) (x y : V) : ∀ cs : List (String × ℝ),
    opSum B cs x y = (cs.map fun t => t.2 * B t.1 x y).sum
  | [] => by simp [opSum]
  | t :: cs => by
    have ih := opSum_apply B x y cs
    unfold opSum at ih ⊢
    simp only [List.map_cons, List.sum_cons, LinearMap.add_apply, LinearMap.smul_apply, smul_eq_mul, ih]

/-- **C55.** When the files named by a target cover its states, the target is the same linear combination of the
operators. -/
theorem mix_operators {env : Env} (ht : IndexOK env.target)
    (hp : ∀ p ∈ env.target.sectors, p.1 < env.target.space.length ∧ p.2 < env.target.space.length)
    {files : List (String × H2In)} (hn : (files.map (·.1)).Nodup) {K : PairKets V}
    {B : String → V →ₗ[ℝ] V →ₗ[ℝ] ℝ}
    (hf : ∀ f ∈ files, IndexOK f.2.ix ∧ Holds K (B f.1) f.2 ∧ SymWithin K (B f.1) f.2.ix)
    {cs : List (String × ℝ)}
    (hcov : ∀ t ∈ cs, ∃ f ∈ files, f.1 = t.1 ∧ ∀ s p b k, IsSector env.target s p b k →
      ∀ sti ∈ b.states, ∀ stj ∈ k.states, Covers f.2 env.target.orbitals b k sti stj) :
    ∃ out, mix env (inputChannels files) [cs] = .ok out ∧
    ∀ s p b k, IsSector env.target s p b k → ∃ M, out[s]? = some [M] ∧ M.rows = b.states.length ∧
      M.cols = k.states.length ∧
      ∀ (i j : ℕ) sti stj, b.states[i]? = some sti → k.states[j]? = some stj →
        ChopOf env.tol (opSum B cs (K.state env.target.orbitals b.labels sti)
          (K.state env.target.orbitals k.labels stj)) (M.val i j) := by
  obtain ⟨out, hout, h⟩ := mix_files ht hp hn hf [cs]
  refine ⟨out, hout, ?_⟩
  intro s p b k hs
  obtain ⟨ms, M, h1, h2, h3, h4, h5⟩ := h s p b k hs 0 cs rfl
  obtain ⟨ms', h1', hlen, -⟩ := (mix_element hout).2 s p hs.sector
  rw [h1] at h1'
  cases h1'
  obtain ⟨x, rfl⟩ := List.length_eq_one_iff.mp hlen
  cases h2
  refine ⟨M, h1, h3, h4, ?_⟩
  intro i j sti stj hi hj
  have := h5 i j sti stj hi hj
  rw [opSum_apply]
  have e : (cs.map fun t => t.2 * contribution K B files env.target.orbitals b k sti stj t.1) =
      cs.map fun t => t.2 * B t.1 (K.state env.target.orbitals b.labels sti)
          (K.state env.target.orbitals k.labels stj) := by
    refine List.map_congr_left fun t htm => ?_
    obtain ⟨f, hm, e, hc⟩ := hcov t htm
    unfold contribution
    rw [if_pos ⟨f, hm, e, hc s p b k hs _ (List.mem_of_getElem? hi) _ (List.mem_of_getElem? hj)⟩]
  rw [← e]
  exact this

/-- **C78.** Copying: with one input file of the same indexing and coefficient one, each sector of the target is
the matrix read, the upper triangle mirrored in diagonal sectors, small values set to zero. -/
theorem mix_copy {env : Env} {id : String} {file : H2In} (hix : file.ix = env.target) (ht : IndexOK env.target)
    (hp : ∀ p ∈ env.target.sectors, p.1 < env.target.space.length ∧ p.2 < env.target.space.length)
    (hread : ∀ n p b k, IsSector env.target n p b k → ∃ a, file.read n = .ok a ∧ a.rows = b.states.length ∧
      a.cols = k.states.length) :
    ∃ out, mix env [⟨id, .input file⟩] [[(id, 1)]] = .ok out ∧
    ∀ s p b k, IsSector env.target s p b k → ∃ a M, file.read s = .ok a ∧ out[s]? = some [M] ∧ M.rows = a.rows ∧
      M.cols = a.cols ∧ ∀ i j, i < a.rows → j < a.cols →
        ChopOf env.tol (if p.1 = p.2 ∧ j < i then a.val j i else a.val i j) (M.val i j) := by
  have hin : InputsOK env.target.orbitals env.target.space env.target.orbitals env.target.space :=
    ⟨ht.orb, ht.orb, ht.space, ht.space⟩
  obtain ⟨m, hm⟩ := mapping_total hin
  have hsrc : ∀ s p b k, IsSector env.target s p b k → ∃ a T, file.read s = .ok a ∧
      source env ⟨id, .input file⟩ p = .ok (some T) ∧ T.rows = b.states.length ∧ T.cols = k.states.length ∧
      a.rows = b.states.length ∧ a.cols = k.states.length ∧ ∀ i j, i < a.rows → j < a.cols →
        T.val i j = if p.1 = p.2 ∧ j < i then a.val j i else a.val i j := by
    intro s p b k hs
    obtain ⟨a, h1, h2, h3⟩ := hread s p b k hs
    have hfs := findSector_eq ht.space.labelsNodup ht.sectors hs
    have hri : readInput file s = .ok (⟨p.1, p.2, b.states.length, k.states.length⟩,
        if p.1 = p.2 then completeLowerTriangle a else a) := by
      unfold readInput
      rw [hix]
      simp only [getE_ok hs.sector, sectorInfo_eq hs.bra hs.ket, h1, Except.ok_bind', Except.pure_ok]
    obtain ⟨T, g1, g2, g3, g4⟩ := remap_same_indexing ht.orb ht.space hm
      (xs := ⟨p.1, p.2, b.states.length, k.states.length⟩) ⟨hs.bra, hs.ket, rfl, rfl⟩
      (a := if p.1 = p.2 then completeLowerTriangle a else a) (by split <;> exact h2) (by split <;> exact h3)
    refine ⟨a, T, h1, ?_, ?_, ?_, h2, h3, ?_⟩
    · simp only [source, initChannel, populate, populateInput, getE_ok hs.bra, getE_ok hs.ket, hix, hfs, hm,
        Except.ok_bind', Except.pure_ok, hri, sectorInfo_eq hs.bra hs.ket, mappingE, g1]
    · rw [g2]; split <;> exact h2
    · rw [g3]; split <;> exact h3
    · intro i j hi hj
      rw [g4 i j (by split <;> exact hi) (by split <;> exact hj)]
      by_cases hd : p.1 = p.2
      · simp [hd, completeLowerTriangle]
      · simp [hd]
  obtain ⟨out, hout⟩ : ∃ out, mix env [⟨id, .input file⟩] [[(id, 1)]] = .ok out := by
    refine mix_total ?_ ?_ hp
    · intro c hc
      simp only [List.mem_singleton] at hc
      subst hc
      exact ⟨some m, by simp only [initChannel, hix, hm, Except.ok_bind', Except.pure_ok]⟩
    · intro p hpm c hc
      simp only [List.mem_singleton] at hc
      subst hc
      obtain ⟨s, hs⟩ := List.mem_iff_getElem?.mp hpm
      have hb := List.getElem?_eq_getElem (hp p hpm).1
      have hk := List.getElem?_eq_getElem (hp p hpm).2
      obtain ⟨a, T, -, h2, h3, h4, -⟩ := hsrc s p _ _ ⟨hs, hb, hk⟩
      refine ⟨some T, h2, ?_⟩
      intro T' e
      cases e
      exact ⟨_, _, hb, hk, h3, h4⟩
  refine ⟨out, hout, ?_⟩
  intro s p b k hs
  obtain ⟨a, T, h1, h2, h3, h4, h5, h6, h7⟩ := hsrc s p b k hs
  obtain ⟨ms, q1, hlen, src, q2, q3⟩ := (mix_element hout).2 s p hs.sector
  obtain ⟨x, rfl⟩ := List.length_eq_one_iff.mp hlen
  obtain ⟨M, q4, ⟨b', k', w1, w2, w3, w4⟩, q5⟩ := q3 0 _ rfl
  cases q4
  rw [hs.bra] at w1
  rw [hs.ket] at w2
  cases w1
  cases w2
  refine ⟨a, x, h1, q1, w3.trans h5.symm, w4.trans h6.symm, ?_⟩
  intro i j hi hj
  have hpr := provides_of_nodup (chans := [⟨id, .input file⟩]) (by simp) (List.mem_singleton.mpr rfl) h2
  have := q5 i j
  simp only [combination, List.map_cons, List.map_nil, List.sum_cons, List.sum_nil, add_zero, one_mul] at this
  rw [provides_unique (q2 id) hpr] at this
  simp only [elemOf] at this
  rw [h7 i j hi hj] at this
  exact this

end Verif.Mixer
