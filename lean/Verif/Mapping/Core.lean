import Verif.Mapping.Lemmas
import Verif.Mapping.Spec

/-! # Facts about the constructed mapping -/

namespace Verif.Mapping
open Verif

/-- Pure description of `mapState` when the source indices are in range. -/
def mapped (tgt : Orbitals) (lab : Labels) (ts : List (Nat × Nat)) (a b : Orb) : Nat × Int :=
  let t1 := lookUp a (tgt.of lab.species.first)
  let t2 := lookUp b (tgt.of lab.species.second)
  let swap := decide (lab.species.first = lab.species.second) && decide (t1 > t2)
  let t := lookUp (if swap then (t2, t1) else (t1, t2)) ts
  (t, if t = kNone then 0 else
    if swap then powNegOne (((a.twiceJ + b.twiceJ : Nat) : Int) / 2 + lab.J + 1) else 1)

theorem mapState_eq {src tgt : Orbitals} {lab : Labels} {ts : List (Nat × Nat)} {st : Nat × Nat}
    {a b : Orb} (h : IsPair src lab.species st a b) :
    mapState src tgt lab ts st =
      .ok ((mapped tgt lab ts a b).1, toSizeT (mapped tgt lab ts a b).2) := by
  unfold mapState mapped
  simp only [orbitalMapping, List.getElem?_map, h.1, h.2, Option.map_some]

theorem first_eq_second {sp : Species2} : sp.first = sp.second ↔ sp ≠ .pn := by
  cases sp <;> decide

theorem isPair_inj {o : Orbitals} (ho : o.WF) {sp : Species2} {st st' : Nat × Nat} {a b : Orb}
    (h : IsPair o sp st a b) (h' : IsPair o sp st' a b) : st = st' := by
  have h1 := (lookUp_of_getElem (ho.nodup _) h.1).symm.trans (lookUp_of_getElem (ho.nodup _) h'.1)
  have h2 := (lookUp_of_getElem (ho.nodup _) h.2).symm.trans (lookUp_of_getElem (ho.nodup _) h'.2)
  exact Prod.ext h1 h2

/-- The target states of a subspace are canonical and in range. -/
structure StatesOK (o : Orbitals) (sp : Species2) (ts : List (Nat × Nat)) : Prop where
  nodup : ts.Nodup
  small : ts.length < kNone
  inRange : ∀ st ∈ ts, st.1 < (o.of sp.first).length ∧ st.2 < (o.of sp.second).length
  canonical : sp ≠ .pn → ∀ st ∈ ts, st.1 ≤ st.2

theorem SpaceWF.ok {o : Orbitals} {sp : List Subspace} (h : SpaceWF o sp) {s : Subspace} (hs : s ∈ sp) :
    StatesOK o s.labels.species s.states :=
  ⟨h.statesNodup s hs, h.statesSmall s hs, h.inRange s hs, h.canonical s hs⟩

theorem isPair_of_inRange {o : Orbitals} {sp : Species2} {st : Nat × Nat}
    (h : st.1 < (o.of sp.first).length ∧ st.2 < (o.of sp.second).length) : ∃ a b, IsPair o sp st a b :=
  ⟨_, _, List.getElem?_eq_getElem h.1, List.getElem?_eq_getElem h.2⟩

/-- A found target state consists of the same orbitals, and the phase tells their order. -/
theorem mapped_found {tgt : Orbitals} (ho : tgt.WF) {lab : Labels} {ts : List (Nat × Nat)}
    (hts : StatesOK tgt lab.species ts) {a b : Orb} (h : (mapped tgt lab ts a b).1 ≠ kNone) :
    ∃ st', ts[(mapped tgt lab ts a b).1]? = some st' ∧
      ((IsPair tgt lab.species st' a b ∧ (mapped tgt lab ts a b).2 = 1) ∨
       (lab.species ≠ .pn ∧ IsPair tgt lab.species st' b a ∧ (mapped tgt lab ts a b).2 =
          powNegOne (((a.twiceJ + b.twiceJ : Nat) : Int) / 2 + lab.J + 1))) := by
  set t1 := lookUp a (tgt.of lab.species.first) with ht1
  set t2 := lookUp b (tgt.of lab.species.second) with ht2
  have hr : ∀ {x : Orb} {s : Species1}, lookUp x (tgt.of s) < (tgt.of s).length →
      (tgt.of s)[lookUp x (tgt.of s)]? = some x := by
    intro x s hlt
    apply lookUp_of_mem
    by_contra hx
    have := (lookUp_eq_kNone (le_of_lt (ho.small s))).2 hx
    have := ho.small s
    omega
  by_cases hsw : lab.species.first = lab.species.second ∧ t1 > t2
  · have hm : mapped tgt lab ts a b = (lookUp (t2, t1) ts, if lookUp (t2, t1) ts = kNone then 0 else
        powNegOne (((a.twiceJ + b.twiceJ : Nat) : Int) / 2 + lab.J + 1)) := by
      have : (decide (lab.species.first = lab.species.second) && decide (t1 > t2)) = true := by
        simpa using hsw
      simp only [mapped, ← ht1, ← ht2, this, if_true]
    rw [hm] at h ⊢
    simp only at h ⊢
    have hmem : (t2, t1) ∈ ts := by
      by_contra hc; exact h ((lookUp_eq_kNone (le_of_lt hts.small)).2 hc)
    refine ⟨(t2, t1), lookUp_of_mem hmem, .inr ⟨first_eq_second.1 hsw.1, ?_, by rw [if_neg h]⟩⟩
    obtain ⟨r1, r2⟩ := hts.inRange _ hmem
    simp only at r1 r2
    constructor
    · show (tgt.of _)[t2]? = _
      rw [hsw.1] at r1 ⊢
      exact hr r1
    · show (tgt.of _)[t1]? = _
      rw [← hsw.1] at r2 ⊢
      exact hr r2
  · have hm : mapped tgt lab ts a b = (lookUp (t1, t2) ts, if lookUp (t1, t2) ts = kNone then 0 else 1) := by
      have : (decide (lab.species.first = lab.species.second) && decide (t1 > t2)) = false := by
        simpa using hsw
      simp only [mapped, ← ht1, ← ht2, this, Bool.false_eq_true, if_false]
    rw [hm] at h ⊢
    simp only at h ⊢
    have hmem : (t1, t2) ∈ ts := by
      by_contra hc; exact h ((lookUp_eq_kNone (le_of_lt hts.small)).2 hc)
    refine ⟨(t1, t2), lookUp_of_mem hmem, .inl ⟨?_, by rw [if_neg h]⟩⟩
    obtain ⟨r1, r2⟩ := hts.inRange _ hmem
    exact ⟨hr r1, hr r2⟩

/-- A target state of the same orbitals is found, at its own index. -/
theorem mapped_of_same {tgt : Orbitals} (ho : tgt.WF) {lab : Labels} {ts : List (Nat × Nat)}
    (hts : StatesOK tgt lab.species ts) {a b : Orb} {i : Nat} {st' : Nat × Nat} (hi : ts[i]? = some st')
    (h : IsPair tgt lab.species st' a b ∨ (lab.species ≠ .pn ∧ IsPair tgt lab.species st' b a)) :
    (mapped tgt lab ts a b).1 = i := by
  have hmem : st' ∈ ts := List.mem_of_getElem? hi
  rcases h with h | ⟨hsp, h⟩
  · have h1 := lookUp_of_getElem (ho.nodup _) h.1
    have h2 := lookUp_of_getElem (ho.nodup _) h.2
    have hns : ¬ (lab.species.first = lab.species.second ∧ st'.1 > st'.2) := by
      rintro ⟨h3, h4⟩
      have := hts.canonical (first_eq_second.1 h3) _ hmem
      omega
    have : (decide (lab.species.first = lab.species.second) && decide (st'.1 > st'.2)) = false := by
      simpa using hns
    simp only [mapped, h1, h2, this, Bool.false_eq_true, if_false]
    exact lookUp_of_getElem hts.nodup hi
  · have hs := first_eq_second.2 hsp
    have h1 : lookUp b (tgt.of lab.species.second) = st'.1 := by
      rw [← hs]; exact lookUp_of_getElem (ho.nodup _) h.1
    have h2 : lookUp a (tgt.of lab.species.first) = st'.2 := by
      rw [hs]; exact lookUp_of_getElem (ho.nodup _) h.2
    have hc := hts.canonical hsp _ hmem
    by_cases hlt : st'.1 < st'.2
    · have : (decide (lab.species.first = lab.species.second) && decide (st'.2 > st'.1)) = true := by
        simpa using ⟨hs, hlt⟩
      simp only [mapped, h1, h2, this, if_true]
      exact lookUp_of_getElem hts.nodup hi
    · have he : st'.2 = st'.1 := by omega
      have : (decide (lab.species.first = lab.species.second) && decide (st'.2 > st'.1)) = false := by
        simpa using fun _ => not_lt.1 hlt
      simp only [mapped, h1, h2, this, Bool.false_eq_true, if_false]
      rw [he]
      apply lookUp_of_getElem hts.nodup
      rw [hi, ← Prod.mk.eta (p := st')]
      simp [he]

theorem mapped_phase (tgt : Orbitals) (lab : Labels) (ts : List (Nat × Nat)) (a b : Orb) :
    (mapped tgt lab ts a b).2 = 1 ∨ (mapped tgt lab ts a b).2 = -1 ∨ (mapped tgt lab ts a b).2 = 0 := by
  unfold mapped powNegOne
  simp only
  cases h : (decide (lab.species.first = lab.species.second) &&
      decide (lookUp a (tgt.of lab.species.first) > lookUp b (tgt.of lab.species.second)))
  · simp only [Bool.false_eq_true, if_false]
    by_cases h2 : lookUp (lookUp a (tgt.of lab.species.first), lookUp b (tgt.of lab.species.second)) ts
      = kNone <;> simp [h2]
  · simp only [if_true]
    by_cases h2 : lookUp (lookUp b (tgt.of lab.species.second), lookUp a (tgt.of lab.species.first)) ts
      = kNone
    · simp [h2]
    · rw [if_neg h2]
      split <;> simp

/-! ### The loop over subspaces -/

/-- Target subspace for a source subspace. -/
def targetOf (tgtSpace : List Subspace) (s : Subspace) : Option Subspace :=
  tgtSpace.find? fun t => t.labels = s.labels

theorem targetOf_some {tgtSpace : List Subspace} {s t : Subspace} (h : targetOf tgtSpace s = some t) :
    t ∈ tgtSpace ∧ t.labels = s.labels :=
  ⟨List.mem_of_find?_eq_some h, by simpa using List.find?_some h⟩

theorem targetOf_none {tgtSpace : List Subspace} {s : Subspace} (h : targetOf tgtSpace s = none) :
    s.labels ∉ tgtSpace.map (·.labels) := by
  unfold targetOf at h
  rw [List.find?_eq_none] at h
  intro hm
  obtain ⟨t, ht, he⟩ := List.mem_map.1 hm
  have := h t ht
  simp [he] at this

theorem targetOf_eq {tgtSpace : List Subspace} (hn : (tgtSpace.map (·.labels)).Nodup) {s t : Subspace}
    (ht : t ∈ tgtSpace) (hl : t.labels = s.labels) : targetOf tgtSpace s = some t := by
  cases h : targetOf tgtSpace s with
  | none =>
    exact absurd (List.mem_map.2 ⟨t, ht, hl⟩) (targetOf_none h)
  | some t' =>
    obtain ⟨h1, h2⟩ := targetOf_some h
    rw [List.inj_on_of_nodup_map hn h1 ht (h2.trans hl.symm)]

/-- Pure description of the entry for one state. -/
def mapEntry (src tgt : Orbitals) (lab : Labels) (ts : List (Nat × Nat)) (st : Nat × Nat) : Nat × BitVec 64 :=
  match (src.of lab.species.first)[st.1]?, (src.of lab.species.second)[st.2]? with
  | some a, some b => ((mapped tgt lab ts a b).1, toSizeT (mapped tgt lab ts a b).2)
  | _, _ => (0, 0)

theorem mapEntry_eq {src tgt : Orbitals} {lab : Labels} {ts : List (Nat × Nat)} {st : Nat × Nat}
    {a b : Orb} (h : IsPair src lab.species st a b) :
    mapEntry src tgt lab ts st = ((mapped tgt lab ts a b).1, toSizeT (mapped tgt lab ts a b).2) := by
  simp [mapEntry, h.1, h.2]

/-- Pure description of `state_mapping[i]`. -/
def entries (src tgt : Orbitals) (tgtSpace : List Subspace) (s : Subspace) : List (Nat × BitVec 64) :=
  match targetOf tgtSpace s with
  | none => []
  | some t => s.states.map (mapEntry src tgt s.labels t.states)

/-- How often a target state is found. -/
def foundCount (xs : List (Nat × BitVec 64)) : Nat := (xs.filter fun x => x.1 ≠ kNone).length

theorem mapSubspace_eq {src tgt : Orbitals} {srcSpace tgtSpace : List Subspace}
    (hs : SpaceWF src srcSpace) (ht : SpaceWF tgt tgtSpace) {s : Subspace} (hmem : s ∈ srcSpace) (acc : Acc) :
    mapSubspace src tgt tgtSpace acc s =
      match targetOf tgtSpace s with
      | none => .ok ⟨⟨acc.m.subspaceMapping ++ [kNone], acc.m.stateMapping ++ [[]], false, false,
          acc.m.rangeSubspacesCovered, acc.m.rangeStatesCovered⟩, acc.numTargetSubspacesFound⟩
      | some t => .ok ⟨⟨acc.m.subspaceMapping ++ [lookUp s.labels (tgtSpace.map (·.labels))],
          acc.m.stateMapping ++ [entries src tgt tgtSpace s], acc.m.domainSubspacesCovered,
          acc.m.domainStatesCovered && (entries src tgt tgtSpace s).all (fun x => x.1 ≠ kNone),
          acc.m.rangeSubspacesCovered,
          acc.m.rangeStatesCovered && decide (foundCount (entries src tgt tgtSpace s) = t.states.length)⟩,
          acc.numTargetSubspacesFound + 1⟩ := by
  have hsm : (tgtSpace.map (·.labels)).length ≤ kNone := by simpa using le_of_lt ht.small
  cases h : targetOf tgtSpace s with
  | none =>
    have := (lookUp_eq_kNone hsm).2 (targetOf_none h)
    simp [mapSubspace, this]
    rfl
  | some t =>
    obtain ⟨h1, h2⟩ := targetOf_some h
    have hm : s.labels ∈ tgtSpace.map (·.labels) := List.mem_map.2 ⟨t, h1, h2⟩
    have hne : lookUp s.labels (tgtSpace.map (·.labels)) ≠ kNone := fun hc =>
      (lookUp_eq_kNone hsm).1 hc hm
    have hg : tgtSpace[lookUp s.labels (tgtSpace.map (·.labels))]? = some t := by
      have := lookUp_of_mem hm
      rw [List.getElem?_map, Option.map_eq_some_iff] at this
      obtain ⟨t', e1, e2⟩ := this
      have ht' : t' ∈ tgtSpace := List.mem_of_getElem? e1
      rw [e1, List.inj_on_of_nodup_map ht.labelsNodup ht' h1 (e2.trans h2.symm)]
    have hmap : s.states.mapM (mapState src tgt s.labels t.states) =
        .ok (s.states.map (mapEntry src tgt s.labels t.states)) := by
      apply mapM_ok
      intro st hst
      obtain ⟨a, b, hab⟩ := isPair_of_inRange (hs.inRange s hmem st hst)
      rw [mapState_eq hab, mapEntry_eq hab]
    simp only [mapSubspace, hne, if_false, hg, hmap]
    simp only [entries, h]
    rfl

/-- The final content of the loop. -/
structure Result (src tgt : Orbitals) (srcSpace tgtSpace : List Subspace) (acc acc' : Acc) : Prop where
  subspaces : acc'.m.subspaceMapping =
    acc.m.subspaceMapping ++ srcSpace.map fun s => lookUp s.labels (tgtSpace.map (·.labels))
  states : acc'.m.stateMapping = acc.m.stateMapping ++ srcSpace.map (entries src tgt tgtSpace)
  domSub : acc'.m.domainSubspacesCovered = true ↔ acc.m.domainSubspacesCovered = true ∧
    ∀ s ∈ srcSpace, (targetOf tgtSpace s).isSome
  domStates : acc'.m.domainStatesCovered = true ↔ acc.m.domainStatesCovered = true ∧
    ∀ s ∈ srcSpace, (targetOf tgtSpace s).isSome ∧ ∀ x ∈ entries src tgt tgtSpace s, x.1 ≠ kNone
  ranSub : acc'.m.rangeSubspacesCovered = acc.m.rangeSubspacesCovered
  ranStates : acc'.m.rangeStatesCovered = true ↔ acc.m.rangeStatesCovered = true ∧
    ∀ s ∈ srcSpace, ∀ t, targetOf tgtSpace s = some t →
      foundCount (entries src tgt tgtSpace s) = t.states.length
  num : acc'.numTargetSubspacesFound = acc.numTargetSubspacesFound +
    (srcSpace.filter fun s => (targetOf tgtSpace s).isSome).length

theorem fold_result {src tgt : Orbitals} {full tgtSpace : List Subspace}
    (hs : SpaceWF src full) (ht : SpaceWF tgt tgtSpace) (xs : List Subspace) (hx : ∀ s ∈ xs, s ∈ full)
    (acc : Acc) : ∃ acc', xs.foldlM (mapSubspace src tgt tgtSpace) acc = .ok acc' ∧
      Result src tgt xs tgtSpace acc acc' := by
  induction xs generalizing acc with
  | nil => exact ⟨acc, rfl, by constructor <;> simp⟩
  | cons s xs ih =>
    have e := mapSubspace_eq hs ht (hx s (by simp)) acc
    rw [List.foldlM_cons, e]
    have hsm : (tgtSpace.map (·.labels)).length ≤ kNone := by simpa using le_of_lt ht.small
    cases h : targetOf tgtSpace s with
    | none =>
      obtain ⟨acc', h1, r⟩ := ih (fun y hy => hx y (by simp [hy])) ⟨⟨acc.m.subspaceMapping ++ [kNone],
        acc.m.stateMapping ++ [[]], false, false,
          acc.m.rangeSubspacesCovered, acc.m.rangeStatesCovered⟩, acc.numTargetSubspacesFound⟩
      refine ⟨acc', h1, ?_⟩
      constructor
      · rw [r.subspaces]; simp [(lookUp_eq_kNone hsm).2 (targetOf_none h)]
      · rw [r.states]; simp [entries, h]
      · rw [r.domSub]; simp [h]
      · rw [r.domStates]; simp [h]
      · rw [r.ranSub]
      · rw [r.ranStates]; simp [h]
      · rw [r.num]; simp [h]
    | some t =>
      obtain ⟨acc', h1, r⟩ := ih (fun y hy => hx y (by simp [hy]))
        ⟨⟨acc.m.subspaceMapping ++ [lookUp s.labels (tgtSpace.map (·.labels))],
          acc.m.stateMapping ++ [entries src tgt tgtSpace s], acc.m.domainSubspacesCovered,
          acc.m.domainStatesCovered && (entries src tgt tgtSpace s).all (fun x => x.1 ≠ kNone),
          acc.m.rangeSubspacesCovered,
          acc.m.rangeStatesCovered && decide (foundCount (entries src tgt tgtSpace s) = t.states.length)⟩,
          acc.numTargetSubspacesFound + 1⟩
      refine ⟨acc', h1, ?_⟩
      constructor
      · rw [r.subspaces]; simp
      · rw [r.states]; simp
      · rw [r.domSub]; simp [h]
      · rw [r.domStates]; simp [h, and_assoc]
      · rw [r.ranSub]
      · rw [r.ranStates]; simp [h, and_assoc]
      · rw [r.num]; simp [h]; omega

theorem mapping_result {src tgt : Orbitals} {srcSpace tgtSpace : List Subspace}
    (hs : SpaceWF src srcSpace) (ht : SpaceWF tgt tgtSpace) :
    ∃ m, twoBodyMapping src srcSpace tgt tgtSpace = .ok m ∧
      m.subspaceMapping = (srcSpace.map fun s => lookUp s.labels (tgtSpace.map (·.labels))) ∧
      m.stateMapping = srcSpace.map (entries src tgt tgtSpace) ∧
      (m.domainSubspacesCovered = true ↔ ∀ s ∈ srcSpace, (targetOf tgtSpace s).isSome) ∧
      (m.domainStatesCovered = true ↔ ∀ s ∈ srcSpace, (targetOf tgtSpace s).isSome ∧
        ∀ x ∈ entries src tgt tgtSpace s, x.1 ≠ kNone) ∧
      (m.rangeSubspacesCovered = true ↔
        (srcSpace.filter fun s => (targetOf tgtSpace s).isSome).length = tgtSpace.length) ∧
      (m.rangeStatesCovered = true ↔ m.rangeSubspacesCovered = true ∧
        ∀ s ∈ srcSpace, ∀ t, targetOf tgtSpace s = some t →
          foundCount (entries src tgt tgtSpace s) = t.states.length) := by
  obtain ⟨acc', h1, r⟩ := fold_result hs ht srcSpace (fun s h => h) ⟨⟨[], [], true, true, true, true⟩, 0⟩
  have e1 := r.ranSub
  have e2 := r.num
  refine ⟨_, by simp only [twoBodyMapping, h1]; rfl, ?_⟩
  simp only
  refine ⟨by simpa using r.subspaces, by simpa using r.states, by simpa using r.domSub,
    by simpa using r.domStates, ?_, ?_⟩
  · simp [e1, e2]
  · rw [Bool.and_eq_true, r.ranStates]
    simp only [true_and]
    exact and_comm

/-! ### What an entry of the mapping says -/

theorem getElem?_entry {src tgt : Orbitals} {tgtSpace : List Subspace} {s t : Subspace} {k : Nat} {st : Nat × Nat}
    (ht : targetOf tgtSpace s = some t) (hk : s.states[k]? = some st) :
    (entries src tgt tgtSpace s)[k]? = some (mapEntry src tgt s.labels t.states st) := by
  simp [entries, ht, hk]

/-- Entry of a state in terms of physical content. -/
theorem mapEntry_spec {src tgt : Orbitals} (ho : tgt.WF) {lab : Labels} {ts : List (Nat × Nat)}
    (hts : StatesOK tgt lab.species ts) {st : Nat × Nat}
    (hst : ∃ a b, IsPair src lab.species st a b) :
    ((mapEntry src tgt lab ts st).1 = kNone ↔ ∀ st' ∈ ts, ¬ SameOrbitals src tgt lab.species st st') ∧
    (∀ i st', ts[i]? = some st' → SameOrbitals src tgt lab.species st st' →
      (mapEntry src tgt lab ts st).1 = i) ∧
    ((mapEntry src tgt lab ts st).1 ≠ kNone → ∃ st' a b, ts[(mapEntry src tgt lab ts st).1]? = some st' ∧
      IsPair src lab.species st a b ∧
      ((IsPair tgt lab.species st' a b ∧ toIntFromSizeT (mapEntry src tgt lab ts st).2 = 1) ∨
       (lab.species ≠ .pn ∧ IsPair tgt lab.species st' b a ∧
         toIntFromSizeT (mapEntry src tgt lab ts st).2 = (-1) ^ ((a.twiceJ + b.twiceJ) / 2 + lab.J + 1)))) := by
  obtain ⟨a, b, hab⟩ := hst
  rw [mapEntry_eq hab]
  simp only
  have hfound : ∀ i st', ts[i]? = some st' → SameOrbitals src tgt lab.species st st' →
      (mapped tgt lab ts a b).1 = i := by
    rintro i st' hi ⟨a', b', h1, h2⟩
    have e1 : a' = a := Option.some.inj (h1.1.symm.trans hab.1)
    have e2 : b' = b := Option.some.inj (h1.2.symm.trans hab.2)
    subst e1 e2
    exact mapped_of_same ho hts hi h2
  have hspec : (mapped tgt lab ts a b).1 ≠ kNone → ∃ st' a' b', ts[(mapped tgt lab ts a b).1]? = some st' ∧
      IsPair src lab.species st a' b' ∧
      ((IsPair tgt lab.species st' a' b' ∧ toIntFromSizeT (toSizeT (mapped tgt lab ts a b).2) = 1) ∨
       (lab.species ≠ .pn ∧ IsPair tgt lab.species st' b' a' ∧
         toIntFromSizeT (toSizeT (mapped tgt lab ts a b).2) =
          (-1) ^ ((a'.twiceJ + b'.twiceJ) / 2 + lab.J + 1))) := by
    intro h
    rw [phase_round_trip (mapped_phase tgt lab ts a b)]
    obtain ⟨st', h1, h2⟩ := mapped_found ho hts h
    refine ⟨st', a, b, h1, hab, ?_⟩
    rcases h2 with h2 | ⟨h2, h3, h4⟩
    · exact .inl h2
    · refine .inr ⟨h2, h3, ?_⟩
      rw [h4, ← powNegOne_eq]
      congr 1
  refine ⟨⟨fun h st' hm hs => ?_, fun h => ?_⟩, hfound, hspec⟩
  · obtain ⟨i, hi, he⟩ := List.getElem_of_mem hm
    have := hfound i st' (by rw [List.getElem?_eq_getElem hi, he]) hs
    have := hts.small
    omega
  · by_contra hc
    obtain ⟨st', a', b', h1, h2, h3⟩ := hspec hc
    refine h st' (List.mem_of_getElem? h1) ⟨a', b', h2, ?_⟩
    rcases h3 with h3 | h3
    · exact .inl h3.1
    · exact .inr ⟨h3.1, h3.2.1⟩

theorem sameOrbitals_inj {src tgt : Orbitals} (hsrc : src.WF) {sp : Species2} {st1 st2 st' : Nat × Nat}
    (hc1 : sp ≠ .pn → st1.1 ≤ st1.2) (hc2 : sp ≠ .pn → st2.1 ≤ st2.2)
    (h1 : SameOrbitals src tgt sp st1 st') (h2 : SameOrbitals src tgt sp st2 st') : st1 = st2 := by
  obtain ⟨a, b, p1, q1⟩ := h1
  obtain ⟨c, d, p2, q2⟩ := h2
  have key : (c = a ∧ d = b) ∨ (sp ≠ .pn ∧ c = b ∧ d = a) := by
    rcases q1 with q1 | ⟨n1, q1⟩ <;> rcases q2 with q2 | ⟨n2, q2⟩
    · exact .inl ⟨Option.some.inj (q2.1.symm.trans q1.1), Option.some.inj (q2.2.symm.trans q1.2)⟩
    · exact .inr ⟨n2, Option.some.inj (q2.2.symm.trans q1.2), Option.some.inj (q2.1.symm.trans q1.1)⟩
    · exact .inr ⟨n1, Option.some.inj (q2.1.symm.trans q1.1), Option.some.inj (q2.2.symm.trans q1.2)⟩
    · exact .inl ⟨Option.some.inj (q2.2.symm.trans q1.2), Option.some.inj (q2.1.symm.trans q1.1)⟩
  rcases key with ⟨rfl, rfl⟩ | ⟨hn, rfl, rfl⟩
  · exact isPair_inj hsrc p1 p2
  · have hs := first_eq_second.2 hn
    have e1 := lookUp_of_getElem (hsrc.nodup _) p1.1
    have e2 := lookUp_of_getElem (hsrc.nodup _) p1.2
    have e3 := lookUp_of_getElem (hsrc.nodup _) p2.1
    have e4 := lookUp_of_getElem (hsrc.nodup _) p2.2
    rw [hs] at e1 e3
    have := hc1 hn
    have := hc2 hn
    apply Prod.ext <;> omega

/-- Number of distinct in-range values equals the bound exactly when every value is hit. -/
theorem count_full {xs : List Nat} (hn : xs.Nodup) {n : Nat} (hlt : ∀ x ∈ xs, x < n) :
    xs.length = n ↔ ∀ i < n, i ∈ xs := by
  have hsub : xs ⊆ List.range n := fun x hx => List.mem_range.2 (hlt x hx)
  constructor
  · intro h i hi
    have hp : xs.Subperm (List.range n) := hn.subperm hsub
    have := hp.perm_of_length_le (by simp [h])
    exact this.mem_iff.2 (List.mem_range.2 hi)
  · intro h
    have h1 : (List.range n).Subperm xs := List.nodup_range.subperm fun x hx => h x (List.mem_range.1 hx)
    have h2 : xs.Subperm (List.range n) := hn.subperm hsub
    have := h1.length_le
    have := h2.length_le
    simp at *
    omega

end Verif.Mapping
