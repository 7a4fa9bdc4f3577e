import Verif.Mapping.Scatter
import Mathlib.LinearAlgebra.BilinearMap
import Mathlib.Algebra.BigOperators.Pi
import Mathlib.Algebra.Module.BigOperators

/-!
# Properties C15-C21: remapping of two-body states and matrices
-/

namespace Verif.Mapping
open Verif

/-- The inputs of the constructor are what the `basis` library delivers. -/
structure InputsOK (src : Orbitals) (srcSpace : List Subspace) (tgt : Orbitals) (tgtSpace : List Subspace) :
    Prop where
  srcOrb : src.WF
  tgtOrb : tgt.WF
  srcWF : SpaceWF src srcSpace
  tgtWF : SpaceWF tgt tgtSpace

/-- Entry of `state_mapping` for state `k` of subspace `i`: target index and phase (as read back
by `RemappedMatrixJJJPN`). -/
def TwoBodyMapping.entry (m : TwoBodyMapping) (i k : Nat) : Option (Nat × Int) :=
  ((m.stateMapping[i]?).bind (·[k]?)).map fun x => (x.1, toIntFromSizeT x.2)

/-- **C15.** For every source state whose subspace exists in the target: the mapped subspace is the
one with the same labels; if the target has a state of the same orbitals then the entry points to
it, and the source state is the phase times that target state, as vectors; and if the target has
none then the entry is `kNone`. -/
theorem mapping_same_physical_state {src tgt : Orbitals} {srcSpace tgtSpace : List Subspace}
    (h : InputsOK src srcSpace tgt tgtSpace) (hj : src.HalfOdd) {m : TwoBodyMapping}
    (hm : twoBodyMapping src srcSpace tgt tgtSpace = .ok m)
    {i j : Nat} {s t : Subspace} (hi : srcSpace[i]? = some s) (htj : tgtSpace[j]? = some t)
    (hl : t.labels = s.labels) {k : Nat} {st : Nat × Nat} (hk : s.states[k]? = some st) :
    m.subspaceMapping[i]? = some j ∧
    ∃ ti ph, m.entry i k = some (ti, ph) ∧
      (ti = kNone ↔ ∀ st' ∈ t.states, ¬ SameOrbitals src tgt s.labels.species st st') ∧
      (ti ≠ kNone → ∃ st', t.states[ti]? = some st' ∧ SameOrbitals src tgt s.labels.species st st' ∧
        ∀ {V : Type} [AddCommGroup V] [Module ℝ V] (K : PairKets V),
          K.state src s.labels st = (ph : ℝ) • K.state tgt s.labels st') := by
  obtain ⟨m', h1, h2, h3, -⟩ := mapping_result h.srcWF h.tgtWF
  rw [hm] at h1
  cases h1
  have hs := List.mem_of_getElem? hi
  have ht := List.mem_of_getElem? htj
  have hto := targetOf_eq h.tgtWF.labelsNodup ht hl
  have hok : StatesOK tgt s.labels.species t.states := hl ▸ h.tgtWF.ok ht
  have hpair := isPair_of_inRange (h.srcWF.inRange s hs st (List.mem_of_getElem? hk))
  obtain ⟨p1, p2, p3⟩ := mapEntry_spec (src := src) h.tgtOrb hok hpair
  constructor
  · rw [h2, List.getElem?_map, hi]
    simp only [Option.map_some, Option.some.injEq]
    exact lookUp_of_getElem h.tgtWF.labelsNodup (by rw [List.getElem?_map, htj]; simp [hl])
  · refine ⟨_, toIntFromSizeT (mapEntry src tgt s.labels t.states st).2, ?_, p1, ?_⟩
    · simp [TwoBodyMapping.entry, h3, hi, getElem?_entry hto hk]
    · intro hne
      obtain ⟨st', a, b, q1, q2, q3⟩ := p3 hne
      refine ⟨st', q1, ⟨a, b, q2, q3.imp (·.1) (fun x => ⟨x.1, x.2.1⟩)⟩, ?_⟩
      intro V _ _ K
      have ha : a.twiceJ % 2 = 1 := hj _ a (List.mem_of_getElem? q2.1)
      have hb : b.twiceJ % 2 = 1 := hj _ b (List.mem_of_getElem? q2.2)
      rcases q3 with ⟨q3, q4⟩ | ⟨q3, q4, q5⟩
      · rw [q4]
        simp [PairKets.state, q2.1, q2.2, q3.1, q3.2]
      · rw [q5]
        simp only [PairKets.state, q2.1, q2.2, q4.1, q4.2]
        rw [K.exchange _ _ b a q3 hb ha, Nat.add_comm b.twiceJ]
        push_cast
        rfl

/-- **C15**, subspace absent from the target: the subspace is mapped to `kNone` and has no
entries. -/
theorem mapping_absent_subspace {src tgt : Orbitals} {srcSpace tgtSpace : List Subspace}
    (h : InputsOK src srcSpace tgt tgtSpace) {m : TwoBodyMapping}
    (hm : twoBodyMapping src srcSpace tgt tgtSpace = .ok m)
    {i : Nat} {s : Subspace} (hi : srcSpace[i]? = some s)
    (hno : ∀ t ∈ tgtSpace, t.labels ≠ s.labels) :
    m.subspaceMapping[i]? = some kNone ∧ m.stateMapping[i]? = some [] := by
  obtain ⟨m', h1, h2, h3, -⟩ := mapping_result h.srcWF h.tgtWF
  rw [hm] at h1
  cases h1
  have hn : s.labels ∉ tgtSpace.map (·.labels) := by
    intro hc
    obtain ⟨t, ht, he⟩ := List.mem_map.1 hc
    exact hno t ht he
  have hsm : (tgtSpace.map (·.labels)).length ≤ kNone := by simpa using le_of_lt h.tgtWF.small
  have hto : targetOf tgtSpace s = none := by
    cases hh : targetOf tgtSpace s with
    | none => rfl
    | some t => exact absurd (targetOf_some hh).2 (hno t (targetOf_some hh).1)
  constructor
  · rw [h2, List.getElem?_map, hi]
    simp only [Option.map_some, Option.some.injEq]
    exact (lookUp_eq_kNone hsm).2 hn
  · rw [h3, List.getElem?_map, hi]
    simp [entries, hto]

/-- The constructor always succeeds on such inputs. -/
theorem mapping_total {src tgt : Orbitals} {srcSpace tgtSpace : List Subspace}
    (h : InputsOK src srcSpace tgt tgtSpace) :
    ∃ m, twoBodyMapping src srcSpace tgt tgtSpace = .ok m :=
  let ⟨m, h1, _⟩ := mapping_result h.srcWF h.tgtWF
  ⟨m, h1⟩

/-- Entries are present only for existing states of mapped subspaces; used to pass from the model
to the specification. -/
theorem entry_some {src tgt : Orbitals} {srcSpace tgtSpace : List Subspace}
    (h : InputsOK src srcSpace tgt tgtSpace) {m : TwoBodyMapping}
    (hm : twoBodyMapping src srcSpace tgt tgtSpace = .ok m) {i k ti : Nat} {ph : Int}
    (he : m.entry i k = some (ti, ph)) :
    ∃ s t st, srcSpace[i]? = some s ∧ t ∈ tgtSpace ∧ t.labels = s.labels ∧ s.states[k]? = some st ∧
      ti = (mapEntry src tgt s.labels t.states st).1 ∧
      ph = toIntFromSizeT (mapEntry src tgt s.labels t.states st).2 := by
  obtain ⟨m', h1, h2, h3, -⟩ := mapping_result h.srcWF h.tgtWF
  rw [hm] at h1
  cases h1
  simp only [TwoBodyMapping.entry, h3, List.getElem?_map] at he
  cases hi : srcSpace[i]? with
  | none => simp [hi] at he
  | some s =>
    cases hto : targetOf tgtSpace s with
    | none => simp [hi, entries, hto] at he
    | some t =>
      cases hk : s.states[k]? with
      | none => simp [hi, entries, hto, hk] at he
      | some st =>
        simp only [hi, Option.map_some, Option.bind_some, getElem?_entry hto hk, Option.some.injEq,
          Prod.mk.injEq] at he
        exact ⟨s, t, st, rfl, (targetOf_some hto).1, (targetOf_some hto).2, hk, he.1.symm, he.2.symm⟩

/-- **C16.** No two source states are mapped to the same target state, and no two source subspaces
to the same target subspace. -/
theorem mapping_injective {src tgt : Orbitals} {srcSpace tgtSpace : List Subspace}
    (h : InputsOK src srcSpace tgt tgtSpace) {m : TwoBodyMapping}
    (hm : twoBodyMapping src srcSpace tgt tgtSpace = .ok m) :
    (∀ i k k' ti ph ph', m.entry i k = some (ti, ph) → m.entry i k' = some (ti, ph') →
      ti ≠ kNone → k = k') ∧
    (∀ i i' j : Nat, m.subspaceMapping[i]? = some j → m.subspaceMapping[i']? = some j → j ≠ kNone → i = i') := by
  constructor
  · intro i k k' ti ph ph' he he' hne
    obtain ⟨s, t, st, hi, ht, hl, hk, e1, -⟩ := entry_some h hm he
    obtain ⟨s', t', st', hi', ht', hl', hk', e1', -⟩ := entry_some h hm he'
    rw [hi] at hi'
    cases hi'
    have htt : t = t' := List.inj_on_of_nodup_map h.tgtWF.labelsNodup ht ht' (hl.trans hl'.symm)
    subst htt
    have hs := List.mem_of_getElem? hi
    have hok : StatesOK tgt s.labels.species t.states := hl ▸ h.tgtWF.ok ht
    have m1 := List.mem_of_getElem? hk
    have m2 := List.mem_of_getElem? hk'
    obtain ⟨-, -, p⟩ := mapEntry_spec (src := src) h.tgtOrb hok (isPair_of_inRange (h.srcWF.inRange s hs st m1))
    obtain ⟨-, -, p'⟩ := mapEntry_spec (src := src) h.tgtOrb hok (isPair_of_inRange (h.srcWF.inRange s hs st' m2))
    obtain ⟨x, a, b, q1, q2, q3⟩ := p (e1 ▸ hne)
    obtain ⟨x', a', b', q1', q2', q3'⟩ := p' (e1' ▸ hne)
    rw [← e1] at q1
    rw [← e1', q1] at q1'
    cases q1'
    have : st = st' := sameOrbitals_inj h.srcOrb (fun hc => h.srcWF.canonical s hs hc st m1)
      (fun hc => h.srcWF.canonical s hs hc st' m2)
      ⟨a, b, q2, q3.imp (·.1) (fun x => ⟨x.1, x.2.1⟩)⟩ ⟨a', b', q2', q3'.imp (·.1) (fun x => ⟨x.1, x.2.1⟩)⟩
    subst this
    have hn := h.srcWF.statesNodup s hs
    exact (lookUp_of_getElem hn hk).symm.trans (lookUp_of_getElem hn hk')
  · intro i i' j hi hi' hne
    obtain ⟨m', h1, h2, -⟩ := mapping_result h.srcWF h.tgtWF
    rw [hm] at h1
    cases h1
    rw [h2, List.getElem?_map, Option.map_eq_some_iff] at hi hi'
    obtain ⟨s, e1, e2⟩ := hi
    obtain ⟨s', e1', e2'⟩ := hi'
    have hsm : (tgtSpace.map (·.labels)).length ≤ kNone := by simpa using le_of_lt h.tgtWF.small
    have mem : ∀ {s : Subspace}, lookUp s.labels (tgtSpace.map (·.labels)) = j →
        s.labels ∈ tgtSpace.map (·.labels) := fun {s} e => by
      by_contra hc
      exact hne (e.symm.trans ((lookUp_eq_kNone hsm).2 hc))
    have g1 := lookUp_of_mem (mem e2)
    have g2 := lookUp_of_mem (mem e2')
    rw [e2] at g1
    rw [e2', g1] at g2
    have hss : s.labels = s'.labels := Option.some.inj g2
    have hn := h.srcWF.labelsNodup
    exact (lookUp_of_getElem hn (x := s.labels) (by rw [List.getElem?_map, e1]; rfl)).symm.trans
      (lookUp_of_getElem hn (by rw [List.getElem?_map, e1', hss]; rfl))

/-- **C17.** The phase is `(-1)^(j1+j2+J+1)` if the orbitals appear in opposite order in the
target, `1` if they appear in the same order, and always `1` for proton-neutron states. -/
theorem mapping_phase {src tgt : Orbitals} {srcSpace tgtSpace : List Subspace}
    (h : InputsOK src srcSpace tgt tgtSpace) (hj : src.HalfOdd) {m : TwoBodyMapping}
    (hm : twoBodyMapping src srcSpace tgt tgtSpace = .ok m)
    {i j : Nat} {s t : Subspace} (hi : srcSpace[i]? = some s) (htj : tgtSpace[j]? = some t)
    (hl : t.labels = s.labels) {k ti : Nat} {st st' : Nat × Nat} {ph : Int} (hk : s.states[k]? = some st)
    (he : m.entry i k = some (ti, ph)) (hst' : t.states[ti]? = some st') {a b : Orb}
    (hab : IsPair src s.labels.species st a b) :
    (s.labels.species = .pn → ph = 1) ∧
    (IsPair tgt s.labels.species st' a b → a ≠ b → ph = 1) ∧
    (IsPair tgt s.labels.species st' b a → a ≠ b → s.labels.species ≠ .pn →
      (ph : ℝ) = (-1) ^ ((a.twiceJ + b.twiceJ) / 2 + s.labels.J + 1)) ∧
    (a = b → s.labels.J % 2 = 0 → ph = 1) := by
  obtain ⟨s', t', st1, hi', ht', hl', hk', e1, e2⟩ := entry_some h hm he
  rw [hi] at hi'
  cases hi'
  rw [hk] at hk'
  cases hk'
  have htt : t = t' := List.inj_on_of_nodup_map h.tgtWF.labelsNodup (List.mem_of_getElem? htj) ht'
    (hl.trans hl'.symm)
  subst htt
  have hs := List.mem_of_getElem? hi
  have hok : StatesOK tgt s.labels.species t.states := hl ▸ h.tgtWF.ok ht'
  obtain ⟨-, -, p⟩ := mapEntry_spec (src := src) h.tgtOrb hok ⟨a, b, hab⟩
  have hne : ti ≠ kNone := by
    intro hc
    have := (List.getElem?_eq_some_iff.1 hst').1
    have := hok.small
    omega
  obtain ⟨x, a', b', q1, q2, q3⟩ := p (e1 ▸ hne)
  rw [← e1, hst'] at q1
  cases q1
  have ea : a' = a := Option.some.inj (q2.1.symm.trans hab.1)
  have eb : b' = b := Option.some.inj (q2.2.symm.trans hab.2)
  subst ea eb
  rw [← e2] at q3
  refine ⟨fun hpn => ?_, fun hp hne => ?_, fun hp hne hsp => ?_, fun heq hJ => ?_⟩
  · rcases q3 with q3 | q3
    · exact q3.2
    · exact absurd hpn q3.1
  · rcases q3 with q3 | q3
    · exact q3.2
    · exact absurd (Option.some.inj (hp.1.symm.trans q3.2.1.1)) hne
  · rcases q3 with q3 | q3
    · exact absurd (Option.some.inj (q3.1.1.symm.trans hp.1)) hne
    · rw [q3.2.2]; push_cast; rfl
  · subst heq
    rcases q3 with q3 | ⟨-, -, q3⟩
    · exact q3.2
    · have ha : a'.twiceJ % 2 = 1 := hj _ a' (List.mem_of_getElem? hab.1)
      rw [q3]
      exact Even.neg_one_pow (by rw [Nat.even_iff]; omega)

/-- **C17**, there and back: mapping a state to the target and its image back to the source gives
the same state with total phase `+1`. -/
theorem mapping_round_trip {src tgt : Orbitals} {srcSpace tgtSpace : List Subspace}
    (h : InputsOK src srcSpace tgt tgtSpace) {m m' : TwoBodyMapping}
    (hm : twoBodyMapping src srcSpace tgt tgtSpace = .ok m)
    (hm' : twoBodyMapping tgt tgtSpace src srcSpace = .ok m')
    {i j k ti : Nat} {ph : Int} (hsub : m.subspaceMapping[i]? = some j)
    (he : m.entry i k = some (ti, ph)) (hne : ti ≠ kNone) :
    m'.entry j ti = some (k, ph) ∧ ph * ph = 1 := by
  have h' : InputsOK tgt tgtSpace src srcSpace := ⟨h.tgtOrb, h.srcOrb, h.tgtWF, h.srcWF⟩
  obtain ⟨s, t, st, hi, ht, hl, hk, e1, e2⟩ := entry_some h hm he
  have hs := List.mem_of_getElem? hi
  obtain ⟨jj, hjj, hjt⟩ := List.getElem_of_mem ht
  have htj : tgtSpace[jj]? = some t := by rw [List.getElem?_eq_getElem hjj, hjt]
  obtain ⟨m1, h1, h2, h3, -⟩ := mapping_result h.srcWF h.tgtWF
  rw [hm] at h1
  cases h1
  have hj : j = jj := by
    rw [h2, List.getElem?_map, hi] at hsub
    simp only [Option.map_some, Option.some.injEq] at hsub
    rw [← hsub]
    exact lookUp_of_getElem h.tgtWF.labelsNodup (by rw [List.getElem?_map, htj]; simp [hl])
  subst hj
  have hok : StatesOK tgt s.labels.species t.states := hl ▸ h.tgtWF.ok ht
  have hok' : StatesOK src t.labels.species s.states := hl ▸ h.srcWF.ok hs
  obtain ⟨-, -, p⟩ := mapEntry_spec (src := src) h.tgtOrb hok
    (isPair_of_inRange (h.srcWF.inRange s hs st (List.mem_of_getElem? hk)))
  obtain ⟨st', a, b, q1, q2, q3⟩ := p (e1 ▸ hne)
  rw [← e1] at q1
  rw [← e2] at q3
  have hmem' := List.mem_of_getElem? q1
  obtain ⟨-, p', p''⟩ := mapEntry_spec (src := tgt) h.srcOrb hok'
    (isPair_of_inRange (h.tgtWF.inRange t ht st' hmem'))
  have hsame : SameOrbitals tgt src t.labels.species st' st := by
    rw [hl]
    rcases q3 with q3 | q3
    · exact ⟨a, b, q3.1, .inl q2⟩
    · exact ⟨b, a, q3.2.1, .inr ⟨q3.1, q2⟩⟩
  have hidx := p' k st hk hsame
  have hkne : k ≠ kNone := by
    have := (List.getElem?_eq_some_iff.1 hk).1
    have := hok'.small
    omega
  have hph : toIntFromSizeT (mapEntry tgt src t.labels s.states st').2 = ph := by
    obtain ⟨st2, c, d, r1, r2, r3⟩ := p'' (hidx.symm ▸ hkne)
    rw [hidx, hk] at r1
    cases r1
    rw [hl] at r2 r3
    rcases q3 with ⟨q3, q4⟩ | ⟨q3, q4, q5⟩
    · have ec : c = a := Option.some.inj (r2.1.symm.trans q3.1)
      have ed : d = b := Option.some.inj (r2.2.symm.trans q3.2)
      subst ec ed
      rcases r3 with r3 | ⟨r3, r4, r5⟩
      · rw [hl, r3.2, q4]
      · -- the two orbitals coincide; then the canonical order would not have been exchanged
        have hcd : d = c := Option.some.inj (r4.1.symm.trans q2.1)
        subst hcd
        rw [q4]
        have hff := first_eq_second.2 r3
        -- direct evaluation: equal orbitals are never exchanged
        have : mapEntry tgt src t.labels s.states st' =
            ((mapped src t.labels s.states d d).1, toSizeT (mapped src t.labels s.states d d).2) :=
          mapEntry_eq (by rw [hl]; exact r2)
        rw [this] at hidx ⊢
        simp only at hidx ⊢
        rw [phase_round_trip (mapped_phase _ _ _ _ _)]
        have hff' : t.labels.species.first = t.labels.species.second := by rw [hl]; exact hff
        unfold mapped at hidx ⊢
        simp only [hff', gt_iff_lt, lt_irrefl, decide_false, Bool.and_false, Bool.false_eq_true,
          if_false] at hidx ⊢
        rw [hidx, if_neg hkne]
    · have ec : c = b := Option.some.inj (r2.1.symm.trans q4.1)
      have ed : d = a := Option.some.inj (r2.2.symm.trans q4.2)
      subst ec ed
      rcases r3 with ⟨r3, r4⟩ | ⟨r3, r4, r5⟩
      · have hcd : d = c := Option.some.inj (q2.1.symm.trans r3.1)
        subst hcd
        have hff := first_eq_second.2 q3
        have : mapEntry src tgt s.labels t.states st =
            ((mapped tgt s.labels t.states d d).1, toSizeT (mapped tgt s.labels t.states d d).2) :=
          mapEntry_eq q2
        rw [hl, r4, e2, this]
        simp only
        rw [phase_round_trip (mapped_phase _ _ _ _ _)]
        rw [this] at e1
        simp only at e1
        unfold mapped at e1 ⊢
        simp only [hff, gt_iff_lt, lt_irrefl, decide_false, Bool.and_false, Bool.false_eq_true,
          if_false] at e1 ⊢
        rw [← e1, if_neg hne]
      · rw [hl, r5, q5, Nat.add_comm d.twiceJ]
  constructor
  · obtain ⟨m2, g1, g2, g3, -⟩ := mapping_result h.tgtWF h.srcWF
    rw [hm'] at g1
    cases g1
    have hto := targetOf_eq h.srcWF.labelsNodup hs hl.symm
    simp [TwoBodyMapping.entry, g3, htj, getElem?_entry hto q1, hidx, hph]
  · rcases q3 with q3 | q3
    · rw [q3.2]; rfl
    · rw [q3.2.2, ← mul_pow]; simp

/-- **C18.** The four flags say exactly what their names say. -/
theorem mapping_flags_exact {src tgt : Orbitals} {srcSpace tgtSpace : List Subspace}
    (h : InputsOK src srcSpace tgt tgtSpace) {m : TwoBodyMapping}
    (hm : twoBodyMapping src srcSpace tgt tgtSpace = .ok m) :
    (m.domainSubspacesCovered = true ↔ ∀ s ∈ srcSpace, ∃ t ∈ tgtSpace, t.labels = s.labels) ∧
    (m.domainStatesCovered = true ↔ ∀ s ∈ srcSpace, ∃ t ∈ tgtSpace, t.labels = s.labels ∧
      ∀ st ∈ s.states, ∃ st' ∈ t.states, SameOrbitals src tgt s.labels.species st st') ∧
    (m.rangeSubspacesCovered = true ↔ ∀ t ∈ tgtSpace, ∃ s ∈ srcSpace, s.labels = t.labels) ∧
    (m.rangeStatesCovered = true ↔ ∀ t ∈ tgtSpace, ∃ s ∈ srcSpace, s.labels = t.labels ∧
      ∀ st' ∈ t.states, ∃ st ∈ s.states, SameOrbitals src tgt s.labels.species st st') := by
  obtain ⟨m1, h1, h2, h3, f1, f2, f3, f4⟩ := mapping_result h.srcWF h.tgtWF
  rw [hm] at h1
  cases h1
  have hsome : ∀ s, (targetOf tgtSpace s).isSome = true ↔ ∃ t ∈ tgtSpace, t.labels = s.labels := by
    intro s
    constructor
    · intro hh
      obtain ⟨t, ht⟩ := Option.isSome_iff_exists.1 hh
      exact ⟨t, targetOf_some ht⟩
    · rintro ⟨t, ht, hl⟩
      rw [targetOf_eq h.tgtWF.labelsNodup ht hl]; rfl
  have hrs : m.rangeSubspacesCovered = true ↔ ∀ t ∈ tgtSpace, ∃ s ∈ srcSpace, s.labels = t.labels := by
    rw [f3]
    -- the labels of matched source subspaces are distinct target labels
    have hperm : ((srcSpace.filter fun s => (targetOf tgtSpace s).isSome).map (·.labels)).Nodup :=
      h.srcWF.labelsNodup.sublist (List.filter_sublist.map _)
    have hsub : ((srcSpace.filter fun s => (targetOf tgtSpace s).isSome).map (·.labels)) ⊆
        tgtSpace.map (·.labels) := by
      intro l hl
      obtain ⟨s, hs, rfl⟩ := List.mem_map.1 hl
      obtain ⟨t, ht, he⟩ := (hsome s).1 (List.mem_filter.1 hs).2
      exact List.mem_map.2 ⟨t, ht, he⟩
    constructor
    · intro hlen t ht
      have := (hperm.subperm hsub).perm_of_length_le (by simp [hlen])
      have hmem := this.mem_iff.2 (List.mem_map.2 ⟨t, ht, rfl⟩)
      obtain ⟨s, hs, he⟩ := List.mem_map.1 hmem
      exact ⟨s, (List.mem_filter.1 hs).1, he⟩
    · intro hall
      have hsub' : tgtSpace.map (·.labels) ⊆
          ((srcSpace.filter fun s => (targetOf tgtSpace s).isSome).map (·.labels)) := by
        intro l hl
        obtain ⟨t, ht, rfl⟩ := List.mem_map.1 hl
        obtain ⟨s, hs, he⟩ := hall t ht
        exact List.mem_map.2 ⟨s, List.mem_filter.2 ⟨hs, (hsome s).2 ⟨t, ht, he.symm⟩⟩, he⟩
      have l1 := (hperm.subperm hsub).length_le
      have l2 := (h.tgtWF.labelsNodup.subperm hsub').length_le
      simp only [List.length_map] at l1 l2
      omega
  refine ⟨f1.trans (forall₂_congr fun s _ => hsome s), ?_, hrs, ?_⟩
  · rw [f2]
    refine forall₂_congr fun s hs => ?_
    constructor
    · rintro ⟨g1, g2⟩
      obtain ⟨t, ht⟩ := Option.isSome_iff_exists.1 g1
      obtain ⟨tm, tl⟩ := targetOf_some ht
      refine ⟨t, tm, tl, fun st hst => ?_⟩
      have hok : StatesOK tgt s.labels.species t.states := tl ▸ h.tgtWF.ok tm
      obtain ⟨p1, -, -⟩ := mapEntry_spec (src := src) h.tgtOrb hok
        (isPair_of_inRange (h.srcWF.inRange s hs st hst))
      by_contra hc
      push Not at hc
      exact g2 _ (by simp only [entries, ht]; exact List.mem_map.2 ⟨st, hst, rfl⟩) (p1.2 hc)
    · rintro ⟨t, tm, tl, hall⟩
      have ht := targetOf_eq h.tgtWF.labelsNodup tm tl
      refine ⟨by rw [ht]; rfl, ?_⟩
      intro x hx
      simp only [entries, ht] at hx
      obtain ⟨st, hst, rfl⟩ := List.mem_map.1 hx
      have hok : StatesOK tgt s.labels.species t.states := tl ▸ h.tgtWF.ok tm
      obtain ⟨p1, -, -⟩ := mapEntry_spec (src := src) h.tgtOrb hok
        (isPair_of_inRange (h.srcWF.inRange s hs st hst))
      obtain ⟨st', m1, m2⟩ := hall st hst
      intro hc
      exact p1.1 hc st' m1 m2
  · rw [f4, hrs]
    -- number of found states against size
    have key : ∀ s ∈ srcSpace, ∀ t, targetOf tgtSpace s = some t →
        (foundCount (entries src tgt tgtSpace s) = t.states.length ↔
          ∀ st' ∈ t.states, ∃ st ∈ s.states, SameOrbitals src tgt s.labels.species st st') := by
      intro s hs t ht
      obtain ⟨tm, tl⟩ := targetOf_some ht
      have hok : StatesOK tgt s.labels.species t.states := tl ▸ h.tgtWF.ok tm
      have hspec := fun st (hst : st ∈ s.states) => mapEntry_spec (src := src) h.tgtOrb hok
        (isPair_of_inRange (h.srcWF.inRange s hs st hst))
      set f := mapEntry src tgt s.labels t.states with hf
      have hfc : foundCount (entries src tgt tgtSpace s) =
          ((s.states.filter fun st => (f st).1 ≠ kNone).map fun st => (f st).1).length := by
        simp only [foundCount, entries, ht, ← hf, List.length_map, List.filter_map]
        rfl
      rw [hfc, count_full]
      · constructor
        · intro hall st' hst'
          obtain ⟨idx, hidx, hget⟩ := List.getElem_of_mem hst'
          obtain ⟨st, hst, he⟩ := List.mem_map.1 (hall idx hidx)
          obtain ⟨hst, hne⟩ := List.mem_filter.1 hst
          obtain ⟨x, a, b, q1, q2, q3⟩ := (hspec st hst).2.2 (by simpa using hne)
          have hx : x = st' := by
            rw [he, List.getElem?_eq_getElem hidx] at q1
            rw [← hget]
            exact (Option.some.inj q1).symm
          subst hx
          exact ⟨st, hst, a, b, q2, q3.imp (·.1) (fun x => ⟨x.1, x.2.1⟩)⟩
        · intro hall idx hidx
          obtain ⟨st, hst, hsame⟩ := hall _ (List.getElem_mem hidx)
          have := (hspec st hst).2.1 idx _ (List.getElem?_eq_getElem hidx) hsame
          refine List.mem_map.2 ⟨st, List.mem_filter.2 ⟨hst, ?_⟩, this⟩
          have := hok.small
          simp only [ne_eq, decide_not, Bool.not_eq_eq_eq_not, Bool.not_true, decide_eq_false_iff_not]
          omega
      · refine List.Nodup.map_on ?_ ((h.srcWF.statesNodup s hs).filter _)
        intro x hx y hy hxy
        obtain ⟨hx, nx⟩ := List.mem_filter.1 hx
        obtain ⟨hy, ny⟩ := List.mem_filter.1 hy
        obtain ⟨u, a, b, q1, q2, q3⟩ := (hspec x hx).2.2 (by simpa using nx)
        obtain ⟨u', a', b', q1', q2', q3'⟩ := (hspec y hy).2.2 (by simpa using ny)
        rw [hxy, q1'] at q1
        cases q1
        exact sameOrbitals_inj h.srcOrb (fun hc => h.srcWF.canonical s hs hc x hx)
          (fun hc => h.srcWF.canonical s hs hc y hy)
          ⟨a, b, q2, q3.imp (·.1) (fun x => ⟨x.1, x.2.1⟩)⟩ ⟨a', b', q2', q3'.imp (·.1) (fun x => ⟨x.1, x.2.1⟩)⟩
      · intro idx hidx
        obtain ⟨st, hst, rfl⟩ := List.mem_map.1 hidx
        obtain ⟨hst, hne⟩ := List.mem_filter.1 hst
        obtain ⟨x, a, b, q1, -, -⟩ := (hspec st hst).2.2 (by simpa using hne)
        exact (List.getElem?_eq_some_iff.1 q1).1
    constructor
    · rintro ⟨g1, g2⟩ t ht
      obtain ⟨s, hs, hl⟩ := g1 t ht
      have hto := targetOf_eq h.tgtWF.labelsNodup ht hl.symm
      exact ⟨s, hs, hl, (key s hs t hto).1 (g2 s hs t hto)⟩
    · intro hall
      refine ⟨fun t ht => ?_, fun s hs t hto => ?_⟩
      · obtain ⟨s, hs, hl, -⟩ := hall t ht
        exact ⟨s, hs, hl⟩
      · rw [key s hs t hto]
        obtain ⟨tm, tl⟩ := targetOf_some hto
        obtain ⟨s', hs', hl', hh⟩ := hall t tm
        have : s = s' := List.inj_on_of_nodup_map h.srcWF.labelsNodup hs hs' (tl.symm.trans hl'.symm)
        rw [this]
        exact hh

end Verif.Mapping
