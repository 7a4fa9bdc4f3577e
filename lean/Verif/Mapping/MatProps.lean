import Verif.Mapping.Props
import Mathlib.Tactic.LinearCombination
import Mathlib.Algebra.Module.LinearMap.Basic
import Mathlib.Tactic.Linarith
import Mathlib.Tactic.NormNum

/-!
# Properties C17 (exchange law), C19-C21: remapped matrices
-/

namespace Verif.Mapping
open Verif

/-! ### The exchange law from the coupling -/

/-- **C17**, the exchange law.  Coupled antisymmetrised states built from single-particle states
`φ`, an antisymmetric product `w` and coupling coefficients `C ja ma jb mb J` (twice the angular
momenta and projections; `J` an integer) satisfying the exchange symmetry of Clebsch-Gordan
coefficients, `C jb mb ja ma J = (-1)^(ja+jb-J) C ja ma jb mb J`, obey the law assumed in
`PairKets`: it is the product of this sign with the sign of the antisymmetric product. -/
theorem exchange_law_of_clebsch {U V : Type} [AddCommGroup V] [Module ℝ V]
    (φ : Orb → Int → U) (w : U → U → V) (hw : ∀ x y, w y x = - w x y)
    (C : Nat → Int → Nat → Int → Nat → ℝ)
    (hC : ∀ ja ma jb mb J, ja % 2 = 1 → jb % 2 = 1 →
      C jb mb ja ma J = (-1) ^ ((ja + jb) / 2 + J) * C ja ma jb mb J)
    (ms : Nat → Finset Int) (J : Nat) (a b : Orb) (ha : a.twiceJ % 2 = 1) (hb : b.twiceJ % 2 = 1) :
    (∑ mb ∈ ms b.twiceJ, ∑ ma ∈ ms a.twiceJ, C b.twiceJ mb a.twiceJ ma J • w (φ b mb) (φ a ma)) =
      ((-1 : ℝ) ^ ((a.twiceJ + b.twiceJ) / 2 + J + 1)) •
        ∑ ma ∈ ms a.twiceJ, ∑ mb ∈ ms b.twiceJ, C a.twiceJ ma b.twiceJ mb J • w (φ a ma) (φ b mb) := by
  rw [Finset.sum_comm, Finset.smul_sum]
  refine Finset.sum_congr rfl fun ma _ => ?_
  rw [Finset.smul_sum]
  refine Finset.sum_congr rfl fun mb _ => ?_
  rw [hw, hC _ ma _ mb J ha hb, smul_neg, ← neg_smul, smul_smul]
  congr 1
  rw [pow_succ]
  ring

/-- The coupled states of the preceding theorem. -/
noncomputable def PairKets.ofClebsch {U V : Type} [AddCommGroup V] [Module ℝ V]
    (φ : Species1 → Orb → Int → U) (w : U → U → V) (hw : ∀ x y, w y x = - w x y)
    (C : Nat → Int → Nat → Int → Nat → ℝ)
    (hC : ∀ ja ma jb mb J, ja % 2 = 1 → jb % 2 = 1 →
      C jb mb ja ma J = (-1) ^ ((ja + jb) / 2 + J) * C ja ma jb mb J)
    (ms : Nat → Finset Int) : PairKets V where
  ket sp J a b := ∑ ma ∈ ms a.twiceJ, ∑ mb ∈ ms b.twiceJ,
    C a.twiceJ ma b.twiceJ mb J • w (φ sp.first a ma) (φ sp.second b mb)
  exchange sp J a b hsp ha hb := by
    rw [first_eq_second.2 hsp]
    exact exchange_law_of_clebsch (φ sp.second) w hw C hC ms J a b ha hb

/-- Such coefficients exist and do not vanish: for `j = 1/2` the coupling to `J = 0`. -/
example : ∃ C : Nat → Int → Nat → Int → Nat → ℝ, (∀ ja ma jb mb J, ja % 2 = 1 → jb % 2 = 1 →
    C jb mb ja ma J = (-1) ^ ((ja + jb) / 2 + J) * C ja ma jb mb J) ∧
    C 1 1 1 (-1) 0 = 1 ∧ C 1 (-1) 1 1 0 = -1 := by
  refine ⟨fun ja ma jb mb J => if ja = 1 ∧ jb = 1 ∧ J = 0 then ((ma - mb : Int) : ℝ) / 2 else 0, ?_, ?_, ?_⟩
  · intro ja ma jb mb J _ _
    by_cases h : ja = 1 ∧ jb = 1 ∧ J = 0
    · obtain ⟨rfl, rfl, rfl⟩ := h
      simp
      ring
    · have h' : ¬ (jb = 1 ∧ ja = 1 ∧ J = 0) := by tauto
      simp [h, h']
  · norm_num
  · norm_num

/-- Phase consistency of an exchange law: exchanging twice does nothing. -/
theorem exchange_twice {V : Type} [AddCommGroup V] [Module ℝ V] (K : PairKets V) {sp : Species2} (J : Nat)
    {a b : Orb} (_hsp : sp ≠ .pn) :
    ((-1 : ℝ) ^ ((a.twiceJ + b.twiceJ) / 2 + J + 1)) • ((-1 : ℝ) ^ ((b.twiceJ + a.twiceJ) / 2 + J + 1)) •
      K.ket sp J a b = K.ket sp J a b := by
  rw [smul_smul, Nat.add_comm b.twiceJ, ← mul_pow]
  simp

/-! ### Remapped elements -/

/-- The sector `x` consists of subspaces `b` and `k` of `space`. -/
structure SectorOf (space : List Subspace) (x : SectorInfo) (b k : Subspace) : Prop where
  bra : space[x.braIndex]? = some b
  ket : space[x.ketIndex]? = some k
  braSize : x.braSize = b.states.length
  ketSize : x.ketSize = k.states.length

variable {V : Type} [AddCommGroup V] [Module ℝ V]

/-- The matrix holds the elements of the bilinear form `B` between the states of the sector. -/
def Represents (K : PairKets V) (B : V →ₗ[ℝ] V →ₗ[ℝ] ℝ) (o : Orbitals) (b k : Subspace) (M : Mat) : Prop :=
  M.rows = b.states.length ∧ M.cols = k.states.length ∧
  ∀ i j sti stj, b.states[i]? = some sti → k.states[j]? = some stj →
    M.val i j = B (K.state o b.labels sti) (K.state o k.labels stj)

theorem entry_bind {m : TwoBodyMapping} {i k : Nat} {x : Nat × Int} (h : m.entry i k = some x) :
    ∃ p, (m.stateMapping[i]?).bind (·[k]?) = some (x.1, p) ∧ toIntFromSizeT p = x.2 := by
  unfold TwoBodyMapping.entry at h
  rw [Option.map_eq_some_iff] at h
  obtain ⟨⟨t, p⟩, h1, rfl⟩ := h
  exact ⟨p, h1, rfl⟩

section
variable {src tgt : Orbitals} {srcSpace tgtSpace : List Subspace} {m : TwoBodyMapping}
  {xs xt : SectorInfo} {sb sk tb tk : Subspace}

/-- Everything known about the entry for state `k` of subspace `i`. -/
theorem entry_info (h : InputsOK src srcSpace tgt tgtSpace) (hj : src.HalfOdd)
    (hm : twoBodyMapping src srcSpace tgt tgtSpace = .ok m) (K : PairKets V)
    {i j : Nat} {s t : Subspace} (hi : srcSpace[i]? = some s) (htj : tgtSpace[j]? = some t)
    (hl : t.labels = s.labels) {k : Nat} (hk : k < s.states.length) :
    ∃ ti p, (m.stateMapping[i]?).bind (·[k]?) = some (ti, p) ∧ (ti = kNone ∨ ti < t.states.length) ∧
      (ti ≠ kNone → ∃ st', t.states[ti]? = some st' ∧
        SameOrbitals src tgt s.labels.species s.states[k] st' ∧
        (toIntFromSizeT p : ℝ) * (toIntFromSizeT p : ℝ) = 1 ∧
        K.state src s.labels s.states[k] = (toIntFromSizeT p : ℝ) • K.state tgt s.labels st') ∧
      (∀ ti' st', t.states[ti']? = some st' → SameOrbitals src tgt s.labels.species s.states[k] st' → ti = ti') := by
  obtain ⟨-, ti, ph, h1, h2, h3⟩ := mapping_same_physical_state h hj hm hi htj hl (List.getElem?_eq_getElem hk)
  obtain ⟨p, h4, h5⟩ := entry_bind h1
  simp only at h4 h5
  have hnone : kNone ≠ t.states.length := by
    have := (h.tgtWF.ok (List.mem_of_getElem? htj)).small
    omega
  obtain ⟨s', t', st1, hi', ht', hl', hk', e1, e2⟩ := entry_some h hm h1
  rw [hi] at hi'
  cases hi'
  rw [List.getElem?_eq_getElem hk] at hk'
  cases hk'
  have htt : t = t' := List.inj_on_of_nodup_map h.tgtWF.labelsNodup (List.mem_of_getElem? htj) ht'
    (hl.trans hl'.symm)
  subst htt
  have hok : StatesOK tgt s.labels.species t.states := hl ▸ h.tgtWF.ok ht'
  obtain ⟨-, p2, p3⟩ := mapEntry_spec (src := src) h.tgtOrb hok
    (isPair_of_inRange (h.srcWF.inRange s (List.mem_of_getElem? hi) s.states[k] (List.getElem_mem hk)))
  refine ⟨ti, p, h4, ?_, ?_, ?_⟩
  · by_cases hc : ti = kNone
    · exact .inl hc
    · obtain ⟨st', hs', -⟩ := h3 hc
      exact .inr (List.getElem?_eq_some_iff.1 hs').1
  · intro hc
    obtain ⟨st', g1, g2, g3⟩ := h3 hc
    refine ⟨st', g1, g2, ?_, by rw [h5]; exact g3 K⟩
    rw [h5, e2]
    obtain ⟨_, a, b, -, -, q⟩ := p3 (e1 ▸ hc)
    rcases q with q | q
    · rw [q.2]; norm_num
    · rw [q.2.2]
      push_cast
      rw [← mul_pow]
      simp
  · intro ti' st' g1 g2
    rw [e1]
    exact p2 ti' st' g1 g2

theorem iterOK_of_sector (h : InputsOK src srcSpace tgt tgtSpace) (hj : src.HalfOdd)
    (hm : twoBodyMapping src srcSpace tgt tgtSpace = .ok m)
    (hs : SectorOf srcSpace xs sb sk) (ht : SectorOf tgtSpace xt tb tk)
    (hlb : tb.labels = sb.labels) (hlk : tk.labels = sk.labels)
    {source : Mat} (hr : source.rows = sb.states.length) (hc : source.cols = sk.states.length)
    {bk : Nat × Nat} (hbk : bk ∈ iterations xs) : IterOK m xs source xt.braSize xt.ketSize bk := by
  obtain ⟨g1, g2⟩ := mem_iterations.1 hbk
  rw [hs.braSize] at g1
  rw [hs.ketSize] at g2
  let K : PairKets ℝ := ⟨fun _ _ _ _ => 0, by simp⟩
  obtain ⟨b, pb, b1, b2, -⟩ := entry_info h hj hm K hs.bra ht.bra hlb g1
  obtain ⟨k, pk, k1, k2, -⟩ := entry_info h hj hm K hs.ket ht.ket hlk g2
  exact ⟨b, pb, k, pk, b1, k1, by rw [ht.braSize]; exact b2, by rw [ht.ketSize]; exact k2, by omega, by omega⟩

theorem writes_distinct (h : InputsOK src srcSpace tgt tgtSpace)
    (hm : twoBodyMapping src srcSpace tgt tgtSpace = .ok m)
    {source : Mat} {x y : Nat × Nat} (hxy : x ≠ y) {kx ky : Nat × Nat} {vx vy : ℝ}
    (hx : writeOf m xs source x = some (kx, vx)) (hy : writeOf m xs source y = some (ky, vy)) : kx ≠ ky := by
  have get : ∀ {z : Nat × Nat} {kz : Nat × Nat} {vz : ℝ}, writeOf m xs source z = some (kz, vz) →
      ∃ p q, m.entry xs.braIndex z.1 = some (kz.1, p) ∧ m.entry xs.ketIndex z.2 = some (kz.2, q) ∧
        kz.1 ≠ kNone ∧ kz.2 ≠ kNone := by
    intro z kz vz hz
    unfold writeOf at hz
    split at hz
    · rename_i b pb k pk hb hk
      split at hz
      · exact absurd hz (by simp)
      · rename_i hne
        simp only [Option.some.injEq, Prod.mk.injEq] at hz
        obtain ⟨rfl, -⟩ := hz
        push Not at hne
        exact ⟨toIntFromSizeT pb, toIntFromSizeT pk, by simp [TwoBodyMapping.entry, hb],
          by simp [TwoBodyMapping.entry, hk], hne.1, hne.2⟩
    · exact absurd hz (by simp)
  obtain ⟨p, q, h1, h2, n1, n2⟩ := get hx
  obtain ⟨p', q', h1', h2', -, -⟩ := get hy
  rintro rfl
  have inj := (mapping_injective h hm).1
  exact hxy (Prod.ext (inj _ _ _ _ _ _ h1 h1' n1) (inj _ _ _ _ _ _ h2 h2' n2))

/-- **C19.** If the source matrix holds the elements of a bilinear form `B` between the source
states, the remapped matrix has the size of the target sector and holds the elements of the same
`B` between the target states, wherever both target states exist in the source; and zero
elsewhere. -/
theorem remapped_elements (h : InputsOK src srcSpace tgt tgtSpace) (hj : src.HalfOdd)
    (hm : twoBodyMapping src srcSpace tgt tgtSpace = .ok m)
    (hs : SectorOf srcSpace xs sb sk) (ht : SectorOf tgtSpace xt tb tk)
    (hlb : tb.labels = sb.labels) (hlk : tk.labels = sk.labels)
    (K : PairKets V) (B : V →ₗ[ℝ] V →ₗ[ℝ] ℝ) {source : Mat} (hsrc : Represents K B src sb sk source) :
    ∃ T, remappedMatrix m xs xt source = .ok T ∧ T.rows = tb.states.length ∧ T.cols = tk.states.length ∧
      ∀ i j sti stj, tb.states[i]? = some sti → tk.states[j]? = some stj →
        ((∃ st ∈ sb.states, SameOrbitals src tgt sb.labels.species st sti) →
         (∃ st ∈ sk.states, SameOrbitals src tgt sk.labels.species st stj) →
          T.val i j = B (K.state tgt tb.labels sti) (K.state tgt tk.labels stj)) ∧
        ((¬ (∃ st ∈ sb.states, SameOrbitals src tgt sb.labels.species st sti) ∨
          ¬ (∃ st ∈ sk.states, SameOrbitals src tgt sk.labels.species st stj)) → T.val i j = 0) := by
  obtain ⟨hr, hc, hv⟩ := hsrc
  obtain ⟨T, h1, h2, h3, h4, h5⟩ := runIterations_spec (m := m) (src := xs) (source := source) (iterations xs)
    ⟨xt.braSize, xt.ketSize, fun _ _ => 0⟩
    (fun bk hbk => iterOK_of_sector h hj hm hs ht hlb hlk hr hc hbk)
    ((nodup_iterations xs).imp fun {x y} hxy kx vx ky vy hx hy => writes_distinct h hm hxy hx hy)
  refine ⟨T, h1, by rw [h2, ← ht.braSize], by rw [h3, ← ht.ketSize], ?_⟩
  intro i j sti stj hi hj'
  have binfo := fun {k : Nat} (hk : k < sb.states.length) => entry_info h hj hm K hs.bra ht.bra hlb hk
  have kinfo := fun {k : Nat} (hk : k < sk.states.length) => entry_info h hj hm K hs.ket ht.ket hlk hk
  have hin : i ≠ kNone := by
    have := (List.getElem?_eq_some_iff.1 hi).1
    have := (h.tgtWF.ok (List.mem_of_getElem? ht.bra)).small
    omega
  have hjn : j ≠ kNone := by
    have := (List.getElem?_eq_some_iff.1 hj').1
    have := (h.tgtWF.ok (List.mem_of_getElem? ht.ket)).small
    omega
  constructor
  · rintro ⟨stb, mb, sameb⟩ ⟨stk, mk, samek⟩
    obtain ⟨b, hb, rfl⟩ := List.getElem_of_mem mb
    obtain ⟨k, hk, rfl⟩ := List.getElem_of_mem mk
    obtain ⟨tbi, pb, b1, b2, b3, b4⟩ := binfo hb
    obtain ⟨tki, pk, k1, k2, k3, k4⟩ := kinfo hk
    have eb := b4 i sti hi sameb
    have ek := k4 j stj hj' samek
    subst eb ek
    obtain ⟨st1, g1, -, g3, g4⟩ := b3 hin
    rw [hi] at g1
    cases g1
    obtain ⟨st2, f1, -, f3, f4⟩ := k3 hjn
    rw [hj'] at f1
    cases f1
    rw [h4 (b, k) (mem_iterations.2 ⟨by rw [hs.braSize]; exact hb, by rw [hs.ketSize]; exact hk⟩) tbi tki
      (((toIntFromSizeT pb * toIntFromSizeT pk : Int) : ℝ) * source.val b k)
      (by simp [writeOf, b1, k1, hin, hjn])]
    rw [hv b k _ _ (List.getElem?_eq_getElem hb) (List.getElem?_eq_getElem hk), g4, f4, hlb, hlk]
    simp only [map_smul, LinearMap.smul_apply, smul_eq_mul]
    push_cast
    linear_combination (B (K.state tgt sb.labels sti) (K.state tgt sk.labels stj)) *
      ((toIntFromSizeT pk : ℝ) * (toIntFromSizeT pk : ℝ) * g3 + f3)
  · intro hno
    rw [h5 i j]
    intro bk hbk v hw
    obtain ⟨g1, g2⟩ := mem_iterations.1 hbk
    rw [hs.braSize] at g1
    rw [hs.ketSize] at g2
    obtain ⟨tbi, pb, b1, b2, b3, b4⟩ := binfo g1
    obtain ⟨tki, pk, k1, k2, k3, k4⟩ := kinfo g2
    simp only [writeOf, b1, k1] at hw
    split at hw
    · exact absurd hw (by simp)
    · simp only [Option.some.injEq, Prod.mk.injEq] at hw
      obtain ⟨⟨rfl, rfl⟩, -⟩ := hw
      obtain ⟨st1, e1, e2, -⟩ := b3 hin
      rw [hi] at e1
      cases e1
      obtain ⟨st2, f1, f2, -⟩ := k3 hjn
      rw [hj'] at f1
      cases f1
      rcases hno with hno | hno
      · exact hno ⟨_, List.getElem_mem g1, e2⟩
      · exact hno ⟨_, List.getElem_mem g2, f2⟩

/-- **C20.** The iterations of the loop may run in any order: the result is the same matrix. -/
theorem remap_schedule_independent (h : InputsOK src srcSpace tgt tgtSpace) (hj : src.HalfOdd)
    (hm : twoBodyMapping src srcSpace tgt tgtSpace = .ok m)
    (hs : SectorOf srcSpace xs sb sk) (ht : SectorOf tgtSpace xt tb tk)
    (hlb : tb.labels = sb.labels) (hlk : tk.labels = sk.labels)
    {source : Mat} (hr : source.rows = sb.states.length) (hc : source.cols = sk.states.length)
    {its : List (Nat × Nat)} (hperm : its.Perm (iterations xs)) :
    runIterations m xs source its ⟨xt.braSize, xt.ketSize, fun _ _ => 0⟩ = remappedMatrix m xs xt source := by
  have ok : ∀ bk ∈ iterations xs, IterOK m xs source xt.braSize xt.ketSize bk :=
    fun bk hbk => iterOK_of_sector h hj hm hs ht hlb hlk hr hc hbk
  have run := fun (l : List (Nat × Nat)) (hl : l.Perm (iterations xs)) =>
    runIterations_spec (m := m) (src := xs) (source := source) l ⟨xt.braSize, xt.ketSize, fun _ _ => 0⟩
      (fun bk hbk => ok bk (hl.mem_iff.1 hbk))
      ((hl.nodup_iff.2 (nodup_iterations xs)).imp fun {x y} hxy kx vx ky vy hx hy => writes_distinct h hm hxy hx hy)
  obtain ⟨T, h1, h2, h3, h4, h5⟩ := run its hperm
  obtain ⟨T', h1', h2', h3', h4', h5'⟩ := run (iterations xs) (List.Perm.refl _)
  unfold remappedMatrix
  rw [h1, h1']
  congr 1
  obtain ⟨r, c, v⟩ := T
  obtain ⟨r', c', v'⟩ := T'
  simp only at h2 h3 h4 h5 h2' h3' h4' h5'
  subst h2 h3 h2' h3'
  congr 1
  funext i j
  by_cases hex : ∃ bk ∈ iterations xs, ∃ v, writeOf m xs source bk = some ((i, j), v)
  · obtain ⟨bk, hbk, w, hw⟩ := hex
    rw [h4 bk (hperm.mem_iff.2 hbk) i j w hw, h4' bk hbk i j w hw]
  · push Not at hex
    rw [h5 i j (fun bk hbk v => hex bk (hperm.mem_iff.1 hbk) v), h5' i j hex]

/-- **C20**, no data race: two different iterations never modify the same element, from whatever
contents of the target matrix they start. -/
theorem remap_race_free (h : InputsOK src srcSpace tgt tgtSpace)
    (hm : twoBodyMapping src srcSpace tgt tgtSpace = .ok m)
    {source t1 t1' t2 t2' : Mat} {x y : Nat × Nat} (hxy : x ≠ y)
    (hx : remapBody m xs source t1 x = .ok t1') (hy : remapBody m xs source t2 y = .ok t2') {i j : Nat}
    (hmod : t1'.val i j ≠ t1.val i j) : t2'.val i j = t2.val i j := by
  have key : ∀ {t t' : Mat} {z : Nat × Nat}, remapBody m xs source t z = .ok t' →
      t'.val i j ≠ t.val i j → ∃ v, writeOf m xs source z = some ((i, j), v) := by
    intro t t' z hz hne
    unfold remapBody at hz
    unfold writeOf
    split at hz
    · exact absurd hz (by simp)
    · rename_i b pb hb
      rw [hb]
      split at hz
      · exact absurd (by cases hz; rfl) hne
      · rename_i nb
        split at hz
        · exact absurd hz (by simp)
        · rename_i k pk hk
          rw [hk]
          split at hz
          · exact absurd (by cases hz; rfl) hne
          · rename_i nk
            split at hz
            · cases hz
              simp only at hne
              by_cases hh : i = b ∧ j = k
              · obtain ⟨rfl, rfl⟩ := hh
                simp [nb, nk]
              · exact absurd (by rw [if_neg hh]) hne
            · exact absurd hz (by simp)
  by_contra hmod2
  obtain ⟨v, hv⟩ := key hx hmod
  obtain ⟨v', hv'⟩ := key hy hmod2
  exact writes_distinct h hm hxy hv hv' rfl

/-- **C19**, precondition: calling `RemappedMatrixJJJPN` for a non-empty source sector whose bra
subspace is not in the target reads past the end of the mapping. -/
theorem remap_unmapped_undefined (h : InputsOK src srcSpace tgt tgtSpace)
    (hm : twoBodyMapping src srcSpace tgt tgtSpace = .ok m)
    (hs : SectorOf srcSpace xs sb sk) (hno : ∀ t ∈ tgtSpace, t.labels ≠ sb.labels)
    (hb : sb.states ≠ []) (hk : sk.states ≠ []) (source : Mat) :
    remappedMatrix m xs xt source = .error .undefinedBehaviour := by
  have hempty := (mapping_absent_subspace h hm hs.bra hno).2
  have hb' := List.length_pos_iff.2 hb
  have hk' := List.length_pos_iff.2 hk
  have hits : ∃ rest, iterations xs = (0, 0) :: rest := by
    obtain ⟨n, hn⟩ : ∃ n, xs.braSize = n + 1 := ⟨xs.braSize - 1, by rw [hs.braSize]; omega⟩
    obtain ⟨k, hk⟩ : ∃ n, xs.ketSize = n + 1 := ⟨xs.ketSize - 1, by rw [hs.ketSize]; omega⟩
    exact ⟨_, by rw [iterations, hn, hk, List.range_succ_eq_map, List.range_succ_eq_map]; rfl⟩
  obtain ⟨rest, hrest⟩ := hits
  unfold remappedMatrix runIterations
  rw [hrest, List.foldlM_cons]
  have : remapBody m xs source ⟨xt.braSize, xt.ketSize, fun _ _ => 0⟩ (0, 0) =
      .error .undefinedBehaviour := by
    simp [remapBody, hempty]
  rw [this]
  rfl

/-- **C21.** Completing the lower triangle before remapping is enough for a symmetric operator:
from a diagonal sector whose upper triangle alone is known (the lower one is arbitrary), the
remapped matrix has the right elements everywhere. -/
theorem completed_then_remapped (h : InputsOK src srcSpace tgt tgtSpace) (hj : src.HalfOdd)
    (hm : twoBodyMapping src srcSpace tgt tgtSpace = .ok m)
    (hs : SectorOf srcSpace xs sb sb) (ht : SectorOf tgtSpace xt tb tb) (hl : tb.labels = sb.labels)
    (K : PairKets V) (B : V →ₗ[ℝ] V →ₗ[ℝ] ℝ) (hB : ∀ x y, B x y = B y x) {source : Mat}
    (hr : source.rows = sb.states.length) (hc : source.cols = sb.states.length)
    (hup : ∀ i j sti stj, i ≤ j → sb.states[i]? = some sti → sb.states[j]? = some stj →
      source.val i j = B (K.state src sb.labels sti) (K.state src sb.labels stj)) :
    ∃ T, remappedMatrix m xs xt (completeLowerTriangle source) = .ok T ∧
      ∀ i j sti stj, tb.states[i]? = some sti → tb.states[j]? = some stj →
        ((∃ st ∈ sb.states, SameOrbitals src tgt sb.labels.species st sti) →
         (∃ st ∈ sb.states, SameOrbitals src tgt sb.labels.species st stj) →
          T.val i j = B (K.state tgt tb.labels sti) (K.state tgt tb.labels stj)) := by
  have hrep : Represents K B src sb sb (completeLowerTriangle source) := by
    refine ⟨hr, hc, ?_⟩
    intro i j sti stj hi hj'
    unfold completeLowerTriangle
    simp only
    split
    · rename_i hlt
      rw [hup j i stj sti (by omega) hj' hi, hB]
    · rename_i hlt
      exact hup i j sti stj (by omega) hi hj'
  obtain ⟨T, h1, -, -, h2⟩ := remapped_elements h hj hm hs ht hl hl K B hrep
  exact ⟨T, h1, fun i j sti stj hi hj' => (h2 i j sti stj hi hj').1⟩

end

/-! ### A concrete case -/

namespace Ex

/-- 0s1/2 -/
def s1 : Orb := ⟨0, 0, 1⟩
/-- 0p3/2 -/
def p3 : Orb := ⟨0, 1, 3⟩
/-- Source orbitals 0s1/2, 0p3/2. -/
def src : Orbitals := ⟨[s1, p3], [s1, p3]⟩
/-- Target: the protons in opposite order. -/
def tgt : Orbitals := ⟨[p3, s1], [s1, p3]⟩
/-- pp with J=2. Unphysical mixing of parity keeps the example small. -/
def lab : Labels := ⟨.pp, 2, 0⟩
/-- Source subspace: (0s1/2)(0p3/2), (0p3/2)². -/
def srcSpace : List Subspace := [⟨lab, [(0, 1), (1, 1)]⟩]
/-- Target subspace: (0p3/2)², (0p3/2)(0s1/2). -/
def tgtSpace : List Subspace := [⟨lab, [(0, 0), (0, 1)]⟩]

theorem wf_src : src.WF := by
  constructor <;> intro s <;> cases s <;> decide
theorem wf_tgt : tgt.WF := by
  constructor <;> intro s <;> cases s <;> decide

theorem spaceWF {o : Orbitals} {l : Labels} {sts : List (Nat × Nat)} (hn : sts.Nodup) (hl : sts.length < kNone)
    (hr : ∀ st ∈ sts, st.1 < (o.of l.species.first).length ∧ st.2 < (o.of l.species.second).length)
    (hc : l.species ≠ .pn → ∀ st ∈ sts, st.1 ≤ st.2) : SpaceWF o [⟨l, sts⟩] := by
  constructor
  · simp
  · simp [kNone]
  · simpa using hn
  · simpa using hl
  · intro s hs; simp only [List.mem_singleton] at hs; subst hs; exact hr
  · intro s hs; simp only [List.mem_singleton] at hs; subst hs; exact hc

theorem inputs : InputsOK src srcSpace tgt tgtSpace where
  srcOrb := wf_src
  tgtOrb := wf_tgt
  srcWF := spaceWF (by decide) (by decide) (by decide) (by decide)
  tgtWF := spaceWF (by decide) (by decide) (by decide) (by decide)

theorem halfOdd : src.HalfOdd := by intro s; cases s <;> decide

/-- The two states are exchanged in position; the mixed one carries the phase
`(-1)^(1/2+3/2+2+1) = -1`. -/
def m : TwoBodyMapping :=
  ⟨[0], [[(1, toSizeT (-1)), (0, toSizeT 1)]], true, true, true, true⟩

theorem mapping_eq : twoBodyMapping src srcSpace tgt tgtSpace = .ok m := by rfl

example : InputsOK src srcSpace tgt tgtSpace ∧ src.HalfOdd ∧
    ∃ m, twoBodyMapping src srcSpace tgt tgtSpace = .ok m ∧
      m.entry 0 0 = some (1, -1) ∧ m.entry 0 1 = some (0, 1) :=
  ⟨inputs, halfOdd, m, mapping_eq, by rfl, by rfl⟩

/-- Source sector. -/
def xs : SectorInfo := ⟨0, 0, 2, 2⟩

theorem sectorS : SectorOf srcSpace xs ⟨lab, [(0, 1), (1, 1)]⟩ ⟨lab, [(0, 1), (1, 1)]⟩ :=
  ⟨rfl, rfl, rfl, rfl⟩
theorem sectorT : SectorOf tgtSpace xs ⟨lab, [(0, 0), (0, 1)]⟩ ⟨lab, [(0, 0), (0, 1)]⟩ :=
  ⟨rfl, rfl, rfl, rfl⟩

/-- There are antisymmetric kets with a non-trivial exchange phase. -/
noncomputable def K : PairKets ℝ where
  ket _ J a b := if a = b then (if J % 2 = 0 then 1 else 0) else
    if a.l < b.l then 1 else if b.l < a.l then (-1) ^ ((a.twiceJ + b.twiceJ) / 2 + J + 1) else 0
  exchange sp J a b _ ha hb := by
    by_cases hab : a = b
    · subst hab
      by_cases hJ : J % 2 = 0
      · have : Even ((a.twiceJ + a.twiceJ) / 2 + J + 1) := by rw [Nat.even_iff]; omega
        simp [hJ, this.neg_one_pow]
      · simp [hJ]
    · have hba : b ≠ a := fun h => hab h.symm
      rcases lt_trichotomy a.l b.l with hl | hl | hl
      · have h2 : ¬ b.l < a.l := by omega
        simp [hab, hba, hl, h2, Nat.add_comm b.twiceJ]
      · simp [hab, hba, hl]
      · have h2 : ¬ a.l < b.l := by omega
        simp only [hab, hba, hl, h2, if_true, if_false, smul_eq_mul, ← mul_pow]
        simp

end Ex

/-- **C21**, necessity: without the completion the remapped matrix is wrong.  The element of the
target between `(0p3/2)²` and `(0p3/2)(0s1/2)`, in its upper triangle, comes from the lower
triangle of the source, so from a source matrix with only the upper triangle filled, as read from
the file, it comes out zero, although the operator element is not zero. -/
theorem completion_necessary :
    ∃ (src tgt : Orbitals) (srcSpace tgtSpace : List Subspace) (m : TwoBodyMapping) (xs xt : SectorInfo)
      (sb tb : Subspace) (K : PairKets ℝ) (B : ℝ →ₗ[ℝ] ℝ →ₗ[ℝ] ℝ) (full upper T : Mat),
      InputsOK src srcSpace tgt tgtSpace ∧ twoBodyMapping src srcSpace tgt tgtSpace = .ok m ∧
      SectorOf srcSpace xs sb sb ∧ SectorOf tgtSpace xt tb tb ∧ tb.labels = sb.labels ∧
      (∀ x y, B x y = B y x) ∧ Represents K B src sb sb full ∧
      (upper.rows = full.rows ∧ upper.cols = full.cols ∧
        (∀ i j, i ≤ j → upper.val i j = full.val i j) ∧ ∀ i j, j < i → upper.val i j = 0) ∧
      remappedMatrix m xs xt upper = .ok T ∧
      ∃ i j sti stj, i ≤ j ∧ tb.states[i]? = some sti ∧ tb.states[j]? = some stj ∧
        (∃ st ∈ sb.states, SameOrbitals src tgt sb.labels.species st sti) ∧
        (∃ st ∈ sb.states, SameOrbitals src tgt sb.labels.species st stj) ∧
        T.val i j ≠ B (K.state tgt tb.labels sti) (K.state tgt tb.labels stj) := by
  let B : ℝ →ₗ[ℝ] ℝ →ₗ[ℝ] ℝ := LinearMap.lsmul ℝ ℝ
  let upper : Mat := ⟨2, 2, fun i j => if i ≤ j then 1 else 0⟩
  have hfull : Represents Ex.K B Ex.src ⟨Ex.lab, [(0, 1), (1, 1)]⟩ ⟨Ex.lab, [(0, 1), (1, 1)]⟩ ⟨2, 2, fun _ _ => 1⟩ := by
    refine ⟨rfl, rfl, ?_⟩
    have k0 : Ex.K.state Ex.src Ex.lab (0, 1) = 1 := by
      simp [PairKets.state, Ex.src, Ex.lab, Species2.first, Species2.second, Orbitals.of, Ex.K, Ex.s1, Ex.p3]
    have k1 : Ex.K.state Ex.src Ex.lab (1, 1) = 1 := by
      simp [PairKets.state, Ex.src, Ex.lab, Species2.first, Species2.second, Orbitals.of, Ex.K, Ex.p3]
    intro i j sti stj hi hj
    have hst : ∀ {i : Nat} {st : Nat × Nat}, ([(0, 1), (1, 1)] : List (Nat × Nat))[i]? = some st →
        Ex.K.state Ex.src Ex.lab st = 1 := by
      intro i st h
      have := List.mem_of_getElem? h
      simp only [List.mem_cons, List.not_mem_nil, or_false] at this
      rcases this with rfl | rfl <;> assumption
    simp only
    rw [hst hi, hst hj]
    simp [B]
  have hlb : Ex.lab = Ex.lab := rfl
  obtain ⟨T, h1, h2, h3, h4, h5⟩ := runIterations_spec (m := Ex.m) (src := Ex.xs) (source := upper)
    (iterations Ex.xs) ⟨2, 2, fun _ _ => 0⟩
    (fun bk hbk => iterOK_of_sector Ex.inputs Ex.halfOdd Ex.mapping_eq Ex.sectorS Ex.sectorT hlb hlb rfl rfl hbk)
    ((nodup_iterations _).imp fun {x y} hxy kx vx ky vy hx hy =>
      writes_distinct Ex.inputs Ex.mapping_eq hxy hx hy)
  have hT : T.val 0 1 = 0 := by
    rw [h4 (1, 0) (by rw [mem_iterations]; decide) 0 1 0]
    simp [writeOf, Ex.m, Ex.xs, upper, kNone]
  have k0 : Ex.K.state Ex.tgt Ex.lab (0, 0) = 1 := by
    simp [PairKets.state, Ex.tgt, Ex.lab, Species2.first, Species2.second, Orbitals.of, Ex.K, Ex.p3]
  have k1 : Ex.K.state Ex.tgt Ex.lab (0, 1) = -1 := by
    simp [PairKets.state, Ex.tgt, Ex.lab, Species2.first, Species2.second, Orbitals.of, Ex.K, Ex.s1, Ex.p3]
    norm_num
  refine ⟨Ex.src, Ex.tgt, Ex.srcSpace, Ex.tgtSpace, Ex.m, Ex.xs, Ex.xs, _, _, Ex.K, B, _, upper, T,
    Ex.inputs, Ex.mapping_eq, Ex.sectorS, Ex.sectorT, rfl, fun x y => ?_, hfull, ⟨rfl, rfl, ?_, ?_⟩, h1,
    0, 1, (0, 0), (0, 1), by omega, rfl, rfl, ⟨(1, 1), by simp, Ex.p3, Ex.p3, ⟨rfl, rfl⟩, .inl ⟨rfl, rfl⟩⟩,
    ⟨(0, 1), by simp, Ex.s1, Ex.p3, ⟨rfl, rfl⟩, .inr ⟨by decide, rfl, rfl⟩⟩, ?_⟩
  · simp [B, mul_comm]
  · intro i j hij; simp [upper, hij]
  · intro i j hij; simp [upper, hij]
  · rw [hT]
    simp only
    rw [k0, k1]
    simp [B]

/-- The hypotheses of `remapped_elements` and the theorems around it are met. -/
example : ∃ (m : TwoBodyMapping) (T : Mat), twoBodyMapping Ex.src Ex.srcSpace Ex.tgt Ex.tgtSpace = .ok m ∧
    remappedMatrix m Ex.xs Ex.xs ⟨2, 2, fun i j => if i = 0 ∧ j = 1 then 5 else 0⟩ = .ok T ∧ T.val 1 0 = -5 := by
  obtain ⟨T, h1, h2, h3, h4, h5⟩ := runIterations_spec (m := Ex.m) (src := Ex.xs)
    (source := ⟨2, 2, fun i j => if i = 0 ∧ j = 1 then 5 else 0⟩)
    (iterations Ex.xs) ⟨2, 2, fun _ _ => 0⟩
    (fun bk hbk => iterOK_of_sector Ex.inputs Ex.halfOdd Ex.mapping_eq Ex.sectorS Ex.sectorT rfl rfl rfl rfl hbk)
    ((nodup_iterations _).imp fun {x y} hxy kx vx ky vy hx hy =>
      writes_distinct Ex.inputs Ex.mapping_eq hxy hx hy)
  refine ⟨Ex.m, T, Ex.mapping_eq, h1, ?_⟩
  rw [h4 (0, 1) (by rw [mem_iterations]; decide) 1 0 (-5)]
  have e1 : toIntFromSizeT (toSizeT (-1)) = -1 := by rfl
  have e2 : toIntFromSizeT (toSizeT 1) = 1 := by rfl
  simp [writeOf, Ex.m, Ex.xs, kNone, e1, e2]

end Verif.Mapping
