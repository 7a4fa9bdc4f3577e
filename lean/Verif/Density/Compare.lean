import Verif.Density.FileProps

/-!
# Comparison of densities

Model of `programs/obutils/obdme-compare_test.cpp` and property C163.

Simplifications: the program is not built (it uses earlier constructors of the density streams, without the quantum numbers of the
states, and earlier names of `J0_min` and `J0_max`), so that the comparison (`obdme-compare_test.cpp` 156-223) is modelled on densities that
have been read; `double` is `ℝ`.
-/

namespace Verif.Density
open Verif Verif.Mapping Verif.Obme
open Verif.H2 hiding Mat

/-! ## Model -/

/-- One pair of elements; the phase is 0 while it is not determined (`obdme-compare_test.cpp` 190-220). -/
noncomputable def compareElem (tol : ℝ) (phase : Int) (p : ℝ × ℝ) : Except Err Int :=
  if p.1 < tol ∧ p.2 < tol then .ok phase
  else if phase = 0 then
    if |p.1 - p.2| < tol then .ok 1 else if |p.1 + p.2| < tol then .ok (-1) else .error .exitFailure
  else if |p.1 - phase * p.2| < tol then .ok phase else .error .exitFailure

/-- `matrix(j,k)`. -/
def entryAt (m : Mat) (j k : ℕ) : Except Err ℝ := do
  assertE (decide (j < m.rows ∧ k < m.cols))
  pure (m.val j k)

/-- One sector (`obdme-compare_test.cpp` 176-222). -/
noncomputable def compareSector (tol : ℝ) (space : Space) (secs : Sectors) (m1 m2 : List Mat) (phase : Int) (x : ℕ) :
    Except Err Int := do
  let ik ← getE secs.pairs x
  let b ← getE space ik.1
  let c ← getE space ik.2
  let a1 ← getE m1 x
  let a2 ← getE m2 x
  (List.range b.ns.length).foldlM (fun phase j => (List.range c.ns.length).foldlM (fun phase k => do
    let v1 ← entryAt a1 j k
    let v2 ← entryAt a2 j k
    compareElem tol phase (v1, v2)) phase) phase

/-- One multipole (`obdme-compare_test.cpp` 169-223). -/
noncomputable def compareMultipole (tol : ℝ) (space : Space) (d1 d2 : Density) (phase : Int) (K : Int) : Except Err Int := do
  let s1 ← d1.data.getMultipole K
  let s2 ← d2.data.getMultipole K
  (List.range s2.1.pairs.length).foldlM (compareSector tol space s2.1 s1.2 s2.2) phase

/-- The comparison (`obdme-compare_test.cpp` 156-227). -/
noncomputable def compare (tol : ℝ) (space : Space) (d1 d2 : Density) : Except Err Unit := do
  assertE (decide (g0 d1.bra d1.ket = g0 d2.bra d2.ket))
  assertE (decide (tz0 d1.Zbra d1.Nbra d1.Zket d1.Nket = tz0 d2.Zbra d2.Nbra d2.Zket d2.Nket))
  let lo := max d1.data.J0min d2.data.J0min
  let hi := min d1.data.J0max d2.data.J0max
  let _ ← ((List.range (hi - lo + 1).toNat).map fun i : ℕ => lo + i).foldlM (compareMultipole tol space d1 d2) 0
  pure ()

/-! ## Specification -/

/-- Two elements pass: they agree up to the sign, or neither reaches the tolerance. -/
def Passes (tol s : ℝ) (a b : ℝ) : Prop := (a < tol ∧ b < tol) ∨ |a - s * b| < tol

/-- A multipole and two states between which both densities have an element. -/
structure Common (space : Space) (g0 Tz0 lo hi lo' hi' : Int) (K : Int) (x y : Full) : Prop where
  first : lo ≤ K ∧ K ≤ hi
  second : lo' ≤ K ∧ K ≤ hi'
  bra : InSpace space x
  ket : InSpace space y
  allowed : Allowed ⟨K, g0, Tz0⟩ x.labels y.labels

/-- Two densities of the same tensor character, with elements `v` and `v'`. -/
structure Pair (space : Space) (d d' : Density) (v v' : Int → Full → Full → ℝ) (g T lo hi lo' hi' : Int) : Prop where
  parity : g0 d.bra d.ket = g ∧ g0 d'.bra d'.ket = g
  isospin : tz0 d.Zbra d.Nbra d.Zket d.Nket = T ∧ tz0 d'.Zbra d'.Nbra d'.Zket d'.Nket = T
  range : d.data.J0min = lo ∧ d.data.J0max = hi ∧ d'.data.J0min = lo' ∧ d'.data.J0max = hi'
  first : Holds space g T lo hi d.data v
  second : Holds space g T lo' hi' d'.data v'

/-! ## Lemmas -/

theorem foldlM_flat {α β : Type} {f : Int → α → Except Err Int} {g : Int → β → Except Err Int} {L : α → List β} :
    ∀ (l : List α), (∀ a ∈ l, ∀ ph, f ph a = (L a).foldlM g ph) → ∀ ph, l.foldlM f ph = (l.flatMap L).foldlM g ph
  | [], _, _ => rfl
  | a :: l, h, ph => by
    rw [List.foldlM_cons, List.flatMap_cons, List.foldlM_append, h a (by simp)]
    cases (L a).foldlM g ph with
    | error e => rfl
    | ok ph' =>
      rw [Except.ok_bind', Except.ok_bind']
      exact foldlM_flat l (fun b hb => h b (by simp [hb])) ph'

theorem compare_fixed {tol : ℝ} {s : Int} (hs : s = 1 ∨ s = -1) : ∀ (L : List (ℝ × ℝ)),
    ((∀ p ∈ L, Passes tol s p.1 p.2) → L.foldlM (compareElem tol) s = .ok s) ∧
    ((¬ ∀ p ∈ L, Passes tol s p.1 p.2) → L.foldlM (compareElem tol) s = .error .exitFailure)
  | [] => ⟨fun _ => rfl, fun h => absurd (by simp) h⟩
  | p :: L => by
    obtain ⟨h1, h2⟩ := compare_fixed hs L (tol := tol)
    have h0 : s ≠ 0 := by rcases hs with rfl | rfl <;> decide
    rw [List.foldlM_cons]
    simp only [List.mem_cons, forall_eq_or_imp]
    by_cases hp : Passes tol s p.1 p.2
    · have e : compareElem tol s p = .ok s := by
        unfold compareElem
        by_cases a : p.1 < tol ∧ p.2 < tol
        · rw [if_pos a]
        · rw [if_neg a, if_neg h0, if_pos (hp.resolve_left a)]
      rw [e, Except.ok_bind']
      exact ⟨fun h => h1 h.2, fun h => h2 fun h' => h ⟨hp, h'⟩⟩
    · have e : compareElem tol s p = .error .exitFailure := by
        unfold compareElem
        rw [if_neg fun a => hp (.inl a), if_neg h0, if_neg fun a => hp (.inr a)]
      rw [e]
      exact ⟨fun h => absurd h.1 hp, fun _ => rfl⟩

/-- There is a sign with which all pairs pass. -/
def SomeSign (tol : ℝ) (P : ℝ → ℝ → Prop) : Prop := ∃ s : ℝ, (s = 1 ∨ s = -1) ∧ ∀ a b, P a b → Passes tol s a b

theorem compare_zero {tol : ℝ} : ∀ (L : List (ℝ × ℝ)),
    (SomeSign tol (fun a b => (a, b) ∈ L) → ∃ ph, L.foldlM (compareElem tol) 0 = .ok ph) ∧
    (¬ SomeSign tol (fun a b => (a, b) ∈ L) → L.foldlM (compareElem tol) 0 = .error .exitFailure)
  | [] => ⟨fun _ => ⟨0, rfl⟩, fun h => absurd ⟨1, .inl rfl, by simp⟩ h⟩
  | (a, b) :: L => by
    obtain ⟨h1, h2⟩ := compare_zero L (tol := tol)
    rw [List.foldlM_cons]
    by_cases hsk : a < tol ∧ b < tol
    · have e : compareElem tol 0 (a, b) = .ok 0 := if_pos hsk
      have hiff : SomeSign tol (fun a' b' => (a', b') ∈ (a, b) :: L) ↔ SomeSign tol (fun a b => (a, b) ∈ L) := by
        constructor
        · rintro ⟨s, hs, h⟩
          exact ⟨s, hs, fun a' b' h' => h a' b' (by simp [h'])⟩
        · rintro ⟨s, hs, h⟩
          refine ⟨s, hs, fun a' b' h' => ?_⟩
          rcases List.mem_cons.mp h' with h' | h'
          · cases h'
            exact .inl hsk
          · exact h a' b' h'
      rw [e, Except.ok_bind', hiff]
      exact ⟨h1, h2⟩
    · have key : ∀ s : Int, (s = 1 ∨ s = -1) → |a - s * b| < tol →
          (SomeSign tol (fun a' b' => (a', b') ∈ (a, b) :: L) ↔ ∀ p ∈ L, Passes tol s p.1 p.2) := by
        intro s hs hab
        constructor
        · rintro ⟨s', hs', h⟩ p hp
          have hh := h a b (by simp)
          have hss : s' = s := by
            rcases hh with hh | hh
            · exact absurd hh hsk
            · by_contra hne
              apply hsk
              rw [abs_lt] at hh hab
              rcases hs with rfl | rfl <;> rcases hs' with rfl | rfl <;> push_cast at hab hne <;> first
                | exact absurd rfl hne
                | constructor <;> linarith [hh.1, hh.2, hab.1, hab.2]
          rw [← hss]
          exact h p.1 p.2 (by simp [hp])
        · intro h
          refine ⟨s, by rcases hs with rfl | rfl <;> simp, fun a' b' h' => ?_⟩
          rcases List.mem_cons.mp h' with h' | h'
          · cases h'
            exact .inr hab
          · exact h (a', b') h'
      by_cases hp : |a - b| < tol
      · have e : compareElem tol 0 (a, b) = .ok 1 := by simp [compareElem, hsk, hp]
        rw [e, Except.ok_bind', key 1 (.inl rfl) (by simpa using hp)]
        have := compare_fixed (tol := tol) (s := 1) (.inl rfl) L
        exact ⟨fun h => ⟨_, this.1 h⟩, this.2⟩
      · by_cases hm : |a + b| < tol
        · have e : compareElem tol 0 (a, b) = .ok (-1) := by simp [compareElem, hsk, hp, hm]
          rw [e, Except.ok_bind', key (-1) (.inr rfl) (by simpa using hm)]
          have := compare_fixed (tol := tol) (s := -1) (.inr rfl) L
          exact ⟨fun h => ⟨_, this.1 h⟩, this.2⟩
        · have e : compareElem tol 0 (a, b) = .error .exitFailure := by simp [compareElem, hsk, hp, hm]
          rw [e]
          refine ⟨?_, fun _ => rfl⟩
          rintro ⟨s, hs, h⟩
          rcases h a b (by simp) with h | h
          · exact absurd h hsk
          · rcases hs with rfl | rfl
            · exact absurd (by simpa using h) hp
            · exact absurd (by simpa using h) hm

/-- The pairs of elements of a sector. -/
noncomputable def sectorPairs (space : Space) (secs : Sectors) (m1 m2 : List Mat) (x : ℕ) : List (ℝ × ℝ) :=
  match secs.pairs[x]? with
  | none => []
  | some (i, k) => (List.range (dim space i)).flatMap fun a => (List.range (dim space k)).map fun c =>
    (elem secs m1 i a k c, elem secs m2 i a k c)

theorem foldlM_map' {α β : Type} (f : α → β) (g : Int → β → Except Err Int) : ∀ (l : List α) (ph : Int),
    (l.map f).foldlM g ph = l.foldlM (fun ph a => g ph (f a)) ph
  | [], _ => rfl
  | a :: l, ph => by
    rw [List.map_cons, List.foldlM_cons, List.foldlM_cons]
    congr 1
    funext ph'
    exact foldlM_map' f g l ph'

theorem foldlM_congr' {α : Type} {f g : Int → α → Except Err Int} : ∀ (l : List α), (∀ a ∈ l, ∀ ph, f ph a = g ph a) →
    ∀ ph, l.foldlM f ph = l.foldlM g ph
  | [], _, _ => rfl
  | a :: l, h, ph => by
    rw [List.foldlM_cons, List.foldlM_cons, h a (by simp)]
    congr 1
    funext ph'
    exact foldlM_congr' l (fun b hb => h b (by simp [hb])) ph'

theorem compareSector_eq {tol : ℝ} {space : Space} {secs : Sectors} (hs : SectorsOf secs space space) {m1 m2 : List Mat}
    (f1 : Fits secs m1 space space) (f2 : Fits secs m2 space space) {x : ℕ} (hx : x < secs.pairs.length) (ph : Int) :
    compareSector tol space secs m1 m2 ph x = (sectorPairs space secs m1 m2 x).foldlM (compareElem tol) ph := by
  obtain ⟨⟨i, k⟩, hp⟩ : ∃ p, secs.pairs[x]? = some p := ⟨_, List.getElem?_eq_getElem hx⟩
  obtain ⟨b, c, hb, hc, -⟩ := (hs.mem i k).mp (List.mem_of_getElem? hp)
  have hidx : secs.pairs.idxOf? (i, k) = some x := by
    obtain ⟨y, hy⟩ := idxOf?_mem (List.mem_of_getElem? hp)
    have := idxOf?_getElem? hy
    rw [hy, (List.getElem?_inj hx hs.nodup).mp (hp.trans this.symm)]
  obtain ⟨a1, e1, r1, c1, v1⟩ := fits_block f1 hidx
  obtain ⟨a2, e2, r2, c2, v2⟩ := fits_block f2 hidx
  have db : dim space i = b.ns.length := by simp [dim, hb]
  have dc : dim space k = c.ns.length := by simp [dim, hc]
  simp only [compareSector, getE, hp, hb, hc, e1, e2, Except.ok_bind', sectorPairs]
  rw [db, dc]
  refine foldlM_flat _ (fun j hj ph => ?_) ph
  rw [foldlM_map']
  refine foldlM_congr' _ (fun l hl ph => ?_) ph
  rw [List.mem_range] at hj hl
  have t1 : entryAt a1 j l = .ok (elem secs m1 i j k l) := by
    simp only [entryAt, r1, c1, db, dc, hj, hl, and_self, decide_true, assertE, if_true, Except.ok_bind', v1 j l (by omega) (by omega)]
    rfl
  have t2 : entryAt a2 j l = .ok (elem secs m2 i j k l) := by
    simp only [entryAt, r2, c2, db, dc, hj, hl, and_self, decide_true, assertE, if_true, Except.ok_bind', v2 j l (by omega) (by omega)]
    rfl
  rw [t1, Except.ok_bind', t2, Except.ok_bind']

/-- The pairs of elements of a multipole. -/
noncomputable def multipolePairs (space : Space) (d1 d2 : Density) (K : Int) : List (ℝ × ℝ) :=
  match d1.data.getMultipole K, d2.data.getMultipole K with
  | .ok s1, .ok s2 => (List.range s2.1.pairs.length).flatMap (sectorPairs space s2.1 s1.2 s2.2)
  | _, _ => []

/-- Every position in a space is that of a state. -/
theorem state_at {space : Space} {i a : ℕ} (h : a < dim space i) : ∃ x, HasState space i a x := by
  cases hb : space[i]? with
  | none => simp [dim, hb] at h
  | some b =>
    rw [dim_some hb] at h
    exact ⟨⟨b.labels.sp, b.ns[a], b.labels.l, b.labels.tj⟩, b, hb, rfl, List.getElem?_eq_getElem h⟩

section
variable {space : Space} {d d' : Density} {v v' : Int → Full → Full → ℝ} {g T lo hi lo' hi' : Int}

theorem Pair.multipole (h : Pair space d d' v v' g T lo hi lo' hi') {K : Int} (h1 : lo ≤ K ∧ K ≤ hi) (h2 : lo' ≤ K ∧ K ≤ hi')
    (tol : ℝ) : (∀ ph, compareMultipole tol space d d' ph K = (multipolePairs space d d' K).foldlM (compareElem tol) ph) ∧
      ∀ a b, (a, b) ∈ multipolePairs space d d' K ↔
        ∃ x y, Common space g T lo hi lo' hi' K x y ∧ a = v K x y ∧ b = v' K x y := by
  obtain ⟨m1, e1, f1, w1⟩ := h.first.inside K h1.1 h1.2
  obtain ⟨m2, e2, f2, w2⟩ := h.second.inside K h2.1 h2.2
  have hs := allSectors_spec ⟨K, g, T⟩ space space
  constructor
  · intro ph
    simp only [compareMultipole, multipolePairs, e1, e2, Except.ok_bind']
    exact foldlM_flat _ (fun x hx ph => compareSector_eq hs f1 f2 (List.mem_range.mp hx) ph) ph
  · intro a b
    simp only [multipolePairs, e1, e2, List.mem_flatMap, List.mem_range]
    constructor
    · rintro ⟨t, ht, hm⟩
      obtain ⟨⟨i, k⟩, hp⟩ : ∃ p, (allSectors ⟨K, g, T⟩ space space).pairs[t]? = some p := ⟨_, List.getElem?_eq_getElem ht⟩
      simp only [sectorPairs, hp, List.mem_flatMap, List.mem_map, List.mem_range, Prod.mk.injEq] at hm
      obtain ⟨j, hj, l, hl, rfl, rfl⟩ := hm
      obtain ⟨x, hx⟩ := state_at hj
      obtain ⟨y, hy⟩ := state_at hl
      exact ⟨x, y, ⟨h1, h2, ⟨i, j, hx⟩, ⟨k, l, hy⟩, (allowed_of_state hx hy).mp (List.mem_of_getElem? hp)⟩,
        w1 _ _ _ _ _ _ hx hy, w2 _ _ _ _ _ _ hx hy⟩
    · rintro ⟨x, y, hc, rfl, rfl⟩
      obtain ⟨i, j, hx⟩ := hc.bra
      obtain ⟨k, l, hy⟩ := hc.ket
      obtain ⟨t, ht, hp⟩ := List.mem_iff_getElem.mp ((allowed_of_state hx hy).mpr hc.allowed)
      refine ⟨t, ht, ?_⟩
      simp only [sectorPairs, List.getElem?_eq_getElem ht, hp, List.mem_flatMap, List.mem_map, List.mem_range, Prod.mk.injEq]
      exact ⟨j, hx.dim_lt, l, hy.dim_lt, w1 _ _ _ _ _ _ hx hy, w2 _ _ _ _ _ _ hx hy⟩

/-- The elements compared. -/
def Compared (space : Space) (v v' : Int → Full → Full → ℝ) (g T lo hi lo' hi' : Int) (a b : ℝ) : Prop :=
  ∃ K x y, Common space g T lo hi lo' hi' K x y ∧ a = v K x y ∧ b = v' K x y

/-! ## Properties -/

/-- **C163, the verdict.** The comparison succeeds exactly if there is one sign with which every common element passes; otherwise the
program ends with failure. -/
theorem compare_verdict (h : Pair space d d' v v' g T lo hi lo' hi') (tol : ℝ) :
    ((∃ s : ℝ, (s = 1 ∨ s = -1) ∧ ∀ K x y, Common space g T lo hi lo' hi' K x y → Passes tol s (v K x y) (v' K x y)) →
      compare tol space d d' = .ok ()) ∧
    ((¬ ∃ s : ℝ, (s = 1 ∨ s = -1) ∧ ∀ K x y, Common space g T lo hi lo' hi' K x y → Passes tol s (v K x y) (v' K x y)) →
      compare tol space d d' = .error .exitFailure) := by
  obtain ⟨r1, r2, r3, r4⟩ := h.range
  have hK : ∀ K, K ∈ ((List.range (min hi hi' - max lo lo' + 1).toNat).map fun i : ℕ => max lo lo' + (i : Int)) ↔
      (lo ≤ K ∧ K ≤ hi) ∧ (lo' ≤ K ∧ K ≤ hi') := by
    intro K
    simp only [List.mem_map, List.mem_range]
    constructor
    · rintro ⟨i, hi, rfl⟩
      omega
    · intro hh
      exact ⟨(K - max lo lo').toNat, by omega, by omega⟩
  have hf := foldlM_flat (g := compareElem tol) (L := multipolePairs space d d') _
    (fun K hk ph => (h.multipole ((hK K).mp hk).1 ((hK K).mp hk).2 tol).1 ph) 0
  have hm : ∀ a b, (a, b) ∈ ((List.range (min hi hi' - max lo lo' + 1).toNat).map fun i : ℕ => max lo lo' + (i : Int)).flatMap
      (multipolePairs space d d') ↔ Compared space v v' g T lo hi lo' hi' a b := by
    intro a b
    rw [List.mem_flatMap]
    constructor
    · rintro ⟨K, hk, hab⟩
      obtain ⟨x, y, hh⟩ := ((h.multipole ((hK K).mp hk).1 ((hK K).mp hk).2 tol).2 a b).mp hab
      exact ⟨K, x, y, hh⟩
    · rintro ⟨K, x, y, hc, e⟩
      exact ⟨K, (hK K).mpr ⟨hc.first, hc.second⟩, ((h.multipole hc.first hc.second tol).2 a b).mpr ⟨x, y, hc, e⟩⟩
  have hiff : (∃ s : ℝ, (s = 1 ∨ s = -1) ∧ ∀ K x y, Common space g T lo hi lo' hi' K x y → Passes tol s (v K x y) (v' K x y)) ↔
      SomeSign tol (fun a b => (a, b) ∈ ((List.range (min hi hi' - max lo lo' + 1).toNat).map
        fun i : ℕ => max lo lo' + (i : Int)).flatMap (multipolePairs space d d')) := by
    simp only [SomeSign, hm]
    refine exists_congr fun s => and_congr_right fun _ => ?_
    constructor
    · rintro h a b ⟨K, x, y, hc, rfl, rfl⟩
      exact h K x y hc
    · intro h K x y hc
      exact h _ _ ⟨K, x, y, hc, rfl, rfl⟩
  have hc : compare tol space d d' = (((List.range (min hi hi' - max lo lo' + 1).toNat).map
      fun i : ℕ => max lo lo' + (i : Int)).foldlM (compareMultipole tol space d d') 0) >>= fun _ => .ok () := by
    simp only [compare, h.parity.1, h.parity.2, h.isospin.1, h.isospin.2, r1, r2, r3, r4, decide_true, assertE, if_true, Except.ok_bind']
    rfl
  have hz := compare_zero (tol := tol) (((List.range (min hi hi' - max lo lo' + 1).toNat).map
    fun i : ℕ => max lo lo' + (i : Int)).flatMap (multipolePairs space d d'))
  rw [hiff, hc, hf]
  constructor
  · intro hs
    obtain ⟨ph, e⟩ := hz.1 hs
    rw [e]
    rfl
  · intro hs
    rw [hz.2 hs]
    rfl

/-- **C163.** Densities that agree within the tolerance, up to one sign, are accepted. -/
theorem compare_accepts (h : Pair space d d' v v' g T lo hi lo' hi') {tol s : ℝ} (hs : s = 1 ∨ s = -1)
    (ha : ∀ K x y, Common space g T lo hi lo' hi' K x y → |v K x y - s * v' K x y| < tol) : compare tol space d d' = .ok () :=
  (compare_verdict h tol).1 ⟨s, hs, fun K x y hc => .inr (ha K x y hc)⟩

/-- **C163 (`_partial`).** Accepted densities agree, up to one sign, in every common element that is not negligible in both.  Missing, being
false: elements that are both below the tolerance, of which one is large and negative (`compare_negative`); multipoles in one of the files
only (`compare_other_multipoles`). -/
theorem compare_agree_partial (h : Pair space d d' v v' g T lo hi lo' hi') {tol : ℝ} (hc : compare tol space d d' = .ok ())
    (hn : ∀ K x y, Common space g T lo hi lo' hi' K x y → v K x y < tol → v' K x y < tol → -tol < v K x y ∧ -tol < v' K x y) :
    ∃ s : ℝ, (s = 1 ∨ s = -1) ∧ ∀ K x y, Common space g T lo hi lo' hi' K x y →
      (|v K x y| < tol ∧ |v' K x y| < tol) ∨ |v K x y - s * v' K x y| < tol := by
  by_cases hp : ∃ s : ℝ, (s = 1 ∨ s = -1) ∧ ∀ K x y, Common space g T lo hi lo' hi' K x y → Passes tol s (v K x y) (v' K x y)
  · obtain ⟨s, hs, hp⟩ := hp
    refine ⟨s, hs, fun K x y k => ?_⟩
    rcases hp K x y k with ⟨h1, h2⟩ | h1
    · obtain ⟨h3, h4⟩ := hn K x y k h1 h2
      exact .inl ⟨abs_lt.mpr ⟨h3, h1⟩, abs_lt.mpr ⟨h4, h2⟩⟩
    · exact .inr h1
  · rw [(compare_verdict h tol).2 hp] at hc
    cases hc

/-- **C163, refuted.** Negative elements are taken for zeros: two densities without an element that reaches the tolerance are accepted,
however much they differ. -/
theorem compare_negative (h : Pair space d d' v v' g T lo hi lo' hi') {tol : ℝ}
    (hn : ∀ K x y, Common space g T lo hi lo' hi' K x y → v K x y < tol ∧ v' K x y < tol) : compare tol space d d' = .ok () :=
  (compare_verdict h tol).1 ⟨1, .inl rfl, fun K x y hc => .inl (hn K x y hc)⟩

/-- **C163, refuted.** Densities without a common multipole are accepted. -/
theorem compare_other_multipoles (h : Pair space d d' v v' g T lo hi lo' hi') (hn : hi < lo' ∨ hi' < lo) (tol : ℝ) :
    compare tol space d d' = .ok () :=
  (compare_verdict h tol).1 ⟨1, .inl rfl, fun K x y hc => by have := hc.first; have := hc.second; omega⟩

end

/-- **C163.** Densities of different parity or isospin are refused. -/
theorem compare_character_refused {tol : ℝ} {space : Space} {d d' : Density}
    (h : g0 d.bra d.ket ≠ g0 d'.bra d'.ket ∨ tz0 d.Zbra d.Nbra d.Zket d.Nket ≠ tz0 d'.Zbra d'.Nbra d'.Zket d'.Nket) :
    compare tol space d d' = .error .assertFail := by
  by_cases e : g0 d.bra d.ket = g0 d'.bra d'.ket
  · have e2 := h.resolve_left fun h => h e
    simp only [compare, e, e2, decide_true, decide_false, assertE, if_true, Except.ok_bind']
    rfl
  · simp only [compare, e, decide_false, assertE]
    rfl

/-- Files of the same character can be compared. -/
theorem Means.pair {space : Space} {bra ket bra' ket' : State} {Zb Nb Zk Nk Zb' Nb' Zk' Nk' m1 m2 m1' m2' lo hi lo' hi' : Int}
    {d d' : Density} {es es' : List Entry} (h : Means space bra ket Zb Nb Zk Nk m1 m2 lo hi d es)
    (h' : Means space bra' ket' Zb' Nb' Zk' Nk' m1' m2' lo' hi' d' es') (hg : g0 bra ket = g0 bra' ket')
    (hT : tz0 Zb Nb Zk Nk = tz0 Zb' Nb' Zk' Nk') :
    Pair space d d' (finalValue es) (finalValue es') (g0 bra ket) (tz0 Zb Nb Zk Nk) lo hi lo' hi' := by
  obtain ⟨⟨rfl, rfl⟩, ⟨rfl, rfl, rfl, rfl⟩, -, ⟨rfl, rfl⟩, he⟩ := h
  obtain ⟨⟨rfl, rfl⟩, ⟨rfl, rfl, rfl, rfl⟩, -, ⟨rfl, rfl⟩, he'⟩ := h'
  exact ⟨⟨rfl, hg.symm⟩, ⟨rfl, hT.symm⟩, ⟨rfl, rfl, rfl, rfl⟩, he, hg ▸ hT ▸ he'⟩

/-! ## Examples -/

namespace Ex

/-- A density with a single element. -/
theorem single_file (x : ℝ) : ∃ d, readSingle lib sampleSpace state state ⟨header ++ [[.int 1, .int 1, .int 0, .num x]], true⟩ = .ok d ∧
    Means sampleSpace state state 1 0 1 0 1 1 0 1 d [⟨0, s0, s0, x / Real.sqrt (1 + 1)⟩] := by
  refine (single_density laws sampleSpace_good (np := 3) (nn := 0) (os := orbs) (data := [[.int 1, .int 1, .int 0, .num x]])
    (counts := (9, 0)) (ob := false) (okt := false) (sb := 1) (sk := 1) (rb := [.num 0.5, .num (-2)]) (rk := [.num 0.5, .num (-2)]) rfl rfl
    rfl rfl (by decide) ?_ ?_ rfl rfl).1 ?_
  · exact header_clean _ (by simp [Line.content])
  · rw [single_all_lines_partial (Or.inl rfl)]
    exact .cons ⟨0, 0, .num x, [], x, rfl, Or.inl rfl, rfl, rfl, by simp [s0]⟩ .nil
  · intro e he
    simp only [List.mem_singleton] at he
    subst he
    exact ⟨⟨by dsimp only; decide, by dsimp only; decide⟩, in0, in0, by dsimp only; decide⟩

theorem single_value (x : ℝ) (K : Int) (a b : Full) : finalValue [⟨0, s0, s0, x / Real.sqrt (1 + 1)⟩] K a b =
    if 0 = K ∧ s0 = a ∧ s0 = b then x / Real.sqrt (1 + 1) else 0 := by
  have := finalValue_append [] ⟨0, s0, s0, x / Real.sqrt (1 + 1)⟩ K a b
  simpa [finalValue] using this

theorem common0 : Common sampleSpace (g0 state state) (tz0 1 0 1 0) 0 1 0 1 0 s0 s0 :=
  ⟨by decide, by decide, in0, in0, by decide⟩

/-- Opposite elements are accepted. -/
example : ∃ d d', readSingle lib sampleSpace state state ⟨header ++ [[.int 1, .int 1, .int 0, .num 3]], true⟩ = .ok d ∧
    readSingle lib sampleSpace state state ⟨header ++ [[.int 1, .int 1, .int 0, .num (-3)]], true⟩ = .ok d' ∧
    compare 0.1 sampleSpace d d' = .ok () := by
  obtain ⟨d, h1, h2⟩ := single_file 3
  obtain ⟨d', h1', h2'⟩ := single_file (-3)
  refine ⟨d, d', h1, h1', compare_accepts (h2.pair h2' rfl rfl) (s := -1) (.inr rfl) fun K x y _ => ?_⟩
  rw [single_value, single_value]
  split_ifs <;> ring_nf <;> norm_num

/-- 3 and 5 are told apart. -/
example : ∃ d d', readSingle lib sampleSpace state state ⟨header ++ [[.int 1, .int 1, .int 0, .num 3]], true⟩ = .ok d ∧
    readSingle lib sampleSpace state state ⟨header ++ [[.int 1, .int 1, .int 0, .num 5]], true⟩ = .ok d' ∧
    compare 1 sampleSpace d d' = .error .exitFailure := by
  obtain ⟨d, h1, h2⟩ := single_file 3
  obtain ⟨d', h1', h2'⟩ := single_file 5
  refine ⟨d, d', h1, h1', (compare_verdict (h2.pair h2' rfl rfl) 1).2 ?_⟩
  rintro ⟨s, hs, h⟩
  have := h 0 s0 s0 common0
  rw [single_value, single_value, if_pos ⟨rfl, rfl, rfl⟩, if_pos ⟨rfl, rfl, rfl⟩] at this
  have hpos : 0 < Real.sqrt (1 + 1) := Real.sqrt_pos.mpr (by norm_num)
  have hlt : Real.sqrt (1 + 1) < 2 := by
    rw [Real.sqrt_lt' (by norm_num)]
    norm_num
  rcases this with ⟨h3, -⟩ | h3
  · rw [div_lt_iff₀ hpos] at h3
    linarith
  · rw [abs_lt, lt_sub_iff_add_lt] at h3
    rcases hs with rfl | rfl
    · have : 5 / Real.sqrt (1 + 1) - 3 / Real.sqrt (1 + 1) < 1 := by linarith [h3.1]
      rw [← sub_div, div_lt_iff₀ hpos] at this
      linarith
    · have := h3.2
      rw [neg_one_mul, sub_neg_eq_add, ← add_div, div_lt_iff₀ hpos] at this
      linarith

/-- -3 and -5 are not. -/
example : ∃ d d', readSingle lib sampleSpace state state ⟨header ++ [[.int 1, .int 1, .int 0, .num (-3)]], true⟩ = .ok d ∧
    readSingle lib sampleSpace state state ⟨header ++ [[.int 1, .int 1, .int 0, .num (-5)]], true⟩ = .ok d' ∧
    compare 0.1 sampleSpace d d' = .ok () := by
  obtain ⟨d, h1, h2⟩ := single_file (-3)
  obtain ⟨d', h1', h2'⟩ := single_file (-5)
  refine ⟨d, d', h1, h1', compare_negative (h2.pair h2' rfl rfl) fun K x y _ => ?_⟩
  have hpos : 0 < Real.sqrt (1 + 1) := Real.sqrt_pos.mpr (by norm_num)
  have e3 : -3 / Real.sqrt (1 + 1) < 0 := div_neg_of_neg_of_pos (by norm_num) hpos
  have e5 : -5 / Real.sqrt (1 + 1) < 0 := div_neg_of_neg_of_pos (by norm_num) hpos
  rw [single_value, single_value]
  split_ifs
  · constructor <;> linarith
  · norm_num

end Ex

end Verif.Density
