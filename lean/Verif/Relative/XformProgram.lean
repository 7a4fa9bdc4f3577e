import Verif.Relative.ConvertersProps

/-!
# `relative-xform` and `relative-filter` (C126, C127)

Model of `programs/relutils/relative-xform.cpp` over `TransformRelativeOperatorLSJT` (`RelXform.lean`), and what the two
programs write.

Simplifications: `mcutils::GetLine`, absent from the checkout, is the reading of a line; the overlaps computed by quadrature
for `b_ratio ≠ 1` are a parameter (they depend on `L`, the ratio, the number of steps and the two radial numbers).
-/

namespace Verif.Relative
open Verif Verif.Mixer.Control
open Verif.H2 hiding Mat
open Verif.Mapping (Mat completeLowerTriangle)
open Verif.Xform (Mat.mul Mat.transpose)

namespace XformProgram

/-- `Parameters` (`relative-xform.cpp` 51-60). -/
structure Params where
  source : String
  Nmax : Int
  ratio : ℝ
  steps : Int
  target : String

/-- `ReadParameters` (`relative-xform.cpp` 62-102); a missing source ends the program (83). -/
def readParams (nm : Numbers) (file? : String → Option RelFile) (f : Gen.Input) : Except Err Params := do
  let (a, _) ← word (f.line 0)
  (match file? a with
    | some _ => .ok ()
    | none => .error .exitFailure) >>= fun _ => do
    let (N, ws) ← int nm (f.line 1)
    let (r, ws) ← num nm ws
    let (s, _) ← int nm ws
    let (t, _) ← word (f.line 2)
    pure ⟨a, N, r, s, t⟩

/-- Labels and sizes of the subspaces. -/
def rspace (sp : List RelSub) : RSpace (ℕ × ℕ × ℕ × ℕ) := sp.map fun s => ((s.L, s.S, s.J, s.T), s.size)

/-- The sectors of a component as pairs of places in the space. -/
def pairs (f : RelFile) (T0 : ℕ) : List (ℕ × ℕ) :=
  (f.sectors T0).map fun p => ((relSpace f.Nmax f.Jmax).idxOf p.1, (relSpace f.Nmax f.Jmax).idxOf p.2)

/-- The blocks of a component, as read from the file. -/
def blocksOf (f : RelFile) (T0 k : ℕ) : Mat :=
  match (f.sectors T0)[k]? with
  | some (x, y) => ⟨x.size, y.size, f.blocks T0 k⟩
  | none => ⟨0, 0, fun _ _ => 0⟩

/-- Parameters for the compatibility checks. -/
def rparams (f : RelFile) : RParams := ⟨f.labels.J0, f.labels.g0, f.labels.T0min, f.labels.T0max, f.Jmax⟩

/-- The transformation of all components (`relative-xform.cpp` 147-171): the transformation matrices of all subspaces are
made first (`relative_xform.cpp` 172-193). -/
noncomputable def transform (overlap : ℕ → ℝ → Int → ℕ → ℕ → ℝ) (src : RelFile) (N : ℕ) (ratio : ℝ) (steps : Int) :
    Except Err RelFile := do
  let tgt : RelFile := ⟨src.labels, N, src.Jmax, fun _ _ _ _ => 0⟩
  let ov : ℕ × ℕ × ℕ × ℕ → ℝ → ℕ → ℕ → ℝ := fun lab b => overlap lab.1 b steps
  let s := rspace (relSpace src.Nmax src.Jmax)
  let t := rspace (relSpace tgt.Nmax tgt.Jmax)
  let _ ← t.mapM fun sub => xformEntry ov s sub ratio
  let comps ← (List.range (src.labels.T0max + 1 - src.labels.T0min)).mapM fun d =>
    let T0 := src.labels.T0min + d
    transformComponent ov (rparams src) (rparams tgt) s t (pairs src T0) (pairs tgt T0) (blocksOf src T0) ratio
  pure { tgt with blocks := fun T0 k i j =>
    if src.labels.T0min ≤ T0 then
      match comps[T0 - src.labels.T0min]? with
      | some ms => match ms[k]? with
        | some m => m.val i j
        | none => 0
      | none => 0
    else 0 }

/-- `main` (`relative-xform.cpp` 108-186). -/
noncomputable def run (nm : Numbers) (overlap : ℕ → ℝ → Int → ℕ → ℕ → ℝ) (file? : String → Option RelFile) (f : Gen.Input) :
    Except Err (String × RelFile) := do
  let p ← readParams nm file? f
  if p.Nmax < 0 then .error .undefinedBehaviour
  else do
    let src ← openFile file? p.source
    let out ← transform overlap src p.Nmax.toNat p.ratio p.steps
    pure (p.target, out)

/-! ## Specification -/

/-- The documented control file, with an existing source. -/
structure ControlFile (nm : Numbers) (file? : String → Option RelFile) (f : Gen.Input) (p : Params) : Prop where
  source : (∃ rest, f.line 0 = p.source :: rest) ∧ (file? p.source).isSome
  transformation : ∃ a b c rest, f.line 1 = a :: b :: c :: rest ∧ nm.int? a = some p.Nmax ∧ nm.num? b = some p.ratio ∧
    nm.int? c = some p.steps
  target : ∃ rest, f.line 2 = p.target :: rest

/-- The element of a stored operator between states `a` of `x` and `b` of `y`: of a diagonal sector only `a ≤ b` is stored. -/
noncomputable def element (f : RelFile) (T0 m : ℕ) (x y : RelSub) (a b : ℕ) : ℝ :=
  if x = y ∧ b < a then f.blocks T0 m b a else f.blocks T0 m a b

/-- Overlap of the state `a` of the source with the state `i` of the target, in the channels of orbital momentum `L`. -/
noncomputable def change (overlap : ℕ → ℝ → Int → ℕ → ℕ → ℝ) (ratio : ℝ) (steps : Int) (L a i : ℕ) : ℝ :=
  if ratio = 1 then (if a = i then 1 else 0) else overlap L ratio steps a i

/-! ## Facts -/

theorem idxOf_inj {N J : ℕ} {x y : RelSub} (hx : x ∈ relSpace N J) (hy : y ∈ relSpace N J)
    (h : (relSpace N J).idxOf x = (relSpace N J).idxOf y) : x = y := by
  have h1 := getElem_idxOf hx
  have h2 := getElem_idxOf hy
  rw [h, h2] at h1
  exact (Option.some.inj h1).symm

theorem rspace_at {N J : ℕ} {x : RelSub} (hx : x ∈ relSpace N J) :
    (rspace (relSpace N J))[(relSpace N J).idxOf x]? = some ((x.L, x.S, x.J, x.T), x.size) := by
  rw [rspace, List.getElem?_map, getElem_idxOf hx]
  rfl

theorem rspace_labels_nodup (N J : ℕ) : ((rspace (relSpace N J)).map Prod.fst).Nodup := by
  simp only [rspace, List.map_map]
  refine (space_nodup N J).map_on ?_
  intro x hx y hy h
  simp only [Function.comp, Prod.mk.injEq] at h
  rw [relSub_eq hx, relSub_eq hy, h.1, h.2.1, h.2.2.1]

theorem pairs_nodup (f : RelFile) (T0 : ℕ) : (pairs f T0).Nodup := by
  refine (sectors_nodup f.labels f.Nmax f.Jmax T0).map_on ?_
  rintro ⟨x, y⟩ hp ⟨x', y'⟩ hq h
  obtain ⟨-, h1, h2, -⟩ := mem_sectors.mp hp
  obtain ⟨-, h3, h4, -⟩ := mem_sectors.mp hq
  simp only [Prod.mk.injEq] at h h1 h2 h3 h4 ⊢
  exact ⟨idxOf_inj h1 h3 h.1, idxOf_inj h2 h4 h.2⟩

theorem entry_ok {α : Type} [DecidableEq α] (ov : α → ℝ → ℕ → ℕ → ℝ) (src : RSpace α) (sub : α × ℕ) {r : ℝ} (hr : 0 < r) :
    ∃ e, xformEntry ov src sub r = .ok e := by
  unfold xformEntry
  cases hl : lookUpSubspace src sub.1 with
  | none => exact ⟨_, rfl⟩
  | some k =>
    obtain ⟨hk, -, -⟩ := List.findIdx?_eq_some_iff_getElem.mp hl
    simp only [List.getElem?_eq_getElem hk, populateXform]
    by_cases h1 : r = 1
    · exact ⟨_, by rw [if_pos h1]; rfl⟩
    · exact ⟨_, by rw [if_neg h1, if_pos hr]; rfl⟩

theorem mapM_ok {α β : Type} {g : α → Except Err β} {l : List α} (h : ∀ a ∈ l, ∃ b, g a = .ok b) :
    ∃ r, l.mapM g = .ok r ∧ r.length = l.length ∧ ∀ (k : ℕ) a, l[k]? = some a → ∃ b, r[k]? = some b ∧ g a = .ok b := by
  induction l with
  | nil => exact ⟨[], rfl, rfl, by simp⟩
  | cons a l ih =>
    obtain ⟨b, hb⟩ := h a (by simp)
    obtain ⟨r, h1, h2, h3⟩ := ih fun a ha => h a (by simp [ha])
    refine ⟨b :: r, by simp [List.mapM_cons, hb, h1], by simp [h2], ?_⟩
    intro k a' hk
    cases k with
    | zero => simp at hk; subst hk; exact ⟨b, rfl, hb⟩
    | succ k => exact h3 k a' (by simpa using hk)

/-- A target sector whose source sector exists. -/
theorem sector_value {α : Type} [DecidableEq α] (ov : α → ℝ → ℕ → ℕ → ℝ) (src tgt : RSpace α)
    (srcSecs : List (ℕ × ℕ)) (blocks : ℕ → Mat) (hsrc : (src.map Prod.fst).Nodup) (hsec : srcSecs.Nodup)
    {tb tk : ℕ} {a b : α} {na nb : ℕ} (htb : tgt[tb]? = some (a, na)) (htk : tgt[tk]? = some (b, nb)) {r : ℝ} (hr : 0 < r)
    {idx ib ik db dk : ℕ} (h1 : srcSecs[idx]? = some (ib, ik)) (h2 : src[ib]? = some (a, db)) (h3 : src[ik]? = some (b, dk))
    (h4 : (blocks idx).rows = db) (h5 : (blocks idx).cols = dk) :
    ∃ M, transformSector ov src tgt srcSecs blocks (tb, tk) r = .ok M ∧ M.rows = na ∧ M.cols = nb ∧
      ∀ i j, M.val i j = ∑ p ∈ Finset.range db, ∑ q ∈ Finset.range dk,
        (if r = 1 then (if p = i then 1 else 0) else ov a r p i) *
          (if ib = ik ∧ q < p then (blocks idx).val q p else (blocks idx).val p q) *
          (if r = 1 then (if q = j then 1 else 0) else ov b r q j) := by
  have hlb := lookUp_of_nodup hsrc h2
  have hlk := lookUp_of_nodup hsrc h3
  have hls := sector_of_nodup hsec h1
  have hpop : ∀ d e lab, populateXform ov d e lab r =
      .ok ⟨d, e, fun p i => if r = 1 then (if p = i then 1 else 0) else ov lab r p i⟩ := by
    intro d e lab
    unfold populateXform
    by_cases h1 : r = 1
    · rw [if_pos h1]; simp only [h1, if_true]
    · rw [if_neg h1, if_pos hr]; simp only [h1, if_false]
  simp only [transformSector, htb, htk, xformEntry, hlb, hlk, h2, h3, hpop, Except.ok_bind', Except.pure_ok, hls, h1]
  set B := if ib = ik then completeLowerTriangle (blocks idx) else blocks idx with hB
  have hBr : B.rows = db := by rw [hB]; split <;> simp [completeLowerTriangle, h4]
  have hBc : B.cols = dk := by rw [hB]; split <;> simp [completeLowerTriangle, h5]
  have hBv : ∀ p q, B.val p q = if ib = ik ∧ q < p then (blocks idx).val q p else (blocks idx).val p q := by
    intro p q
    rw [hB]
    by_cases hd : ib = ik
    · simp [hd, completeLowerTriangle]
    · simp [hd]
  generalize B = B at *
  obtain ⟨Br, Bc, Bv⟩ := B
  simp only at hBr hBc hBv
  subst hBr hBc
  simp only [Mat.mul, Mat.transpose, if_true, Except.ok_bind']
  refine ⟨_, rfl, rfl, rfl, ?_⟩
  intro i j
  simp only [Finset.sum_mul]
  rw [Finset.sum_comm]
  refine Finset.sum_congr rfl fun p _ => Finset.sum_congr rfl fun q _ => ?_
  rw [hBv]

/-! ## C126 -/

/-- **C126, control file.** -/
theorem control_file {nm : Numbers} {file? : String → Option RelFile} {f : Gen.Input} {p : Params} :
    readParams nm file? f = .ok p ↔ ControlFile nm file? f p := by
  have num_ok : ∀ (ws : List String) (r : ℝ × List String), num nm ws = .ok r ↔ ∃ w, ws = w :: r.2 ∧ nm.num? w = some r.1 := by
    intro ws r
    cases ws with
    | nil => simp [num]
    | cons w ws =>
      simp only [num]
      cases h : nm.num? w with
      | none => simp [h]
      | some v =>
        obtain ⟨r1, r2⟩ := r
        simp only [Except.ok.injEq, Prod.mk.injEq, List.cons.injEq]
        constructor
        · rintro ⟨rfl, rfl⟩
          exact ⟨w, ⟨rfl, rfl⟩, h⟩
        · rintro ⟨w', ⟨rfl, rfl⟩, h'⟩
          rw [h] at h'
          exact ⟨Option.some.inj h', rfl⟩
  have exist_ok : ∀ a u, (match file? a with
    | some _ => (.ok () : Except Err Unit)
    | none => .error .exitFailure) = .ok u ↔ (file? a).isSome := by
    intro a u
    cases file? a <;> simp
  simp only [readParams, Except.bind_eq_ok, Gen.int_ok, Gen.word_ok, num_ok, exist_ok]
  constructor
  · rintro ⟨r0, e0, _, hs, r1, ⟨w1, e1, h1⟩, r2, ⟨w2, e2, h2⟩, r3, ⟨w3, e3, h3⟩, r4, e4, h⟩
    cases h
    exact ⟨⟨⟨r0.2, e0⟩, hs⟩, ⟨w1, w2, w3, r3.2, by rw [e1, e2, e3], h1, h2, h3⟩, ⟨r4.2, e4⟩⟩
  · rintro ⟨⟨⟨r, e0⟩, hs⟩, ⟨a, b, c, rest, e, h1, h2, h3⟩, ⟨r', e4⟩⟩
    obtain ⟨s, N, x, st, t⟩ := p
    exact ⟨(s, r), e0, (), hs, (N, _), ⟨a, e, h1⟩, (x, _), ⟨b, rfl, h2⟩, (st, _), ⟨c, rfl, h3⟩, (t, r'), e4, rfl⟩

theorem transform_value (overlap : ℕ → ℝ → Int → ℕ → ℕ → ℝ) (src : RelFile) (N : ℕ) {ratio : ℝ} (hr : 0 < ratio) (steps : Int) :
    ∃ out, transform overlap src N ratio steps = .ok out ∧ out.labels = src.labels ∧ out.Nmax = N ∧ out.Jmax = src.Jmax ∧
      ∀ (T0 k : ℕ) (x y : RelSub), (out.sectors T0)[k]? = some (x, y) → ∀ i j,
        (∀ (m : ℕ) (x' y' : RelSub), (src.sectors T0)[m]? = some (x', y') → (x'.L = x.L ∧ x'.S = x.S ∧ x'.J = x.J) →
          (y'.L = y.L ∧ y'.S = y.S ∧ y'.J = y.J) →
          out.blocks T0 k i j = ∑ a ∈ Finset.range x'.size, ∑ b ∈ Finset.range y'.size,
            change overlap ratio steps x.L a i * element src T0 m x' y' a b * change overlap ratio steps y.L b j) ∧
        (src.Nmax < x.L ∨ src.Nmax < y.L → out.blocks T0 k i j = 0) := by
  set ov : ℕ × ℕ × ℕ × ℕ → ℝ → ℕ → ℕ → ℝ := fun lab b => overlap lab.1 b steps with hov
  set tgt : RelFile := ⟨src.labels, N, src.Jmax, fun _ _ _ _ => 0⟩ with htgt
  set s := rspace (relSpace src.Nmax src.Jmax) with hs
  set t := rspace (relSpace tgt.Nmax tgt.Jmax) with ht
  obtain ⟨es, hes, -⟩ := mapM_ok (l := t) (g := fun sub => xformEntry ov s sub ratio) fun sub _ => entry_ok ov s sub hr
  -- one sector
  have found : ∀ (T0 k : ℕ) (x y : RelSub) (m : ℕ) (x' y' : RelSub), (tgt.sectors T0)[k]? = some (x, y) → (src.sectors T0)[m]? = some (x', y') →
      (x'.L = x.L ∧ x'.S = x.S ∧ x'.J = x.J) → (y'.L = y.L ∧ y'.S = y.S ∧ y'.J = y.J) →
      ∃ M, transformSector ov s t (pairs src T0) (blocksOf src T0)
        ((relSpace tgt.Nmax tgt.Jmax).idxOf x, (relSpace tgt.Nmax tgt.Jmax).idxOf y) ratio = .ok M ∧
        ∀ i j, M.val i j = ∑ a ∈ Finset.range x'.size, ∑ b ∈ Finset.range y'.size,
            change overlap ratio steps x.L a i * element src T0 m x' y' a b * change overlap ratio steps y.L b j := by
    intro T0 k x y m x' y' hk hm ex ey
    obtain ⟨-, hx, hy, -, -⟩ := mem_sectors.mp (List.mem_of_getElem? hk)
    obtain ⟨-, hx', hy', -, -⟩ := mem_sectors.mp (List.mem_of_getElem? hm)
    simp only at hx hy hx' hy'
    have eT : x'.T = x.T := by rw [relSub_eq hx, relSub_eq hx']; simp only [relSub, ex.1, ex.2.1]
    have eT' : y'.T = y.T := by rw [relSub_eq hy, relSub_eq hy']; simp only [relSub, ey.1, ey.2.1]
    have hb := rspace_at hx'
    have hkk := rspace_at hy'
    rw [ex.1, ex.2.1, ex.2.2, eT] at hb
    rw [ey.1, ey.2.1, ey.2.2, eT'] at hkk
    have hpr : (pairs src T0)[m]? = some ((relSpace src.Nmax src.Jmax).idxOf x', (relSpace src.Nmax src.Jmax).idxOf y') := by
      rw [pairs, List.getElem?_map, hm]; rfl
    have hblk : blocksOf src T0 m = ⟨x'.size, y'.size, src.blocks T0 m⟩ := by
      unfold blocksOf; rw [hm]
    obtain ⟨M, hM, -, -, hv⟩ := sector_value ov s t (pairs src T0) (blocksOf src T0) (rspace_labels_nodup _ _) (pairs_nodup src T0)
      (rspace_at hx) (rspace_at hy) hr hpr hb hkk (by rw [hblk]) (by rw [hblk])
    refine ⟨M, hM, fun i j => (hv i j).trans ?_⟩
    refine Finset.sum_congr rfl fun a _ => Finset.sum_congr rfl fun b _ => ?_
    rw [hblk]
    simp only [change, element, hov]
    have : ((relSpace src.Nmax src.Jmax).idxOf x' = (relSpace src.Nmax src.Jmax).idxOf y') ↔ x' = y' :=
      ⟨idxOf_inj hx' hy', fun h => by rw [h]⟩
    simp only [this]
  have missing : ∀ (T0 k : ℕ) (x y : RelSub), (tgt.sectors T0)[k]? = some (x, y) → src.Nmax < x.L ∨ src.Nmax < y.L →
      ∃ M, transformSector ov s t (pairs src T0) (blocksOf src T0)
        ((relSpace tgt.Nmax tgt.Jmax).idxOf x, (relSpace tgt.Nmax tgt.Jmax).idxOf y) ratio = .ok M ∧ ∀ i j, M.val i j = 0 := by
    intro T0 k x y hk hL
    obtain ⟨-, hx, hy, -, -⟩ := mem_sectors.mp (List.mem_of_getElem? hk)
    simp only at hx hy
    have hno : ∀ (ib : ℕ) (z : RelSub) (d : ℕ), src.Nmax < z.L → s[ib]? ≠ some ((z.L, z.S, z.J, z.T), d) := by
      intro ib z d hz h
      rw [hs, rspace, List.getElem?_map] at h
      cases h' : (relSpace src.Nmax src.Jmax)[ib]? with
      | none => rw [h'] at h; simp at h
      | some w =>
        rw [h'] at h
        simp only [Option.map_some, Option.some.injEq, Prod.mk.injEq] at h
        have := (mem_space.mp (List.mem_of_getElem? h')).1
        omega
    obtain ⟨M, hM, -, -, hv⟩ := missing_source_is_zero ov s t (pairs src T0) (blocksOf src T0) _ _ _ _ _ _
      (rspace_at hx) (rspace_at hy) ratio hr (by
        intro ib ik p q h1 h2
        rcases hL with h | h
        · exact absurd h1 (hno ib x p h)
        · exact absurd h2 (hno ik y q h))
    exact ⟨M, hM, hv⟩
  have sector_ok : ∀ (T0 k : ℕ) (x y : RelSub), (tgt.sectors T0)[k]? = some (x, y) →
      ∃ M, transformSector ov s t (pairs src T0) (blocksOf src T0)
        ((relSpace tgt.Nmax tgt.Jmax).idxOf x, (relSpace tgt.Nmax tgt.Jmax).idxOf y) ratio = .ok M := by
    intro T0 k x y hk
    by_cases hL : src.Nmax < x.L ∨ src.Nmax < y.L
    · obtain ⟨M, hM, -⟩ := missing T0 k x y hk hL
      exact ⟨M, hM⟩
    · obtain ⟨hT, hx, hy, ho, ha⟩ := mem_sectors.mp (List.mem_of_getElem? hk)
      simp only at hx hy ho
      push Not at hL
      obtain ⟨-, x2, x3, x4, -⟩ := mem_space.mp hx
      obtain ⟨-, y2, y3, y4, -⟩ := mem_space.mp hy
      have ex := relSub_eq hx
      have ey := relSub_eq hy
      have hm : (relSub src.Nmax x.L x.S x.J, relSub src.Nmax y.L y.S y.J) ∈ src.sectors T0 := by
        refine mem_sectors.mpr ⟨hT, relSub_mem.mpr ⟨hL.1, x2, x3, x4⟩, relSub_mem.mpr ⟨hL.2, y2, y3, y4⟩, ?_, ?_⟩
        · rcases ho with h | h
          · exact .inl (by simp only [h])
          · exact .inr h
        · have e1 : x.T = (x.L + x.S + 1) % 2 := congrArg RelSub.T ex
          have e2 : y.T = (y.L + y.S + 1) % 2 := congrArg RelSub.T ey
          have e3 : allowed tgt.labels T0 (x, y) = (tri x.J src.labels.J0 y.J && tri x.T T0 y.T &&
              decide ((x.L + y.L + src.labels.g0) % 2 = 0)) := rfl
          rw [e3, e1, e2] at ha
          exact ha
      obtain ⟨m, hm⟩ := List.getElem?_of_mem hm
      obtain ⟨M, hM, -⟩ := found T0 k x y m _ _ hk hm ⟨rfl, rfl, rfl⟩ ⟨rfl, rfl, rfl⟩
      exact ⟨M, hM⟩
  have comp_ok : ∀ T0, ∃ ms, transformComponent ov (rparams src) (rparams tgt) s t (pairs src T0) (pairs tgt T0) (blocksOf src T0) ratio
        = .ok ms ∧ ∀ (k : ℕ) (x y : RelSub), (tgt.sectors T0)[k]? = some (x, y) → ∃ M, ms[k]? = some M ∧
        transformSector ov s t (pairs src T0) (blocksOf src T0)
        ((relSpace tgt.Nmax tgt.Jmax).idxOf x, (relSpace tgt.Nmax tgt.Jmax).idxOf y) ratio = .ok M := by
    intro T0
    obtain ⟨ms, h1, -, h3⟩ := mapM_ok (l := pairs tgt T0)
      (g := fun sec => transformSector ov s t (pairs src T0) (blocksOf src T0) sec ratio) (by
        intro sec hsec
        obtain ⟨⟨x, y⟩, hp, rfl⟩ := List.mem_map.mp hsec
        obtain ⟨k, hk⟩ := List.getElem?_of_mem hp
        exact sector_ok T0 k x y hk)
    refine ⟨ms, ?_, fun k x y hk => ?_⟩
    · simp [transformComponent, rparams, htgt, assertE]
      exact h1
    · exact h3 k _ (by rw [pairs, List.getElem?_map, hk]; rfl)
  obtain ⟨comps, hc, -, hcv⟩ := mapM_ok (l := List.range (src.labels.T0max + 1 - src.labels.T0min))
    (g := fun d => transformComponent ov (rparams src) (rparams tgt) s t (pairs src (src.labels.T0min + d))
      (pairs tgt (src.labels.T0min + d)) (blocksOf src (src.labels.T0min + d)) ratio)
    fun d _ => (comp_ok _).imp fun _ h => h.1
  refine ⟨{ tgt with blocks := fun T0 k i j =>
    if src.labels.T0min ≤ T0 then
      match comps[T0 - src.labels.T0min]? with
      | some ms => match ms[k]? with
        | some m => m.val i j
        | none => 0
      | none => 0
    else 0 }, ?_, rfl, rfl, rfl, ?_⟩
  · simp only [transform]
    rw [hes, Except.ok_bind', hc, Except.ok_bind']
    rfl
  · intro T0 k x y hk i j
    change (tgt.sectors T0)[k]? = some (x, y) at hk
    obtain ⟨⟨hT1, hT2⟩, -⟩ := mem_sectors.mp (List.mem_of_getElem? hk)
    obtain ⟨ms, hms, hg⟩ := hcv (T0 - src.labels.T0min) (T0 - src.labels.T0min) (by
      rw [List.getElem?_range]
      simp only [htgt] at hT1 hT2
      omega)
    obtain ⟨ms', hms', hsec⟩ := comp_ok T0
    have e : src.labels.T0min + (T0 - src.labels.T0min) = T0 := by simp only [htgt] at hT1; omega
    beta_reduce at hg
    rw [e, hms'] at hg
    cases hg
    obtain ⟨M, hM, hMv⟩ := hsec k x y hk
    have hval : (if src.labels.T0min ≤ T0 then
      match comps[T0 - src.labels.T0min]? with
      | some ms => match ms[k]? with
        | some m => m.val i j
        | none => 0
      | none => 0
    else 0) = M.val i j := by
      rw [if_pos hT1, hms]
      simp only [hM]
    simp only [hval]
    refine ⟨fun m x' y' hm ex ey => ?_, fun hL => ?_⟩
    · obtain ⟨M', hM', hv⟩ := found T0 k x y m x' y' hk hm ex ey
      rw [hMv] at hM'
      cases hM'
      exact hv i j
    · obtain ⟨M', hM', hv⟩ := missing T0 k x y hk hL
      rw [hMv] at hM'
      cases hM'
      exact hv i j

/-- **C126.** The file written has the labels and the `Jmax` of the source and the `Nmax` asked for; each element is the one of
the source carried to the target basis by the overlaps of the two channels, the source being completed by symmetry;
channels that the source does not have are zero. -/
theorem written {nm : Numbers} {overlap : ℕ → ℝ → Int → ℕ → ℕ → ℝ} {file? : String → Option RelFile} {f : Gen.Input} {p : Params}
    (hf : ControlFile nm file? f p) {N : ℕ} (hN : p.Nmax = N) (hr : 0 < p.ratio) {src : RelFile} (hs : file? p.source = some src) :
    ∃ out, run nm overlap file? f = .ok (p.target, out) ∧ out.labels = src.labels ∧ out.Nmax = N ∧ out.Jmax = src.Jmax ∧
      ∀ (T0 k : ℕ) (x y : RelSub), (out.sectors T0)[k]? = some (x, y) → ∀ i j,
        (∀ (m : ℕ) (x' y' : RelSub), (src.sectors T0)[m]? = some (x', y') → (x'.L = x.L ∧ x'.S = x.S ∧ x'.J = x.J) →
          (y'.L = y.L ∧ y'.S = y.S ∧ y'.J = y.J) →
          out.blocks T0 k i j = ∑ a ∈ Finset.range x'.size, ∑ b ∈ Finset.range y'.size,
            change overlap p.ratio p.steps x.L a i * element src T0 m x' y' a b * change overlap p.ratio p.steps y.L b j) ∧
        (src.Nmax < x.L ∨ src.Nmax < y.L → out.blocks T0 k i j = 0) := by
  obtain ⟨out, h1, h2⟩ := transform_value overlap src N hr p.steps
  refine ⟨out, ?_, h2⟩
  simp only [run, control_file.mpr hf, Except.ok_bind', openFile, hs, hN, Int.toNat_natCast, h1, Except.pure_ok]
  rw [if_neg (by omega)]

/-- **C126.** With unit ratio the operator is not changed, only truncated or extended by zeros. -/
theorem unit_ratio {nm : Numbers} {overlap : ℕ → ℝ → Int → ℕ → ℕ → ℝ} {file? : String → Option RelFile} {f : Gen.Input} {p : Params}
    (hf : ControlFile nm file? f p) {N : ℕ} (hN : p.Nmax = N) (hr : p.ratio = 1) {src : RelFile} (hs : file? p.source = some src) :
    ∃ out, run nm overlap file? f = .ok (p.target, out) ∧ out.labels = src.labels ∧ out.Nmax = N ∧ out.Jmax = src.Jmax ∧
      ∀ (T0 k : ℕ) (x y : RelSub), (out.sectors T0)[k]? = some (x, y) → ∀ i j,
        (∀ (m : ℕ) (x' y' : RelSub), (src.sectors T0)[m]? = some (x', y') → (x'.L = x.L ∧ x'.S = x.S ∧ x'.J = x.J) →
          (y'.L = y.L ∧ y'.S = y.S ∧ y'.J = y.J) →
          out.blocks T0 k i j = if i < x'.size ∧ j < y'.size then element src T0 m x' y' i j else 0) ∧
        (src.Nmax < x.L ∨ src.Nmax < y.L → out.blocks T0 k i j = 0) := by
  obtain ⟨out, h1, h2, h3, h4, h5⟩ := written (overlap := overlap) hf hN (by rw [hr]; norm_num) hs
  refine ⟨out, h1, h2, h3, h4, fun T0 k x y hk i j => ⟨fun m x' y' hm ex ey => ?_, (h5 T0 k x y hk i j).2⟩⟩
  rw [(h5 T0 k x y hk i j).1 m x' y' hm ex ey]
  simp only [change, hr, if_true, mul_ite, mul_one, mul_zero, ite_mul, one_mul, zero_mul]
  simp only [Finset.sum_ite_eq', Finset.mem_range]
  by_cases hj : j < y'.size
  · simp only [hj, if_true, and_true]
    rw [Finset.sum_ite_eq']
    simp only [Finset.mem_range]
  · simp [hj]

/-- **C126.** A ratio that is not positive ends the program, for every source. -/
theorem bad_ratio {nm : Numbers} {overlap : ℕ → ℝ → Int → ℕ → ℕ → ℝ} {file? : String → Option RelFile} {f : Gen.Input} {p : Params}
    (hf : ControlFile nm file? f p) {N : ℕ} (hN : p.Nmax = N) (hr : p.ratio ≤ 0) :
    run nm overlap file? f = .error .assertFail := by
  obtain ⟨src, hs⟩ := Option.isSome_iff_exists.mp hf.source.2
  have hfst : ∀ N J : ℕ, ∃ l, relSpace N J = relSub N 0 0 0 :: l := by
    intro N J
    have hm : relSub N 0 0 0 ∈ relSpace N J := relSub_mem.mpr ⟨by omega, by omega, by omega, by simp [tri]⟩
    have hne : relSpace N J ≠ [] := List.ne_nil_of_mem hm
    obtain ⟨a, l, h⟩ := List.exists_cons_of_ne_nil hne
    refine ⟨l, ?_⟩
    rw [h] at hm
    have hp := space_sorted N J
    rw [h, List.pairwise_cons] at hp
    rcases List.mem_cons.mp hm with rfl | hl
    · exact h
    · have := hp.1 _ hl
      rcases this with h | ⟨-, h | ⟨-, h⟩⟩ <;> simp [relSub] at h
  have key : ∀ ov : ℕ × ℕ × ℕ × ℕ → ℝ → ℕ → ℕ → ℝ, (rspace (relSpace N src.Jmax)).mapM
      (fun sub => xformEntry ov (rspace (relSpace src.Nmax src.Jmax)) sub p.ratio) = .error .assertFail := by
    intro ov
    obtain ⟨l, h⟩ := hfst N src.Jmax
    obtain ⟨l', h'⟩ := hfst src.Nmax src.Jmax
    have e : xformEntry ov (rspace (relSpace src.Nmax src.Jmax)) ((0, 0, 0, 1), N / 2 + 1) p.ratio = .error .assertFail := by
      rw [h']
      have : p.ratio ≠ 1 := by intro h; linarith
      simp [xformEntry, rspace, relSub, lookUpSubspace, List.findIdx?_cons, populateXform, this, not_lt.mpr hr]
    rw [h]
    simp only [rspace, List.map_cons, List.mapM_cons, relSub] at e ⊢
    simp only [Nat.sub_zero, Nat.zero_add, Nat.add_zero]
    rw [show (0 + 0 + 1) % 2 = 1 from rfl]
    rw [e]
    rfl
  simp only [run, control_file.mpr hf, Except.ok_bind', openFile, hs, hN, Int.toNat_natCast, transform, key, Except.error_bind']
  rw [if_neg (by omega)]

end XformProgram

/-! ## C127 -/

namespace Filter

/-- **C127, partial.** The file written has the labels, the truncation and the stored elements of the source: what the filter
`identity` is to do. -/
theorem written_partial {file? : String → Option RelFile} {f : Gen.Input} {a b : String} {rest : List String}
    (h : f.line 0 = a :: b :: rest) {src : RelFile} (hs : file? a = some src) :
    ∃ out, run file? f = .ok (b, out) ∧ out.labels = src.labels ∧ out.Nmax = src.Nmax ∧ out.Jmax = src.Jmax ∧
      ∀ (T0 k : ℕ) (x y : RelSub), (out.sectors T0)[k]? = some (x, y) → ∀ i j, i < x.size → j < y.size → (x = y → i ≤ j) →
        out.blocks T0 k i j = src.blocks T0 k i j := by
  refine ⟨filter src, by simp [run, readParams, h, word, openFile, hs], rfl, rfl, rfl, ?_⟩
  intro T0 k x y hk i j hi hj hd
  change (src.sectors T0)[k]? = some (x, y) at hk
  obtain ⟨hT, -⟩ := mem_sectors.mp (List.mem_of_getElem? hk)
  simp only [filter, hT, and_self, if_true, hk, hi, hj, true_and]
  rw [if_pos]
  rintro ⟨rfl, h⟩
  exact h (hd rfl)

/-- The files of the documented example, asking for no quanta, and for a filter that does not exist. -/
def cutoff : Gen.Input := ⟨[["a", "b"], ["Nrelmax", "0"]], true⟩
def unknown : Gen.Input := ⟨[["a", "b"], ["Nmaximum"]], true⟩

/-- An operator with the element one between the states of one node of the first channel. -/
noncomputable def sample : RelFile := ⟨⟨0, 0, 0, 0⟩, 2, 0, fun _ _ i j => if i = 1 ∧ j = 1 then 1 else 0⟩

/-- **C127, violation.** The cutoff is ignored: an element between states of two quanta is kept; a filter that does not exist is
accepted. -/
theorem cutoff_ignored : ∃ file? : String → Option RelFile, ∃ out, run file? cutoff = .ok ("b", out) ∧
    run file? unknown = .ok ("b", out) ∧
    (out.sectors 0)[0]? = some (relSub 2 0 0 0, relSub 2 0 0 0) ∧ out.blocks 0 0 1 1 = 1 := by
  have hsec : (sample.sectors 0)[0]? = some (relSub 2 0 0 0, relSub 2 0 0 0) := by decide
  refine ⟨fun _ => some sample, filter sample, rfl, rfl, hsec, ?_⟩
  obtain ⟨out, h1, -, -, -, h5⟩ := written_partial (file? := fun _ => some sample) (f := cutoff) (a := "a") (b := "b") rfl rfl
  have e : out = filter sample := by
    have : run (fun _ => some sample) cutoff = .ok ("b", filter sample) := rfl
    rw [h1] at this
    simpa using this
  subst e
  rw [h5 0 0 _ _ hsec 1 1 (by decide) (by decide) (fun _ => le_refl _)]
  simp [sample]

/-- **C127.** Nothing of the second line, or of the following ones, matters. -/
theorem filter_line_unread {file? : String → Option RelFile} {f g : Gen.Input} (h : f.line 0 = g.line 0) : run file? f = run file? g := by
  simp only [run, readParams, h]

end Filter

end Verif.Relative
