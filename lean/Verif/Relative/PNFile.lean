import Verif.Relative.ConvertersProps

/-!
# What `pn2rel` writes (C124)
-/

namespace Verif.Relative.Pn2Rel
open Verif Verif.H2
open Verif.Relative.Jpv2Rel (tmod_iso tmod_two sub_found sub_only size_at order_L sector_index_unique)

/-! ## Specification -/

/-- A line of the file: the element between `n' L'` and `n L` of the channel `S`, `J`, for the projection `Tz`. -/
structure Row where
  np : ℕ
  Lp : ℕ
  n : ℕ
  L : ℕ
  S : ℕ
  J : ℕ
  Tz : Int
  me : ℝ

/-- The words of a line; what follows the value does not matter. -/
def RowLine (r : Row) (l : Line) : Prop :=
  ∃ tok rest, l = .int r.np :: .int r.Lp :: .int r.n :: .int r.L :: .int r.S :: .int r.J :: .int r.Tz :: tok :: rest ∧
    tok.toReal = some r.me

/-- The line gives the value `v` to the element between the states `i` of `x` and `j` of `y`: directly or by hermiticity. -/
def Row.Gives (r : Row) (Tz : Int) (x y : RelSub) (i j : ℕ) (v : ℝ) : Prop :=
  r.Tz = Tz ∧ v = r.me ∧ (r.S = x.S ∧ r.S = y.S ∧ r.J = x.J ∧ r.J = y.J) ∧
    ((r.Lp = x.L ∧ r.L = y.L ∧ r.np = i ∧ r.n = j) ∨ (r.Lp = y.L ∧ r.L = x.L ∧ r.np = j ∧ r.n = i))

/-- What a file says about an element: the value all its lines agree on, or zero if there is none. -/
def Says (rows : List Row) (Tz : Int) (x y : RelSub) (i j : ℕ) (v : ℝ) : Prop :=
  ((∃ r ∈ rows, r.Gives Tz x y i j v) ∧ ∀ r ∈ rows, ∀ v', r.Gives Tz x y i j v' → v' = v) ∨
  (v = 0 ∧ ∀ r ∈ rows, ∀ v', ¬ r.Gives Tz x y i j v')

/-- The channels of the line are in the space. -/
def Row.Channels (r : Row) (Nmax Jmax : ℕ) : Prop :=
  r.L ≤ Nmax ∧ r.Lp ≤ Nmax ∧ r.S ≤ 1 ∧ r.J ≤ Jmax ∧ tri r.L r.S r.J ∧ tri r.Lp r.S r.J

/-- The line is one of those the program is meant for; the radial quantum numbers are free. -/
def Row.In (r : Row) (Nmax Jmax : ℕ) : Prop :=
  r.Channels Nmax Jmax ∧ (r.L + r.Lp) % 2 = 0 ∧ -1 ≤ r.Tz ∧ r.Tz ≤ 1

/-- The projection by which the files label a pair: opposite to that of the code. -/
def fileTz : Sp → Int
  | .pp => -1
  | .pn => 0
  | .nn => 1

/-! ## One line -/

/-- The fields of a line. -/
def Row.fields (r : Row) : PNLine := ⟨r.np, r.Lp, r.n, r.L, r.S, r.J, r.Tz, r.me⟩

theorem row_parse {r : Row} {l : Line} (h : RowLine r l) : parsePN l = .ok r.fields := by
  obtain ⟨tok, rest, rfl, ht⟩ := h
  simp only [parsePN, ht, Row.fields]

theorem channels_found {Nmax Jmax : ℕ} {r : Row} (h : r.Channels Nmax Jmax) :
    ∃ b k, (relSpace Nmax Jmax)[b]? = some (relSub Nmax r.Lp r.S r.J) ∧ (relSpace Nmax Jmax)[k]? = some (relSub Nmax r.L r.S r.J) ∧
      (jspace Nmax Jmax 2).sub r.Lp r.S r.J (((r.Lp : Int) + r.S + 1).tmod 2) ((r.Lp : Int).tmod 2) = some b ∧
      (jspace Nmax Jmax 2).sub r.L r.S r.J (((r.L : Int) + r.S + 1).tmod 2) ((r.L : Int).tmod 2) = some k := by
  obtain ⟨h1, h2, h3, h4, h5, h6⟩ := h
  obtain ⟨b, hb, hb'⟩ := sub_found (T0max := 2) (relSub_mem.mpr ⟨h2, h3, h4, h6⟩)
  obtain ⟨k, hk, hk'⟩ := sub_found (T0max := 2) (relSub_mem.mpr ⟨h1, h3, h4, h5⟩)
  exact ⟨b, k, hb, hk, hb', hk'⟩

/-- Sector of two channels of one `S`, `J` and parity. -/
theorem sector_found {Nmax Jmax b k L' L S J : ℕ} (hb : (relSpace Nmax Jmax)[b]? = some (relSub Nmax L' S J))
    (hk : (relSpace Nmax Jmax)[k]? = some (relSub Nmax L S J)) (hle : L' ≤ L) (hpar : (L' + L) % 2 = 0) :
    ∃ idx, (jspace Nmax Jmax 2).sector b k = some idx ∧
      (relSectors (scalarLabels 2) (relSpace Nmax Jmax) 0)[idx]? = some (relSub Nmax L' S J, relSub Nmax L S J) := by
  have hm : (relSub Nmax L' S J, relSub Nmax L S J) ∈ relSectors (scalarLabels 2) (relSpace Nmax Jmax) 0 := by
    rw [mem_sectors]
    refine ⟨⟨by simp [scalarLabels], by simp⟩, List.mem_of_getElem? hb, List.mem_of_getElem? hk,
      (index_order hb hk).mp ((order_L hb hk).mpr hle), ?_⟩
    rw [scalar_allowed]
    refine ⟨rfl, ?_, hpar⟩
    change tri ((L' + S + 1) % 2) 0 ((L + S + 1) % 2) = true
    rw [tri, decide_eq_true_iff]
    omega
  obtain ⟨idx, hidx⟩ := List.getElem?_of_mem hm
  exact ⟨idx, secIndex_at hb hk hidx, hidx⟩

theorem row_accepted {Nmax Jmax : ℕ} {r : Row} (h : r.In Nmax Jmax) {l : Line} (hl : RowLine r l) (op : Op) :
    ∃ op', pnStep (jspace Nmax Jmax 2) op l = .ok op' := by
  obtain ⟨hc, hpar, hT1, hT2⟩ := h
  obtain ⟨b, k, hb, hk, hb', hk'⟩ := channels_found hc
  have hsec : ∃ idx, (jspace Nmax Jmax 2).sector (min b k) (max b k) = some idx := by
    rcases le_total r.Lp r.L with hle | hle
    · have : b ≤ k := (order_L hb hk).mpr hle
      rw [min_eq_left this, max_eq_right this]
      obtain ⟨idx, hi, -⟩ := sector_found hb hk hle (by omega)
      exact ⟨idx, hi⟩
    · have : k ≤ b := (order_L hk hb).mpr hle
      rw [min_eq_right this, max_eq_left this]
      obtain ⟨idx, hi, -⟩ := sector_found hk hb hle (by omega)
      exact ⟨idx, hi⟩
  obtain ⟨idx, hidx⟩ := hsec
  have hw : ∃ ws, pnWrites (jspace Nmax Jmax 2) r.fields = .ok ws := by
    unfold pnWrites
    simp only [Row.fields, hb', hk', hidx]
    rw [if_neg (by omega)]
    split_ifs <;> simp <;> omega
  obtain ⟨ws, hw⟩ := hw
  exact ⟨ws.foldl Write.apply op, by simp [pnStep, row_parse hl, hw]⟩

/-- The cells that a line assigns are the elements that it gives. -/
theorem assigns_iff {Nmax Jmax : ℕ} {r : Row} {idx : ℕ} {x y : RelSub}
    (hidx : (relSectors (scalarLabels 2) (relSpace Nmax Jmax) 0)[idx]? = some (x, y)) {c i j : ℕ} (hi : i < x.size)
    (hj : j < y.size) (v : ℝ) :
    Assigns (jspace Nmax Jmax 2) r.fields (c, idx, i, j) v ↔ r.Gives ((c : Int) - 1) x y i j v := by
  obtain ⟨-, hx, hy, hord, hal⟩ := mem_sectors.mp (List.mem_of_getElem? hidx)
  simp only at hx hy hord
  have ex := relSub_eq hx
  have ey := relSub_eq hy
  have hxy : x.S = y.S → x.J = y.J → x.L ≤ y.L := by
    intro _ _
    rcases hord with rfl | h | ⟨h, _⟩ <;> omega
  constructor
  · rintro ⟨e1, e2, b, k, hb, hk, h⟩
    simp only [Row.fields] at e1 e2 hb hk h
    have sb := sub_only hb
    have sk := sub_only hk
    refine ⟨by omega, e1, ?_⟩
    rcases h with ⟨-, hs, h1, h2, -⟩ | ⟨-, hs, h1, h2, -⟩
    · obtain ⟨x', y', hx', hy', hsec⟩ := secIndex_some hs
      rw [hidx] at hsec
      cases hsec
      rw [sb] at hx'
      rw [sk] at hy'
      cases hx'
      cases hy'
      exact ⟨⟨rfl, rfl, rfl, rfl⟩, .inl ⟨rfl, rfl, by omega, by omega⟩⟩
    · obtain ⟨x', y', hx', hy', hsec⟩ := secIndex_some hs
      rw [hidx] at hsec
      cases hsec
      rw [sk] at hx'
      rw [sb] at hy'
      cases hx'
      cases hy'
      exact ⟨⟨rfl, rfl, rfl, rfl⟩, .inr ⟨rfl, rfl, by omega, by omega⟩⟩
  · rintro ⟨e1, e2, ⟨s1, s2, s3, s4⟩, h⟩
    have ex' : x = relSub Nmax x.L r.S r.J := by rw [s1, s3]; exact ex
    have ey' : y = relSub Nmax y.L r.S r.J := by rw [s2, s4]; exact ey
    obtain ⟨bx, hbx, hbx'⟩ := sub_found (T0max := 2) (ex' ▸ hx)
    obtain ⟨by', hby, hby'⟩ := sub_found (T0max := 2) (ey' ▸ hy)
    have hle : bx ≤ by' := (order_L hbx hby).mpr (hxy (by omega) (by omega))
    have hsec : (jspace Nmax Jmax 2).sector bx by' = some idx :=
      secIndex_at hbx hby (by rw [← ex', ← ey']; exact hidx)
    have z1 : (jspace Nmax Jmax 2).size bx = x.size := by rw [size_at hbx, ← ex']
    have z2 : (jspace Nmax Jmax 2).size by' = y.size := by rw [size_at hby, ← ey']
    refine ⟨e2, by simp only [Row.fields]; omega, ?_⟩
    rcases h with ⟨h1, h2, h3, h4⟩ | ⟨h1, h2, h3, h4⟩
    · rw [← h1] at hbx'
      rw [← h2] at hby'
      exact ⟨bx, by', hbx', hby', .inl ⟨hle, hsec, by simp only [Row.fields]; omega, by simp only [Row.fields]; omega,
        by rw [z1]; exact hi, by rw [z2]; exact hj⟩⟩
    · rw [← h2] at hbx'
      rw [← h1] at hby'
      exact ⟨by', bx, hby', hbx', .inr ⟨hle, hsec, by simp only [Row.fields]; omega, by simp only [Row.fields]; omega,
        by rw [z1]; exact hi, by rw [z2]; exact hj⟩⟩

/-! ## All lines -/

theorem rows_read {Nmax Jmax : ℕ} {rows : List Row} {lines : List Line} (h : List.Forall₂ RowLine rows lines)
    (hin : ∀ r ∈ rows, r.In Nmax Jmax) (op : Op) :
    ∃ op', readPN (jspace Nmax Jmax 2) op lines = .ok op' ∧
      ∀ idx x y, (relSectors (scalarLabels 2) (relSpace Nmax Jmax) 0)[idx]? = some (x, y) → ∀ i j, i < x.size → j < y.size →
        ∀ c : ℕ, (∀ v, (∃ r ∈ rows, r.Gives ((c : Int) - 1) x y i j v) →
          (∀ r ∈ rows, ∀ v', r.Gives ((c : Int) - 1) x y i j v' → v' = v) → op' c idx i j = v) ∧
        ((∀ r ∈ rows, ∀ v, ¬ r.Gives ((c : Int) - 1) x y i j v) → op' c idx i j = op c idx i j) := by
  induction h generalizing op with
  | nil => exact ⟨op, rfl, fun idx x y _ i j _ _ c => ⟨by simp, fun _ => rfl⟩⟩
  | @cons r l rows lines hr hrest ih =>
    obtain ⟨op1, s1⟩ := row_accepted (hin r (by simp)) hr op
    obtain ⟨op2, r2, v2⟩ := ih (fun r hr => hin r (by simp [hr])) op1
    refine ⟨op2, ?_, fun idx x y hidx i j hi hj c => ?_⟩
    · rw [readPN_cons, s1]
      exact r2
    · obtain ⟨p, hp, a1, a2⟩ := pnStep_value s1
      rw [row_parse hr] at hp
      cases hp
      replace a1 := a1 c idx i j
      replace a2 := a2 c idx i j
      simp only [assigns_iff hidx hi hj] at a1 a2
      obtain ⟨b1, b2⟩ := v2 idx x y hidx i j hi hj c
      simp only [List.mem_cons, exists_eq_or_imp, forall_eq_or_imp]
      refine ⟨?_, ?_⟩
      · rintro v hex ⟨hag, hag'⟩
        by_cases hlater : ∃ t ∈ rows, t.Gives ((c : Int) - 1) x y i j v
        · exact b1 v hlater hag'
        · have hno : ∀ t ∈ rows, ∀ w, ¬ t.Gives ((c : Int) - 1) x y i j w := by
            intro t ht w hw
            obtain rfl := hag' t ht w hw
            exact hlater ⟨t, ht, hw⟩
          rw [b2 hno]
          exact a1 v (hex.resolve_right hlater)
      · rintro ⟨h1, h2⟩
        rw [b2 h2, a2 h1]

/-! ## C124 -/

/-- **C124.** If every line is meant for the program, the operator is written, and its three isospin components combine, in each
sector with `T = 1`, to the pp, nn and pn elements of the file; a sector with `T = 0` has the pn elements; sectors that
change isospin are zero. -/
theorem written {int? : String → Option Int} {file? : String → Option (List Line)} {a b src tgt : String} {more : List String}
    {N J : ℕ} (hN : int? a = some (N : Int)) (hJ : int? b = some (J : Int)) {lines : List Line} (hsrc : file? src = some lines)
    {rows : List Row} (hf : List.Forall₂ RowLine rows lines) (hin : ∀ r ∈ rows, r.In N J) :
    ∃ out : RelFile, run int? file? (a :: b :: src :: tgt :: more) = .ok (tgt, out) ∧ out.labels = ⟨0, 0, 0, 2⟩ ∧
      out.Nmax = N ∧ out.Jmax = J ∧
      (∀ x y, (x, y) ∈ out.sectors 0 → x.T = 1 → ∃ t : ℕ → ℕ, (∀ T0 ≤ 2, (out.sectors T0)[t T0]? = some (x, y)) ∧
        ∀ i j, i < x.size → j < y.size → ∀ s v, Says rows (fileTz s) x y i j v → projected out t s.Tz i j = v) ∧
      (∀ k x y, (out.sectors 0)[k]? = some (x, y) → x.T = 0 → ∀ i j, i < x.size → j < y.size →
        ∀ v, Says rows (fileTz .pn) x y i j v → out.blocks 0 k i j = v) ∧
      (∀ T0 k x y, (out.sectors T0)[k]? = some (x, y) → x.T ≠ y.T → ∀ i j, out.blocks T0 k i j = 0) := by
  obtain ⟨op, h1, h2⟩ := rows_read hf hin (fun _ _ _ _ => 0)
  have hsays : ∀ idx x y, (relSectors (scalarLabels 2) (relSpace N J) 0)[idx]? = some (x, y) → ∀ i j, i < x.size →
      j < y.size → ∀ (s : Sp) v, Says rows (fileTz s) x y i j v → op s.col idx i j = v := by
    intro idx x y hidx i j hi hj s v hv
    obtain ⟨a, b⟩ := h2 idx x y hidx i j hi hj s.col
    have e : ((s.col : ℕ) : Int) - 1 = fileTz s := by cases s <;> simp [Sp.col, fileTz]
    rw [e] at a b
    rcases hv with ⟨h, h'⟩ | ⟨rfl, h⟩
    · exact a v h h'
    · exact b h
  have hg := sectors_good N J
  have hadds := pnAdds_ok hg op
  obtain ⟨l, hl, htrip⟩ := pn_round_trip hg op
  obtain ⟨l', hl', hother⟩ := pn_other_sectors hg op
  rw [hl] at hl'
  cases hl'
  refine ⟨⟨scalarLabels 2, N, J, accumulate (fun _ _ _ _ => 0) l⟩, ?_, rfl, rfl, rfl, ?_, ?_, ?_⟩
  · simp only [run, hN, hJ]
    rw [if_neg (by omega)]
    simp only [openFile, hsrc, Except.ok_bind', read, Int.toNat_natCast, h1, hl, Except.pure_ok]
  · intro x y hxy hT
    obtain ⟨-, hx, hy, ho, ha⟩ := mem_sectors.mp hxy
    rw [scalar_allowed] at ha
    have hTy : y.T = 1 := by
      have := ha.2.1
      rw [tri, decide_eq_true_iff] at this
      omega
    obtain ⟨k, hk⟩ := List.getElem?_of_mem hxy
    have hm : (k, (⟨(relSpace N J).idxOf x, (relSpace N J).idxOf y, x.T, y.T⟩ : Sec)) ∈ secList N J 2 :=
      mem_secList.mpr ⟨x, y, hk, rfl⟩
    obtain ⟨t, ht, hb⟩ := htrip _ hm hT hTy
    refine ⟨t, fun T0 hT0 => (lookTarget_iff hx hy).mp (ht T0 hT0), ?_⟩
    intro i j hi hj s v hv
    rw [projected_branched]
    exact (hb s i j).trans (hsays k x y hk i j hi hj s v hv)
  · intro k x y hk hT i j hi hj v hv
    obtain ⟨-, hx, hy, ho, ha⟩ := mem_sectors.mp (List.mem_of_getElem? hk)
    rw [scalar_allowed] at ha
    have hTy : y.T = 0 := by
      have := ha.2.1
      rw [tri, decide_eq_true_iff] at this
      omega
    have hm : (k, (⟨(relSpace N J).idxOf x, (relSpace N J).idxOf y, x.T, y.T⟩ : Sec)) ∈ secList N J 2 :=
      mem_secList.mpr ⟨x, y, hk, rfl⟩
    rw [← hsays k x y hk i j hi hj .pn v hv]
    exact (hother _ hm).1 hT hTy i j
  · intro T0 k x y hk hne i j
    refine untouched ?_ i j
    rw [hadds] at hl
    cases hl
    rintro a ha ⟨rfl, rfl⟩
    simp only [List.mem_flatten, List.mem_map] at ha
    obtain ⟨_, ⟨_, ⟨p, hp, rfl⟩, hq⟩, ha⟩ := ha
    obtain ⟨c, hc, rfl⟩ := List.mem_map.mp hq
    obtain ⟨x', y', h, hT⟩ := addsOf_places hp ha
    change (relSectors (scalarLabels 2) (relSpace N J) a.T0)[a.idx]? = some (x, y) at hk
    rw [hk] at h
    cases h
    exact hne hT

/-! ## C125 -/

theorem first_fails {sp : JSpace} {op : Op} {pre : List Line} {l : Line} {post : List Line} {e : Err}
    (hpre : ∀ l ∈ pre, ∃ q q', pnStep sp q l = .ok q') (hl : ∀ op, pnStep sp op l = .error e) :
    readPN sp op (pre ++ l :: post) = .error e := by
  obtain ⟨op1, h1⟩ := (readPN_ok_iff sp op pre).mpr hpre
  unfold readPN at h1 ⊢
  rw [List.foldlM_append, h1, Except.ok_bind', List.foldlM_cons, hl]
  rfl

/-- **C125, violation.** A line between channels of different parity is not recognised: the sector is not found, and the
program goes on with the index of no sector. -/
theorem parity_unchecked {int? : String → Option Int} {file? : String → Option (List Line)} {a b src tgt : String}
    {more : List String} {N J : ℕ} (hN : int? a = some (N : Int)) (hJ : int? b = some (J : Int)) {pre post : List Line} {l : Line}
    (hsrc : file? src = some (pre ++ l :: post)) {rows : List Row} (hf : List.Forall₂ RowLine rows pre)
    (hin : ∀ r ∈ rows, r.In N J) {r : Row} (hl : RowLine r l) (hc : r.Channels N J) (hpar : (r.L + r.Lp) % 2 = 1) :
    run int? file? (a :: b :: src :: tgt :: more) = .error .undefinedBehaviour := by
  have hstep : ∀ op, pnStep (jspace N J 2) op l = .error .undefinedBehaviour := by
    intro op
    obtain ⟨b, k, hb, hk, hb', hk'⟩ := channels_found hc
    have hno : ∀ b' k' L1 L2, (relSpace N J)[b']? = some (relSub N L1 r.S r.J) → (relSpace N J)[k']? = some (relSub N L2 r.S r.J) →
        (L1 + L2) % 2 = 1 → (jspace N J 2).sector b' k' = none := by
      intro b' k' L1 L2 h1 h2 hp
      rw [Option.eq_none_iff_forall_ne_some]
      intro idx hidx
      obtain ⟨x, y, hx, hy, hs⟩ := secIndex_some hidx
      rw [h1] at hx
      rw [h2] at hy
      cases hx
      cases hy
      obtain ⟨-, -, -, -, ha⟩ := mem_sectors.mp (List.mem_of_getElem? hs)
      rw [scalar_allowed] at ha
      have := ha.2.2
      simp only [relSub] at this
      omega
    have hsec : (jspace N J 2).sector (min b k) (max b k) = none := by
      rcases le_total b k with h | h
      · rw [min_eq_left h, max_eq_right h]
        exact hno b k _ _ hb hk (by omega)
      · rw [min_eq_right h, max_eq_left h]
        exact hno k b _ _ hk hb (by omega)
    have hw : pnWrites (jspace N J 2) r.fields = .error .undefinedBehaviour := by
      unfold pnWrites
      simp only [Row.fields, hb', hk', hsec]
      split <;> rfl
    simp [pnStep, row_parse hl, hw]
  have hpre : ∀ l ∈ pre, ∃ q q', pnStep (jspace N J 2) q l = .ok q' := by
    obtain ⟨op', h, -⟩ := rows_read hf hin (fun _ _ _ _ => 0)
    exact (readPN_ok_iff _ _ _).mp ⟨op', h⟩
  simp only [run, hN, hJ]
  rw [if_neg (by omega)]
  simp only [openFile, hsrc, Except.ok_bind', read, Int.toNat_natCast, first_fails hpre hstep, Except.error_bind']

/-- **C125.** A line with a channel outside the space ends the program. -/
theorem outside_refused {int? : String → Option Int} {file? : String → Option (List Line)} {a b src tgt : String}
    {more : List String} {N J : ℕ} (hN : int? a = some (N : Int)) (hJ : int? b = some (J : Int)) {pre post : List Line} {l : Line}
    (hsrc : file? src = some (pre ++ l :: post)) {rows : List Row} (hf : List.Forall₂ RowLine rows pre)
    (hin : ∀ r ∈ rows, r.In N J) {r : Row} (hl : RowLine r l) (hc : ¬ r.Channels N J) :
    run int? file? (a :: b :: src :: tgt :: more) = .error .exitFailure := by
  have hstep : ∀ op, pnStep (jspace N J 2) op l = .error .exitFailure := by
    intro op
    refine pn_outside_channel_aborts (row_parse hl) ?_
    by_contra hcon
    push Not at hcon
    apply hc
    obtain ⟨c1, c2⟩ := hcon
    obtain ⟨b, hb⟩ := Option.ne_none_iff_exists'.mp c1
    obtain ⟨k, hk⟩ := Option.ne_none_iff_exists'.mp c2
    obtain ⟨b1, b2, b3, b4⟩ := relSub_mem.mp (List.mem_of_getElem? (sub_only hb))
    obtain ⟨k1, k2, k3, k4⟩ := relSub_mem.mp (List.mem_of_getElem? (sub_only hk))
    exact ⟨k1, b1, b2, b3, k4, b4⟩
  have hpre : ∀ l ∈ pre, ∃ q q', pnStep (jspace N J 2) q l = .ok q' := by
    obtain ⟨op', h, -⟩ := rows_read hf hin (fun _ _ _ _ => 0)
    exact (readPN_ok_iff _ _ _).mp ⟨op', h⟩
  simp only [run, hN, hJ]
  rw [if_neg (by omega)]
  simp only [openFile, hsrc, Except.ok_bind', read, Int.toNat_natCast, first_fails hpre hstep, Except.error_bind']

/-- **C125, violation.** With two or three arguments the check of their number passes, and a file name is made from a null
pointer. -/
theorem missing_arguments_unchecked {int? : String → Option Int} {file? : String → Option (List Line)} {a b : String}
    {N J : Int} (hN : int? a = some N) (hJ : int? b = some J) :
    run int? file? [a, b] = .error .undefinedBehaviour ∧ ∀ src, run int? file? [a, b, src] = .error .undefinedBehaviour := by
  simp [run, hN, hJ]

/-- **C125.** Fewer arguments are refused. -/
theorem arguments_missing {int? : String → Option Int} {file? : String → Option (List Line)} {args : List String}
    (h : args.length < 2) : run int? file? args = .error .exitFailure := by
  match args, h with
  | [], _ => rfl
  | [_], _ => rfl

end Verif.Relative.Pn2Rel
