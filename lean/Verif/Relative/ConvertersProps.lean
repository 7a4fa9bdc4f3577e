import Verif.Relative.JPVFile
import Verif.Relative.GenProps

/-!
# What `jpv2rel` writes (C122, C123)
-/

namespace Verif.Relative
open Verif Verif.H2 Verif.Mixer.Control

/-! ## The sectors in three components -/

theorem getElem_idxOf {Nmax Jmax : ℕ} {x : RelSub} (h : x ∈ relSpace Nmax Jmax) :
    (relSpace Nmax Jmax)[(relSpace Nmax Jmax).idxOf x]? = some x := by
  rw [List.getElem?_eq_getElem (List.idxOf_lt_length_of_mem h), List.getElem_idxOf]

theorem mem_secList {Nmax Jmax T0max : ℕ} {p : ℕ × Sec} :
    p ∈ secList Nmax Jmax T0max ↔ ∃ x y, (relSectors (scalarLabels T0max) (relSpace Nmax Jmax) 0)[p.1]? = some (x, y) ∧
      p.2 = ⟨(relSpace Nmax Jmax).idxOf x, (relSpace Nmax Jmax).idxOf y, x.T, y.T⟩ := by
  obtain ⟨i, s⟩ := p
  simp only [secList, List.mem_map, Prod.mk.injEq, Prod.exists]
  constructor
  · rintro ⟨x, y, k, hk, rfl, rfl⟩
    rw [List.mem_zipIdx_iff_getElem?] at hk
    exact ⟨x, y, hk, rfl⟩
  · rintro ⟨x, y, hk, rfl⟩
    exact ⟨x, y, i, List.mem_zipIdx_iff_getElem?.mpr hk, rfl, rfl⟩

/-- A sector of component `T0` is found from the places of its subspaces, and only it. -/
theorem lookTarget_iff {Nmax Jmax T0max T0 i : ℕ} {x y : RelSub} (hx : x ∈ relSpace Nmax Jmax) (hy : y ∈ relSpace Nmax Jmax) :
    lookTarget Nmax Jmax T0max T0 ((relSpace Nmax Jmax).idxOf x) ((relSpace Nmax Jmax).idxOf y) = some i ↔
      (relSectors (scalarLabels T0max) (relSpace Nmax Jmax) T0)[i]? = some (x, y) := by
  constructor
  · intro h
    obtain ⟨a, b, ha, hb, h⟩ := secIndex_some h
    rw [getElem_idxOf hx] at ha
    rw [getElem_idxOf hy] at hb
    cases ha
    cases hb
    exact h
  · exact secIndex_at (getElem_idxOf hx) (getElem_idxOf hy)

theorem sectors_good (Nmax Jmax : ℕ) : GoodSectors (lookTarget Nmax Jmax 2) (secList Nmax Jmax 2) where
  nodup := by
    refine List.Nodup.of_map Prod.fst ?_
    simp only [secList, List.map_map, Function.comp_def]
    rw [List.zipIdx_map_snd]
    exact List.nodup_range'
  own := by
    intro p hp
    obtain ⟨x, y, h, e⟩ := mem_secList.mp hp
    obtain ⟨-, hx, hy, -⟩ := mem_sectors.mp (List.mem_of_getElem? h)
    rw [e]
    exact (lookTarget_iff hx hy).mpr h
  total := by
    intro p hp hb hk T0 hT
    obtain ⟨x, y, h, e⟩ := mem_secList.mp hp
    obtain ⟨-, hx, hy, ho, ha⟩ := mem_sectors.mp (List.mem_of_getElem? h)
    rw [e] at hb hk ⊢
    simp only at hb hk
    have hm : (x, y) ∈ relSectors (scalarLabels 2) (relSpace Nmax Jmax) T0 := by
      rw [mem_sectors]
      refine ⟨⟨by simp [scalarLabels], hT⟩, hx, hy, ho, ?_⟩
      rw [scalar_allowed] at ha ⊢
      refine ⟨ha.1, ?_, ha.2.2⟩
      rw [hb, hk, tri, decide_eq_true_iff]
      omega
    obtain ⟨i, hi⟩ := List.getElem?_of_mem hm
    exact ⟨i, (lookTarget_iff hx hy).mpr hi⟩
  inj := by
    intro p hp q hq T0 i h1 h2
    obtain ⟨x, y, hp1, ep⟩ := mem_secList.mp hp
    obtain ⟨x', y', hq1, eq⟩ := mem_secList.mp hq
    obtain ⟨-, hx, hy, -⟩ := mem_sectors.mp (List.mem_of_getElem? hp1)
    obtain ⟨-, hx', hy', -⟩ := mem_sectors.mp (List.mem_of_getElem? hq1)
    rw [ep] at h1
    rw [eq] at h2
    rw [lookTarget_iff hx hy] at h1
    rw [lookTarget_iff hx' hy', h1] at h2
    cases h2
    have := Jpv2Rel.sector_index_unique hp1 hq1
    obtain ⟨a, b⟩ := p
    obtain ⟨c, d⟩ := q
    simp only at this ep eq
    rw [this, ep, eq]

/-- Sectors that are reached by no accumulation stay zero. -/
theorem untouched {l : List Add} {T0 idx : ℕ} (h : ∀ a ∈ l, ¬ (a.T0 = T0 ∧ a.idx = idx)) (i j : ℕ) :
    accumulate (fun _ _ _ _ => 0) l T0 idx i j = 0 := by
  rw [accumulate_value, List.sum_eq_zero, add_zero]
  intro x hx
  obtain ⟨a, ha, rfl⟩ := List.mem_map.mp hx
  simp only [Add.contrib]
  rw [if_neg]
  rintro ⟨h1, h2⟩
  exact h a ha ⟨h1.symm, h2.symm⟩

theorem addsOf_places {Nmax Jmax : ℕ} {coef : ℕ → ℝ} {tz0 : Bool} {p : ℕ × Sec} (hp : p ∈ secList Nmax Jmax 2)
    {m : Block} {a : Add} (ha : a ∈ addsOf (lookTarget Nmax Jmax 2) coef tz0 p m) :
    ∃ x y, (relSectors (scalarLabels 2) (relSpace Nmax Jmax) a.T0)[a.idx]? = some (x, y) ∧ x.T = y.T := by
  obtain ⟨x, y, h, e⟩ := mem_secList.mp hp
  obtain ⟨-, hx, hy, ho, hal⟩ := mem_sectors.mp (List.mem_of_getElem? h)
  have hT : p.2.braT = x.T := by rw [e]
  have hT' : p.2.ketT = y.T := by rw [e]
  unfold addsOf at ha
  rw [hT, hT'] at ha
  by_cases h1 : x.T = y.T
  · refine ⟨x, y, ?_, h1⟩
    by_cases h0 : y.T = 0
    · simp only [h1, h0, ne_eq, not_true_eq_false, if_false, if_true] at ha
      split at ha
      · simp only [List.mem_singleton] at ha
        subst ha
        exact h
      · simp at ha
    · by_cases h2 : y.T = 1
      · have ht := (sectors_good Nmax Jmax).total p hp (by rw [hT, h1, h2]) (by rw [hT', h2])
        have look : ∀ T0 ≤ 2, (relSectors (scalarLabels 2) (relSpace Nmax Jmax) T0)[(lookTarget Nmax Jmax 2 T0 p.2.bra p.2.ket).getD 0]? = some (x, y) := by
          intro T0 hle
          obtain ⟨i, hi⟩ := ht T0 hle
          rw [hi, Option.getD_some]
          rw [e] at hi
          exact (lookTarget_iff hx hy).mp hi
        simp only [h1, h2, ne_eq, not_true_eq_false, if_false, if_true, show ¬ ((1 : ℕ) = 0) by omega,
          List.mem_cons, List.not_mem_nil, or_false] at ha
        rcases ha with rfl | rfl | rfl
        · exact look 0 (by omega)
        · exact look 1 (by omega)
        · exact look 2 (by omega)
      · simp [h1, h0, h2] at ha
  · simp [h1] at ha

/-! ## Specification -/

/-- Clebsch-Gordan coefficient `(1 Tz, T0 0 | 1 Tz)`. -/
noncomputable def isoCG (T0 : ℕ) (Tz : Int) : ℝ :=
  match T0 with
  | 0 => 1
  | 1 => Tz / Real.sqrt 2
  | _ => (3 * Tz ^ 2 - 2) / Real.sqrt 10

/-- By the Wigner-Eckart theorem, the matrix element between `T = 1` states of projection `Tz`, from the reduced elements in
three components. -/
noncomputable def projected (f : RelFile) (t : ℕ → ℕ) (Tz : Int) (i j : ℕ) : ℝ :=
  isoCG 0 Tz * f.blocks 0 (t 0) i j + isoCG 1 Tz * f.blocks 1 (t 1) i j + isoCG 2 Tz * f.blocks 2 (t 2) i j

theorem projected_branched (f : RelFile) (t : ℕ → ℕ) (s : Sp) (i j : ℕ) :
    projected f t s.Tz i j = branched f.blocks t s.tk i j := by
  have h2 : Real.sqrt (1 / 2) = 1 / Real.sqrt 2 := by rw [Real.sqrt_div (by norm_num)]; simp
  have h10 : Real.sqrt (1 / 10) = 1 / Real.sqrt 10 := by rw [Real.sqrt_div (by norm_num)]; simp
  cases s <;>
    simp only [projected, branched, isoCG, Sp.Tz, Sp.tk, branchT11, sqrt_two_fifths, h2, h10] <;> norm_num <;> ring

/-! ## `jpv2rel`: the control file -/

namespace Jpv2Rel

/-- The documented control file. -/
structure ControlFile (nm : Numbers) (f : Gen.Input) (p : Params) : Prop where
  truncation : ∃ a b c rest T, f.line 0 = a :: b :: c :: rest ∧ nm.int? a = some p.Nmax ∧ nm.int? b = some p.Jmax ∧
    nm.int? c = some T ∧ ((T = 0 ∧ ∃ n rest', f.line 1 = n :: rest' ∧ p.sources = .one n) ∨
      (T = 2 ∧ ∃ pp nn pn rest', f.line 1 = pp :: nn :: pn :: rest' ∧ p.sources = .three pp nn pn))
  target : ∃ rest, f.line 2 = p.target :: rest

/-- **C122, control file.** What is read is what the documented control file says, and nothing else is accepted. -/
theorem control_file {nm : Numbers} {f : Gen.Input} {p : Params} : readParams nm f = .ok p ↔ ControlFile nm f p := by
  simp only [readParams, Except.bind_eq_ok, Gen.int_ok, Gen.word_ok]
  constructor
  · rintro ⟨r1, ⟨w1, e1, h1⟩, r2, ⟨w2, e2, h2⟩, r3, ⟨w3, e3, h3⟩, _, hT, src, hs, r4, e4, h⟩
    cases h
    refine ⟨⟨w1, w2, w3, r3.2, r3.1, by rw [e1, e2, e3], h1, h2, h3, ?_⟩, ⟨r4.2, e4⟩⟩
    by_cases h0 : r3.1 = 0
    · simp only [readSources, h0, if_true, Except.bind_eq_ok, Gen.word_ok] at hs
      obtain ⟨q, hq, hs⟩ := hs
      cases hs
      exact .inl ⟨h0, q.1, q.2, hq, rfl⟩
    · by_cases h2 : r3.1 = 2
      · simp only [readSources, h0, if_false, Except.bind_eq_ok, Gen.word_ok] at hs
        obtain ⟨q, hq, q', hq', q'', hq'', hs⟩ := hs
        cases hs
        exact .inr ⟨h2, q.1, q'.1, q''.1, q''.2, by rw [hq, hq', hq''], rfl⟩
      · simp [h0, h2] at hT
  · rintro ⟨⟨a, b, c, rest, T, e, h1, h2, h3, h⟩, ⟨r, e3⟩⟩
    obtain ⟨N, J, src, tgt⟩ := p
    simp only at h1 h2 h e3
    refine ⟨(N, _), ⟨a, e, h1⟩, (J, _), ⟨b, rfl, h2⟩, (T, _), ⟨c, rfl, h3⟩, (), ?_, src, ?_, (tgt, r), e3, rfl⟩
    · rcases h with ⟨h, -⟩ | ⟨h, -⟩ <;> simp [h]
    · rcases h with ⟨rfl, n, rest', h, rfl⟩ | ⟨rfl, pp, nn, pn, rest', h, rfl⟩
      · simp [readSources, h, word]
      · simp [readSources, h, word]

/-! ## `jpv2rel`: isoscalar operators -/

/-- **C122.** From one file: if its channels are in the space, the operator is written, and each of its stored elements is
what the file says. -/
theorem isoscalar_written {nm : Numbers} {file? : String → Option (List Line)} {f : Gen.Input} {N J : ℕ} {src tgt : String}
    (hc : ControlFile nm f ⟨N, J, .one src, tgt⟩) {lines : List Line} (hsrc : file? src = some lines) {secs : List Section}
    (hf : IsFile secs lines) (hin : ∀ s ∈ secs, s.In N J) :
    ∃ out : RelFile, run nm file? f = .ok (tgt, out) ∧ out.labels = ⟨0, 0, 0, 0⟩ ∧ out.Nmax = N ∧ out.Jmax = J ∧
      ∀ k x y, (out.sectors 0)[k]? = some (x, y) → ∀ i j, Stored x y i j → ∀ v, Says secs x y i j v → out.blocks 0 k i j = v := by
  obtain ⟨op, h1, h2⟩ := file_read (T0max := 0) hf hin
  refine ⟨⟨scalarLabels 0, N, J, fun T0 => if T0 = 0 then op else fun _ _ _ => 0⟩, ?_, rfl, rfl, rfl, ?_⟩
  · simp only [run, control_file.mpr hc, Except.ok_bind', openFile, hsrc, readOne]
    rw [if_neg (by omega)]
    simp only [Int.toNat_natCast, h1, Except.ok_bind', Except.pure_ok]
  · intro k x y hk i j hst v hv
    simp only [if_true]
    exact h2 k x y hk i j hst v hv

/-- **C122, refusal.** A file with a channel outside the space is refused. -/
theorem isoscalar_outside_refused {nm : Numbers} {file? : String → Option (List Line)} {f : Gen.Input} {N J : ℕ}
    {src tgt : String} (hc : ControlFile nm f ⟨N, J, .one src, tgt⟩) {lines : List Line} (hsrc : file? src = some lines)
    {secs : List Section} (hf : IsFile secs lines) {s : Section} (hs : s ∈ secs) (hout : ¬ s.In N J) (r : String × RelFile) :
    run nm file? f ≠ .ok r := by
  intro h
  simp only [run, control_file.mpr hc, Except.ok_bind', openFile, hsrc, readOne] at h
  rw [if_neg (by omega)] at h
  simp only [Int.toNat_natCast, Except.bind_eq_ok] at h
  obtain ⟨op, ⟨blk, hb, -⟩, -⟩ := h
  exact file_outside_refused hf hs hout _ _ hb

/-! ## `jpv2rel`: pp, nn and pn files -/

/-- **C123.** From three files: if their channels are in the space, the operator is written, and its three isospin components
combine, in each sector with `T = 1`, to the elements of the pp, nn and pn file; a sector with `T = 0` has those of the pn
file; sectors that change isospin are zero. -/
theorem charge_dependent_written {nm : Numbers} {file? : String → Option (List Line)} {f : Gen.Input} {N J : ℕ}
    {pp nn pn tgt : String} (hc : ControlFile nm f ⟨N, J, .three pp nn pn, tgt⟩) (name : Sp → String)
    (hpp : name .pp = pp) (hnn : name .nn = nn) (hpn : name .pn = pn) {lines : Sp → List Line}
    (hsrc : ∀ s, file? (name s) = some (lines s)) {secs : Sp → List Section} (hf : ∀ s, IsFile (secs s) (lines s))
    (hin : ∀ s, ∀ c ∈ secs s, c.In N J) :
    ∃ out : RelFile, run nm file? f = .ok (tgt, out) ∧ out.labels = ⟨0, 0, 0, 2⟩ ∧ out.Nmax = N ∧ out.Jmax = J ∧
      (∀ x y, (x, y) ∈ out.sectors 0 → x.T = 1 → ∃ t : ℕ → ℕ, (∀ T0 ≤ 2, (out.sectors T0)[t T0]? = some (x, y)) ∧
        ∀ i j, Stored x y i j → ∀ s v, Says (secs s) x y i j v → projected out t s.Tz i j = v) ∧
      (∀ k x y, (out.sectors 0)[k]? = some (x, y) → x.T = 0 → ∀ i j, Stored x y i j → ∀ v, Says (secs .pn) x y i j v →
        out.blocks 0 k i j = v) ∧
      (∀ T0 k x y, (out.sectors T0)[k]? = some (x, y) → x.T ≠ y.T → ∀ i j, out.blocks T0 k i j = 0) := by
  have hread := fun s => file_read (T0max := 2) (hf s) (hin s)
  choose op h1 h2 using hread
  have hg := sectors_good N J
  have hadds := jpvAdds_ok hg op
  obtain ⟨l, hl, htrip⟩ := jpv_round_trip hg op
  obtain ⟨l', hl', hother⟩ := jpv_other_sectors hg op
  rw [hl] at hl'
  cases hl'
  refine ⟨⟨scalarLabels 2, N, J, accumulate (fun _ _ _ _ => 0) l⟩, ?_, rfl, rfl, rfl, ?_, ?_, ?_⟩
  · have key : ∀ g : Sp → ℕ → Block, (∀ s, g s = op s) → jpvAdds (lookTarget N J 2) (secList N J 2) g = .ok l := by
      intro g h
      rw [funext h]
      exact hl
    have three : ∀ files : Sp → Except Err (List Line), (∀ s, files s = .ok (lines s)) →
        readThree N J files = .ok (accumulate (fun _ _ _ _ => 0) l) := by
      intro files hfiles
      unfold readThree
      simp only [hfiles, Except.ok_bind', h1]
      rw [key _ (by intro s; cases s <;> rfl)]
      rfl
    simp only [run, control_file.mpr hc, Except.ok_bind']
    rw [if_neg (by omega)]
    simp only [Int.toNat_natCast]
    rw [three _ (by
      intro s
      have := hsrc s
      cases s
      · rw [hpp] at this; simp [openFile, this]
      · rw [hnn] at this; simp [openFile, this]
      · rw [hpn] at this; simp [openFile, this])]
    rfl
  · intro x y hxy hT
    obtain ⟨-, hx, hy, ho, ha⟩ := mem_sectors.mp hxy
    rw [scalar_allowed] at ha
    have hTy : y.T = 1 := by
      have := ha.2.1
      rw [tri, decide_eq_true_iff] at this
      omega
    obtain ⟨k, hk⟩ := List.getElem?_of_mem hxy
    have hm : (k, (⟨(relSpace N J).idxOf x, (relSpace N J).idxOf y, x.T, y.T⟩ : Sec)) ∈ secList N J 2 :=
      mem_secList.mpr ⟨x, y, hk, rfl⟩
    obtain ⟨t, ht, hb⟩ := htrip _ hm hT hTy
    refine ⟨t, fun T0 hT0 => (lookTarget_iff hx hy).mp (ht T0 hT0), ?_⟩
    intro i j hst s v hv
    rw [projected_branched]
    exact (hb s i j).trans (h2 s k x y hk i j hst v hv)
  · intro k x y hk hT i j hst v hv
    obtain ⟨-, hx, hy, ho, ha⟩ := mem_sectors.mp (List.mem_of_getElem? hk)
    rw [scalar_allowed] at ha
    have hTy : y.T = 0 := by
      have := ha.2.1
      rw [tri, decide_eq_true_iff] at this
      omega
    have hm : (k, (⟨(relSpace N J).idxOf x, (relSpace N J).idxOf y, x.T, y.T⟩ : Sec)) ∈ secList N J 2 :=
      mem_secList.mpr ⟨x, y, hk, rfl⟩
    rw [← h2 .pn k x y hk i j hst v hv]
    exact (hother _ hm).1 hT hTy i j
  · intro T0 k x y hk hne i j
    refine untouched ?_ i j
    rw [hadds] at hl
    cases hl
    rintro a ha ⟨rfl, rfl⟩
    simp only [List.mem_flatten, List.mem_map] at ha
    obtain ⟨_, ⟨_, ⟨s, _, rfl⟩, hq⟩, ha⟩ := ha
    obtain ⟨p, hp, rfl⟩ := List.mem_map.mp hq
    obtain ⟨x', y', h, hT⟩ := addsOf_places hp ha
    change (relSectors (scalarLabels 2) (relSpace N J) a.T0)[a.idx]? = some (x, y) at hk
    rw [hk] at h
    cases h
    exact hne hT

end Jpv2Rel

end Verif.Relative
