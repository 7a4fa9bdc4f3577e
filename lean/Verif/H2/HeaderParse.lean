import Verif.H2.HeaderLemmas
import Verif.H2.Lemmas

/-!
# What headers can express, and that the readers parse what the writers print
-/

namespace Verif.H2
open Verif

/-- `x` survives being written to a header of the given mode and read back into a `float`. -/
def WeightExact (hf : HeaderFloat) (mode : Mode) (x : ℝ) : Prop :=
  match mode with
  | .binary => hf.fm.ofF32 (hf.fm.toF32 x) = x
  | .text => ∃ w, hf.fm.scan (hf.fmtE x) = some w ∧ hf.fm.ofF32 w = x
  | .matrix => False

/-- The orbital listing survives: for binary files this is a matter of the fields fitting their
types; for text files it is the business of the `basis` library, and is an assumption on it. -/
def OrbsExact (lib : BasisLib) (hf : HeaderFloat) (mode : Mode) (fmt : Format) (o : OrbSpace) : Prop :=
  match mode with
  | .binary => ∀ x ∈ o.p ++ o.n, OrbOK hf.fm x
  | .text => (lib.orbLines fmt o).length = o.p.length + o.n.length ∧
      lib.parseOrbs fmt (lib.orbLines fmt o) = .ok o.flat
  | .matrix => False

/-- The descriptions which a header of the given format can express. -/
def Expressible (lib : BasisLib) (hf : HeaderFloat) (mode : Mode) (fmt : Format) (d : Desc) : Prop :=
  match fmt with
  | .v0 => d.J0 = 0 ∧ d.g0 = 0 ∧ d.Tz0 = 0 ∧
      (∃ N1 N2 : Int, fitsInt N1 = true ∧ fitsInt N2 = true ∧ d.orbs = lib.oscOrbitals N1 ∧
        d.wmax = ⟨N1, N1, N2, N2, N2⟩) ∧
      ∀ t, fitsInt (sizeByType (d.index lib).sectors t) = true
  | .v15099 => fitsInt d.J0 = true ∧ fitsInt d.g0 = true ∧ d.Tz0 = 0 ∧
      fitsInt d.orbs.p.length = true ∧ fitsInt d.orbs.n.length = true ∧
      OrbsExact lib hf mode fmt d.orbs ∧
      (∀ x ∈ [d.wmax.p, d.wmax.n, d.wmax.pp, d.wmax.nn, d.wmax.pn], WeightExact hf mode x) ∧
      (∀ t, fitsInt (2 * (jmaxByType (d.subspaces lib) t : Int)) = true) ∧
      ∀ t, fitsInt (sizeByType (d.index lib).sectors t) = true
  | .v15200 => fitsInt d.J0 = true ∧ fitsInt d.g0 = true ∧ fitsInt d.Tz0 = true ∧
      fitsInt d.orbs.p.length = true ∧ fitsInt d.orbs.n.length = true ∧
      OrbsExact lib hf mode fmt d.orbs ∧
      (∀ x ∈ [d.wmax.p, d.wmax.n], hf.fm.ofF32 (hf.fm.toF32 x) = x) ∧
      (∀ x ∈ [d.wmax.pp, d.wmax.nn, d.wmax.pn], WeightExact hf mode x) ∧
      ∀ t, fitsLong (sizeByType (d.index lib).sectors t) = true

/-- Where the body of a file of the given mode starts. -/
def File.length (mode : Mode) (f : File) : Nat :=
  match mode with
  | .text => f.lines.length
  | _ => f.bytes.length

theorem parses_versionB (fmt : Format) : Parses readVersionB (wRecord 4 (wInt fmt.code)) fmt.code := by
  unfold readVersionB wRecord
  rw [← List.append_nil (wInt 4 ++ _ ++ wInt 4)]
  simp only [List.append_assoc]
  refine Parses.bind (parses_verify _) ?_
  refine Parses.bind (parses_int (by cases fmt <;> decide)) ?_
  refine Parses.bind (parses_verify _) ?_
  exact Parses.pure _

theorem parses_versionT (fmt : Format) : Parses readVersionT [⟨[fmt.code], []⟩] fmt.code := by
  unfold readVersionT
  exact Parses.map (f := fun xs => xs.headD 0) (parses_tInts (fits := fitsInt) (xs := [fmt.code]) (by cases fmt <;> decide))

theorem formatOfCode_code (fmt : Format) : formatOfCode fmt.code = .ok fmt := by
  cases fmt <;> rfl

theorem truncToInt_intCast (i : Int) : truncToInt (i : ℝ) = i := by
  unfold truncToInt; split <;> simp

theorem parses_v0B {r : RawV0} (h : fitsInt r.numTypes = true ∧ fitsInt r.N1max = true ∧
    fitsInt r.N2max = true ∧ fitsInt r.sizePPNN = true ∧ fitsInt r.sizePN = true) :
    Parses readRawV0B (wRecord 20 (wInt r.numTypes ++ wInt r.N1max ++ wInt r.N2max ++
      wInt r.sizePPNN ++ wInt r.sizePN)) r := by
  obtain ⟨h1, h2, h3, h4, h5⟩ := h
  unfold readRawV0B
  rw [← List.append_nil (wRecord _ _)]
  simp only [wRecord, List.append_assoc]
  refine Parses.bind (parses_verify _) ?_
  refine Parses.bind (parses_int h1) ?_
  refine Parses.bind (parses_int h2) ?_
  refine Parses.bind (parses_int h3) ?_
  refine Parses.bind (parses_int h4) ?_
  refine Parses.bind (parses_int h5) ?_
  refine Parses.bind (parses_verify _) ?_
  exact Parses.pure _

theorem parses_v0T {r : RawV0} (h : fitsInt r.numTypes = true ∧ fitsInt r.N1max = true ∧
    fitsInt r.N2max = true ∧ fitsInt r.sizePPNN = true ∧ fitsInt r.sizePN = true) :
    Parses readRawV0T [⟨[r.numTypes], []⟩, ⟨[r.N1max], []⟩, ⟨[r.N2max], []⟩,
      ⟨[r.sizePPNN, r.sizePN], []⟩] r := by
  obtain ⟨h1, h2, h3, h4, h5⟩ := h
  unfold readRawV0T
  refine Parses.bind (e1 := [_]) (parses_tInts (xs := [r.numTypes]) (by simp [h1])) ?_
  refine Parses.bind (e1 := [_]) (parses_tInts (xs := [r.N1max]) (by simp [h2])) ?_
  refine Parses.bind (e1 := [_]) (parses_tInts (xs := [r.N2max]) (by simp [h3])) ?_
  refine Parses.bind (e1 := [_]) (parses_tInts (xs := [r.sizePPNN, r.sizePN]) (by simp [h4, h5])) ?_
  exact Parses.pure _

/-- The content of a 15099 header. -/
def rawV15099 (lib : BasisLib) (d : Desc) : RawV15099 :=
  ⟨d.orbs.flat, d.J0, d.g0, d.Tz0, d.wmax, fun t => 2 * (jmaxByType (d.subspaces lib) t : Int),
   fun t => sizeByType (d.index lib).sectors t⟩

theorem bySpecies_eta {α : Type} (f : Species → α) : bySpecies (f .pp) (f .nn) (f .pn) = f := by
  funext t; cases t <;> rfl

theorem parses_v15099B {lib : BasisLib} {hf : HeaderFloat} {d : Desc} {f : File}
    (hw : writeHeaderV15099 lib hf .binary d = .ok f)
    (hJ : fitsInt d.J0 = true) (hg : fitsInt d.g0 = true) (hT : fitsInt d.Tz0 = true)
    (hp : fitsInt d.orbs.p.length = true) (hn : fitsInt d.orbs.n.length = true)
    (ho : ∀ x ∈ d.orbs.p ++ d.orbs.n, OrbOK hf.fm x)
    (hwt : ∀ x ∈ [d.wmax.p, d.wmax.n, d.wmax.pp, d.wmax.nn, d.wmax.pn], hf.fm.ofF32 (hf.fm.toF32 x) = x)
    (hj : ∀ t, fitsInt (2 * (jmaxByType (d.subspaces lib) t : Int)) = true) :
    Parses (readRawV15099B hf.fm) f.bytes { rawV15099 lib d with
      size := fun t => (BitVec.ofInt 32 (sizeByType (d.index lib).sectors t)).toInt } := by
  unfold writeHeaderV15099 at hw
  by_cases hord : d.ordering = .pn
  · simp only [hord, decide_true, assertE, if_true, Except.ok_bind', Except.pure_ok, Except.ok.injEq] at hw
    subst hw
    simp only
    unfold readRawV15099B
    rw [← List.append_nil (_ ++ wRecord 12 _)]
    simp only [wRecord, List.append_assoc]
    refine Parses.bind (parses_verify _) ?_
    refine Parses.bind (parses_int hp) ?_
    refine Parses.bind (parses_int hn) ?_
    refine Parses.bind (parses_verify _) ?_
    refine Parses.bind (parses_orbsV15099 fun o h => ho o (by simp [h])) ?_
    refine Parses.bind (parses_orbsV15099 fun o h => ho o (by simp [h])) ?_
    refine Parses.bind (parses_verify _) ?_
    refine Parses.bind (parses_int hJ) ?_
    refine Parses.bind (parses_int hg) ?_
    refine Parses.bind (parses_int hT) ?_
    refine Parses.bind (parses_verify _) ?_
    refine Parses.bind (parses_verify _) ?_
    refine Parses.bind (parses_float (hwt _ (by simp))) ?_
    refine Parses.bind (parses_float (hwt _ (by simp))) ?_
    refine Parses.bind (parses_verify _) ?_
    refine Parses.bind (parses_verify _) ?_
    refine Parses.bind (parses_float (hwt _ (by simp))) ?_
    refine Parses.bind (parses_float (hwt _ (by simp))) ?_
    refine Parses.bind (parses_float (hwt _ (by simp))) ?_
    refine Parses.bind (parses_verify _) ?_
    refine Parses.bind (parses_verify _) ?_
    refine Parses.bind (parses_int (hj .pp)) ?_
    refine Parses.bind (parses_int (hj .nn)) ?_
    refine Parses.bind (parses_int (hj .pn)) ?_
    refine Parses.bind (parses_verify _) ?_
    refine Parses.bind (parses_verify _) ?_
    refine Parses.bind (parses_int_narrow _) ?_
    refine Parses.bind (parses_int_narrow _) ?_
    refine Parses.bind (parses_int_narrow _) ?_
    refine Parses.bind (parses_verify _) ?_
    have := Parses.pure (τ := Byte) { rawV15099 lib d with
      size := fun t => (BitVec.ofInt 32 (sizeByType (d.index lib).sectors t)).toInt }
    unfold rawV15099 at this ⊢
    rw [bySpecies_eta (fun t => 2 * (jmaxByType (d.subspaces lib) t : Int)),
      bySpecies_eta (fun t => (BitVec.ofInt 32 (sizeByType (d.index lib).sectors t : Int)).toInt)]
    exact this
  · simp [hord, assertE] at hw

theorem parses_v15099T {lib : BasisLib} {hf : HeaderFloat} {d : Desc} {f : File}
    (hw : writeHeaderV15099 lib hf .text d = .ok f)
    (hJ : fitsInt d.J0 = true) (hg : fitsInt d.g0 = true) (hT : fitsInt d.Tz0 = true)
    (ho : OrbsExact lib hf .text .v15099 d.orbs)
    (hwt : ∀ x ∈ [d.wmax.p, d.wmax.n, d.wmax.pp, d.wmax.nn, d.wmax.pn], WeightExact hf .text x)
    (hj : ∀ t, fitsInt (2 * (jmaxByType (d.subspaces lib) t : Int)) = true)
    (hs : ∀ t, fitsInt (sizeByType (d.index lib).sectors t) = true) :
    Parses (readRawV15099T lib hf.fm) f.lines (rawV15099 lib d) := by
  unfold writeHeaderV15099 at hw
  by_cases hord : d.ordering = .pn
  · simp only [hord, decide_true, assertE, if_true, Except.ok_bind', Except.pure_ok, Except.ok.injEq] at hw
    subst hw
    simp only
    unfold readRawV15099T
    simp only [List.append_assoc]
    refine Parses.bind (parses_tInts (xs := [(d.orbs.p.length : Int), (d.orbs.n.length : Int)])
      (by simp)) ?_
    have e : (([(d.orbs.p.length : Int), (d.orbs.n.length : Int)].getD 0 0 +
        [(d.orbs.p.length : Int), (d.orbs.n.length : Int)].getD 1 0).toNat) =
        (lib.orbLines .v15099 d.orbs).length := by
      rw [ho.1]; simp; omega
    rw [e]
    refine Parses.bind (parses_lines _) ?_
    refine Parses.bind (e1 := []) (parses_lift ho.2) ?_
    refine Parses.bind (e1 := [_]) (parses_tInts (xs := [d.J0, d.g0, d.Tz0]) (by simp [hJ, hg, hT])) ?_
    refine Parses.bind (e1 := [_]) (parses_tFloats (xs := [d.wmax.p, d.wmax.n]) (fmtE := hf.fmtE)
      fun x hx => hwt x (by simp at hx ⊢; tauto)) ?_
    refine Parses.bind (e1 := [_]) (parses_tFloats (xs := [d.wmax.pp, d.wmax.nn, d.wmax.pn]) (fmtE := hf.fmtE)
      fun x hx => hwt x (by simp at hx ⊢; tauto)) ?_
    refine Parses.bind (e1 := [_]) (parses_tInts (xs := [2 * (jmaxByType (d.subspaces lib) .pp : Int),
      2 * (jmaxByType (d.subspaces lib) .nn : Int), 2 * (jmaxByType (d.subspaces lib) .pn : Int)])
      (by simp [hj])) ?_
    refine Parses.bind (e1 := [_]) (parses_tInts (xs := [(sizeByType (d.index lib).sectors .pp : Int),
      (sizeByType (d.index lib).sectors .nn : Int), (sizeByType (d.index lib).sectors .pn : Int)])
      (by simp [hs])) ?_
    have := Parses.pure (τ := Line) (rawV15099 lib d)
    unfold rawV15099 at this ⊢
    rw [← bySpecies_eta (fun t => 2 * (jmaxByType (d.subspaces lib) t : Int)),
      ← bySpecies_eta (fun t => (sizeByType (d.index lib).sectors t : Int))] at this ⊢
    exact this
  · simp [hord, assertE] at hw

theorem fails_v15099T {lib : BasisLib} {hf : HeaderFloat} {d : Desc} {f : File}
    (hw : writeHeaderV15099 lib hf .text d = .ok f)
    (hJ : fitsInt d.J0 = true) (hg : fitsInt d.g0 = true) (hT : fitsInt d.Tz0 = true)
    (ho : OrbsExact lib hf .text .v15099 d.orbs)
    (hwt : ∀ x ∈ [d.wmax.p, d.wmax.n, d.wmax.pp, d.wmax.nn, d.wmax.pn], WeightExact hf .text x)
    (hj : ∀ t, fitsInt (2 * (jmaxByType (d.subspaces lib) t : Int)) = true)
    (t : Species) (hs : fitsInt (sizeByType (d.index lib).sectors t) = false) :
    Fails (readRawV15099T lib hf.fm) f.lines .parseError := by
  unfold writeHeaderV15099 at hw
  by_cases hord : d.ordering = .pn
  · simp only [hord, decide_true, assertE, if_true, Except.ok_bind', Except.pure_ok, Except.ok.injEq] at hw
    subst hw
    simp only
    unfold readRawV15099T
    simp only [List.append_assoc]
    refine Fails.later (parses_tInts (xs := [(d.orbs.p.length : Int), (d.orbs.n.length : Int)])
      (by simp)) ?_
    have e : (([(d.orbs.p.length : Int), (d.orbs.n.length : Int)].getD 0 0 +
        [(d.orbs.p.length : Int), (d.orbs.n.length : Int)].getD 1 0).toNat) =
        (lib.orbLines .v15099 d.orbs).length := by
      rw [ho.1]; simp; omega
    rw [e]
    refine Fails.later (parses_lines _) ?_
    refine Fails.later (e1 := []) (parses_lift ho.2) ?_
    refine Fails.later (e1 := [_]) (parses_tInts (xs := [d.J0, d.g0, d.Tz0]) (by simp [hJ, hg, hT])) ?_
    refine Fails.later (e1 := [_]) (parses_tFloats (xs := [d.wmax.p, d.wmax.n]) (fmtE := hf.fmtE)
      fun x hx => hwt x (by clear hs; simp at hx ⊢; tauto)) ?_
    refine Fails.later (e1 := [_]) (parses_tFloats (xs := [d.wmax.pp, d.wmax.nn, d.wmax.pn]) (fmtE := hf.fmtE)
      fun x hx => hwt x (by clear hs; simp at hx ⊢; tauto)) ?_
    refine Fails.later (e1 := [_]) (parses_tInts (xs := [2 * (jmaxByType (d.subspaces lib) .pp : Int),
      2 * (jmaxByType (d.subspaces lib) .nn : Int), 2 * (jmaxByType (d.subspaces lib) .pn : Int)])
      (by simp [hj])) ?_
    refine Fails.here (fails_tInts (xs := [(sizeByType (d.index lib).sectors .pp : Int),
      (sizeByType (d.index lib).sectors .nn : Int), (sizeByType (d.index lib).sectors .pn : Int)])
      (by cases t <;> simp [hs]))
  · simp [hord, assertE] at hw

/-- The content of a 15200 header. -/
def rawV15200 (lib : BasisLib) (d : Desc) : RawV15200 :=
  ⟨d.orbs.flat, d.J0, d.g0, d.Tz0, d.wmax.pp, d.wmax.nn, d.wmax.pn,
   fun t => sizeByType (d.index lib).sectors t⟩

theorem writeHeaderV15200_ok {lib : BasisLib} {hf : HeaderFloat} {mode : Mode} {d : Desc} {f : File}
    (hw : writeHeaderV15200 lib hf mode d = .ok f) (hm : mode ≠ .matrix) :
    d.ordering = .tz ∧ lib.weightMax d.orbs.p = d.wmax.p ∧ lib.weightMax d.orbs.n = d.wmax.n := by
  unfold writeHeaderV15200 at hw
  by_cases hord : d.ordering = .tz
  · by_cases h1 : lib.weightMax d.orbs.p = d.wmax.p
    · by_cases h2 : lib.weightMax d.orbs.n = d.wmax.n
      · exact ⟨hord, h1, h2⟩
      · cases mode <;> simp [hord, h1, h2, assertE] at hw hm
    · cases mode <;> simp [hord, h1, assertE] at hw hm
  · simp [hord, assertE] at hw

theorem flat_length (o : OrbSpace) : o.flat.length = o.p.length + o.n.length := by
  simp [OrbSpace.flat]

theorem parses_v15200B {lib : BasisLib} {hf : HeaderFloat} {d : Desc} {f : File}
    (hw : writeHeaderV15200 lib hf .binary d = .ok f)
    (hJ : fitsInt d.J0 = true) (hg : fitsInt d.g0 = true) (hT : fitsInt d.Tz0 = true)
    (hp : fitsInt d.orbs.p.length = true) (hn : fitsInt d.orbs.n.length = true)
    (ho : ∀ x ∈ d.orbs.p ++ d.orbs.n, OrbOK hf.fm x)
    (hwt : ∀ x ∈ [d.wmax.pp, d.wmax.nn, d.wmax.pn], hf.fm.ofF32 (hf.fm.toF32 x) = x)
    (hs : ∀ t, fitsLong (sizeByType (d.index lib).sectors t) = true) :
    Parses (readRawV15200B hf.fm) f.bytes (rawV15200 lib d) := by
  obtain ⟨hord, e1, e2⟩ := writeHeaderV15200_ok hw (by simp)
  unfold writeHeaderV15200 at hw
  simp only [hord, e1, e2, decide_true, assertE, if_true, Except.ok_bind', Except.pure_ok, Except.ok.injEq] at hw
  subst hw
  have hof : ∀ x ∈ d.orbs.flat, OrbOK hf.fm x.2 := by
    intro x hx
    simp only [OrbSpace.flat, List.mem_append, List.mem_map] at hx
    rcases hx with ⟨y, hy, rfl⟩ | ⟨y, hy, rfl⟩
    · exact ho y (by simp [hy])
    · exact ho y (by simp [hy])
  simp only
  unfold readRawV15200B
  rw [← List.append_nil (_ ++ (wInt64 _ ++ wInt64 _ ++ wInt64 _))]
  simp only [List.append_assoc]
  refine Parses.bind (parses_int hp) ?_
  refine Parses.bind (parses_int hn) ?_
  rw [if_neg (by omega)]
  have e : ((d.orbs.p.length : Int) + (d.orbs.n.length : Int)).toNat = d.orbs.flat.length := by
    rw [flat_length]; omega
  rw [e]
  refine Parses.bind (Parses.manyField (fun o : Bool × Orb => o.2.n) (enc := wInt)
    fun o h => parses_int (hof o h).1) ?_
  refine Parses.bind (Parses.manyField (fun o : Bool × Orb => o.2.l) (enc := wInt)
    fun o h => parses_int (hof o h).2.1) ?_
  refine Parses.bind (Parses.manyField (fun o : Bool × Orb => o.2.twiceJ) (enc := wInt)
    fun o h => parses_int (hof o h).2.2.1) ?_
  refine Parses.bind (Parses.manyField (fun o : Bool × Orb => twiceTz o.1) (enc := wInt)
    fun o h => parses_int (by cases o.1 <;> rfl)) ?_
  refine Parses.bind (Parses.manyField (fun o : Bool × Orb => o.2.weight) (enc := wFloat hf.fm)
    fun o h => parses_float (hof o h).2.2.2) ?_
  have em : (List.map (fun o : Bool × Orb => twiceTz o.1) d.orbs.flat).mapM speciesOfTz =
      .ok (d.orbs.flat.map (·.1)) := by
    have := mapM_speciesOfTz (d.orbs.flat.map (·.1))
    rw [List.map_map] at this
    exact this
  refine Parses.bind (e1 := []) (parses_lift em) ?_
  refine Parses.bind (parses_int hJ) ?_
  refine Parses.bind (parses_int hg) ?_
  refine Parses.bind (parses_int hT) ?_
  refine Parses.bind (parses_float (hwt _ (by simp))) ?_
  refine Parses.bind (parses_float (hwt _ (by simp))) ?_
  refine Parses.bind (parses_float (hwt _ (by simp))) ?_
  refine Parses.bind (parses_int64 (hs .pp)) ?_
  refine Parses.bind (parses_int64 (hs .pn)) ?_
  refine Parses.bind (parses_int64 (hs .nn)) ?_
  have := Parses.pure (τ := Byte) (rawV15200 lib d)
  unfold rawV15200 at this ⊢
  rw [rebuild_flat, bySpecies_eta (fun t => (sizeByType (d.index lib).sectors t : Int))]
  exact this

theorem parses_v15200T {lib : BasisLib} {hf : HeaderFloat} {d : Desc} {f : File}
    (hw : writeHeaderV15200 lib hf .text d = .ok f)
    (hJ : fitsInt d.J0 = true) (hg : fitsInt d.g0 = true) (hT : fitsInt d.Tz0 = true)
    (ho : OrbsExact lib hf .text .v15200 d.orbs)
    (hwt : ∀ x ∈ [d.wmax.pp, d.wmax.nn, d.wmax.pn], WeightExact hf .text x)
    (hs : ∀ t, fitsLong (sizeByType (d.index lib).sectors t) = true) :
    Parses (readRawV15200T lib hf.fm) f.lines (rawV15200 lib d) := by
  obtain ⟨hord, e1, e2⟩ := writeHeaderV15200_ok hw (by simp)
  unfold writeHeaderV15200 at hw
  simp only [hord, e1, e2, decide_true, assertE, if_true, Except.ok_bind', Except.pure_ok, Except.ok.injEq] at hw
  subst hw
  simp only
  unfold readRawV15200T
  simp only [List.append_assoc]
  refine Parses.bind (parses_tInts (xs := [(d.orbs.p.length : Int), (d.orbs.n.length : Int)])
    (by simp)) ?_
  have e : (([(d.orbs.p.length : Int), (d.orbs.n.length : Int)].getD 0 0 +
      [(d.orbs.p.length : Int), (d.orbs.n.length : Int)].getD 1 0).toNat) =
      (lib.orbLines .v15200 d.orbs).length := by
    rw [ho.1]; simp; omega
  rw [e]
  refine Parses.bind (parses_lines _) ?_
  refine Parses.bind (e1 := []) (parses_lift ho.2) ?_
  refine Parses.bind (e1 := [_]) (parses_tInts (xs := [d.J0, d.g0, d.Tz0]) (by simp [hJ, hg, hT])) ?_
  refine Parses.bind (e1 := [_]) (parses_tFloats (xs := [d.wmax.pp, d.wmax.pn, d.wmax.nn]) (fmtE := hf.fmtE)
    fun x hx => hwt x (by simp at hx ⊢; tauto)) ?_
  refine Parses.bind (e1 := [_]) (parses_tInts (xs := [(sizeByType (d.index lib).sectors .pp : Int),
    (sizeByType (d.index lib).sectors .pn : Int), (sizeByType (d.index lib).sectors .nn : Int)])
    (by simp [hs])) ?_
  have := Parses.pure (τ := Line) (rawV15200 lib d)
  unfold rawV15200 at this ⊢
  rw [← bySpecies_eta (fun t => (sizeByType (d.index lib).sectors t : Int))] at this ⊢
  exact this

end Verif.H2
