import Verif.H2.ConvProps

/-! # A small operator on which the hypotheses of the `h2conv` theorems are met

A stand-in for the `basis` library with four subspaces, listed in the order pp, nn, pn or pp, pn, nn. -/

namespace Verif.H2.Convert
open Verif Verif.H2

namespace Ex

def nn1 : Subspace := ⟨.nn, 1, 0, [⟨0, 1⟩]⟩

def sp : SpaceOrdering → List Subspace
  | .pn => [H2.Ex.pp0, H2.Ex.pp1, nn1, H2.Ex.pn0]
  | .tz => [H2.Ex.pp0, H2.Ex.pp1, H2.Ex.pn0, nn1]

def tz : Species → Int
  | .pp => 1 | .nn => -1 | .pn => 0

/-- Canonical pairs connected by an operator of the given rank and charge. -/
def secs (ss : List Subspace) (J0 _g0 Tz0 : Int) : List Sector :=
  (ss.zipIdx.flatMap fun a => ss.zipIdx.map fun b => (⟨a.2, b.2, a.1, b.1⟩ : Sector)).filter fun s =>
    decide (s.braIndex ≤ s.ketIndex ∧ (tz s.bra.species - tz s.ket.species).natAbs = Tz0.natAbs ∧
      ((s.bra.J : Int) - s.ket.J).natAbs ≤ J0 ∧ J0 ≤ s.bra.J + s.ket.J)

noncomputable def lib : BasisLib where
  space _ _ o := sp o
  sectors := secs
  oscOrbitals _ := ⟨[⟨0, 0, 1, 0⟩, ⟨0, 1, 1, 1⟩], [⟨0, 0, 1, 0⟩, ⟨0, 1, 3, 1⟩]⟩
  weightMax _ := 1
  orbLines := H2.Ex.lib.orbLines
  parseOrbs := H2.Ex.lib.parseOrbs

/-- The operator, on orbitals which are or are not those of the oscillator. -/
noncomputable def desc (osc : Bool) (o : SpaceOrdering) (J0 Tz0 : Int) : Desc :=
  ⟨if osc then lib.oscOrbitals 1 else ⟨[⟨0, 0, 1, 1⟩, ⟨0, 1, 1, 1⟩], [⟨0, 0, 1, 1⟩, ⟨0, 1, 3, 1⟩]⟩, ⟨1, 1, 1, 1, 1⟩, o, J0, 0, Tz0⟩

theorem sectors_eq (osc : Bool) (o : SpaceOrdering) (J0 Tz0 : Int) :
    ((desc osc o J0 Tz0).index lib).sectors = secs (sp o) J0 0 Tz0 := rfl

theorem indexed (osc : Bool) (o : SpaceOrdering) (J0 Tz0 : Int) (hJ : J0 = 0 ∨ J0 = 1) (hT : Tz0 = 0 ∨ Tz0 = 1) :
    Indexed lib (desc osc o J0 Tz0) := by
  constructor
  · rw [sectors_eq]
    change ∀ s ∈ secs (sp o) J0 0 Tz0, (sp o)[s.braIndex]? = some s.bra
    rcases hJ with rfl | rfl <;> rcases hT with rfl | rfl <;> cases o <;> decide
  · rw [sectors_eq]
    change ∀ s ∈ secs (sp o) J0 0 Tz0, (sp o)[s.ketIndex]? = some s.ket
    rcases hJ with rfl | rfl <;> rcases hT with rfl | rfl <;> cases o <;> decide
  · change ((sp o).map fun s => (s.species, s.J, s.g)).Nodup
    cases o <;> decide
  · rw [sectors_eq]
    rcases hJ with rfl | rfl <;> rcases hT with rfl | rfl <;> cases o <;> decide

theorem perm (osc : Bool) (o o' : SpaceOrdering) (J0 Tz0 : Int) :
    ((desc osc o J0 Tz0).subspaces lib).Perm ((desc osc o' J0 Tz0).subspaces lib) := by
  change (sp o).Perm (sp o')
  cases o <;> cases o' <;> decide

theorem size_le (osc : Bool) (o : SpaceOrdering) (J0 Tz0 : Int) (hJ : J0 = 0 ∨ J0 = 1) (hT : Tz0 = 0 ∨ Tz0 = 1) (t : Species) :
    sizeByType ((desc osc o J0 Tz0).index lib).sectors t ≤ 10 := by
  rw [sectors_eq]
  rcases hJ with rfl | rfl <;> rcases hT with rfl | rfl <;> cases o <;> cases t <;> decide

theorem jmax_le (osc : Bool) (o : SpaceOrdering) (J0 Tz0 : Int) (t : Species) :
    jmaxByType ((desc osc o J0 Tz0).subspaces lib) t ≤ 1 := by
  change jmaxByType (sp o) t ≤ 1
  cases o <;> cases t <;> decide

theorem orbs_exact (m : Mode) (hm : m ≠ .matrix) (osc : Bool) (o : SpaceOrdering) (J0 Tz0 : Int) (fmt : Format) :
    OrbsExact lib H2.Ex.hf m fmt (desc osc o J0 Tz0).orbs := by
  cases m with
  | matrix => exact absurd rfl hm
  | binary => cases osc <;> simp [OrbsExact, desc, lib, OrbOK, H2.Ex.hf, H2.Ex.fm] <;> decide
  | text =>
    refine ⟨by cases osc <;> rfl, ?_⟩
    cases osc <;> simp [desc, lib, H2.Ex.lib, OrbSpace.flat, speciesOfTz, twiceTz, H2.Ex.fm]

theorem expressible (m : Mode) (hm : m ≠ .matrix) (fmt : Format) (osc : Bool) (J0 Tz0 : Int) (hJ : J0 = 0 ∨ J0 = 1)
    (hT : Tz0 = 0 ∨ Tz0 = 1) (h0 : fmt = .v0 → osc = true ∧ J0 = 0 ∧ Tz0 = 0) (h1 : fmt = .v15099 → Tz0 = 0) :
    Expressible lib H2.Ex.hf m fmt (desc osc (spaceOrdering fmt) J0 Tz0) := by
  have hs := size_le osc (spaceOrdering fmt) J0 Tz0 hJ hT
  have hj := jmax_le osc (spaceOrdering fmt) J0 Tz0
  have ho := orbs_exact m hm osc (spaceOrdering fmt) J0 Tz0 fmt
  have he := H2.Ex.exact m hm
  have hlen : ∀ n : Nat, n = 2 → fitsInt n = true := by rintro n rfl; rfl
  have hfJ : fitsInt J0 = true := by rcases hJ with rfl | rfl <;> rfl
  have hfT : fitsInt Tz0 = true := by rcases hT with rfl | rfl <;> rfl
  have hp : (desc osc (spaceOrdering fmt) J0 Tz0).orbs.p.length = 2 := by cases osc <;> rfl
  have hn : (desc osc (spaceOrdering fmt) J0 Tz0).orbs.n.length = 2 := by cases osc <;> rfl
  cases fmt with
  | v0 =>
    obtain ⟨rfl, rfl, rfl⟩ := h0 rfl
    refine ⟨rfl, rfl, rfl, ⟨1, 1, by decide, by decide, rfl, by simp [desc]⟩, fun t => ?_⟩
    have := hs t
    simp only [fitsInt, decide_eq_true_eq]; omega
  | v15099 =>
    refine ⟨hfJ, rfl, h1 rfl, hlen _ hp, hlen _ hn, ho, ?_, fun t => ?_, fun t => ?_⟩
    · intro x hx; apply he; simp [desc] at hx; tauto
    · have := hj t
      simp only [fitsInt, decide_eq_true_eq]; omega
    · have := hs t
      simp only [fitsInt, decide_eq_true_eq]; omega
  | v15200 =>
    refine ⟨hfJ, rfl, hfT, hlen _ hp, hlen _ hn, ho, ?_, ?_, fun t => ?_⟩
    · intro x hx; exact H2.Ex.exact .binary (by simp) x (by simp [desc] at hx; tauto)
    · intro x hx; apply he; simp [desc] at hx; tauto
    · have := hs t
      simp only [fitsLong, decide_eq_true_eq]; omega

theorem opens (m : Mode) (fmt : Format) (osc : Bool) (J0 Tz0 : Int) :
    ∃ hdr, openOut lib H2.Ex.hf m fmt (desc osc (spaceOrdering fmt) J0 Tz0) = .ok hdr := by
  cases fmt <;> cases m <;>
    simp [openOut, writeHeaderV0, writeHeaderV15099, writeHeaderV15200, desc, lib, assertE, spaceOrdering]

noncomputable def calls (ss : List Sector) : List WriteCall :=
  ss.zipIdx.map fun x => ⟨x.2, ⟨x.1.bra.size, x.1.ket.size, fun a b => a + 2 * b⟩, .none⟩

theorem calls_length (ss : List Sector) : (calls ss).length = ss.length := by simp [calls]

/-- Files with the operator exist. -/
theorem input (m : Mode) (hm : m ≠ .matrix) (fmt : Format) (osc : Bool) (J0 Tz0 : Int) (hJ : J0 = 0 ∨ J0 = 1)
    (hT : Tz0 = 0 ∨ Tz0 = 1) (h0 : fmt = .v0 → osc = true ∧ J0 = 0 ∧ Tz0 = 0) (h1 : fmt = .v15099 → Tz0 = 0) :
    ∃ f start all st, openIn lib H2.Ex.hf m f = .ok (fmt, desc osc (spaceOrdering fmt) J0 Tz0, start) ∧
      readHistory ⟨H2.Ex.hf.fm, fmt, m, (desc osc (spaceOrdering fmt) J0 Tz0).index lib⟩ f
        (List.range ((desc osc (spaceOrdering fmt) J0 Tz0).index lib).sectors.length) (InState.init start) = .ok (all, st) := by
  obtain ⟨hdr, hopen⟩ := opens m fmt osc J0 Tz0
  have hI := indexed osc (spaceOrdering fmt) J0 Tz0 hJ hT
  obtain ⟨st, hw⟩ := valid_operator_can_be_written ⟨H2.Ex.hf.fm, fmt, m, (desc osc (spaceOrdering fmt) J0 Tz0).index lib⟩ hI.wf
    (by
      simp only
      rw [sectors_eq]
      cases fmt with
      | v0 =>
        obtain ⟨rfl, rfl, rfl⟩ := h0 rfl
        decide
      | v15099 => rcases hJ with rfl | rfl <;> rcases hT with rfl | rfl <;> decide
      | v15200 => rcases hJ with rfl | rfl <;> rcases hT with rfl | rfl <;> decide)
    (fun t => by
      have := size_le osc (spaceOrdering fmt) J0 Tz0 hJ hT t
      simp only
      omega)
    (calls ((desc osc (spaceOrdering fmt) J0 Tz0).index lib).sectors) hdr
    (by
      simp only
      unfold calls
      generalize ((desc osc (spaceOrdering fmt) J0 Tz0).index lib).sectors = ss
      generalize hi : 0 = n
      clear hi
      induction ss generalizing n with
      | nil => exact .nil
      | cons s ss ih =>
        rw [List.zipIdx_cons, List.map_cons]
        exact .cons ⟨rfl, rfl, .inl rfl⟩ (ih _))
    (by
      rw [calls_length]
      unfold calls
      rw [List.map_map, List.range_eq_range', ← List.zipIdx_map_snd]
      rfl)
  obtain ⟨fmt', d', start, ms, st', ho, rfl, rfl, hr, -⟩ := written_file_reads_back_partial lib H2.Ex.hf m fmt _ hm
    (expressible m hm fmt osc J0 Tz0 hJ hT h0 h1) hI.wf (if m = .binary then id else fun x => if x = 0 then 0 else 1)
    (by rintro rfl x; exact H2.Ex.scan_fmt x) (by rintro rfl; rfl) hdr hopen _ st hw (calls_length _)
    (List.range ((desc osc (spaceOrdering fmt) J0 Tz0).index lib).sectors.length) (by simp)
  exact ⟨st.out, start, ms, st', ho, hr⟩

/-- Conversion succeeds for the operator which does not change the charge. -/
theorem converts (m m' : Mode) (hm : m ≠ .matrix) (fmt : Format) (osc : Bool) (J0 Tz0 : Int) (hJ : J0 = 0 ∨ J0 = 1)
    (hT : Tz0 = 0 ∨ Tz0 = 1) (h0 : fmt = .v0 → osc = true ∧ J0 = 0 ∧ Tz0 = 0) (h1 : fmt = .v15099 → Tz0 = 0)
    (fo : Format) (hfo : fo = .v0 → J0 = 0 ∧ Tz0 = 0) (hJT : Tz0 = 1 → J0 = 0) :
    ∃ f start out, openIn lib H2.Ex.hf m f = .ok (fmt, desc osc (spaceOrdering fmt) J0 Tz0, start) ∧
      convert lib H2.Ex.hf m f fo.code (.ok m') = .ok out := by
  obtain ⟨f, start, all, st, hin, hr⟩ := input m hm fmt osc J0 Tz0 hJ hT h0 h1
  obtain ⟨hdr, hopen⟩ := opens m' fo osc J0 Tz0
  refine ⟨f, start, ?_⟩
  have := conversion_succeeds lib H2.Ex.hf m m' f fo fmt _ start hin all st hr (desc osc (spaceOrdering fo) J0 Tz0) rfl
    (indexed osc _ J0 Tz0 hJ hT) (indexed osc _ J0 Tz0 hJ hT)
    (by
      rw [sectors_eq, sectors_eq]
      rcases hJ with rfl | rfl <;> rcases hT with rfl | rfl <;> simp only [reduceCtorEq, one_ne_zero, forall_const, imp_false, not_true_eq_false] at hJT <;>
        cases fmt <;> cases fo <;> decide)
    (by
      rw [sectors_eq, sectors_eq]
      rcases hJ with rfl | rfl <;> rcases hT with rfl | rfl <;> cases fmt <;> cases fo <;> decide)
    hdr hopen
    (by
      rw [sectors_eq]
      cases fo with
      | v0 =>
        obtain ⟨rfl, rfl⟩ := hfo rfl
        decide
      | v15099 => rcases hJ with rfl | rfl <;> rcases hT with rfl | rfl <;> decide
      | v15200 => rcases hJ with rfl | rfl <;> rcases hT with rfl | rfl <;> decide)
    (fun t => by
      have := size_le osc (spaceOrdering fo) J0 Tz0 hJ hT t
      omega)
  obtain ⟨out, h⟩ := this
  exact ⟨out, hin, h⟩

end Ex

/-- `converted_partial`, `converted_exact_partial` and `conversion_succeeds`: an operator of rank 1 in a 15099 text file,
converted to 15200, where the space is ordered differently. -/
example (m' : Mode) (hm' : m' ≠ .matrix) : ∃ f start out d d',
    openIn Ex.lib H2.Ex.hf .text f = .ok (.v15099, d, start) ∧
    convert Ex.lib H2.Ex.hf .text f Format.v15200.code (.ok m') = .ok out ∧
    d' = { d with ordering := spaceOrdering .v15200 } ∧ d'.subspaces Ex.lib ≠ d.subspaces Ex.lib ∧
    Indexed Ex.lib d ∧ Indexed Ex.lib d' ∧ (d'.subspaces Ex.lib).Perm (d.subspaces Ex.lib) ∧
    (d'.index Ex.lib).sectors.length = (d.index Ex.lib).sectors.length ∧ Expressible Ex.lib H2.Ex.hf m' .v15200 d' := by
  obtain ⟨f, start, out, h1, h2⟩ := Ex.converts .text m' (by simp) .v15099 false 1 0 (by simp) (by simp) (by simp) (by simp)
    .v15200 (by simp) (by simp)
  exact ⟨f, start, out, _, _, h1, h2, rfl, by change Ex.sp .tz ≠ Ex.sp .pn; decide, Ex.indexed _ _ _ _ (by simp) (by simp),
    Ex.indexed false .tz 1 0 (by simp) (by simp), Ex.perm false .tz .pn 1 0,
    by change (Ex.secs (Ex.sp .tz) 1 0 0).length = (Ex.secs (Ex.sp .pn) 1 0 0).length; decide,
    Ex.expressible m' hm' .v15200 false 1 0 (by simp) (by simp) (by simp) (by simp)⟩

/-- The conversion to `float` used in the examples has what `converted_exact_partial` asks for. -/
example : (∀ v, H2.Ex.hf.fm.ofF32 (H2.Ex.hf.fm.toF32 (H2.Ex.hf.fm.ofF32 v)) = H2.Ex.hf.fm.ofF32 v) ∧
    H2.Ex.hf.fm.ofF32 (H2.Ex.hf.fm.toF32 0) = 0 := by
  refine ⟨fun v => ?_, by simp [H2.Ex.hf, H2.Ex.fm]⟩
  by_cases h : v = 0#32 <;> simp [H2.Ex.hf, H2.Ex.fm, h]

/-- `reversed_sector_refused`: a charge-changing operator of rank 1 in a 15200 file. -/
example : ∃ f start d, openIn Ex.lib H2.Ex.hf .binary f = .ok (.v15200, d, start) ∧
    (∃ k s, k < (d.index Ex.lib).sectors.length ∧
      (({ d with ordering := spaceOrdering .v15099 } : Desc).index Ex.lib).sectors[k]? = some s ∧
      ∀ t ∈ (d.index Ex.lib).sectors, ¬ (t.bra = s.bra ∧ t.ket = s.ket)) ∧
    ∀ mo out, convert Ex.lib H2.Ex.hf .binary f Format.v15099.code mo ≠ .ok out := by
  obtain ⟨f, start, all, st, h1, -⟩ := Ex.input .binary (by simp) .v15200 true 1 1 (by simp) (by simp) (by simp) (by simp)
  have hs : ∃ k s, k < ((Ex.desc true (spaceOrdering .v15200) 1 1).index Ex.lib).sectors.length ∧
      (({ Ex.desc true (spaceOrdering .v15200) 1 1 with ordering := spaceOrdering .v15099 } : Desc).index Ex.lib).sectors[k]? = some s ∧
      ∀ t ∈ ((Ex.desc true (spaceOrdering .v15200) 1 1).index Ex.lib).sectors, ¬ (t.bra = s.bra ∧ t.ket = s.ket) := by
    refine ⟨1, ⟨2, 3, Ex.nn1, H2.Ex.pn0⟩, ?_, ?_, ?_⟩
    · rw [Ex.sectors_eq]; decide
    · change (Ex.secs (Ex.sp .pn) 1 0 1)[1]? = _
      decide
    · rw [Ex.sectors_eq]; decide
  refine ⟨f, start, _, h1, hs, fun mo out => ?_⟩
  obtain ⟨k, s, g1, g2, g3⟩ := hs
  exact reversed_sector_refused Ex.lib H2.Ex.hf .binary mo f .v15099 .v15200 _ start h1 _ rfl
    (Ex.indexed _ _ _ _ (by simp) (by simp)) (Ex.indexed true .pn 1 1 (by simp) (by simp)) (Ex.perm true .pn .tz 1 1) k s g1 g2 g3 out

/-- `charge_changing_conversion_unreadable`: a charge-changing operator of rank 0, whose sectors are directed the same way in
both orderings. -/
example : ∃ f start out d, openIn Ex.lib H2.Ex.hf .binary f = .ok (.v15200, d, start) ∧
    convert Ex.lib H2.Ex.hf .binary f Format.v15099.code (.ok .binary) = .ok out ∧ d.Tz0 ≠ 0 ∧ fitsInt d.Tz0 = true ∧
    Expressible Ex.lib H2.Ex.hf .binary .v15099 { d with ordering := .pn, Tz0 := 0 } := by
  obtain ⟨f, start, out, h1, h2⟩ := Ex.converts .binary .binary (by simp) .v15200 true 0 1 (by simp) (by simp) (by simp) (by simp)
    .v15099 (by simp) (by simp)
  exact ⟨f, start, out, _, h1, h2, by simp [Ex.desc], rfl,
    Ex.expressible .binary (by simp) .v15099 true 0 0 (by simp) (by simp) (by simp) (by simp)⟩

/-- `format0_replaces_orbitals`: an input whose orbitals are not those of the oscillator. -/
example : ∃ f start out d, openIn Ex.lib H2.Ex.hf .binary f = .ok (.v15099, d, start) ∧
    convert Ex.lib H2.Ex.hf .binary f Format.v0.code (.ok .binary) = .ok out ∧
    truncToInt d.wmax.p = 1 ∧ truncToInt d.wmax.pp = 1 ∧ d.orbs ≠ Ex.lib.oscOrbitals 1 ∧
    ∃ d0 start', openIn Ex.lib H2.Ex.hf .binary out = .ok (.v0, d0, start') ∧ d0.orbs ≠ d.orbs := by
  obtain ⟨f, start, out, h1, h2⟩ := Ex.converts .binary .binary (by simp) .v15099 false 0 0 (by simp) (by simp) (by simp) (by simp)
    .v0 (by simp) (by simp)
  have e1 : truncToInt (Ex.desc false (spaceOrdering .v15099) 0 0).wmax.p = 1 := by
    have := truncToInt_intCast 1
    simpa [Ex.desc] using this
  have e2 : truncToInt (Ex.desc false (spaceOrdering .v15099) 0 0).wmax.pp = 1 := by
    have := truncToInt_intCast 1
    simpa [Ex.desc] using this
  have hne : (Ex.desc false (spaceOrdering .v15099) 0 0).orbs ≠ Ex.lib.oscOrbitals 1 := by
    intro h
    have := congrArg (fun o : OrbSpace => o.p.map Orb.weight) h
    simp [Ex.desc, Ex.lib] at this
  obtain ⟨start', h3⟩ := format0_replaces_orbitals Ex.lib H2.Ex.hf .binary .binary (by simp) f out h2 _ _ start h1 1 1 e1 e2
    (by decide) (by decide) _ rfl
    (fun t => by
      change fitsInt (sizeByType (Ex.secs (Ex.sp .pn) 0 0 0) t) = true
      cases t <;> decide)
    (fun t _ => rfl)
  exact ⟨f, start, out, _, h1, h2, e1, e2, hne, _, start', h3, hne.symm⟩

end Verif.H2.Convert
