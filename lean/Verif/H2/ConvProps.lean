import Verif.H2.Conv
import Verif.H2.HeaderProps
import Mathlib.Data.List.Perm.Basic
import Mathlib.Data.Finset.Card

/-! # Properties of `h2conv` (C120, C121) -/

namespace Verif.H2.Convert
open Verif Verif.H2

/-! ### Specification -/

/-- Facts about the indexing of the `basis` library: sectors refer to subspaces of the space, subspaces have distinct
labels, and no sector is listed twice. -/
structure Indexed (lib : BasisLib) (d : Desc) : Prop where
  braAt : ∀ s ∈ (d.index lib).sectors, (d.subspaces lib)[s.braIndex]? = some s.bra
  ketAt : ∀ s ∈ (d.index lib).sectors, (d.subspaces lib)[s.ketIndex]? = some s.ket
  labels : ((d.subspaces lib).map fun s => (s.species, s.J, s.g)).Nodup
  pairs : ((d.index lib).sectors.map fun s => (s.braIndex, s.ketIndex)).Nodup

/-- The file, opened afresh, holds for the pair of labels the matrix `m`. -/
def Holds (lib : BasisLib) (hf : HeaderFloat) (mode : Mode) (f : File) (lb lk : Species × Nat × Nat) (m : Mat) : Prop :=
  ∃ fmt d start k s st, openIn lib hf mode f = .ok (fmt, d, start) ∧ (d.index lib).sectors[k]? = some s ∧
    (s.bra.species, s.bra.J, s.bra.g) = lb ∧ (s.ket.species, s.ket.J, s.ket.g) = lk ∧
    readSector ⟨hf.fm, fmt, mode, d.index lib⟩ f k (InState.init start) = .ok (m, st)

/-- `m'` is `m` with the stored elements rounded by `r`. -/
def Rounded (fm : FloatModel) (r : BitVec 32 → BitVec 32) (lb lk : Species × Nat × Nat) (m m' : Mat) : Prop :=
  m'.rows = m.rows ∧ m'.cols = m.cols ∧ ∀ b k, m'.val b k =
    if b < m.rows ∧ k < m.cols ∧ (lb = lk → b ≤ k) then fm.ofF32 (r (fm.toF32 (m.val b k))) else 0

/-! ### Lemmas -/

theorem Indexed.wf {lib : BasisLib} {d : Desc} (h : Indexed lib d) : ∀ s ∈ (d.index lib).sectors, s.WF := by
  intro s hs he
  have h1 := h.braAt s hs
  have h2 := h.ketAt s hs
  rw [he, h2] at h1
  simpa using h1.symm

theorem Indexed.inj {lib : BasisLib} {d : Desc} (h : Indexed lib d) {i j : Nat} {s t : Subspace}
    (hi : (d.subspaces lib)[i]? = some s) (hj : (d.subspaces lib)[j]? = some t) (hl : s.labels = t.labels) : i = j := by
  have hn := List.nodup_iff_getElem?_ne_getElem?.1 h.labels
  by_contra hne
  obtain ⟨h1, h2⟩ := List.getElem?_eq_some_iff.1 hi
  obtain ⟨h3, h4⟩ := List.getElem?_eq_some_iff.1 hj
  rcases Nat.lt_or_gt_of_ne hne with hlt | hlt
  · apply hn i j hlt (by simpa using h3)
    simp only [List.getElem?_map, hi, hj, Option.map_some]
    exact congrArg some hl
  · apply hn j i hlt (by simpa using h1)
    simp only [List.getElem?_map, hi, hj, Option.map_some]
    exact congrArg some hl.symm

theorem lookUpSubspace_some {ss : List Subspace} {l : Species × Nat × Nat} {i : Nat} (h : lookUpSubspace ss l = some i) :
    ∃ s, ss[i]? = some s ∧ s.labels = l := by
  unfold lookUpSubspace at h
  rw [List.findIdx?_eq_some_iff_getElem] at h
  obtain ⟨h1, h2, -⟩ := h
  exact ⟨_, List.getElem?_eq_getElem h1, by simpa using h2⟩

theorem lookUpSector_some {xs : List Sector} {b k : Option Nat} {i : Nat} (h : lookUpSector xs b k = some i) :
    ∃ s, xs[i]? = some s ∧ some s.braIndex = b ∧ some s.ketIndex = k := by
  unfold lookUpSector at h
  rw [List.findIdx?_eq_some_iff_getElem] at h
  obtain ⟨h1, h2, -⟩ := h
  exact ⟨_, List.getElem?_eq_getElem h1, by simpa using h2⟩

/-- The input sector used for an output sector. -/
def Matched (ci co : Cfg) (sp : List Subspace) (k i : Nat) : Prop :=
  ∃ s, co.ix.sectors[k]? = some s ∧
    lookUpSector ci.ix.sectors (lookUpSubspace sp s.bra.labels) (lookUpSubspace sp s.ket.labels) = some i

theorem step_ok {ci co : Cfg} {sp : List Subspace} {f : File} {k : Nat} {st st' : InState × OutState}
    (h : step ci co sp f k st = .ok st') :
    ∃ i m, Matched ci co sp k i ∧ readSector ci f i st.1 = .ok (m, st'.1) ∧
      writeSector co k m .none st.2 = .ok st'.2 := by
  unfold step at h
  rw [Except.bind_eq_ok] at h
  obtain ⟨s, hs, h⟩ := h
  rw [getSector_ok] at hs
  cases hl : lookUpSector ci.ix.sectors (lookUpSubspace sp s.bra.labels) (lookUpSubspace sp s.ket.labels) with
  | none => simp [hl] at h
  | some i =>
    simp only [hl, Except.bind_eq_ok, Except.pure_ok, Except.ok.injEq] at h
    obtain ⟨⟨m, si⟩, h1, so, h2, rfl⟩ := h
    exact ⟨i, m, ⟨s, hs, hl⟩, h1, h2⟩

theorem loop_ok {ci co : Cfg} {sp : List Subspace} {f : File} {ks : List Nat} {st st' : InState × OutState}
    (h : loop ci co sp f ks st = .ok st') :
    ∃ is ms, List.Forall₂ (Matched ci co sp) ks is ∧ readHistory ci f is st.1 = .ok (ms, st'.1) ∧
      ms.length = ks.length ∧
      writeHistory co (List.zipWith (fun k m => ⟨k, m, .none⟩) ks ms) st.2 = .ok st'.2 := by
  induction ks generalizing st with
  | nil =>
    simp only [loop, Except.ok.injEq] at h
    subst h
    exact ⟨[], [], .nil, rfl, rfl, rfl⟩
  | cons k ks ih =>
    simp only [loop, Except.bind_eq_ok] at h
    obtain ⟨st1, h1, h2⟩ := h
    obtain ⟨i, m, hm, hr, hw⟩ := step_ok h1
    obtain ⟨is, ms, g1, g2, g3, g4⟩ := ih h2
    exact ⟨i :: is, m :: ms, .cons hm g1, by simp [readHistory, hr, g2], by simp [g3],
      by simp [writeHistory, hw, g4]⟩

theorem convert_ok {lib : BasisLib} {hf : HeaderFloat} {mi : Mode} {f : File} {code : Int} {mo : Except Err Mode} {out : File}
    (h : convert lib hf mi f code mo = .ok out) :
    ∃ fi d start fo m hdr si so, openIn lib hf mi f = .ok (fi, d, start) ∧ formatOfCode code = .ok fo ∧ mo = .ok m ∧
      openOut lib hf m fo { d with ordering := spaceOrdering fo } = .ok hdr ∧
      loop ⟨hf.fm, fi, mi, d.index lib⟩ ⟨hf.fm, fo, m, ({ d with ordering := spaceOrdering fo } : Desc).index lib⟩
        (d.subspaces lib) f (List.range (d.index lib).sectors.length) (InState.init start, ⟨0, hdr⟩) = .ok (si, so) ∧
      so.out = out := by
  simp only [convert, Except.bind_eq_ok, Except.pure_ok, Except.ok.injEq] at h
  obtain ⟨⟨fi, d, start⟩, h1, fo, h2, m, h3, hdr, h4, ⟨si, so⟩, h5, h6⟩ := h
  exact ⟨fi, d, start, fo, m, hdr, si, so, h1, h2, h3, h4, h5, h6⟩

/-- What is known of a sector and the one it was read from. -/
structure Same (s t : Sector) : Prop where
  bra : s.bra = t.bra
  ket : s.ket = t.ket

theorem matched_same {lib : BasisLib} {d d' : Desc} (hI : Indexed lib d) (hI' : Indexed lib d')
    (hperm : (d'.subspaces lib).Perm (d.subspaces lib)) {fm fi fo mi mo k i}
    (h : Matched ⟨fm, fi, mi, d.index lib⟩ ⟨fm, fo, mo, d'.index lib⟩ (d.subspaces lib) k i) :
    ∃ s t, (d'.index lib).sectors[k]? = some s ∧ (d.index lib).sectors[i]? = some t ∧ Same s t := by
  obtain ⟨s, hs, hl⟩ := h
  obtain ⟨t, ht, h1, h2⟩ := lookUpSector_some hl
  obtain ⟨u, hu, hul⟩ := lookUpSubspace_some h1.symm
  obtain ⟨v, hv, hvl⟩ := lookUpSubspace_some h2.symm
  have hsm := List.mem_of_getElem? hs
  have htm := List.mem_of_getElem? ht
  have e1 := hI.braAt t htm
  have e2 := hI.ketAt t htm
  rw [e1] at hu
  rw [e2] at hv
  cases hu
  cases hv
  have key : ∀ x ∈ d'.subspaces lib, ∀ y ∈ d.subspaces lib, x.labels = y.labels → x = y := by
    intro x hx y hy hxy
    have hx' := hperm.mem_iff.1 hx
    obtain ⟨a, ha⟩ := List.getElem?_of_mem hx'
    obtain ⟨b, hb⟩ := List.getElem?_of_mem hy
    have := hI.inj ha hb hxy
    subst this
    rw [ha] at hb
    simpa using hb
  refine ⟨s, t, hs, ht, ⟨?_, ?_⟩⟩
  · exact key _ (List.mem_of_getElem? (hI'.braAt s hsm)) _ (List.mem_of_getElem? e1) hul.symm
  · exact key _ (List.mem_of_getElem? (hI'.ketAt s hsm)) _ (List.mem_of_getElem? e2) hvl.symm

theorem Indexed.sector_inj {lib : BasisLib} {d : Desc} (h : Indexed lib d) {i j : Nat} {s t : Sector}
    (hi : (d.index lib).sectors[i]? = some s) (hj : (d.index lib).sectors[j]? = some t)
    (hb : s.bra.labels = t.bra.labels) (hk : s.ket.labels = t.ket.labels) : i = j := by
  have e1 := h.inj (h.braAt s (List.mem_of_getElem? hi)) (h.braAt t (List.mem_of_getElem? hj)) hb
  have e2 := h.inj (h.ketAt s (List.mem_of_getElem? hi)) (h.ketAt t (List.mem_of_getElem? hj)) hk
  have hn := List.nodup_iff_getElem?_ne_getElem?.1 h.pairs
  by_contra hne
  obtain ⟨h1, h2⟩ := List.getElem?_eq_some_iff.1 hi
  obtain ⟨h3, h4⟩ := List.getElem?_eq_some_iff.1 hj
  rcases Nat.lt_or_gt_of_ne hne with hlt | hlt
  · apply hn i j hlt (by simpa using h3)
    simp only [List.getElem?_map, hi, hj, Option.map_some, e1, e2]
  · apply hn j i hlt (by simpa using h1)
    simp only [List.getElem?_map, hi, hj, Option.map_some, e1, e2]

/-- Distinct numbers below `n`, `n` of them, are all of them. -/
theorem covers {n : Nat} {is : List Nat} (hl : is.length = n) (hlt : ∀ i ∈ is, i < n) (hd : is.Nodup) (i : Nat) (hi : i < n) :
    i ∈ is := by
  have h1 : is.toFinset ⊆ Finset.range n := by
    intro x hx
    simpa using hlt x (by simpa using hx)
  have h2 := Finset.eq_of_subset_of_card_le h1 (by
    rw [Finset.card_range, List.toFinset_card_of_nodup hd, hl])
  have : i ∈ is.toFinset := by rw [h2]; simpa using hi
  simpa using this

theorem readSector_of_history {c : Cfg} {f : File} {start k : Nat} {m : Mat} {st : InState}
    (h : readSector c f k (InState.init start) = .ok (m, st)) :
    readHistory c f [k] (InState.init start) = .ok ([m], st) := by
  simp [readHistory, h]

/-- All that the loop establishes. -/
theorem loop_facts {lib : BasisLib} {hf : HeaderFloat} {mi mo : Mode} {f : File} {fi fo : Format} {d d' : Desc} {start : Nat}
    {hdr : File} {si : InState} {so : OutState}
    (hI : Indexed lib d) (hI' : Indexed lib d') (hperm : (d'.subspaces lib).Perm (d.subspaces lib))
    (hloop : loop ⟨hf.fm, fi, mi, d.index lib⟩ ⟨hf.fm, fo, mo, d'.index lib⟩ (d.subspaces lib) f
      (List.range (d.index lib).sectors.length) (InState.init start, ⟨0, hdr⟩) = .ok (si, so)) :
    ∃ calls : List WriteCall, calls.length = (d.index lib).sectors.length ∧
      writeHistory ⟨hf.fm, fo, mo, d'.index lib⟩ calls ⟨0, hdr⟩ = .ok so ∧
      (∀ (k : Nat) (w : WriteCall), calls[k]? = some w → ∃ (i : Nat) (s t : Sector) (st : InState), w.conv = .none ∧ (d'.index lib).sectors[k]? = some s ∧
        (d.index lib).sectors[i]? = some t ∧ Same s t ∧
        readSector ⟨hf.fm, fi, mi, d.index lib⟩ f i (InState.init start) = .ok (w.mat, st)) ∧
      (∀ (i : Nat) (t : Sector), (d.index lib).sectors[i]? = some t → ∃ (k : Nat) (s : Sector) (w : WriteCall) (st : InState), calls[k]? = some w ∧ w.conv = .none ∧
        (d'.index lib).sectors[k]? = some s ∧ Same s t ∧
        readSector ⟨hf.fm, fi, mi, d.index lib⟩ f i (InState.init start) = .ok (w.mat, st)) := by
  obtain ⟨is, ms, h1, h2, h3, h4⟩ := loop_ok hloop
  simp only at h2 h4
  set n := (d.index lib).sectors.length with hn
  rw [List.length_range] at h3
  have hlen : is.length = n := by rw [← h1.length_eq, List.length_range]
  have hat : ∀ k (hk : k < n), ∃ s t, (d'.index lib).sectors[k]? = some s ∧
      (d.index lib).sectors[is[k]'(by omega)]? = some t ∧ Same s t := by
    intro k hk
    have := h1.get (i := k) (by simpa using hk) (by omega)
    simp only [List.get_eq_getElem, List.getElem_range] at this
    exact matched_same hI hI' hperm this
  have hlt : ∀ i ∈ is, i < n := by
    intro i hi
    obtain ⟨k, hk, rfl⟩ := List.getElem_of_mem hi
    obtain ⟨s, t, -, ht, -⟩ := hat k (by omega)
    obtain ⟨hh, -⟩ := List.getElem?_eq_some_iff.1 ht
    exact hh
  have hnd : is.Nodup := by
    rw [List.nodup_iff_getElem?_ne_getElem?]
    intro a b hab hb he
    rw [List.getElem?_eq_getElem (by omega), List.getElem?_eq_getElem hb, Option.some.injEq] at he
    obtain ⟨s, t, hs, ht, hst⟩ := hat a (by omega)
    obtain ⟨s', t', hs', ht', hst'⟩ := hat b (by omega)
    rw [he, ht'] at ht
    cases ht
    have := hI'.sector_inj hs hs' (by rw [hst.bra, hst'.bra]) (by rw [hst.ket, hst'.ket])
    omega
  have hsound := (readHistory_sound hI.wf (inv_init _ start) h2).2
  have hread : ∀ k (hk : k < n), ∃ p, readAt ⟨hf.fm, fi, mi, d.index lib⟩ f start (is[k]'(by omega)) =
      .ok (ms[k]'(by omega), p) := by
    intro k hk
    have := hsound.get (i := k) (by omega) (by omega)
    simpa only [List.get_eq_getElem] using this
  have hall : ∀ i, i < n → ∃ m p, readAt ⟨hf.fm, fi, mi, d.index lib⟩ f start i = .ok (m, p) := by
    intro i hi
    obtain ⟨k, hk, rfl⟩ := List.getElem_of_mem (covers hlen hlt hnd i hi)
    obtain ⟨p, hp⟩ := hread k (by omega)
    exact ⟨_, p, hp⟩
  have hfresh : ∀ k (hk : k < n), ∃ st, readSector ⟨hf.fm, fi, mi, d.index lib⟩ f (is[k]'(by omega)) (InState.init start) =
      .ok (ms[k]'(by omega), st) := by
    intro k hk
    obtain ⟨m, st, hm⟩ := readSector_complete hI.wf (inv_init ⟨hf.fm, fi, mi, d.index lib⟩ start)
      (hlt _ (List.getElem_mem (by omega : k < is.length))) hall
    obtain ⟨-, p, hp⟩ := readSector_sound hI.wf (inv_init _ start) hm
    obtain ⟨q, hq⟩ := hread k hk
    rw [hq] at hp
    cases hp
    exact ⟨st, hm⟩
  refine ⟨_, ?_, h4, ?_, ?_⟩
  · simp [h3]
  · intro k w hw
    have hk : k < n := by
      obtain ⟨hh, -⟩ := List.getElem?_eq_some_iff.1 hw
      simp only [List.length_zipWith, List.length_range, h3] at hh
      omega
    rw [List.getElem?_eq_getElem (by simp [h3, hk])] at hw
    simp only [List.getElem_zipWith, List.getElem_range, Option.some.injEq] at hw
    subst hw
    obtain ⟨s, t, hs, ht, hst⟩ := hat k hk
    obtain ⟨st, hr⟩ := hfresh k hk
    exact ⟨_, s, t, st, rfl, hs, ht, hst, hr⟩
  · intro i t ht
    obtain ⟨hi, -⟩ := List.getElem?_eq_some_iff.1 ht
    obtain ⟨k, hk, rfl⟩ := List.getElem_of_mem (covers hlen hlt hnd i hi)
    have hk' : k < n := by omega
    obtain ⟨s, t', hs, ht', hst⟩ := hat k hk'
    rw [ht] at ht'
    cases ht'
    obtain ⟨st, hr⟩ := hfresh k hk'
    refine ⟨k, s, ⟨k, ms[k]'(by omega), .none⟩, st, ?_, rfl, hs, hst, hr⟩
    rw [List.getElem?_eq_getElem (by simp [h3, hk'])]
    simp

theorem rounded_of_image {fm : FloatModel} {r : BitVec 32 → BitVec 32} {lib : BasisLib} {d : Desc} (hI : Indexed lib d)
    {k : Nat} {s : Sector} (hs : (d.index lib).sectors[k]? = some s) {w : WriteCall} {m' : Mat} (hc : w.conv = .none)
    (hrows : w.mat.rows = s.bra.size) (hcols : w.mat.cols = s.ket.size)
    (h : IsImage fm r s w m') : Rounded fm r s.bra.labels s.ket.labels w.mat m' := by
  obtain ⟨h1, h2, h3⟩ := h
  refine ⟨h1.trans hrows.symm, h2.trans hcols.symm, fun b k => ?_⟩
  rw [h3, hrows, hcols]
  have hm := List.mem_of_getElem? hs
  have hd : s.braIndex = s.ketIndex ↔ s.bra.labels = s.ket.labels := by
    constructor
    · intro he
      rw [hI.wf s hm he]
    · exact hI.inj (hI.braAt s hm) (hI.ketAt s hm)
  simp only [Stored, storedFactor, hc, hd]
  simp

/-! ### C120 — the converted file holds the same operator -/

/-- **C120.** If `h2conv` finishes, then the file it wrote opens in the requested format, with the orbitals, cutoffs and
quantum numbers of the input; and, whatever the order of the two spaces, it holds for each pair of subspaces
the matrix that the input holds, with its stored elements rounded as the output medium rounds.
Asked of the library: the two orderings list the same subspaces, and as many sectors.  Asked of the operator: that the requested
format can express it (see C121 for what happens otherwise). -/
theorem converted_partial (lib : BasisLib) (hf : HeaderFloat) (mi mo : Mode) (f : File) (fo : Format) (out : File)
    (hrun : convert lib hf mi f fo.code (.ok mo) = .ok out)
    (fi : Format) (d : Desc) (start : Nat) (hin : openIn lib hf mi f = .ok (fi, d, start))
    (d' : Desc) (hd' : d' = { d with ordering := spaceOrdering fo })
    (hI : Indexed lib d) (hI' : Indexed lib d') (hperm : (d'.subspaces lib).Perm (d.subspaces lib))
    (hn : (d'.index lib).sectors.length = (d.index lib).sectors.length)
    (hm : mo ≠ .matrix) (hx : Expressible lib hf mo fo d')
    (r : BitVec 32 → BitVec 32) (hr : mo = .text → ∀ x, hf.fm.scan (hf.fm.fmt x) = some (r x))
    (hb : mo = .binary → r = id) :
    (∃ start', openIn lib hf mo out = .ok (fo, d', start')) ∧
    (∀ lb lk m, Holds lib hf mi f lb lk m → ∃ m', Holds lib hf mo out lb lk m' ∧ Rounded hf.fm r lb lk m m') ∧
    (∀ lb lk m', Holds lib hf mo out lb lk m' → ∃ m, Holds lib hf mi f lb lk m ∧ Rounded hf.fm r lb lk m m') := by
  obtain ⟨fi1, d1, start1, fo1, mo1, hdr, si, so, h1, h2, h3, h4, h5, rfl⟩ := convert_ok hrun
  rw [hin] at h1
  cases h1
  rw [formatOfCode_code] at h2
  cases h2
  cases h3
  rw [← hd'] at h4 h5
  obtain ⟨calls, c1, c2, c3, c4⟩ := loop_facts hI hI' hperm h5
  have hrb := fun ks hks => written_file_reads_back_partial lib hf mo fo d' hm hx hI'.wf r hr hb hdr h4 calls so c2
    (by rw [c1, hn]) ks hks
  have hdim : ∀ (k : Nat) (w : WriteCall), calls[k]? = some w → ∃ s, (d'.index lib).sectors[k]? = some s ∧
      w.mat.rows = s.bra.size ∧ w.mat.cols = s.ket.size := by
    intro k w hw
    obtain ⟨-, chunks, e2, -, -, e5⟩ := writeHistory_ok c2
    have hk : k < chunks.length := by
      rw [e2]; exact (List.getElem?_eq_some_iff.1 hw).1
    have := (e5 k w _ hw (List.getElem?_eq_getElem hk)).2.1
    simpa using this
  obtain ⟨fo2, d2, start', -, -, hopen, e1, e2, -⟩ := hrb [] (by simp)
  subst e1 e2
  -- one sector
  have hone : ∀ (k : Nat) (s : Sector) (w : WriteCall), (d2.index lib).sectors[k]? = some s → calls[k]? = some w → w.conv = .none →
      ∃ m' st', readSector ⟨hf.fm, fo2, mo, d2.index lib⟩ so.out k (InState.init start') = .ok (m', st') ∧
        Rounded hf.fm r s.bra.labels s.ket.labels w.mat m' := by
    intro k s w hs hw hc
    obtain ⟨fo3, d3, start3, ms, st', ho3, rfl, rfl, hrd, him⟩ := hrb [k] (by
      intro a ha
      simp only [List.mem_singleton] at ha
      subst ha
      exact (List.getElem?_eq_some_iff.1 hs).1)
    rw [hopen] at ho3
    cases ho3
    cases him with
    | cons hh ht =>
      cases ht
      obtain ⟨s1, w1, hs1, hw1, him⟩ := hh
      rw [hs] at hs1
      rw [hw] at hw1
      cases hs1
      cases hw1
      obtain ⟨s2, hs2, hrow, hcol⟩ := hdim k w hw
      rw [hs] at hs2
      cases hs2
      simp only [readHistory, Except.bind_eq_ok, Except.pure_ok, Except.ok.injEq, Prod.mk.injEq] at hrd
      obtain ⟨⟨m1, st1⟩, hr1, ⟨ms1, st2⟩, hr2, hr3, -⟩ := hrd
      simp only [Except.ok.injEq, Prod.mk.injEq, List.cons.injEq] at hr2 hr3
      obtain ⟨rfl, -⟩ := hr3
      exact ⟨m1, st1, hr1, rounded_of_image hI' hs hc hrow hcol him⟩
  refine ⟨⟨start', hopen⟩, ?_, ?_⟩
  · rintro lb lk m ⟨fi2, d3, start2, i, t, st, ho, ht, rfl, rfl, hread⟩
    rw [hin] at ho
    cases ho
    obtain ⟨k, s, w, st2, hw, hc, hs, hst, hread2⟩ := c4 i t ht
    rw [hread] at hread2
    cases hread2
    obtain ⟨m', st', hr', hrd⟩ := hone k s w hs hw hc
    refine ⟨m', ⟨fo2, d2, start', k, s, st', hopen, hs, by rw [hst.bra], by rw [hst.ket], hr'⟩, ?_⟩
    rw [hst.bra, hst.ket] at hrd
    exact hrd
  · rintro lb lk m' ⟨fo3, d3, start2, k, s, st, ho, hs, rfl, rfl, hread⟩
    rw [hopen] at ho
    cases ho
    have hk : k < calls.length := by
      rw [c1, ← hn]; exact (List.getElem?_eq_some_iff.1 hs).1
    obtain ⟨i, s1, t, st1, hc, hs1, ht, hst, hread1⟩ := c3 k _ (List.getElem?_eq_getElem hk)
    rw [hs] at hs1
    cases hs1
    obtain ⟨m1, st', hr', hrd⟩ := hone k s _ hs (List.getElem?_eq_getElem hk) hc
    rw [hread] at hr'
    cases hr'
    exact ⟨_, ⟨fi, d, start, i, t, st1, hin, ht, by rw [hst.bra], by rw [hst.ket], hread1⟩, hrd⟩

/-! ### Conversion without loss -/

theorem loadAll_all {fm : FloatModel} {P : ℝ → Prop} (hP : ∀ v, P (fm.ofF32 v)) {ps : List (Nat × Nat)} {i : Nat}
    {buf : List (BitVec 32)} {m m' : Mat} (h : loadAll fm ps i buf m = .ok m') (h0 : ∀ a b, P (m.val a b)) :
    ∀ a b, P (m'.val a b) := by
  induction ps generalizing i m with
  | nil =>
    simp only [loadAll, Except.ok.injEq] at h
    subst h
    exact h0
  | cons p ps ih =>
    simp only [loadAll] at h
    cases hb : buf[i]? with
    | none => simp [hb] at h
    | some v =>
      simp only [hb] at h
      refine ih h fun a b => ?_
      simp only [Mat.set]
      split_ifs
      · exact hP v
      · exact h0 a b

theorem loadText_all {fm : FloatModel} {P : ℝ → Prop} (hP : ∀ v, P (fm.ofF32 v)) {labels : Nat × Nat → List Int}
    {ps : List (Nat × Nat)} {ls : List Line} {i q : Nat} {m m' : Mat} (h : loadText fm labels ps ls i m = .ok (m', q))
    (h0 : ∀ a b, P (m.val a b)) : ∀ a b, P (m'.val a b) := by
  induction ps generalizing i m with
  | nil =>
    simp only [loadText, Except.ok.injEq, Prod.mk.injEq] at h
    rw [← h.1]
    exact h0
  | cons p ps ih =>
    simp only [loadText] at h
    cases hl : ls[i]? with
    | none => simp [hl] at h
    | some line =>
      simp only [hl] at h
      cases hv : line.decs.head?.bind fm.scan with
      | none => simp [hv] at h
      | some v =>
        simp only [hv] at h
        split_ifs at h
        refine ih h fun a b => ?_
        simp only [Mat.set]
        split_ifs
        · exact hP v
        · exact h0 a b

/-- Every element that is read is zero or the value of a `float`. -/
theorem readRaw_all {c : Cfg} {f : File} {k pos q : Nat} {m : Mat} {P : ℝ → Prop} (hP : ∀ v, P (c.fm.ofF32 v)) (h0 : P 0)
    (h : readSectorRaw c f k pos = .ok (m, q)) : ∀ a b, P (m.val a b) := by
  cases hs : c.ix.sectors[k]? with
  | none => rw [readRaw_none hs] at h; simp at h
  | some s =>
    cases ha : accepts c s with
    | false => rw [readRaw_reject hs ha] at h; simp at h
    | true =>
      cases hm : c.mode with
      | binary =>
        rw [readRaw_binary hm hs ha] at h
        simp only [Except.bind_eq_ok] at h
        obtain ⟨p1, h1, ⟨buf, p2⟩, h2, m', h3, p3, h4, h5⟩ := h
        simp only [Except.pure_ok, Except.ok.injEq, Prod.mk.injEq] at h5
        obtain ⟨rfl, rfl⟩ := h5
        exact loadAll_all hP h3 fun _ _ => h0
      | text =>
        rw [readRaw_text hm hs ha] at h
        exact loadText_all hP h fun _ _ => h0
      | matrix =>
        rw [readRaw_matrix hm hs ha] at h
        split_ifs at h
        simp only [Except.ok.injEq, Prod.mk.injEq] at h
        rw [← h.1]
        exact fun _ _ => h0

/-- **C120, binary output.** When the output is binary nothing is rounded: the output holds exactly the matrices that the
input holds, in any of the formats, text or binary.  `hround` and `hzero` say that the value of a `float`, kept as a
`double`, is converted back to the same value. -/
theorem converted_exact_partial (lib : BasisLib) (hf : HeaderFloat) (mi : Mode) (f : File) (fo : Format) (out : File)
    (hrun : convert lib hf mi f fo.code (.ok .binary) = .ok out)
    (fi : Format) (d : Desc) (start : Nat) (hin : openIn lib hf mi f = .ok (fi, d, start))
    (d' : Desc) (hd' : d' = { d with ordering := spaceOrdering fo })
    (hI : Indexed lib d) (hI' : Indexed lib d') (hperm : (d'.subspaces lib).Perm (d.subspaces lib))
    (hn : (d'.index lib).sectors.length = (d.index lib).sectors.length)
    (hx : Expressible lib hf .binary fo d')
    (hround : ∀ v, hf.fm.ofF32 (hf.fm.toF32 (hf.fm.ofF32 v)) = hf.fm.ofF32 v)
    (hzero : hf.fm.ofF32 (hf.fm.toF32 0) = 0) (lb lk : Species × Nat × Nat) (m : Mat) :
    Holds lib hf .binary out lb lk m ↔ Holds lib hf mi f lb lk m := by
  obtain ⟨-, h1, h2⟩ := converted_partial lib hf mi .binary f fo out hrun fi d start hin d' hd' hI hI' hperm hn (by simp) hx
    id (by simp) (fun _ => rfl)
  have key : ∀ m m', Holds lib hf mi f lb lk m → Rounded hf.fm id lb lk m m' → m' = m := by
    rintro m m' ⟨fi2, d2, start2, k, s, st, ho, hs, rfl, rfl, hread⟩ ⟨r1, r2, r3⟩
    rw [hin] at ho
    cases ho
    obtain ⟨-, p, hp⟩ := readSector_sound hI.wf (inv_init _ start) hread
    have hval := readRaw_all (P := fun x => hf.fm.ofF32 (hf.fm.toF32 x) = x) hround hzero hp
    obtain ⟨-, -, s', hs', -, hrow, hcol, hz⟩ := readRaw_ok hI.wf hp
    simp only at hs'
    rw [hs] at hs'
    cases hs'
    cases m
    cases m'
    simp only at r1 r2 r3 hval hrow hcol hz
    subst r1 r2
    congr
    funext a b
    rw [r3 a b]
    split_ifs with hc
    · exact hval a b
    · refine (hz a b fun hmem => hc ?_).symm
      rw [mem_loopPairs_stored] at hmem
      refine ⟨by rw [hrow]; exact hmem.1, by rw [hcol]; exact hmem.2.1, fun he => hmem.2.2 ?_⟩
      have hsm := List.mem_of_getElem? hs
      exact hI.inj (hI.braAt s hsm) (hI.ketAt s hsm) he
  constructor
  · intro hh
    obtain ⟨m0, g1, g2⟩ := h2 lb lk m hh
    rw [key m0 m g1 g2]
    exact g1
  · intro hh
    obtain ⟨m', g1, g2⟩ := h1 lb lk m hh
    rw [← key m m' hh g2]
    exact g1

/-! ### When the conversion succeeds -/

theorem lookUpSubspace_at {lib : BasisLib} {d : Desc} (hI : Indexed lib d) {i : Nat} {s : Subspace}
    (h : (d.subspaces lib)[i]? = some s) : lookUpSubspace (d.subspaces lib) s.labels = some i := by
  obtain ⟨h1, h2⟩ := List.getElem?_eq_some_iff.1 h
  unfold lookUpSubspace
  rw [List.findIdx?_eq_some_iff_getElem]
  refine ⟨h1, by simp [h2], fun j hj => ?_⟩
  simp only [decide_eq_true_eq]
  intro he
  have := hI.inj (List.getElem?_eq_getElem (by omega : j < _)) h he
  omega

theorem lookUpSector_at {lib : BasisLib} {d : Desc} (hI : Indexed lib d) {i : Nat} {t : Sector}
    (h : (d.index lib).sectors[i]? = some t) :
    lookUpSector (d.index lib).sectors (lookUpSubspace (d.subspaces lib) t.bra.labels)
      (lookUpSubspace (d.subspaces lib) t.ket.labels) = some i := by
  obtain ⟨h1, h2⟩ := List.getElem?_eq_some_iff.1 h
  have hm := List.mem_of_getElem? h
  rw [lookUpSubspace_at hI (hI.braAt t hm), lookUpSubspace_at hI (hI.ketAt t hm)]
  unfold lookUpSector
  rw [List.findIdx?_eq_some_iff_getElem]
  refine ⟨h1, by simp [h2], fun j hj => ?_⟩
  have hj' : j < (d.index lib).sectors.length := by omega
  simp only [Option.some.injEq, decide_eq_true_eq]
  rintro ⟨he1, he2⟩
  have hn := List.nodup_iff_getElem?_ne_getElem?.1 hI.pairs
  apply hn j i hj (by simpa using h1)
  simp only [List.getElem?_map, h, List.getElem?_eq_getElem hj', Option.map_some, he1, he2]

/-- **C120 (the conversion is possible).** If the input can be read from beginning to end, the requested header can be
written, and each sector of the requested indexing is a sector of the input that the format accepts and
that its records can hold, then the conversion succeeds. -/
theorem conversion_succeeds (lib : BasisLib) (hf : HeaderFloat) (mi mo : Mode) (f : File) (fo : Format)
    (fi : Format) (d : Desc) (start : Nat) (hin : openIn lib hf mi f = .ok (fi, d, start))
    (all : List Mat) (stAll : InState)
    (hread : readHistory ⟨hf.fm, fi, mi, d.index lib⟩ f (List.range (d.index lib).sectors.length) (InState.init start) =
      .ok (all, stAll))
    (d' : Desc) (hd' : d' = { d with ordering := spaceOrdering fo })
    (hI : Indexed lib d) (hI' : Indexed lib d')
    (hsec : ∀ s ∈ (d'.index lib).sectors, ∃ t ∈ (d.index lib).sectors, t.bra = s.bra ∧ t.ket = s.ket)
    (hn : (d'.index lib).sectors.length = (d.index lib).sectors.length)
    (hdr : File) (hopen : openOut lib hf mo fo d' = .ok hdr)
    (hacc : ∀ s ∈ (d'.index lib).sectors, s.braIndex ≤ s.ketIndex ∧ (fo = .v0 → s.braIndex = s.ketIndex))
    (hfit : ∀ t, 4 * sizeByType (d'.index lib).sectors t < 2 ^ 31 - 9) :
    ∃ out, convert lib hf mi f fo.code (.ok mo) = .ok out := by
  have hall : ∀ i, i < (d.index lib).sectors.length → ∃ m p,
      readAt ⟨hf.fm, fi, mi, d.index lib⟩ f start i = .ok (m, p) := by
    intro i hi
    have hs := (readHistory_sound hI.wf (inv_init _ start) hread).2
    have hi' : i < all.length := by rw [← hs.length_eq]; simpa using hi
    have := hs.get (i := i) (by simpa using hi) hi'
    simp only [List.get_eq_getElem, List.getElem_range] at this
    obtain ⟨p, hp⟩ := this
    exact ⟨_, p, hp⟩
  have hloop : ∀ (ks : List Nat) (si : InState) (so : OutState), Inv ⟨hf.fm, fi, mi, d.index lib⟩ start si →
      (∀ j k, ks[j]? = some k → k = so.sectorIndex + j ∧ k < (d'.index lib).sectors.length) →
      ∃ st, loop ⟨hf.fm, fi, mi, d.index lib⟩ ⟨hf.fm, fo, mo, d'.index lib⟩ (d.subspaces lib) f ks (si, so) = .ok st := by
    intro ks
    induction ks with
    | nil => intro si so _ _; exact ⟨_, rfl⟩
    | cons k ks ih =>
      intro si so hinv hks
      obtain ⟨hk, hlt⟩ := hks 0 k rfl
      simp only [Nat.add_zero] at hk
      have hs := List.getElem?_eq_getElem hlt
      generalize (d'.index lib).sectors[k] = s at hs
      have hsm := List.mem_of_getElem? hs
      obtain ⟨t, htm, hb, hkt⟩ := hsec s hsm
      obtain ⟨i, hi⟩ := List.getElem?_of_mem htm
      have hlook := lookUpSector_at hI hi
      rw [hb, hkt] at hlook
      obtain ⟨m, si', hr⟩ := readSector_complete hI.wf hinv (List.getElem?_eq_some_iff.1 hi).1 hall
      obtain ⟨hinv', p, hp⟩ := readSector_sound hI.wf hinv hr
      obtain ⟨-, -, t', ht', -, hrow, hcol, -⟩ := readRaw_ok hI.wf hp
      simp only at ht'
      rw [hi] at ht'
      cases ht'
      obtain ⟨a1, a2⟩ := hacc s hsm
      obtain ⟨ch, hch⟩ := writeRaw_complete (c := ⟨hf.fm, fo, mo, d'.index lib⟩) (k := k) (m := m) (conv := .none) hs
        (by
          unfold accepts
          simp only [Sector.isUpperTriangle, a1, decide_true, Bool.true_and]
          cases hf' : fo <;> simp [Sector.isDiagonal]
          exact a2 hf') (hI'.wf s hsm)
        (by
          intro _
          unfold recordFits
          have := hfit s.ket.species
          rw [Bool.or_eq_true]
          right
          rw [decide_eq_true_iff]
          unfold kMaxRecordLength
          simp only
          omega)
      subst hk
      have hw : writeSector ⟨hf.fm, fo, mo, d'.index lib⟩ so.sectorIndex m .none so =
          .ok ⟨so.sectorIndex + 1, so.out.append ch⟩ := by
        unfold writeSector
        simp [getSector, hs, hrow, hcol, hb, hkt, hch, assertE]
      have hstep : step ⟨hf.fm, fi, mi, d.index lib⟩ ⟨hf.fm, fo, mo, d'.index lib⟩ (d.subspaces lib) f so.sectorIndex
          (si, so) = .ok (si', ⟨so.sectorIndex + 1, so.out.append ch⟩) := by
        unfold step
        rw [getSector_ok.2 hs]
        simp only [Except.ok_bind', hlook, hr, hw, Except.pure_ok]
      obtain ⟨st, hst⟩ := ih si' ⟨so.sectorIndex + 1, so.out.append ch⟩ hinv' (by
        intro j k hj
        obtain ⟨e1, e2⟩ := hks (j + 1) k (by simpa using hj)
        exact ⟨by simp only; omega, e2⟩)
      exact ⟨st, by simp only [loop, hstep, Except.ok_bind', hst]⟩
  obtain ⟨⟨si, so⟩, hst⟩ := hloop (List.range (d.index lib).sectors.length) (InState.init start) ⟨0, hdr⟩ (inv_init _ start) (by
    intro j k hj
    rw [List.getElem?_eq_some_iff] at hj
    obtain ⟨h1, h2⟩ := hj
    rw [List.getElem_range] at h2
    simp only [List.length_range] at h1
    exact ⟨by simp only; omega, by omega⟩)
  refine ⟨so.out, ?_⟩
  subst hd'
  unfold convert
  simp only [hin, Except.ok_bind', formatOfCode_code, hopen, hst, Except.pure_ok]

/-- **C120 (refusal).** If a sector of the requested indexing has no counterpart in the input with the same bra and the same
ket, for instance because the two orderings of the space direct it differently, the program does not finish. -/
theorem reversed_sector_refused (lib : BasisLib) (hf : HeaderFloat) (mi : Mode) (mo : Except Err Mode) (f : File) (fo : Format)
    (fi : Format) (d : Desc) (start : Nat) (hin : openIn lib hf mi f = .ok (fi, d, start))
    (d' : Desc) (hd' : d' = { d with ordering := spaceOrdering fo })
    (hI : Indexed lib d) (hI' : Indexed lib d') (hperm : (d'.subspaces lib).Perm (d.subspaces lib))
    (k : Nat) (s : Sector) (hk : k < (d.index lib).sectors.length) (hs : (d'.index lib).sectors[k]? = some s)
    (hno : ∀ t ∈ (d.index lib).sectors, ¬ (t.bra = s.bra ∧ t.ket = s.ket)) (out : File) :
    convert lib hf mi f fo.code mo ≠ .ok out := by
  intro hrun
  obtain ⟨fi1, d1, start1, fo1, mo1, hdr, si, so, h1, h2, h3, h4, h5, rfl⟩ := convert_ok hrun
  rw [hin] at h1
  cases h1
  rw [formatOfCode_code] at h2
  cases h2
  rw [← hd'] at h5
  obtain ⟨is, ms, g1, -⟩ := loop_ok h5
  have hl := g1.length_eq
  rw [List.length_range] at hl
  have := g1.get (i := k) (by simpa using hk) (by omega)
  simp only [List.get_eq_getElem, List.getElem_range] at this
  obtain ⟨s', t, hs', ht, hst⟩ := matched_same hI hI' hperm this
  rw [hs] at hs'
  cases hs'
  exact hno t (List.mem_of_getElem? ht) ⟨hst.bra.symm, hst.ket.symm⟩

/-! ### C121 — what the requested format cannot express -/

theorem out_eq {lib : BasisLib} {hf : HeaderFloat} {mi mo : Mode} {f : File} {fo : Format} {out : File}
    (hrun : convert lib hf mi f fo.code (.ok mo) = .ok out)
    {fi : Format} {d : Desc} {start : Nat} (hin : openIn lib hf mi f = .ok (fi, d, start)) :
    ∃ hdr body, openOut lib hf mo fo { d with ordering := spaceOrdering fo } = .ok hdr ∧ out = hdr.append body := by
  obtain ⟨fi1, d1, start1, fo1, mo1, hdr, si, so, h1, h2, h3, h4, h5, rfl⟩ := convert_ok hrun
  rw [hin] at h1
  cases h1
  rw [formatOfCode_code] at h2
  cases h2
  cases h3
  obtain ⟨is, ms, -, -, -, g⟩ := loop_ok h5
  obtain ⟨-, chunks, -, e1, e2, -⟩ := writeHistory_ok g
  refine ⟨hdr, ⟨(chunks.map File.bytes).flatten, (chunks.map File.lines).flatten⟩, h4, ?_⟩
  cases hso : so.out with
  | mk b l =>
    rw [hso] at e1 e2
    simp only at e1 e2
    simp [File.append, e1, e2]

/-- **C121, violation.** Conversion to format 15099 of an operator that changes the charge: if it finishes, the file it
leaves cannot be opened. -/
theorem charge_changing_conversion_unreadable (lib : BasisLib) (hf : HeaderFloat) (mi : Mode) (f : File) (out : File)
    (hrun : convert lib hf mi f Format.v15099.code (.ok .binary) = .ok out)
    (fi : Format) (d : Desc) (start : Nat) (hin : openIn lib hf mi f = .ok (fi, d, start))
    (hx : Expressible lib hf .binary .v15099 { d with ordering := .pn, Tz0 := 0 })
    (hT : d.Tz0 ≠ 0) (hTf : fitsInt d.Tz0 = true) :
    openIn lib hf .binary out = .error .exitFailure := by
  obtain ⟨hdr, body, h1, rfl⟩ := out_eq hrun hin
  obtain ⟨hdr', h2, h3⟩ := charge_changing_15099_unreadable lib hf { d with ordering := .pn } hx rfl hT hTf
  rw [show spaceOrdering .v15099 = .pn from rfl, h2] at h1
  cases h1
  exact h3 body

/-- **C121, violation.** Conversion to format 0 does not look at the orbitals: what is left is a file that opens, without
complaint, on the oscillator orbitals with the proton cutoffs of the input, whatever orbitals the input
was given on, as soon as the numbers of matrix elements agree. -/
theorem format0_replaces_orbitals (lib : BasisLib) (hf : HeaderFloat) (mi mo : Mode) (hm : mo ≠ .matrix) (f : File) (out : File)
    (hrun : convert lib hf mi f Format.v0.code (.ok mo) = .ok out)
    (fi : Format) (d : Desc) (start : Nat) (hin : openIn lib hf mi f = .ok (fi, d, start))
    (N1 N2 : Int) (h1 : truncToInt d.wmax.p = N1) (h2 : truncToInt d.wmax.pp = N2)
    (f1 : fitsInt N1 = true) (f2 : fitsInt N2 = true)
    (d0 : Desc) (hd0 : d0 = ⟨lib.oscOrbitals N1, ⟨N1, N1, N2, N2, N2⟩, .pn, 0, 0, 0⟩)
    (hfit : ∀ t, fitsInt (sizeByType (d0.index lib).sectors t) = true)
    (hsize : ∀ t, t ≠ .nn → sizeByType (d0.index lib).sectors t =
      sizeByType (({ d with ordering := .pn } : Desc).index lib).sectors t) :
    ∃ start', openIn lib hf mo out = .ok (.v0, d0, start') := by
  obtain ⟨hdr, body, g1, rfl⟩ := out_eq hrun hin
  have hx : Expressible lib hf mo .v0 d0 := by
    subst hd0
    exact ⟨rfl, rfl, rfl, ⟨N1, N2, f1, f2, rfl, rfl⟩, hfit⟩
  have g2 : openOut lib hf mo .v0 d0 = .ok hdr := by
    rw [show spaceOrdering .v0 = .pn from rfl] at g1
    rw [← g1]
    have e1 := hsize .pp (by simp)
    have e2 := hsize .pn (by simp)
    have t1 : truncToInt d0.wmax.p = truncToInt d.wmax.p := by subst hd0; rw [h1]; simp [truncToInt_intCast]
    have t2 : truncToInt d0.wmax.pp = truncToInt d.wmax.pp := by subst hd0; rw [h2]; simp [truncToInt_intCast]
    have ho : d0.ordering = .pn := by rw [hd0]
    simp only [openOut, writeHeaderV0, t1, t2, e1, e2, ho]
  exact ⟨_, header_round_trip lib hf mo .v0 d0 hdr body hm g2 hx⟩

/-! ### The command line -/

/-- **C120.** What the program as a whole writes: exactly one file, under the second name, and only when the format argument is
a number, both names have a known extension, the input exists, and the conversion succeeds. -/
theorem run_writes (w : World) (args : List String) (name : String) (out : File) :
    run w args = .ok (some (name, out)) ↔ ∃ fmt input rest code mi mo f, args = fmt :: input :: name :: rest ∧
      w.int? fmt = some code ∧ deducedIOMode input = .ok mi ∧ deducedIOMode name = .ok mo ∧ w.file? input = some f ∧
      convert w.lib w.hf mi f code (.ok mo) = .ok out := by
  constructor
  · intro h
    match args, h with
    | fmt :: input :: output :: rest, h =>
      simp only [run] at h
      cases hc : w.int? fmt with
      | none => simp [hc] at h
      | some code =>
        simp only [hc, Except.bind_eq_ok] at h
        obtain ⟨mi, hmi, h⟩ := h
        cases hfile : w.file? input with
        | none => simp [hfile] at h
        | some f =>
          simp only [hfile, Except.bind_eq_ok, Except.pure_ok, Except.ok.injEq, Option.some.injEq, Prod.mk.injEq] at h
          obtain ⟨o, ho, rfl, rfl⟩ := h
          obtain ⟨_, _, _, _, mo, _, _, _, _, _, hmo, _⟩ := convert_ok ho
          exact ⟨fmt, input, rest, code, mi, mo, f, rfl, hc, hmi, hmo, hfile, by rw [← hmo]; exact ho⟩
    | [], h => simp [run] at h
    | [_], h => simp [run] at h
    | [_, _], h => simp [run] at h
  · rintro ⟨fmt, input, rest, code, mi, mo, f, rfl, hc, hmi, hmo, hfile, ho⟩
    simp only [run, hc, hmi, hfile, hmo, ho, Except.ok_bind', Except.pure_ok]

/-- **C120.** The program succeeds without writing a file only when arguments are missing; a format argument that is not a number is
an error. -/
theorem run_writes_nothing (w : World) (args : List String) : run w args = .ok none ↔ args.length < 3 := by
  match args with
  | [] => simp [run]
  | [_] => simp [run]
  | [_, _] => simp [run]
  | fmt :: input :: output :: rest =>
    simp only [run, List.length_cons]
    constructor
    · intro h
      exfalso
      cases hc : w.int? fmt with
      | none => simp [hc] at h
      | some code =>
        simp only [hc, Except.bind_eq_ok] at h
        obtain ⟨mi, _, h⟩ := h
        cases hfile : w.file? input with
        | none => simp [hfile] at h
        | some f =>
          simp only [hfile, Except.bind_eq_ok, Except.pure_ok] at h
          obtain ⟨_, _, h⟩ := h
          cases h
    · intro h
      omega

/-- **C120.** A format code other than 0, 15099 and 15200 ends the program before anything is written. -/
theorem unknown_format_refused (lib : BasisLib) (hf : HeaderFloat) (mi : Mode) (f : File) (code : Int) (mo : Except Err Mode)
    (h : code ≠ 0 ∧ code ≠ 15099 ∧ code ≠ 15200) (out : File) : convert lib hf mi f code mo ≠ .ok out := by
  intro hrun
  obtain ⟨_, _, _, fo, _, _, _, _, _, h2, _⟩ := convert_ok hrun
  simp [formatOfCode, h.1, h.2.1, h.2.2] at h2

end Verif.H2.Convert
