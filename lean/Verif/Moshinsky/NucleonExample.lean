import Verif.Moshinsky.NucleonRun

/-!
# A run that writes a file

A world with the coefficients of `NucleonCoeff.lean`: for every scalar operator on the relative motion a run of `moshinsky` writes a file, and
all hypotheses of C169 are met.
-/

namespace Verif.Moshinsky
open Verif MvPolynomial Osc Program
open Verif.SU2 hiding couple
open Verif.H2 (Format Mode Desc Sector Subspace OrbSpace Species BasisLib WriteCall Stored storedFactor InState openIn readHistory Expressible
  formatOfCode deducedIOMode writeHistory openOut sizeByType getSectorCount fitsInt)
open Verif.Relative (RelFile OpLabels)
open Verif.Relative.Gen (Input)
open Verif.Mixer.Control (Numbers)

theorem coefficients_envC (swap : ℕ → ℕ × ℕ → ℕ × ℕ → ℝ) : Coefficients (envC swap) := ⟨nineC_isNine, angularEnv_angular, zC_isZ, roseC_isRose⟩

/-- A world with the coefficients as they should be. -/
noncomputable def worldC (hf : H2.HeaderFloat) (nm : Numbers) (rel? : String → Option RelFile) (rc? : String → Option RCFile) : World where
  env := envC fun _ => roseSwap
  rcs := rcSpace
  lss t := lsSpace ⟨t.1, t.2⟩
  jjs t := jjSpace ⟨t.1, t.2⟩
  jts t := jtSpace ⟨t.1, t.2⟩
  lib := pnLib
  hf := hf
  nm := nm
  rel? := rel?
  rc? := rc?

theorem worldC_spaces (hf : H2.HeaderFloat) (nm : Numbers) (rel? : String → Option RelFile) (rc? : String → Option RCFile) (t : Trunc) :
    Spaces (worldC hf nm rel? rc?) t t.N2max :=
  ⟨rcSpace_ok _, lsSpace_ok _, spaces_sublist t, jjSpace_ok _, jtSpace_ok _⟩

/-! ## The sectors -/

theorem length_product {α β : Type} (a : List α) (b : List β) : (a.product b).length = a.length * b.length := List.length_product a b

theorem pnSpace_length (orbs : OrbSpace) (wm : H2.WeightMax) : (pnSpace orbs wm).length = 12 * orbs.p.length := by
  unfold pnSpace
  rw [List.length_map, length_product, length_product, List.length_range, List.length_range]
  simp
  ring

theorem pnSpace_size {orbs : OrbSpace} {wm : H2.WeightMax} {s : Subspace} (hs : s ∈ pnSpace orbs wm) : s.size ≤ orbs.p.length * orbs.p.length := by
  obtain ⟨l, -, rfl⟩ := List.mem_map.mp hs
  show (List.map _ (having _ _)).length ≤ _
  rw [List.length_map]
  refine (List.length_filter_le _ _).trans ?_
  rw [length_product, List.length_range]

theorem sectors_length (ss : List Subspace) (J0 g0 Tz0 : Int) : (pnSectors ss J0 g0 Tz0).length ≤ ss.length * ss.length := by
  unfold pnSectors
  rw [List.length_map]
  refine (List.length_filter_le _ _).trans ?_
  rw [length_product, List.length_zipIdx]

theorem sector_mem {ss : List Subspace} {J0 g0 Tz0 : Int} {s : Sector} (h : s ∈ pnSectors ss J0 g0 Tz0) :
    ss[s.braIndex]? = some s.bra ∧ ss[s.ketIndex]? = some s.ket ∧ SectorOK J0 g0 Tz0 (s.bra, s.braIndex) (s.ket, s.ketIndex) := by
  unfold pnSectors at h
  obtain ⟨⟨b, k⟩, hm, rfl⟩ := List.mem_map.mp h
  obtain ⟨hm, hok⟩ := mem_having.mp hm
  obtain ⟨h1, h2⟩ : b ∈ ss.zipIdx ∧ k ∈ ss.zipIdx := List.mem_product.mp hm
  rw [List.mem_zipIdx_iff_getElem?] at h1 h2
  exact ⟨h1, h2, hok⟩

/-- Sectors of a scalar operator are diagonal. -/
theorem scalar_diagonal {orbs : OrbSpace} {wm : H2.WeightMax} {s : Sector} (h : s ∈ pnSectors (pnSpace orbs wm) 0 0 0) : s.braIndex = s.ketIndex := by
  obtain ⟨h1, h2, -, hJ, hg, hT⟩ := sector_mem h
  unfold pnSpace at h1 h2
  rw [List.getElem?_map, Option.map_eq_some_iff] at h1 h2
  obtain ⟨⟨p, J, g⟩, e1, e1'⟩ := h1
  obtain ⟨⟨p', J', g'⟩, e2, e2'⟩ := h2
  rw [← e1', ← e2'] at hJ hg hT
  dsimp only at hJ hg hT
  have m1 := List.mem_of_getElem? e1
  have m2 := List.mem_of_getElem? e2
  have k1 : g < 2 := List.mem_range.mp (List.mem_product.mp (List.mem_product.mp m1).2).2
  have k2 : g' < 2 := List.mem_range.mp (List.mem_product.mp (List.mem_product.mp m2).2).2
  have hJ' : J = J' := by
    rw [abs_le] at hJ
    omega
  have hg' : g = g' := by omega
  have hp : p = p' := by
    revert hT
    cases p <;> cases p' <;> decide
  subst hJ' hg' hp
  have nd : (([Species.pp, .nn, .pn] : List Species).product ((List.range (2 * orbs.p.length)).product (List.range 2))).Nodup :=
    List.Nodup.product (by decide) (List.Nodup.product List.nodup_range List.nodup_range)
  exact (List.getElem?_inj (List.getElem?_eq_some_iff.mp e1).1 nd).mp (e1.trans e2.symm)

theorem size_bound {ss : List Subspace} {J0 g0 Tz0 : Int} {n : ℕ} (hn : ∀ s ∈ ss, s.size ≤ n) (t : Species) :
    sizeByType (pnSectors ss J0 g0 Tz0) t ≤ ss.length * ss.length * (n * (n + 1)) := by
  rw [H2.sizeByType_eq]
  have h : ∀ x ∈ ((pnSectors ss J0 g0 Tz0).filter fun s => s.bra.species = t).map getSectorCount, x ≤ n * (n + 1) := by
    intro x hx
    obtain ⟨s, hs, rfl⟩ := List.mem_map.mp hx
    obtain ⟨h1, h2, -⟩ := sector_mem (List.mem_of_mem_filter hs)
    have b1 := hn _ (List.mem_of_getElem? h1)
    have b2 := hn _ (List.mem_of_getElem? h2)
    unfold getSectorCount
    split_ifs
    · exact (Nat.div_le_self _ _).trans (Nat.mul_le_mul b2 (by omega))
    · exact Nat.mul_le_mul b1 (by omega)
    · exact Nat.zero_le _
  refine (List.sum_le_card_nsmul _ _ h).trans ?_
  rw [List.length_map, smul_eq_mul]
  exact Nat.mul_le_mul_right _ ((List.length_filter_le _ _).trans (sectors_length _ _ _ _))

/-! ## The run -/

def numbersC : Numbers := ⟨fun s => if s = "2" then some 2 else if s = "0" then some 0 else none, fun _ => none⟩

def controlC : Input := ⟨[["tb", "2"], ["op.rel", "rel"], ["op.bin", "jjjpn", "0", "0"]], true⟩

def paramsC : Params := ⟨false, 2, "op.rel", .rel, "op.bin", .jjjpn, 0, 0⟩

theorem asksC : Asks numbersC controlC paramsC :=
  ⟨⟨"2", [], rfl, rfl⟩, ⟨[], rfl⟩, ⟨_, rfl, fun _ => ⟨"0", "0", [], rfl, rfl, rfl⟩, fun h => absurd rfl h⟩⟩

/-- The description of the file of a scalar operator. -/
noncomputable def scalarDesc : Desc := ⟨pnLib.oscOrbitals 2, ⟨2, 2, 2, 2, 2⟩, .pn, 0, 0, 0⟩

theorem scalar_size (t : Species) : sizeByType (scalarDesc.index pnLib).sectors t ≤ 6905088 := by
  have hl : (oscLabels 2).length = 6 := by decide
  refine (size_bound (n := 36) (fun s hs => ?_) t).trans ?_
  · refine (pnSpace_size hs).trans ?_
    show ((oscLabels 2).map orbOf).length * ((oscLabels 2).map orbOf).length ≤ 36
    rw [List.length_map, hl]
  · show (pnSpace _ _).length * (pnSpace _ _).length * (36 * (36 + 1)) ≤ _
    rw [pnSpace_length]
    show 12 * ((oscLabels 2).map orbOf).length * (12 * ((oscLabels 2).map orbOf).length) * (36 * (36 + 1)) ≤ _
    rw [List.length_map, hl]

theorem scalar_expressible (hf : H2.HeaderFloat) (m : Mode) : Expressible pnLib hf m .v0 scalarDesc := by
  refine ⟨rfl, rfl, rfl, ⟨2, 2, by decide, by decide, rfl, rfl⟩, fun t => ?_⟩
  have := scalar_size t
  unfold fitsInt
  rw [decide_eq_true_iff]
  omega

theorem scalar_same {s : Sector} (hs : s ∈ (scalarDesc.index pnLib).sectors) : s.braIndex = s.ketIndex := scalar_diagonal hs

theorem scalar_wf : ∀ s ∈ (scalarDesc.index pnLib).sectors, s.WF := by
  intro s hs h
  obtain ⟨h1, h2, -⟩ := sector_mem hs
  rw [h] at h1
  exact Option.some.inj (h1.symm.trans h2)

theorem calls_fit (R : RME) (o : OpLabels) (orbs : OrbSpace) (ss : List Sector) : List.Forall₂ (fun w s => w.mat.rows = s.bra.size ∧
    w.mat.cols = s.ket.size ∧ (w.conv = .none ∨ w.conv = .asToNAS)) (pnCalls R o orbs ss) ss := by
  unfold pnCalls
  rw [List.forall₂_map_left_iff]
  refine List.forall₂_iff_get.mpr ⟨List.length_zipIdx .., fun i h1 h2 => ?_⟩
  simp only [List.get_eq_getElem, List.getElem_zipIdx]
  exact ⟨rfl, rfl, .inr trivial⟩

theorem calls_index (R : RME) (o : OpLabels) (orbs : OrbSpace) (ss : List Sector) :
    (pnCalls R o orbs ss).map (·.index) = List.range (pnCalls R o orbs ss).length := by
  unfold pnCalls
  rw [List.map_map, List.length_map, List.length_zipIdx]
  exact List.zipIdx_map_snd 0 _ |>.trans List.range_eq_range'.symm

theorem scalar_target {w : World} {p : Params} {o : OpLabels} (hlib : w.lib = pnLib) (hp : p.Tz0 = 0) (hJ : o.J0 = 0) (hg : o.g0 = 0) :
    targetDesc w p ⟨2, 2⟩ o .v0 = scalarDesc := by
  unfold targetDesc scalarDesc
  rw [hlib, hp, hJ, hg]
  rfl

/-- A scalar operator is written. -/
theorem scalar_result {w : World} {p : Params} {o : OpLabels} (hlib : w.lib = pnLib) (hp : p.format = 0 ∧ p.output = "op.bin" ∧ p.Tz0 = 0)
    (hJ : o.J0 = 0) (hg : o.g0 = 0) (R : RME) : ∃ out, h2Result w p ⟨2, 2⟩ o R = .ok out := by
  unfold h2Result
  have e1 : formatOfCode p.format = .ok .v0 := by
    rw [hp.1]
    rfl
  have e2 : deducedIOMode p.output = .ok .binary := by
    rw [hp.2.1]
    decide
  rw [e1, e2]
  simp only [H2.Except.ok_bind']
  rw [scalar_target hlib hp.2.2 hJ hg, hlib]
  have e3 : ∃ hdr, openOut pnLib w.hf .binary .v0 scalarDesc = .ok hdr := ⟨_, rfl⟩
  obtain ⟨hdr, e3⟩ := e3
  rw [e3, H2.Except.ok_bind']
  have e5 : ∃ st, writeHistory ⟨w.hf.fm, .v0, .binary, scalarDesc.index pnLib⟩ (pnCalls R o scalarDesc.orbs (scalarDesc.index pnLib).sectors) ⟨0, hdr⟩ = .ok st := by
    refine H2.valid_operator_can_be_written _ scalar_wf (fun s hs => ?_) (fun t => ?_) _ hdr (calls_fit _ _ _ _) (calls_index _ _ _ _)
    · exact ⟨le_of_eq (scalar_same hs), fun _ => scalar_same hs⟩
    · have := scalar_size t
      show 4 * sizeByType (scalarDesc.index pnLib).sectors t < _
      omega
  obtain ⟨st, e5⟩ := e5
  exact ⟨_, by
    rw [e5]
    rfl⟩

/-- The world in which the relative file holds a scalar operator. -/
noncomputable def scalarWorld (hf : H2.HeaderFloat) (T0max : ℕ) (R : ℕ → RelRME) : World :=
  worldC hf numbersC (fun _ => some (fileOf ⟨0, 0, 0, T0max⟩ 2 3 R)) fun _ => none

theorem scalar_given (hf : H2.HeaderFloat) {T0max : ℕ} (h2 : T0max ≤ 2) {R : ℕ → RelRME} (hR : ∀ T0, RelSym (fun _ => roseSwap) T0 (R T0)) :
    Given (scalarWorld hf T0max R) (fileOf ⟨0, 0, 0, T0max⟩ 2 3 R) R :=
  given_fileOf h2 2 3 hR fun T0 => swapLaw_envC _ T0

/-- A run that writes a file. -/
theorem scalar_run (hf : H2.HeaderFloat) {T0max : ℕ} (h2 : T0max ≤ 2) {R : ℕ → RelRME} (hR : ∀ T0, RelSym (fun _ => roseSwap) T0 (R T0)) :
    ∃ out, Program.run (scalarWorld hf T0max R) controlC = .ok out := by
  have h := moshinsky_h2 (w := scalarWorld hf T0max R) (f := fileOf ⟨0, 0, 0, T0max⟩ 2 3 R) (R := R) asksC (by decide) rfl rfl rfl
    (scalar_given hf h2 hR) (worldC_spaces hf numbersC _ _ (truncOf paramsC)) (by decide) (le_refl 2)
    (fun fmt _ => pnLib_basis rfl paramsC _ _ fmt (by decide))
  rw [h]
  exact scalar_result rfl ⟨rfl, rfl, rfl⟩ rfl rfl _

/-- C169, without hypotheses on the libraries: whatever the scalar operator given by its elements in the relative motion, `moshinsky` writes
a file, and the file holds the elements of that operator between the states of two nucleons. -/
theorem scalar_file (hf : H2.HeaderFloat) {T0max : ℕ} (h2 : T0max ≤ 2) {R : ℕ → RelRME} (hR : ∀ T0, RelSym (fun _ => roseSwap) T0 (R T0)) :
    ∃ file, Program.run (scalarWorld hf T0max R) controlC = .ok (.h2 "op.bin" file) ∧
      ∀ k s, (scalarDesc.index pnLib).sectors[k]? = some s → ∃ start m st,
      openIn pnLib hf .binary file = .ok (.v0, scalarDesc, start) ∧
      readHistory ⟨hf.fm, .v0, .binary, scalarDesc.index pnLib⟩ file [k] (InState.init start) = .ok ([m], st) ∧
      m.rows = s.bra.size ∧ m.cols = s.ket.size ∧
      ∀ i j x y, s.bra.states[i]? = some x → s.ket.states[j]? = some y → i ≤ j → ∃ e : ℝ,
        m.val i j = hf.fm.ofF32 (hf.fm.toF32 (if |e| < 1e-14 * (H2.pairNorm s.bra.species x * H2.pairNorm s.ket.species y) then 0 else e)) ∧
        ∀ O : ℕ → Nucl →ₗ[ℝ] Nucl, (∀ T0 ≤ T0max, IsRelative (O T0) 2 3 0 T0 0 (projection s.bra.species - projection s.ket.species) (R T0)) →
        ∀ M M', trueElement 0 T0max O scalarDesc.orbs s x y M M' = Osc.cg s.ket.J M' 0 0 s.bra.J M * e := by
  obtain ⟨out, ho⟩ := scalar_run hf h2 hR
  obtain ⟨file, rfl, h⟩ := moshinsky_operator (w := scalarWorld hf T0max R) (f := fileOf ⟨0, 0, 0, T0max⟩ 2 3 R) (R := R) (p := paramsC)
    (coefficients_envC _) asksC (by decide) rfl rfl rfl
    (scalar_given hf h2 hR) (worldC_spaces hf numbersC _ _ (truncOf paramsC)) (by decide) (le_refl 2)
    (fun fmt _ => pnLib_basis rfl paramsC _ _ fmt (by decide)) (fmt := .v0) (mode := .binary) rfl (by decide) (by decide)
    (d := scalarDesc) rfl (scalar_expressible hf _) (scalar_wf) id (by simp) (fun _ => rfl) ho
  refine ⟨file, ho, fun k s hk => ?_⟩
  obtain ⟨start, m, st, q1, q2, q3, q4, q5⟩ := h k s hk
  refine ⟨start, m, st, q1, q2, q3, q4, fun i j x y hx hy hij => ?_⟩
  obtain ⟨e, he, hO⟩ := q5 i j x y hx hy fun _ => hij
  exact ⟨e, he, fun O hO' => hO 0 O fun T0 _ ht => hO' T0 ht⟩

/-- The operators quantified over exist. -/
example (T0max : ℕ) (R : ℕ → RelRME) (MT0 : ℤ) : ∃ O : ℕ → Nucl →ₗ[ℝ] Nucl, ∀ T0 ≤ T0max, IsRelative (O T0) 2 3 0 T0 0 MT0 (R T0) := by
  choose O hO using fun T0 => relative_exists 2 3 0 T0 0 MT0 (R T0)
  exact ⟨O, fun T0 _ => hO T0⟩

/-- Elements that are symmetric in the required way, and not all zero. -/
example : RelSym (fun _ => roseSwap) 0 fun b N b' N' => if b = b' ∧ N = N' then 1 else 0 := by
  intro l S J T N l' S' J' T' N'
  dsimp only
  by_cases h : ((l : ℤ), (S : ℤ), (J : ℤ), (T : ℤ)) = ((l' : ℤ), (S' : ℤ), (J' : ℤ), (T' : ℤ)) ∧ (N : ℤ) = N'
  · rw [if_pos h, if_pos ⟨h.1.symm, h.2.symm⟩]
    obtain ⟨rfl, rfl, rfl, rfl⟩ : l = l' ∧ S = S' ∧ J = J' ∧ T = T' := by simpa using h.1
    have e : J + J + T + T = 2 * (J + T) := by ring
    have p : √((2 * (J : ℝ) + 1) * (2 * T + 1)) ≠ 0 := by positivity
    simp only [roseSwap, e, pow_mul, neg_one_sq, one_pow, one_mul, mul_one]
    exact (div_self p).symm
  · rw [if_neg h, if_neg fun k => h ⟨k.1.symm, k.2.symm⟩, mul_zero]

/-! ## From a relative-cm file -/

def controlRC : Input := ⟨[["tb", "2"], ["op.rc", "relcm"], ["op.bin", "jjjpn", "0", "0"]], true⟩

def paramsRC : Params := ⟨false, 2, "op.rc", .relcm, "op.bin", .jjjpn, 0, 0⟩

theorem asksRC : Asks numbersC controlRC paramsRC :=
  ⟨⟨"2", [], rfl, rfl⟩, ⟨[], rfl⟩, ⟨_, rfl, fun _ => ⟨"0", "0", [], rfl, rfl, rfl⟩, fun h => absurd rfl h⟩⟩

/-- C171, without hypotheses on the libraries: whatever the scalar operator on the relative and the centre-of-mass motion, there is a
relative-cm file from which `moshinsky` writes an H2 file, and the H2 file holds the elements of that operator between the states of two
nucleons. -/
theorem scalar_relcm_file (hf : H2.HeaderFloat) {T0max : ℕ} (h2 : T0max ≤ 2) {A : ℕ → RCOp} (hA : ∀ T0, RCSym (fun _ => roseSwap) T0 (A T0)) :
    ∃ g file, GivenRC (worldC hf numbersC (fun _ => none) fun _ => some g) g A ∧ g.labels = ⟨0, 0, 0, T0max⟩ ∧ g.Nmax = 2 ∧
      Program.run (worldC hf numbersC (fun _ => none) fun _ => some g) controlRC = .ok (.h2 "op.bin" file) ∧
      ∀ k s, (scalarDesc.index pnLib).sectors[k]? = some s → ∃ start m st,
      openIn pnLib hf .binary file = .ok (.v0, scalarDesc, start) ∧
      readHistory ⟨hf.fm, .v0, .binary, scalarDesc.index pnLib⟩ file [k] (InState.init start) = .ok ([m], st) ∧
      m.rows = s.bra.size ∧ m.cols = s.ket.size ∧
      ∀ i j x y, s.bra.states[i]? = some x → s.ket.states[j]? = some y → i ≤ j → ∃ e : ℝ,
        m.val i j = hf.fm.ofF32 (hf.fm.toF32 (if |e| < 1e-14 * (H2.pairNorm s.bra.species x * H2.pairNorm s.ket.species y) then 0 else e)) ∧
        (∃ O : ℕ → Nucl →ₗ[ℝ] Nucl, ∀ T0 ≤ T0max, HasElements (O T0) 2 0 T0 0 (projection s.bra.species - projection s.ket.species) (A T0)) ∧
        ∀ O : ℕ → Nucl →ₗ[ℝ] Nucl, (∀ T0 ≤ T0max, HasElements (O T0) 2 0 T0 0 (projection s.bra.species - projection s.ket.species) (A T0)) →
        ∀ M M', trueElement 0 T0max O scalarDesc.orbs s x y M M' = Osc.cg s.ket.J M' 0 0 s.bra.J M * e := by
  obtain ⟨m, hm⟩ := exists_file (worldC hf numbersC (fun _ => none) fun _ => none) ⟨0, 0, 0, T0max⟩ 2 A h2 fun T0 _ _ => hA T0
  have hg : GivenRC (worldC hf numbersC (fun _ => none) fun _ => some ⟨⟨0, 0, 0, T0max⟩, 2, m⟩) ⟨⟨0, 0, 0, T0max⟩, 2, m⟩ A := ⟨hm.holds, hm.sym, hm.three⟩
  have hsp := worldC_spaces hf numbersC (fun _ => none) (fun _ => some ⟨⟨0, 0, 0, T0max⟩, 2, m⟩) (truncOf paramsRC)
  obtain ⟨out, ho⟩ : ∃ out, Program.run (worldC hf numbersC (fun _ => none) fun _ => some ⟨⟨0, 0, 0, T0max⟩, 2, m⟩) controlRC = .ok out := by
    rw [moshinsky_relcm_to_h2 (p := paramsRC) asksRC (by decide) rfl rfl rfl hg hsp (by decide) fun fmt _ => pnLib_basis rfl paramsRC _ _ fmt (by decide)]
    exact scalar_result rfl ⟨rfl, rfl, rfl⟩ rfl rfl _
  obtain ⟨file, rfl, h⟩ := moshinsky_relcm_operator (w := worldC hf numbersC (fun _ => none) fun _ => some ⟨⟨0, 0, 0, T0max⟩, 2, m⟩) (A := A) (p := paramsRC)
    (g := ⟨⟨0, 0, 0, T0max⟩, 2, m⟩) nineC_isNine angularEnv_angular asksRC (by decide) rfl rfl rfl hg hsp (by decide)
    (fun fmt _ => pnLib_basis rfl paramsRC _ _ fmt (by decide)) (fmt := .v0) (mode := .binary) rfl (by decide) (by decide)
    (d := scalarDesc) (scalar_target rfl rfl rfl rfl).symm (scalar_expressible hf _) scalar_wf id (by simp) (fun _ => rfl) ho
  refine ⟨_, file, hg, rfl, rfl, ho, fun k s hk => ?_⟩
  obtain ⟨start, m, st, q1, q2, q3, q4, q5⟩ := h k s hk
  refine ⟨start, m, st, q1, q2, q3, q4, fun i j x y hx hy hij => ?_⟩
  obtain ⟨e, he, hO⟩ := q5 i j x y hx hy fun _ => hij
  refine ⟨e, he, ?_, fun O hO' => hO 0 O fun T0 _ ht => hO' T0 ht⟩
  choose O hO using fun T0 => elements_exist 2 0 T0 0 (projection s.bra.species - projection s.ket.species) (A T0)
  exact ⟨O, fun T0 _ => hO T0⟩

/-- Such operators: the square of the centre-of-mass coordinate, say. -/
example (T0 : ℕ) : RCSym (fun _ => roseSwap) T0 (cmOperator (fun a b => a + b) T0) := cmOperator_sym (fun a b => add_comm _ _) T0

/-! ## Further cases -/

/-- C168 for the coefficients above and any reduced elements: there is an operator, and a state of a deuteron at rest beside one with a
quantum of relative motion. -/
example (J0 T0 : ℕ) (R : RelRME) : ∃ O, IsRelative O 4 5 J0 T0 0 0 R ∧ ∀ M M' : ℤ,
    inner (lsState (motions (0, 0, 0, 0) 0) ⟨0, 1, 1, 0⟩ M 0) (O (lsState (motions (2, 2, 0, 0) 2) ⟨2, 1, 1, 0⟩ M' 0)) =
      Osc.cg 1 M' J0 0 1 M * Osc.cg 0 0 T0 0 0 0 *
        relCMSpec (envC fun _ => roseSwap).am 5 J0 R (motion ⟨0, 1, 1, 0⟩ (0, 0, 0, 0)) (motion ⟨2, 1, 1, 0⟩ (2, 2, 0, 0)) := by
  obtain ⟨O, hO⟩ := relative_exists 4 5 J0 T0 0 0 R
  have h1 : ((0, 0, 0, 0) : LSPair) ∈ rcStates 0 0 1 0 := by decide
  have h2 : ((2, 2, 0, 0) : LSPair) ∈ rcStates 2 2 1 0 := by decide +kernel
  refine ⟨O, hO, fun M M' => ?_⟩
  exact_mod_cast relcm_operator (env := (envC fun _ => roseSwap).am) zC_isZ roseC_isRose hO (q := ⟨0, 1, 1, 0⟩) (q' := ⟨2, 1, 1, 0⟩) (N := 0) (N' := 2)
    (by norm_num) (by norm_num) (by norm_num) (by norm_num) h1 h2 M M' (MT := 0) (MT' := 0) (by norm_num) (by norm_num)

/-- C167 for any elements of relative motion: a nucleon in `0s1/2` and one in `0p3/2` or `0p1/2`, coupled to one unit. -/
example (R : RelRME) (M M' : ℤ) : ∃ O, IsRelative O 2 5 0 0 0 0 R ∧
    inner (asym (jjState ⟨0, 0, 1, 1, 1, 3⟩ 1 0 M 0)) (O (asym (jjState ⟨0, 0, 1, 1, 1, 1⟩ 1 0 M' 0))) =
      (Osc.cg (1 : ℕ) M' (0 : ℕ) 0 (1 : ℕ) M * Osc.cg (0 : ℕ) 0 (0 : ℕ) 0 (0 : ℕ) 0) *
        jjSpec (envC fun _ => roseSwap) (relCMSpec (envC fun _ => roseSwap).am 5 (0 : ℕ) R) ⟨1, 0, 1⟩ ⟨0, 0, 1, 1, 1, 3⟩ ⟨1, 0, 1⟩ ⟨0, 0, 1, 1, 1, 1⟩ := by
  obtain ⟨O, hO⟩ := relative_exists 2 5 0 0 0 0 R
  refine ⟨O, hO, jj_operator (q := ⟨1, 0, 1⟩) (q' := ⟨1, 0, 1⟩) nineC_isNine angularEnv_angular O _ _ ⟨⟨le_refl _, rfl⟩, le_refl _, rfl⟩
    ⟨⟨le_refl _, rfl⟩, le_refl _, rfl⟩ ?_⟩
  intro c hc d hd r hr s hs
  have k1 : c.2 ≤ 1 := by
    unfold lsOf at hc
    rw [Finset.mem_filter, Finset.mem_product, Finset.mem_range, Finset.mem_range] at hc
    omega
  have k2 : d.2 ≤ 1 := by
    unfold lsOf at hd
    rw [Finset.mem_filter, Finset.mem_product, Finset.mem_range, Finset.mem_range] at hd
    omega
  exact relcm_operator (env := (envC fun _ => roseSwap).am) zC_isZ roseC_isRose hO (q := ⟨c.1, c.2, 1, 0⟩) (q' := ⟨d.1, d.2, 1, 0⟩)
    (by norm_num : 1 ≤ 2) (by norm_num : 1 ≤ 2) ⟨k1, by norm_num⟩ ⟨k2, by norm_num⟩ hr hs M M' (MT := 0) (MT' := 0) (by norm_num) (by norm_num)

end Verif.Moshinsky
