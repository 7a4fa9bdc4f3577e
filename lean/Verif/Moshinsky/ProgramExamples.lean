import Verif.Moshinsky.ProgramFail

/-!
# `moshinsky`: cases that meet the hypotheses

For every truncation the `basis` spaces required of the world exist; the law of exchange holds for Racah coefficients; and for every
relative operator with that symmetry there is a file that holds it.
-/

namespace Verif.Moshinsky.Program
open Verif Verif.Moshinsky Verif.Mixer.Control
open Verif.H2 (Format Mode Desc Sector Subspace OrbSpace Orb Species BasisLib WeightMax formatOfCode)
open Verif.Relative (OpLabels RelFile RelSub openFile mapM_ok)
open Verif.Relative.Gen (Input)

/-! ## Spaces of larger truncation -/

theorem product_sublist {α β : Type} {a a' : List α} {b b' : List β} (h : a.Sublist a') (h' : b.Sublist b') :
    (a.product b).Sublist (a'.product b') := by
  simp only [List.product.eq_def]
  exact (List.Sublist.flatMap_right a fun x _ => h'.map _).trans (h.flatMap _)

theorem range_sublist {m n : ℕ} (h : m ≤ n) : (List.range m).Sublist (List.range n) := List.range_sublist.mpr h

theorem rcSpace_sublist {m n : ℕ} (h : m ≤ n) : ((rcSpace m).map LSSub.labels).Sublist ((rcSpace n).map LSSub.labels) := by
  unfold rcSpace
  refine List.Sublist.map _ (List.Sublist.map _ ?_)
  have hl : (lsLabels m).Sublist (lsLabels n) := product_sublist (range_sublist (by omega)) (product_sublist (List.Sublist.refl _)
    (product_sublist (range_sublist (by omega)) (product_sublist (List.Sublist.refl _) (range_sublist (by omega)))))
  exact hl.filter _

/-! ## The law of exchange -/

/-- The factor of an exchange of bra and ket, for reduced elements in the convention of Rose, in angular momentum and isospin. -/
noncomputable def roseSwap (a b : ℕ × ℕ) : ℝ :=
  (-1) ^ (a.1 + b.1 + a.2 + b.2) * Real.sqrt ((2 * b.1 + 1) * (2 * b.2 + 1)) / Real.sqrt ((2 * a.1 + 1) * (2 * a.2 + 1))

/-- The reduction factor for an operator on the first part of a coupled system, from a Racah coefficient `six`. -/
noncomputable def roseFactor (six : Int → Int → Int → Int → Int → Int → ℝ) (J1' J2' J' J1 _J2 J J0 : Int) : ℝ :=
  (-1) ^ (J1' + J2' + J + J0).toNat * Real.sqrt (2 * J1' + 1) * Real.sqrt (2 * J + 1) * six J1' J' J2' J J1 J0

/-- With Racah coefficients that have their symmetry, the law holds. -/
theorem swapLaw_of_racah {env : ChainEnv} {six : Int → Int → Int → Int → Int → Int → ℝ}
    (hsix : ∀ a b c d e f, six a b c d e f = six e d c b a f) (hr : env.am.rose = roseFactor six) (hs : env.swap = fun _ => roseSwap)
    (J0 T0 : ℕ) : SwapLaw env J0 T0 := by
  intro Jb Jk l J J' T T'
  rw [hr, hs]
  unfold roseFactor roseSwap
  simp only []
  rw [hsix (Jb : Int) J l J' Jk J0]
  have e1 : (((Jb : Int) + l + J' + J0)).toNat = Jb + l + J' + J0 := by omega
  have e2 : (((Jk : Int) + l + J + J0)).toNat = Jk + l + J + J0 := by omega
  rw [e1, e2]
  have p : ∀ n : ℕ, Real.sqrt (2 * (n : ℝ) + 1) ≠ 0 := fun n => (Real.sqrt_pos.mpr (by positivity)).ne'
  have m : ∀ a b : ℕ, Real.sqrt ((2 * (a : ℝ) + 1) * (2 * b + 1)) = Real.sqrt (2 * a + 1) * Real.sqrt (2 * b + 1) := fun a b =>
    Real.sqrt_mul (by positivity) _
  rw [m, m, m, m]
  push_cast
  have s : ∀ n : ℕ, ((-1 : ℝ) ^ n) * (-1) ^ n = 1 := fun n => by rw [← mul_pow]; simp
  have hsign : ((-1 : ℝ) ^ (Jb + l + J' + J0)) * (-1) ^ (Jb + Jk + T + T') = (-1) ^ (J + J' + T + T') * (-1) ^ (Jk + l + J + J0) := by
    simp only [pow_add]
    linear_combination ((-1 : ℝ) ^ l * (-1) ^ J' * (-1) ^ J0 * (-1) ^ Jk * (-1) ^ T * (-1) ^ T') * (s Jb - s J)
  have hp := p Jb
  have hp1 := p Jk
  have hp2 := p J
  have hp3 := p T
  field_simp
  linear_combination six Jk J' l J Jb J0 * hsign

/-! ## A file for every operator -/

/-- The file that holds the elements `R`. -/
noncomputable def fileOf (o : OpLabels) (Nmax Jmax : ℕ) (R : ℕ → RelRME) : RelFile where
  labels := o
  Nmax := Nmax
  Jmax := Jmax
  blocks := fun T0 k i j => match (Relative.relSectors o (Relative.relSpace Nmax Jmax) T0)[k]? with
    | some (x, y) => R T0 (x.L, x.S, x.J, x.T) (x.L + 2 * i : ℕ) (y.L, y.S, y.J, y.T) (y.L + 2 * j : ℕ)
    | none => 0

theorem given_fileOf {w : World} {o : OpLabels} (h2 : o.T0max ≤ 2) (Nmax Jmax : ℕ) {R : ℕ → RelRME}
    (hsym : ∀ T0, RelSym w.env.swap T0 (R T0)) (hlaw : ∀ T0, SwapLaw w.env o.J0 T0) : Given w (fileOf o Nmax Jmax R) R where
  holds := fun T0 _ _ => ⟨hsym T0, by
    intro k x y hk i j _ _ _
    simp only [fileOf, RelFile.sectors] at hk ⊢
    rw [hk]⟩
  law := hlaw
  three := h2

/-! ## The proton-neutron space -/

/-- The labels of the orbitals of the oscillator. -/
def oscLabels (N1 : ℕ) : List Lab := (List.range (N1 + 1)).flatMap fun N => (List.range (N + 1)).map fun k => (N, 2 * k + 1)

theorem mem_oscLabels {N1 : ℕ} {a : Lab} : a ∈ oscLabels N1 ↔ a.1 ≤ N1 ∧ a.2 % 2 = 1 ∧ a.2 ≤ 2 * a.1 + 1 := by
  obtain ⟨N, j⟩ := a
  simp only [oscLabels, List.mem_flatMap, List.mem_map, List.mem_range, Prod.mk.injEq]
  constructor
  · rintro ⟨n, hn, k, hk, rfl, rfl⟩
    omega
  · rintro ⟨h1, h2, h3⟩
    exact ⟨N, by omega, j / 2, by omega, rfl, by omega⟩

theorem oscLabels_sorted (N1 : ℕ) : (oscLabels N1).Pairwise fun a b : Lab => a.1 < b.1 ∨ a.1 = b.1 ∧ a.2 < b.2 := by
  unfold oscLabels
  rw [List.pairwise_flatMap]
  constructor
  · intro N _
    rw [List.pairwise_map]
    exact List.pairwise_lt_range.imp (by intro a b h; right; simp only [true_and]; omega)
  · refine List.pairwise_lt_range.imp ?_
    intro a b hab x hx y hy
    obtain ⟨k, _, rfl⟩ := List.mem_map.mp hx
    obtain ⟨k', _, rfl⟩ := List.mem_map.mp hy
    exact .inl hab

/-- An orbital. -/
noncomputable def orbOf (a : Lab) : Orb := ⟨((a.1 - orbL a) / 2 : ℕ), orbL a, a.2, a.1⟩

theorem orbOf_lab {N1 : ℕ} {a : Lab} (h : a ∈ oscLabels N1) :
    ((2 * (orbOf a).n + (orbOf a).l).toNat, (orbOf a).twiceJ.toNat) = a := by
  rw [mem_oscLabels] at h
  have hl : orbL a ≤ a.1 ∧ orbL a % 2 = a.1 % 2 := by
    unfold orbL
    split <;> omega
  simp only [orbOf]
  refine Prod.ext ?_ ?_ <;> simp only [] <;> omega

theorem map_orbOf (N1 : ℕ) : ((oscLabels N1).map orbOf).map (fun x => ((2 * x.n + x.l).toNat, x.twiceJ.toNat)) = oscLabels N1 := by
  rw [List.map_map]
  conv_rhs => rw [← List.map_id (oscLabels N1)]
  exact List.map_congr_left fun a ha => orbOf_lab ha

/-- The cutoff for a pair. -/
def pairMax (wm : WeightMax) : Species → ℝ
  | .pp => wm.pp
  | .nn => wm.nn
  | .pn => wm.pn

/-- The states of a subspace. -/
def StateOK (orbs : OrbSpace) (wm : WeightMax) (sp : Species) (J g : ℕ) (x : ℕ × ℕ) : Prop :=
  (((pairOf orbs sp ⟨x.1, x.2⟩).1.1 + (pairOf orbs sp ⟨x.1, x.2⟩).2.1 : ℕ) : ℝ) ≤ pairMax wm sp ∧
    Tri (pairOf orbs sp ⟨x.1, x.2⟩).1.2 (pairOf orbs sp ⟨x.1, x.2⟩).2.2 (2 * J) ∧
    g = ((pairOf orbs sp ⟨x.1, x.2⟩).1.1 + (pairOf orbs sp ⟨x.1, x.2⟩).2.1) % 2 ∧
    (sp ≠ .pn → x.1 ≤ x.2 ∧ (x.1 = x.2 → J % 2 = 0))

noncomputable def pnSpace (orbs : OrbSpace) (wm : WeightMax) : List Subspace :=
  (([Species.pp, .nn, .pn] : List Species).product ((List.range (2 * orbs.p.length)).product (List.range 2))).map fun l =>
    ⟨l.1, l.2.1, l.2.2, (having ((List.range orbs.p.length).product (List.range orbs.p.length)) (StateOK orbs wm l.1 l.2.1 l.2.2)).map
      fun x => ⟨x.1, x.2⟩⟩

/-- The selection rules. -/
def SectorOK (J0 g0 Tz0 : Int) (b k : Subspace × ℕ) : Prop :=
  b.2 ≤ k.2 ∧ (|(b.1.J : Int) - J0| ≤ k.1.J ∧ (k.1.J : Int) ≤ b.1.J + J0) ∧ ((b.1.g : Int) + k.1.g + g0) % 2 = 0 ∧
    projection b.1.species - projection k.1.species = Tz0

noncomputable def pnSectors (ss : List Subspace) (J0 g0 Tz0 : Int) : List Sector :=
  (having (ss.zipIdx.product ss.zipIdx) fun x => SectorOK J0 g0 Tz0 x.1 x.2).map fun x => ⟨x.1.2, x.2.2, x.1.1, x.2.1⟩

/-- The `basis` library, as far as needed here. -/
noncomputable def pnLib : BasisLib where
  space orbs wm _ := pnSpace orbs wm
  sectors := pnSectors
  oscOrbitals N1 := ⟨(oscLabels N1.toNat).map orbOf, (oscLabels N1.toNat).map orbOf⟩
  weightMax _ := 0
  orbLines _ _ := []
  parseOrbs _ _ := .error .streamFail

theorem pnLib_states {orbs : OrbSpace} {t : Trunc} (ho : OscOrbitals orbs)
    (hl : orbs.p.map (fun x => ((2 * x.n + x.l).toNat, x.twiceJ.toNat)) = oscLabels t.N1max) {s : Subspace}
    (hs : s ∈ pnSpace orbs ⟨t.N1max, t.N1max, t.N2max, t.N2max, t.N2max⟩) : PnStates t orbs s := by
  obtain ⟨⟨sp, J, g⟩, _, rfl⟩ := List.mem_map.mp hs
  intro x hx
  obtain ⟨y, hy, rfl⟩ := List.mem_map.mp hx
  obtain ⟨hr, h1, h2, h3, _⟩ := mem_having.mp hy
  obtain ⟨y1, y2⟩ := y
  have hr' : y1 < orbs.p.length ∧ y2 < orbs.p.length := by simpa [List.product.eq_def] using hr
  simp only at h1 h2 h3 ⊢
  have hmax : pairMax ⟨(t.N1max : ℝ), t.N1max, t.N2max, t.N2max, t.N2max⟩ sp = t.N2max := by cases sp <;> rfl
  rw [hmax] at h1
  have hn : ∀ (b : Bool) (i : ℕ), i < orbs.p.length → (nucleon orbs b i).1 ≤ t.N1max := by
    intro b i hi
    rw [nucleon_at ho, hl]
    have hlen : (oscLabels t.N1max).length = orbs.p.length := by rw [← hl, List.length_map]
    have : (oscLabels t.N1max).getD i (0, 0) ∈ oscLabels t.N1max := by
      rw [List.getD_eq_getElem?_getD, List.getElem?_eq_getElem (by omega)]
      exact List.getElem_mem _
    exact (mem_oscLabels.mp this).1
  exact ⟨hr'.1, hr'.2, ⟨hn _ _ hr'.1, hn _ _ hr'.2, by exact_mod_cast h1⟩, h2, h3⟩

/-- What is required of the space and its sectors is met for every truncation and every operator, if `Tz0` is not negative. -/
theorem pnLib_basis {w : World} (hw : w.lib = pnLib) (p : Params) (t : Trunc) (o : OpLabels) (fmt : Format) (hz : 0 ≤ p.Tz0) :
    PnBasis t w.lib (targetDesc w p t o fmt) := by
  have hl : (targetDesc w p t o fmt).orbs.p.map (fun x => ((2 * x.n + x.l).toNat, x.twiceJ.toNat)) = oscLabels t.N1max := by
    simp only [targetDesc, hw, pnLib, Int.toNat_natCast]
    exact map_orbOf _
  have ho : OscOrbitals (targetDesc w p t o fmt).orbs := by
    refine ⟨?_, ?_, ?_⟩
    · simp only [targetDesc, hw, pnLib]
    · rw [hl]
      exact oscLabels_sorted _
    · intro x hx
      have : ((2 * x.n + x.l).toNat, x.twiceJ.toNat) ∈ oscLabels t.N1max := by
        rw [← hl]
        exact List.mem_map.mpr ⟨x, hx, rfl⟩
      exact (mem_oscLabels.mp this).2
  have hsec : ∀ s ∈ ((targetDesc w p t o fmt).index w.lib).sectors,
      (s.bra ∈ (targetDesc w p t o fmt).subspaces w.lib ∧ s.ket ∈ (targetDesc w p t o fmt).subspaces w.lib) ∧
      (|(s.bra.J : Int) - o.J0| ≤ s.ket.J ∧ (s.ket.J : Int) ≤ s.bra.J + o.J0) ∧ ((s.bra.g : Int) + s.ket.g + o.g0) % 2 = 0 ∧
      projection s.bra.species - projection s.ket.species = p.Tz0 := by
    intro s hs
    simp only [Desc.index, hw, pnLib, pnSectors, List.mem_map, mem_having] at hs
    obtain ⟨⟨b, k⟩, ⟨hmem, _, h1, h2, h3⟩, rfl⟩ := hs
    have hm : b ∈ _ ∧ k ∈ _ := List.mem_product.mp hmem
    rw [hw]
    exact ⟨⟨List.fst_mem_of_mem_zipIdx hm.1, List.fst_mem_of_mem_zipIdx hm.2⟩, h1, h2, h3⟩
  have hsub : ∀ s ∈ (targetDesc w p t o fmt).subspaces w.lib, PnStates t (targetDesc w p t o fmt).orbs s := by
    intro s hs
    refine pnLib_states ho hl ?_
    simp only [Desc.subspaces, hw, pnLib] at hs
    exact hs
  exact ⟨ho, fun s hs => hsub _ (hsec s hs).1.1, fun s hs => hsub _ (hsec s hs).1.2, fun s hs => (hsec s hs).2.1,
    fun s hs => (hsec s hs).2.2.1, fun s hs => by have := (hsec s hs).2.2.2; omega⟩

/-! ## A world -/

/-- A world with given relative files: real spaces, Racah coefficients from `six`, other coefficients arbitrary. -/
noncomputable def world (six z : Int → Int → Int → Int → Int → Int → ℝ) (mosh : Env) (nine : NineJ) (hf : H2.HeaderFloat) (nm : Numbers)
    (rel? : String → Option RelFile) (rc? : String → Option RCFile) : World where
  env := ⟨⟨z, roseFactor six⟩, mosh, nine, fun _ => roseSwap⟩
  rcs := rcSpace
  lss t := lsSpace ⟨t.1, t.2⟩
  jjs t := jjSpace ⟨t.1, t.2⟩
  jts t := jtSpace ⟨t.1, t.2⟩
  lib := pnLib
  hf := hf
  nm := nm
  rel? := rel?
  rc? := rc?

section
variable (six z : Int → Int → Int → Int → Int → Int → ℝ) (mosh : Env) (nine : NineJ) (hf : H2.HeaderFloat) (nm : Numbers)
  (rel? : String → Option RelFile) (rc? : String → Option RCFile)

theorem world_spaces (t : Trunc) {Nmax : ℕ} (h : t.N2max ≤ Nmax) : Spaces (world six z mosh nine hf nm rel? rc?) t Nmax :=
  ⟨rcSpace_ok _, lsSpace_ok _, (spaces_sublist t).trans (rcSpace_sublist h), jjSpace_ok _, jtSpace_ok _⟩

/-- In such a world, for every truncation up to 84 quanta, every relative operator of any character with the symmetry of exchange, and
every target file, the run writes the transformed operator: all hypotheses of `moshinsky_h2` are met. -/
theorem world_h2 (hsix : ∀ a b c d e f, six a b c d e f = six e d c b a f) {ctl : Input} {p : Params} (ha : Asks nm ctl p)
    (hc : 0 ≤ p.cutoff) (hs : p.source = .rel) (ht : p.target = .jjjpn) (hz : 0 ≤ p.Tz0) {o : OpLabels} (h2 : o.T0max ≤ 2)
    {Nmax Jmax : ℕ} {R : ℕ → RelRME} (hsym : ∀ T0, RelSym (fun _ => roseSwap) T0 (R T0)) (hfile : rel? p.input = some (fileOf o Nmax Jmax R))
    (h84 : (truncOf p).N2max ≤ 84) (hN : (truncOf p).N2max ≤ Nmax) :
    run (world six z mosh nine hf nm rel? rc?) ctl = h2Result (world six z mosh nine hf nm rel? rc?) p (truncOf p) o
      (twoBody (world six z mosh nine hf nm rel? rc?).env (truncOf p)
        fun T0 => relCMSpec (world six z mosh nine hf nm rel? rc?).env.am Jmax o.J0 (R T0)) := by
  have hg : Given (world six z mosh nine hf nm rel? rc?) (fileOf o Nmax Jmax R) R :=
    given_fileOf h2 Nmax Jmax hsym fun T0 => swapLaw_of_racah hsix rfl rfl _ T0
  have hsp := world_spaces six z mosh nine hf nm rel? rc? (truncOf p) (le_refl _)
  have hpn : ∀ fmt, formatOfCode p.format = .ok fmt → PnBasis (truncOf p) (world six z mosh nine hf nm rel? rc?).lib
      (targetDesc (world six z mosh nine hf nm rel? rc?) p (truncOf p) o fmt) := fun fmt _ => pnLib_basis rfl p _ _ fmt hz
  have ha' : Asks (world six z mosh nine hf nm rel? rc?).nm ctl p := ha
  have hf' : (world six z mosh nine hf nm rel? rc?).rel? p.input = some (fileOf o Nmax Jmax R) := hfile
  generalize world six z mosh nine hf nm rel? rc? = w at *
  have hN' : (truncOf p).N2max ≤ (fileOf o Nmax Jmax R).Nmax := hN
  have h := moshinsky_h2 ha' hc hs ht hf' hg hsp h84 hN' hpn
  exact h

/-- A file with fewer quanta than the truncation, for a scalar operator: the run ends with a failed assertion. -/
theorem world_small (hsix : ∀ a b c d e f, six a b c d e f = six e d c b a f) {ctl : Input} {p : Params} (ha : Asks nm ctl p)
    (hc : 0 ≤ p.cutoff) (hs : p.source = .rel) (ht : p.target ≠ .rel) {T0max : ℕ} (h2 : T0max ≤ 2) {Nmax Jmax : ℕ}
    {R : ℕ → RelRME} (hsym : ∀ T0, RelSym (fun _ => roseSwap) T0 (R T0)) (hfile : rel? p.input = some (fileOf ⟨0, 0, 0, T0max⟩ Nmax Jmax R))
    (hN : Nmax < (truncOf p).N2max) : run (world six z mosh nine hf nm rel? rc?) ctl = .error .assertFail := by
  have hst : ∃ s ∈ rcSpace (truncOf p).N2max, ∃ x ∈ s.states, x.1 = (truncOf p).N2max := by
    generalize (truncOf p).N2max = N
    have hl : N % 2 ≤ N := Nat.mod_le _ _
    have hx : ((N, N % 2, 0, 0) : LSPair) ∈ (rcSub (N % 2, 0, N % 2, 1 - N % 2, N)).states := by
      simp only [rcSub, mem_having, mem_quads]
      exact ⟨by omega, ⟨⟨hl, by simp⟩, ⟨le_refl _, rfl⟩, rfl, ⟨by simp, by simp, by simp⟩, by simp only []; omega⟩⟩
    refine ⟨rcSub (N % 2, 0, N % 2, 1 - N % 2, N), ?_, _, hx, rfl⟩
    refine List.mem_map.mpr ⟨_, mem_having.mpr ⟨?_, ?_, List.ne_nil_of_mem hx⟩, rfl⟩
    · rw [mem_lsLabels]
      simp only []
      omega
    · exact ⟨by simp, by simp, by simp⟩
  obtain ⟨s, hm, x, hx, hxN⟩ := hst
  exact moshinsky_small_relative_file (w := world six z mosh nine hf nm rel? rc?) ha hc hs ht hfile
    (given_fileOf (w := world six z mosh nine hf nm rel? rc?) (o := ⟨0, 0, 0, T0max⟩) h2 Nmax Jmax hsym fun T0 => swapLaw_of_racah hsix rfl rfl _ T0)
    (rcSpace_ok _) (T0 := 0) (by simp [fileOf]) (by simp [fileOf]) hm (by simp [fileOf]) (by simp) (by simp [fileOf]) hx
    (by rw [hxN]; exact hN)

end

/-! ## A control file -/

/-- Numbers in the control file below. -/
def sampleNumbers : Numbers := ⟨fun s => if s = "2" then some 2 else if s = "15099" then some 15099 else if s = "0" then some 0 else none,
  fun _ => none⟩

def sampleControl : Input := ⟨[["tb", "2"], ["op.rel", "rel"], ["op.dat", "jjjpn", "15099", "0"]], true⟩

def sampleParams : Params := ⟨false, 2, "op.rel", .rel, "op.dat", .jjjpn, 15099, 0⟩

theorem sample_asks : Asks sampleNumbers sampleControl sampleParams :=
  ⟨⟨"2", [], rfl, rfl⟩, ⟨[], rfl⟩, ⟨_, rfl, fun _ => ⟨"15099", "0", [], rfl, rfl, rfl⟩, fun h => absurd rfl h⟩⟩

/-- The identity on the relative motion, isoscalar: it has the symmetry of exchange. -/
noncomputable def identityR : ℕ → RelRME := fun T0 a N b N' => if T0 = 0 ∧ a = b ∧ N = N' then 1 else 0

theorem identity_sym (T0 : ℕ) : RelSym (fun _ => roseSwap) T0 (identityR T0) := by
  intro l S J T N l' S' J' T' N'
  unfold identityR
  by_cases h : T0 = 0 ∧ ((l : Int), (S : Int), (J : Int), (T : Int)) = ((l' : Int), (S' : Int), (J' : Int), (T' : Int)) ∧ (N : Int) = N'
  · rw [if_pos h, if_pos ⟨h.1, h.2.1.symm, h.2.2.symm⟩]
    simp only [Prod.mk.injEq, Nat.cast_inj] at h
    obtain ⟨_, ⟨_, _, rfl, rfl⟩, _⟩ := h
    simp only [roseSwap, mul_one]
    have hp : Real.sqrt ((2 * (J : ℝ) + 1) * (2 * T + 1)) ≠ 0 := (Real.sqrt_pos.mpr (by positivity)).ne'
    rw [mul_div_assoc, div_self hp, mul_one, show J + J + T + T = 2 * (J + T) by omega, pow_mul]
    simp
  · rw [if_neg h, if_neg (by tauto), mul_zero]

example (six z : Int → Int → Int → Int → Int → Int → ℝ) (hsix : ∀ a b c d e f, six a b c d e f = six e d c b a f) (mosh : Env)
    (nine : NineJ) (hf : H2.HeaderFloat) :
    ∃ w : World, w.env.am.z = z ∧ run w sampleControl = h2Result w sampleParams ⟨2, 2⟩ ⟨0, 0, 0, 0⟩
      (twoBody w.env ⟨2, 2⟩ fun T0 => relCMSpec w.env.am 3 0 (identityR T0)) := by
  refine ⟨world six z mosh nine hf sampleNumbers (fun _ => some (fileOf ⟨0, 0, 0, 0⟩ 2 3 identityR)) (fun _ => none), rfl, ?_⟩
  exact world_h2 (p := sampleParams) six z mosh nine hf sampleNumbers _ _ hsix sample_asks (by decide) rfl rfl (by decide) (by decide)
    identity_sym rfl (by decide) (by decide)

end Verif.Moshinsky.Program
