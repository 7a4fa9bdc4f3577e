import Verif.Moshinsky.NucleonCoulomb
import Verif.Relative.PNFile

/-!
# An interaction, from the files that give it to the H2 file

`jpv2rel` turns the matrix elements of a nucleon-nucleon interaction, given for pairs of protons, of neutrons, and of a proton and a neutron,
into its three isospin components (`jpv_io.cpp` 263-345); `pn2rel` does the same for another format.  `moshinsky`, given that file, writes the
elements of the interaction.
-/

namespace Verif.Moshinsky
open Verif MvPolynomial Osc Program
open Verif.SU2 hiding couple
open Verif.H2 (Format Mode Desc Sector Subspace OrbSpace Species BasisLib WriteCall storedFactor InState openIn readHistory Expressible
  formatOfCode deducedIOMode)
open Verif.Relative (RelFile RelSub OpLabels Sp cgD relSpace projected isoCG)
open Verif.Relative.Gen (Input)
open Verif.Mixer.Control (Numbers)

/-! ## Specification -/

/-- The pair of nucleons whose isospin has the projection `MT`. -/
def pairKind (MT : ℤ) : Sp := if MT = 1 then .pp else if MT = -1 then .nn else .pn

/-- Between states of up to `Nmax` quanta, `V` is an interaction between two nucleons, with elements `v s` between pairs of the kind `s`: it
leaves the centre-of-mass motion, the angular momentum and isospin of the pair, and the kind of the nucleons as they are, and is zero beyond
angular momentum `Jmax` of the relative motion. -/
def IsInteraction (V : Nucl →ₗ[ℝ] Nucl) (Nmax : ℕ) (Jmax : Int) (v : Sp → RelRME) : Prop :=
  ∀ (r r' : LSPair) (S Jr T S' Jr' T' : ℕ) (mr mc MT mr' mc' MT' : ℤ), IsMotion r S Jr T → IsMotion r' S' Jr' T' →
    r.1 + r.2.2.1 ≤ Nmax → r'.1 + r'.2.2.1 ≤ Nmax → |mr| ≤ Jr → |mc| ≤ r.2.2.2 → |MT| ≤ T → |mr'| ≤ Jr' → |mc'| ≤ r'.2.2.2 → |MT'| ≤ T' →
    inner (relCM r S Jr T mr mc MT) (V (relCM r' S' Jr' T' mr' mc' MT')) =
      if (r.2.2, mc, Jr, mr, T, MT) = (r'.2.2, mc', Jr', mr', T', MT') ∧ Jr ≤ Jmax then
        v (pairKind MT) (r.2.1, S, Jr, T) r.1 (r'.2.1, S', Jr', T') r'.1
      else 0

/-- The elements do not depend on which of the states is on the left. -/
def Hermitian (v : Sp → RelRME) : Prop :=
  ∀ s (l S J T N l' S' N' : ℕ), v s (l, S, J, T) N (l', S', J, T) N' = v s (l', S', J, T) N' (l, S, J, T) N

/-- The element of `v` between state `i` of `x` and state `j` of `y`. -/
def elementOf (v : RelRME) (x y : RelSub) (i j : ℕ) : ℝ :=
  v (x.L, x.S, x.J, x.T) (x.L + 2 * i : ℕ) (y.L, y.S, y.J, y.T) (y.L + 2 * j : ℕ)

/-- `told s x y i j` is what the files say about the elements of the interaction `v`: for pairs of like nucleons only in the channels they
have, with isospin one. -/
def Tells (told : Sp → RelSub → RelSub → ℕ → ℕ → ℝ → Prop) (v : Sp → RelRME) (N J : ℕ) : Prop :=
  ∀ s x y, x ∈ relSpace N J → y ∈ relSpace N J → x.J = y.J → x.T = y.T → (x.L + y.L) % 2 = 0 → (s = .pn ∨ x.T = 1) →
    ∀ i j, Relative.Jpv2Rel.Stored x y i j → told s x y i j (elementOf (v s) x y i j)

/-! ## The isospin components -/

/-- The reduced elements of the components, from those for the three kinds of pairs. -/
noncomputable def partRME (v : Sp → RelRME) (T0 : ℕ) : RelRME := fun b N b' N' =>
  if b.2.2 = b'.2.2 then
    if b.2.2.2 = 1 then
      match T0 with
      | 0 => (v .pp b N b' N' + v .nn b N b' N' + v .pn b N b' N') / 3
      | 1 => √2 / 2 * (v .pp b N b' N' - v .nn b N b' N')
      | _ => √10 / 6 * (v .pp b N b' N' + v .nn b N b' N' - 2 * v .pn b N b' N')
    else if T0 = 0 then v .pn b N b' N' else 0
  else 0

theorem partRME_sym {v : Sp → RelRME} (hv : Hermitian v) (T0 l S J T N l' S' J' T' N' : ℕ) :
    partRME v T0 (l, S, J, T) N (l', S', J', T') N' = roseSwap (J, T) (J', T') * partRME v T0 (l', S', J', T') N' (l, S, J, T) N := by
  unfold partRME
  dsimp only
  by_cases h : ((J : Int), (T : Int)) = ((J' : Int), (T' : Int))
  · rw [if_pos h, if_pos h.symm]
    simp only [Prod.mk.injEq, Nat.cast_inj] at h
    obtain ⟨rfl, rfl⟩ := h
    have e : roseSwap (J, T) (J, T) = 1 := by
      unfold roseSwap
      dsimp only
      rw [show J + J + T + T = 2 * (J + T) by ring, pow_mul, neg_one_sq, one_pow, one_mul, div_self (by positivity)]
    rw [e, one_mul]
    simp only [hv _ l S J T N l' S' N']
  · rw [if_neg h, if_neg fun k => h k.symm, mul_zero]

theorem cg_triplet {M : ℤ} (hM : |M| ≤ 1) {T0 : ℕ} (h : T0 ≤ 2) : Osc.cg 1 M T0 0 1 M = isoCG T0 M := by
  have mem : 2 * M ∈ Relative.ms (2 * 1 : ℕ) := by
    rw [Relative.ms_eq, even_mem, Finset.mem_Icc, ← abs_le]
    exact_mod_cast hM
  have e : ∀ T0 : ℕ, Osc.cg 1 M T0 0 1 M = cgD (2 * 1 : ℕ) (2 * M) (2 * T0 : ℕ) 0 (2 * 1 : ℕ) (2 * M) := fun T0 => by
    rw [Relative.cgD_nat, cg_even, mul_zero]
  rw [e]
  obtain rfl | rfl | rfl : T0 = 0 ∨ T0 = 1 ∨ T0 = 2 := by omega
  · exact triplet_laws.zero _ mem
  · refine (triplet_laws.one _ mem).trans ?_
    rw [isoCG]
    push_cast
    rw [mul_div_cancel_left₀ _ (by norm_num : (2 : ℝ) ≠ 0)]
  · refine (triplet_laws.two _ mem).trans ?_
    simp only [isoCG]
    push_cast
    rw [mul_div_cancel_left₀ _ (by norm_num : (2 : ℝ) ≠ 0)]

theorem isoCG_solve {a b c p n q : ℝ} (h1 : isoCG 0 1 * a + isoCG 1 1 * b + isoCG 2 1 * c = p)
    (h2 : isoCG 0 (-1) * a + isoCG 1 (-1) * b + isoCG 2 (-1) * c = n) (h3 : isoCG 0 0 * a + isoCG 1 0 * b + isoCG 2 0 * c = q) :
    a = (p + n + q) / 3 ∧ b = √2 / 2 * (p - n) ∧ c = √10 / 6 * (p + n - 2 * q) := by
  have q2 : √2 * √2 = (2 : ℝ) := Real.mul_self_sqrt (by norm_num)
  have q10 : √10 * √10 = (10 : ℝ) := Real.mul_self_sqrt (by norm_num)
  have p2 : √2 ≠ (0 : ℝ) := by positivity
  have p10 : √10 ≠ (0 : ℝ) := by positivity
  simp only [isoCG] at h1 h2 h3
  push_cast at h1 h2 h3
  subst h1 h2 h3
  refine ⟨?_, ?_, ?_⟩
  · field_simp
    ring
  · field_simp
    ring
  · field_simp
    ring

/-- The components combine to the elements for each kind of pair. -/
theorem partRME_sum (v : Sp → RelRME) {T : ℕ} (hT : T ≤ 1) {M : ℤ} (hM : |M| ≤ T) (l S J : ℕ) (N : ℕ) (l' S' : ℕ) (N' : ℕ) :
    Osc.cg T M 0 0 T M * partRME v 0 (l, S, J, T) N (l', S', J, T) N' + Osc.cg T M 1 0 T M * partRME v 1 (l, S, J, T) N (l', S', J, T) N' +
      Osc.cg T M 2 0 T M * partRME v 2 (l, S, J, T) N (l', S', J, T) N' = v (pairKind M) (l, S, J, T) N (l', S', J, T) N' := by
  obtain rfl | rfl : T = 0 ∨ T = 1 := by omega
  · obtain rfl : M = 0 := by simpa using hM
    have c : Osc.cg 0 0 0 0 0 0 = 1 := by
      have := cgd_scalar (j := 2 * 0) (m := 2 * 0) (by decide)
      rw [cg_even]
      exact this
    rw [c]
    simp [partRME, pairKind]
  · rw [cg_triplet (by exact_mod_cast hM) (by omega), cg_triplet (by exact_mod_cast hM) (by omega), cg_triplet (by exact_mod_cast hM) (by omega)]
    have q2 : √2 * √2 = (2 : ℝ) := Real.mul_self_sqrt (by norm_num)
    have q10 : √10 * √10 = (10 : ℝ) := Real.mul_self_sqrt (by norm_num)
    have p2 : √2 ≠ (0 : ℝ) := by positivity
    have p10 : √10 ≠ (0 : ℝ) := by positivity
    have hM' : M = 1 ∨ M = -1 ∨ M = 0 := by
      rw [abs_le] at hM
      omega
    simp only [partRME, if_true, Nat.cast_one, isoCG]
    rcases hM' with rfl | rfl | rfl <;> simp only [pairKind] <;> norm_num <;> field_simp <;> ring

theorem cg_same (J : ℕ) {M : ℤ} (hM : |M| ≤ J) : Osc.cg J M 0 0 J M = 1 := by
  rw [cg_even]
  exact cgd_scalar (by rw [even_mem, Finset.mem_Icc, ← abs_le]; exact hM)

theorem cg_other {k J J' : ℕ} {M M' : ℤ} (hne : M ≠ M') : Osc.cg J' M' k 0 J M = 0 := by
  rw [cg_even, cgd, if_neg]
  rintro ⟨h, -⟩
  omega

/-- Without its isovector and isotensor components, the interaction is the isoscalar one. -/
theorem interaction_scalar {V O1 O2 : Nucl →ₗ[ℝ] Nucl} {Nmax : ℕ} {Jmax : Int} {v : Sp → RelRME} (hV : IsInteraction V Nmax Jmax v)
    (h1 : IsRelative O1 Nmax Jmax 0 1 0 0 (partRME v 1)) (h2 : IsRelative O2 Nmax Jmax 0 2 0 0 (partRME v 2)) :
    IsRelative (V - O1 - O2) Nmax Jmax 0 0 0 0 (partRME v 0) := by
  intro r r' S Jr T S' Jr' T' mr mc MT mr' mc' MT' h h' hN hN' hm hc hMT hm' hc' hMT'
  have e := hV r r' S Jr T S' Jr' T' mr mc MT mr' mc' MT' h h' hN hN' hm hc hMT hm' hc' hMT'
  have e1 := h1 r r' S Jr T S' Jr' T' mr mc MT mr' mc' MT' h h' hN hN' hm hc hMT hm' hc' hMT'
  have e2 := h2 r r' S Jr T S' Jr' T' mr mc MT mr' mc' MT' h h' hN hN' hm hc hMT hm' hc' hMT'
  rw [← innerL_apply] at e e1 e2 ⊢
  rw [LinearMap.sub_apply, LinearMap.sub_apply, map_sub, map_sub, e, e1, e2]
  by_cases k : (r.2.2, mc) = (r'.2.2, mc') ∧ (Jr : Int) ≤ Jmax ∧ (Jr' : Int) ≤ Jmax
  · rw [if_pos k, if_pos k, if_pos k]
    by_cases kJ : (Jr, T) = (Jr', T')
    · simp only [Prod.mk.injEq] at kJ
      obtain ⟨rfl, rfl⟩ := kJ
      by_cases km : mr = mr' ∧ MT = MT'
      · obtain ⟨rfl, rfl⟩ := km
        rw [if_pos ⟨by simpa using k.1, k.2.1⟩, cg_same Jr hm, ← partRME_sum v h.isospin hMT r.2.1 S Jr r.1 r'.2.1 S' r'.1]
        ring
      · rw [if_neg fun x => km (by simp only [Prod.mk.injEq] at x; tauto)]
        by_cases k3 : mr = mr'
        · have k4 : MT ≠ MT' := fun x => km ⟨k3, x⟩
          rw [cg_other k4, cg_other k4, cg_other k4]
          ring
        · rw [cg_other (J := Jr) k3]
          ring
    · have z : ∀ T0, partRME v T0 (r.2.1, S, Jr, T) r.1 (r'.2.1, S', Jr', T') r'.1 = 0 := fun T0 => by
        unfold partRME
        rw [if_neg]
        intro x
        simp only [Prod.mk.injEq, Nat.cast_inj] at x
        exact kJ (Prod.ext x.1 x.2)
      rw [z, z, z, if_neg]
      · ring
      · intro x
        simp only [Prod.mk.injEq] at x
        exact kJ (Prod.ext x.1.2.2.1 x.1.2.2.2.2.1)
  · rw [if_neg k, if_neg k, if_neg k, if_neg]
    · ring
    · rintro ⟨x, y⟩
      simp only [Prod.mk.injEq] at x
      obtain ⟨x1, x2, x3, -⟩ := x
      exact k ⟨Prod.ext x1 x2, y, x3 ▸ y⟩

/-! ## The relative file -/

/-- What `jpv2rel` (C123) and `pn2rel` (C124) write. -/
structure Charged (f : RelFile) (N J : ℕ) (v : Sp → RelRME) : Prop where
  labels : f.labels = ⟨0, 0, 0, 2⟩
  Nmax : f.Nmax = N
  Jmax : f.Jmax = J
  triplet : ∀ x y, (x, y) ∈ f.sectors 0 → x.T = 1 → ∃ t : ℕ → ℕ, (∀ T0 ≤ 2, (f.sectors T0)[t T0]? = some (x, y)) ∧
    ∀ i j, Relative.Jpv2Rel.Stored x y i j → ∀ s : Sp, projected f t s.Tz i j = elementOf (v s) x y i j
  singlet : ∀ k x y, (f.sectors 0)[k]? = some (x, y) → x.T = 0 → ∀ i j, Relative.Jpv2Rel.Stored x y i j →
    f.blocks 0 k i j = elementOf (v .pn) x y i j
  other : ∀ T0 k x y, (f.sectors T0)[k]? = some (x, y) → x.T ≠ y.T → ∀ i j, f.blocks T0 k i j = 0

theorem charged_given {f : RelFile} {N J : ℕ} {v : Sp → RelRME} (h : Charged f N J v) (hv : Hermitian v) {w : World}
    (hsw : w.env.swap = fun _ => roseSwap) (hlaw : ∀ T0, SwapLaw w.env 0 T0) : Given w f (partRME v) := by
  refine ⟨fun T0 _ h2 => ?_, ?_, ?_⟩
  · have h2 : T0 ≤ 2 := by rw [h.labels] at h2; exact h2
    rw [hsw]
    refine ⟨fun l S J T N l' S' J' T' N' => partRME_sym hv T0 l S J T N l' S' J' T' N', ?_⟩
    intro k x y hk i j hi hj hij
    have hst : Relative.Jpv2Rel.Stored x y i j := ⟨hi, hj, hij⟩
    have sec : ∀ T0, f.sectors T0 = Relative.relSectors (Relative.scalarLabels 2) (relSpace N J) T0 := fun T0 => by
      rw [RelFile.sectors, h.labels, h.Nmax, h.Jmax]
      rfl
    have hm := List.mem_of_getElem? hk
    rw [sec, Relative.mem_sectors, Relative.scalar_allowed] at hm
    obtain ⟨-, hx, hy, ho, hJ, hT, hL⟩ := hm
    dsimp only at hx hy ho
    rw [Relative.tri, decide_eq_true_iff] at hT
    by_cases hxy : x.T = y.T
    · have h0 : (x, y) ∈ f.sectors 0 := by
        rw [sec, Relative.mem_sectors, Relative.scalar_allowed]
        refine ⟨⟨by decide, by decide⟩, hx, hy, ho, hJ, ?_, hL⟩
        rw [Relative.tri, decide_eq_true_iff]
        omega
      have same : ((x.L, x.S, x.J, x.T) : Int × Int × Int × Int).2.2 = ((y.L, y.S, y.J, y.T) : Int × Int × Int × Int).2.2 := by
        dsimp only
        rw [hJ, hxy]
      have hT1 : x.T = 0 ∨ x.T = 1 := by
        rw [Relative.relSub_eq hx, Relative.relSub]
        dsimp only
        omega
      rcases hT1 with hT1 | hT1
      · obtain rfl : T0 = 0 := by omega
        rw [h.singlet k x y hk hT1 i j hst, elementOf, partRME, if_pos same, if_neg (by dsimp only; omega), if_pos rfl]
      · obtain ⟨t, ht, hp⟩ := h.triplet x y h0 hT1
        have hkt : k = t T0 := by
          have := ht T0 h2
          rw [sec] at hk this
          exact Relative.Jpv2Rel.sector_index_unique hk this
        subst hkt
        obtain ⟨q1, q2, q3⟩ := isoCG_solve (hp i j hst .pp) (hp i j hst .nn) (hp i j hst .pn)
        unfold partRME
        rw [if_pos same, if_pos (by dsimp only; omega)]
        obtain rfl | rfl | rfl : T0 = 0 ∨ T0 = 1 ∨ T0 = 2 := by omega
        · exact q1.symm
        · exact q2.symm
        · exact q3.symm
    · rw [h.other T0 k x y hk hxy i j]
      unfold partRME
      rw [if_neg]
      intro e
      simp only [Prod.mk.injEq, Nat.cast_inj] at e
      exact hxy e.2
  · rw [h.labels]
    exact hlaw
  · rw [h.labels]

/-! ## The H2 file -/

variable {w : World} {ctl : Input} {p : Params} {f : RelFile}

/-- In the file that `moshinsky` writes to `output`, opened again, there is for every stored pair of states a number that is, but for the
rounding to single precision and the values below `10⁻¹⁴` that are dropped, the reduced element `e` between the normalised antisymmetrised
states of every interaction `V` with the elements `v`. -/
def HoldsInteraction (w : World) (mode : Mode) (fmt : Format) (d : Desc) (r : BitVec 32 → BitVec 32) (output : String) (Nmax : ℕ) (Jmax : Int)
    (v : Sp → RelRME) (out : Output) : Prop :=
  ∃ file, out = .h2 output file ∧ ∀ k s, (d.index w.lib).sectors[k]? = some s → ∃ start m st,
    openIn w.lib w.hf mode file = .ok (fmt, d, start) ∧
    readHistory ⟨w.hf.fm, fmt, mode, d.index w.lib⟩ file [k] (InState.init start) = .ok ([m], st) ∧
    m.rows = s.bra.size ∧ m.cols = s.ket.size ∧
    ∀ i j x y, s.bra.states[i]? = some x → s.ket.states[j]? = some y → (s.braIndex = s.ketIndex → i ≤ j) → ∃ e : ℝ,
      m.val i j = w.hf.fm.ofF32 (r (w.hf.fm.toF32
        (if |e| < 1e-14 * (H2.pairNorm s.bra.species x * H2.pairNorm s.ket.species y) then 0 else e))) ∧
      (projection s.bra.species = projection s.ket.species → ∀ V : Nucl →ₗ[ℝ] Nucl, IsInteraction V Nmax Jmax v →
        ∀ M M', nasElement V d.orbs s x y M M' = Osc.cg s.ket.J M' 0 0 s.bra.J M * e)

/-- A run of `moshinsky` that makes an H2 file of the relative file `f`, with labels `o` and up to `N` quanta. -/
structure MakesH2 (w : World) (ctl : Input) (p : Params) (f : RelFile) (o : OpLabels) (N : ℕ) (mode : Mode) (fmt : Format) (d : Desc)
    (r : BitVec 32 → BitVec 32) (out : Output) : Prop where
  coefficients : Coefficients w.env
  swap : w.env.swap = fun _ => roseSwap
  law : ∀ T0, SwapLaw w.env o.J0 T0
  asks : Asks w.nm ctl p
  cutoff : 0 ≤ p.cutoff
  source : p.source = .rel
  target : p.target = .jjjpn
  input : w.rel? p.input = some f
  spaces : Spaces w (truncOf p) (truncOf p).N2max
  bound : (truncOf p).N2max ≤ 84
  enough : (truncOf p).N2max ≤ N
  basis : ∀ fmt, formatOfCode p.format = .ok fmt → PnBasis (truncOf p) w.lib (targetDesc w p (truncOf p) o fmt)
  format : formatOfCode p.format = .ok fmt
  modeOf : deducedIOMode p.output = .ok mode
  matrix : mode ≠ .matrix
  desc : d = targetDesc w p (truncOf p) o fmt
  expressible : Expressible w.lib w.hf mode fmt d
  wf : ∀ s ∈ (d.index w.lib).sectors, s.WF
  text : mode = .text → ∀ x, w.hf.fm.scan (w.hf.fm.fmt x) = some (r x)
  binary : mode = .binary → r = id
  run : Program.run w ctl = .ok out

/-- The sectors of an isoscalar component. -/
theorem scalar_sector {N J T0max : ℕ} (hlab : f.labels = ⟨0, 0, 0, T0max⟩) (hN : f.Nmax = N) (hJ : f.Jmax = J) {x y : RelSub}
    (h : (x, y) ∈ f.sectors 0) : x ∈ relSpace N J ∧ y ∈ relSpace N J ∧ x.J = y.J ∧ x.T = y.T ∧ (x.L + y.L) % 2 = 0 := by
  have sec : f.sectors 0 = Relative.relSectors (Relative.scalarLabels T0max) (relSpace N J) 0 := by
    rw [RelFile.sectors, hlab, hN, hJ]
    rfl
  rw [sec, Relative.mem_sectors, Relative.scalar_allowed, Relative.tri, decide_eq_true_iff] at h
  obtain ⟨-, hx, hy, -, hJ, hT, hL⟩ := h
  exact ⟨hx, hy, hJ, by omega, hL⟩

theorem charged_moshinsky {N J : ℕ} {v : Sp → RelRME} (hch : Charged f N J v) (hv : Hermitian v) {mode : Mode} {fmt : Format} {d : Desc}
    {r : BitVec 32 → BitVec 32} {out : Output} (h : MakesH2 w ctl p f ⟨0, 0, 0, 2⟩ N mode fmt d r out) :
    HoldsInteraction w mode fmt d r p.output (truncOf p).N2max J v out := by
  have hg := charged_given hch hv h.swap h.law
  have hlab := hch.labels
  obtain ⟨file, hout, hall⟩ := moshinsky_operator h.coefficients h.asks h.cutoff h.source h.target h.input hg h.spaces h.bound
    (by rw [hch.Nmax]; exact h.enough) (by rw [hlab]; exact h.basis) h.format h.modeOf h.matrix (by rw [hlab]; exact h.desc) h.expressible h.wf r
    h.text h.binary h.run
  refine ⟨file, hout, fun k s hk => ?_⟩
  obtain ⟨start, m, st, q1, q2, q3, q4, q5⟩ := hall k s hk
  refine ⟨start, m, st, q1, q2, q3, q4, fun i j x y hxi hyj hij => ?_⟩
  obtain ⟨e, he, hO⟩ := q5 i j x y hxi hyj hij
  refine ⟨e, he, fun hp V hV M M' => ?_⟩
  obtain ⟨O1, h1⟩ := relative_exists (truncOf p).N2max J 0 1 0 0 (partRME v 1)
  obtain ⟨O2, h2⟩ := relative_exists (truncOf p).N2max J 0 2 0 0 (partRME v 2)
  have h0 := interaction_scalar hV h1 h2
  have hrel := hO 0 (fun T0 => match T0 with | 0 => V - O1 - O2 | 1 => O1 | _ => O2) (fun T0 _ t2 => by
    rw [hlab] at t2
    rw [hlab, hp, sub_self, hch.Jmax]
    have t2 : T0 ≤ 2 := t2
    obtain rfl | rfl | rfl : T0 = 0 ∨ T0 = 1 ∨ T0 = 2 := by omega
    · exact h0
    · exact h1
    · exact h2) M M'
  rw [hlab] at hrel
  rw [← hrel, trueElement, nasElement]
  dsimp only
  rw [show Finset.Icc 0 2 = {0, 1, 2} by decide, Finset.sum_insert (by decide), Finset.sum_insert (by decide), Finset.sum_singleton]
  simp only [← innerL_apply, LinearMap.sub_apply, map_sub]
  ring

theorem scalar_relative {V : Nucl →ₗ[ℝ] Nucl} {Nmax : ℕ} {Jmax : Int} {v : RelRME} (hV : IsInteraction V Nmax Jmax fun _ => v) :
    IsRelative V Nmax Jmax 0 0 0 0 (partRME (fun _ => v) 0) := by
  have z : ∀ T0, T0 ≠ 0 → IsRelative 0 Nmax Jmax 0 T0 0 0 (partRME (fun _ => v) T0) := by
    intro T0 hT0 r r' S Jr T S' Jr' T' mr mc MT mr' mc' MT' h h' hN hN' hm hc hMT hm' hc' hMT'
    have e : partRME (fun _ => v) T0 (r.2.1, S, Jr, T) r.1 (r'.2.1, S', Jr', T') r'.1 = 0 := by
      unfold partRME
      split_ifs
      · rcases T0 with _ | _ | T0
        · exact absurd rfl hT0
        · show √2 / 2 * (_ - _) = 0
          rw [sub_self, mul_zero]
        · show √10 / 6 * (_ + _ - 2 * _) = 0
          ring
      · rfl
      · rfl
    rw [e, mul_zero, LinearMap.zero_apply, ← innerL_apply, map_zero]
    split_ifs <;> rfl
  have := interaction_scalar hV (z 1 (by decide)) (z 2 (by decide))
  rwa [sub_zero, sub_zero] at this

/-- What `jpv2rel` writes. -/
theorem files_charged {nm : Numbers} {file? : String → Option (List Relative.Line)} {jctl : Input} {N J : ℕ} {pp nn pn tgt : String}
    (hc : Relative.Jpv2Rel.ControlFile nm jctl ⟨N, J, .three pp nn pn, tgt⟩) (name : Sp → String) (hpp : name .pp = pp) (hnn : name .nn = nn)
    (hpn : name .pn = pn) {lines : Sp → List Relative.Line} (hsrc : ∀ s, file? (name s) = some (lines s))
    {secs : Sp → List Relative.Jpv2Rel.Section} (hf : ∀ s, Relative.Jpv2Rel.IsFile (secs s) (lines s)) (hin : ∀ s, ∀ c ∈ secs s, c.In N J)
    {v : Sp → RelRME} (hsay : Tells (fun s => Relative.Jpv2Rel.Says (secs s)) v N J) :
    ∃ f : RelFile, Relative.Jpv2Rel.run nm file? jctl = .ok (tgt, f) ∧ Charged f N J v := by
  obtain ⟨f, hrun, hlab, hN, hJ, h1, h2, h3⟩ := Relative.Jpv2Rel.charge_dependent_written hc name hpp hnn hpn hsrc hf hin
  refine ⟨f, hrun, ⟨hlab, hN, hJ, ?_, ?_, h3⟩⟩
  · intro x y hxy hT
    obtain ⟨t, ht, hp⟩ := h1 x y hxy hT
    refine ⟨t, ht, fun i j hst s => hp i j hst s _ ?_⟩
    obtain ⟨hx, hy, hJ', hT', hL⟩ := scalar_sector hlab hN hJ hxy
    exact hsay s x y hx hy hJ' hT' hL (.inr hT) i j hst
  · intro k x y hk hT i j hst
    obtain ⟨hx, hy, hJ', hT', hL⟩ := scalar_sector hlab hN hJ (List.mem_of_getElem? hk)
    exact h2 k x y hk hT i j hst _ (hsay .pn x y hx hy hJ' hT' hL (.inl rfl) i j hst)

/-! ## Properties -/

/-- **C180.**  A charge-dependent interaction, from the pp, nn and pn files to the H2 file: if the channels of the files are in the space and the
files give the elements `v` of an interaction, `jpv2rel` writes a relative file, and `moshinsky`, given that file, writes an H2 file that holds
the elements of that interaction between the states of two nucleons. -/
theorem interaction_moshinsky {nm : Numbers} {file? : String → Option (List Relative.Line)} {jctl : Input} {N J : ℕ} {pp nn pn tgt : String}
    (hc : Relative.Jpv2Rel.ControlFile nm jctl ⟨N, J, .three pp nn pn, tgt⟩) (name : Sp → String) (hpp : name .pp = pp) (hnn : name .nn = nn)
    (hpn : name .pn = pn) {lines : Sp → List Relative.Line} (hsrc : ∀ s, file? (name s) = some (lines s))
    {secs : Sp → List Relative.Jpv2Rel.Section} (hf : ∀ s, Relative.Jpv2Rel.IsFile (secs s) (lines s)) (hin : ∀ s, ∀ c ∈ secs s, c.In N J)
    {v : Sp → RelRME} (hv : Hermitian v) (hsay : Tells (fun s => Relative.Jpv2Rel.Says (secs s)) v N J) :
    ∃ f : RelFile, Relative.Jpv2Rel.run nm file? jctl = .ok (tgt, f) ∧
      ∀ {w : World} {ctl : Input} {p : Params} {mode : Mode} {fmt : Format} {d : Desc} {r : BitVec 32 → BitVec 32} {out : Output},
        MakesH2 w ctl p f ⟨0, 0, 0, 2⟩ N mode fmt d r out → HoldsInteraction w mode fmt d r p.output (truncOf p).N2max J v out := by
  obtain ⟨f, hrun, hch⟩ := files_charged hc name hpp hnn hpn hsrc hf hin hsay
  exact ⟨f, hrun, fun h => charged_moshinsky hch hv h⟩

/-- **C180**, one line per element: the same from the file of `pn2rel`. -/
theorem pn_interaction_moshinsky {int? : String → Option Int} {file? : String → Option (List Relative.Line)} {a b src tgt : String} {more : List String}
    {N J : ℕ} (hN : int? a = some (N : Int)) (hJ : int? b = some (J : Int)) {lines : List Relative.Line} (hsrc : file? src = some lines)
    {rows : List Relative.Pn2Rel.Row} (hf : List.Forall₂ Relative.Pn2Rel.RowLine rows lines) (hin : ∀ r ∈ rows, r.In N J)
    {v : Sp → RelRME} (hv : Hermitian v) (hsay : Tells (fun s => Relative.Pn2Rel.Says rows (Relative.Pn2Rel.fileTz s)) v N J) :
    ∃ f : RelFile, Relative.Pn2Rel.run int? file? (a :: b :: src :: tgt :: more) = .ok (tgt, f) ∧
      ∀ {w : World} {ctl : Input} {p : Params} {mode : Mode} {fmt : Format} {d : Desc} {r : BitVec 32 → BitVec 32} {out : Output},
        MakesH2 w ctl p f ⟨0, 0, 0, 2⟩ N mode fmt d r out → HoldsInteraction w mode fmt d r p.output (truncOf p).N2max J v out := by
  obtain ⟨f, hrun, hlab, hN, hJ, h1, h2, h3⟩ := Relative.Pn2Rel.written (tgt := tgt) (more := more) hN hJ hsrc hf hin
  refine ⟨f, hrun, fun h => charged_moshinsky ⟨hlab, hN, hJ, ?_, ?_, h3⟩ hv h⟩
  · intro x y hxy hT
    obtain ⟨t, ht, hp⟩ := h1 x y hxy hT
    refine ⟨t, ht, fun i j hst s => hp i j hst.1 hst.2.1 s _ ?_⟩
    obtain ⟨hx, hy, hJ', hT', hL⟩ := scalar_sector hlab hN hJ hxy
    exact hsay s x y hx hy hJ' hT' hL (.inr hT) i j hst
  · intro k x y hk hT i j hst
    obtain ⟨hx, hy, hJ', hT', hL⟩ := scalar_sector hlab hN hJ (List.mem_of_getElem? hk)
    exact h2 k x y hk hT i j hst.1 hst.2.1 _ (hsay .pn x y hx hy hJ' hT' hL (.inl rfl) i j hst)

/-- **C180**, charge-independent interactions: from one file, `jpv2rel` makes a relative file of which `moshinsky` makes an H2 file with the
elements of the interaction that is the same for all nucleons. -/
theorem isoscalar_moshinsky {nm : Numbers} {file? : String → Option (List Relative.Line)} {jctl : Input} {N J : ℕ} {src tgt : String}
    (hc : Relative.Jpv2Rel.ControlFile nm jctl ⟨N, J, .one src, tgt⟩) {lines : List Relative.Line} (hsrc : file? src = some lines)
    {secs : List Relative.Jpv2Rel.Section} (hf : Relative.Jpv2Rel.IsFile secs lines) (hin : ∀ c ∈ secs, c.In N J)
    {v : RelRME} (hv : Hermitian fun _ => v) (hsay : Tells (fun _ => Relative.Jpv2Rel.Says secs) (fun _ => v) N J) :
    ∃ f : RelFile, Relative.Jpv2Rel.run nm file? jctl = .ok (tgt, f) ∧
      ∀ {w : World} {ctl : Input} {p : Params} {mode : Mode} {fmt : Format} {d : Desc} {r : BitVec 32 → BitVec 32} {out : Output},
        MakesH2 w ctl p f ⟨0, 0, 0, 0⟩ N mode fmt d r out → HoldsInteraction w mode fmt d r p.output (truncOf p).N2max J (fun _ => v) out := by
  obtain ⟨f, hrun, hlab, hN, hJ, h1⟩ := Relative.Jpv2Rel.isoscalar_written hc hsrc hf hin
  refine ⟨f, hrun, fun {w ctl p mode fmt d r out} h => ?_⟩
  have hg : Given w f (partRME fun _ => v) := by
    refine ⟨fun T0 _ h2 => ?_, by rw [hlab]; exact h.law, by rw [hlab]; decide⟩
    obtain rfl : T0 = 0 := by rw [hlab] at h2; exact Nat.le_zero.mp h2
    rw [h.swap]
    refine ⟨fun l S J T N l' S' J' T' N' => partRME_sym hv 0 l S J T N l' S' J' T' N', ?_⟩
    intro k x y hk i j hi hj hij
    obtain ⟨hx, hy, hJ', hT', hL⟩ := scalar_sector hlab hN hJ (List.mem_of_getElem? hk)
    rw [h1 k x y hk i j ⟨hi, hj, hij⟩ _ (hsay .pn x y hx hy hJ' hT' hL (.inl rfl) i j ⟨hi, hj, hij⟩)]
    unfold partRME elementOf
    rw [if_pos (by dsimp only; rw [hJ', hT'])]
    beta_reduce
    generalize v (x.L, x.S, x.J, x.T) (x.L + 2 * i : ℕ) (y.L, y.S, y.J, y.T) (y.L + 2 * j : ℕ) = c
    rw [if_pos rfl]
    split_ifs
    · show (c + c + c) / 3 = c
      ring
    · rfl
  obtain ⟨file, hout, hall⟩ := moshinsky_operator h.coefficients h.asks h.cutoff h.source h.target h.input hg h.spaces h.bound
    (by rw [hN]; exact h.enough) (by rw [hlab]; exact h.basis) h.format h.modeOf h.matrix (by rw [hlab]; exact h.desc) h.expressible h.wf r
    h.text h.binary h.run
  refine ⟨file, hout, fun k s hk => ?_⟩
  obtain ⟨start, m, st, q1, q2, q3, q4, q5⟩ := hall k s hk
  refine ⟨start, m, st, q1, q2, q3, q4, fun i j x y hxi hyj hij => ?_⟩
  obtain ⟨e, he, hO⟩ := q5 i j x y hxi hyj hij
  refine ⟨e, he, fun hp V hV M M' => ?_⟩
  have hrel := hO 0 (fun _ => V) (fun T0 _ t2 => by
    obtain rfl : T0 = 0 := by rw [hlab] at t2; exact Nat.le_zero.mp t2
    rw [hlab, hp, sub_self, hJ]
    exact scalar_relative hV) M M'
  rw [hlab] at hrel
  rw [← hrel, trueElement, nasElement]
  dsimp only
  rw [Finset.Icc_self, Finset.sum_singleton]

end Verif.Moshinsky
