import Verif.Moshinsky.NucleonIdentity

/-!
# Unit tensors

The operator `symmunit` of `relative-gen` reaches the H2 file as the Hermitian operator that connects the two named states of the relative motion, and
no others.
-/

namespace Verif.Moshinsky
open Verif MvPolynomial Osc Program
open Verif.SU2 hiding couple
open Verif.H2 (Mode Desc Sector Species Format openIn readHistory InState)
open Verif.Relative (RelFile RelSub OpLabels relSpace)
open Verif.Relative.Gen (Input UnitLabels)

/-- A state of the relative motion of two nucleons, without projections. -/
structure RelLabel where
  N : ℕ
  L : ℕ
  S : ℕ
  J : ℕ
  T : ℕ
  deriving DecidableEq

/-- `O` is component `M0`, `MT0` of the tensor that leads from `K` to `B` with reduced element 1, together with what makes it Hermitian:
`⟨K m'|O(M0)|B m⟩ = (-1)^M0 ⟨B m|O(-M0)|K m'⟩`.  It does not act on the centre of mass. -/
def IsSymmUnit (O : Nucl →ₗ[ℝ] Nucl) (Nmax J0 T0 : ℕ) (M0 MT0 : ℤ) (B K : RelLabel) : Prop :=
  ∀ (r r' : LSPair) (S Jr T S' Jr' T' : ℕ) (mr mc MT mr' mc' MT' : ℤ), IsMotion r S Jr T → IsMotion r' S' Jr' T' →
    r.1 + r.2.2.1 ≤ Nmax → r'.1 + r'.2.2.1 ≤ Nmax → |mr| ≤ Jr → |mc| ≤ r.2.2.2 → |MT| ≤ T → |mr'| ≤ Jr' → |mc'| ≤ r'.2.2.2 → |MT'| ≤ T' →
    inner (relCM r S Jr T mr mc MT) (O (relCM r' S' Jr' T' mr' mc' MT')) =
      if (r.2.2, mc) = (r'.2.2, mc') then
        if B = ⟨r.1, r.2.1, S, Jr, T⟩ ∧ K = ⟨r'.1, r'.2.1, S', Jr', T'⟩ then Osc.cg Jr' mr' J0 M0 Jr mr * Osc.cg T' MT' T0 MT0 T MT
        else if K = ⟨r.1, r.2.1, S, Jr, T⟩ ∧ B = ⟨r'.1, r'.2.1, S', Jr', T'⟩ then
          sgn (M0 + MT0) * (Osc.cg Jr mr J0 (-M0) Jr' mr' * Osc.cg T MT T0 (-MT0) T' MT')
        else 0
      else 0

/-- The reduced elements of that operator. -/
noncomputable def symmR (B K : RelLabel) : RelRME := fun a N b N' =>
  if ((B.N : Int), (B.L : Int), (B.S : Int), (B.J : Int), (B.T : Int)) = (N, a) ∧ ((K.N : Int), (K.L : Int), (K.S : Int), (K.J : Int), (K.T : Int)) = (N', b) then 1
  else if ((K.N : Int), (K.L : Int), (K.S : Int), (K.J : Int), (K.T : Int)) = (N, a) ∧ ((B.N : Int), (B.L : Int), (B.S : Int), (B.J : Int), (B.T : Int)) = (N', b) then
    roseSwap (K.J, K.T) (B.J, B.T)
  else 0

theorem symmR_nat (B K : RelLabel) (l S J T N l' S' J' T' N' : ℕ) : symmR B K (l, S, J, T) N (l', S', J', T') N' =
    if B = ⟨N, l, S, J, T⟩ ∧ K = ⟨N', l', S', J', T'⟩ then 1 else if K = ⟨N, l, S, J, T⟩ ∧ B = ⟨N', l', S', J', T'⟩ then roseSwap (J, T) (J', T') else 0 := by
  obtain ⟨b1, b2, b3, b4, b5⟩ := B
  obtain ⟨k1, k2, k3, k4, k5⟩ := K
  unfold symmR
  simp only [Prod.mk.injEq, Nat.cast_inj, RelLabel.mk.injEq]
  split_ifs with h1 h2
  · rfl
  · obtain ⟨⟨-, -, -, rfl, rfl⟩, -, -, -, rfl, rfl⟩ := h2
    rfl
  · rfl

theorem roseSwap_self (a : ℕ × ℕ) : roseSwap a a = 1 := by
  have hp : Real.sqrt ((2 * (a.1 : ℝ) + 1) * (2 * a.2 + 1)) ≠ 0 := (Real.sqrt_pos.mpr (by positivity)).ne'
  rw [roseSwap, mul_div_assoc, div_self hp, mul_one, show a.1 + a.1 + a.2 + a.2 = 2 * (a.1 + a.2) by omega, pow_mul]
  simp

theorem roseSwap_inv (a b : ℕ × ℕ) : roseSwap a b * roseSwap b a = 1 := by
  have hp : ∀ a : ℕ × ℕ, Real.sqrt ((2 * (a.1 : ℝ) + 1) * (2 * a.2 + 1)) ≠ 0 := fun a => (Real.sqrt_pos.mpr (by positivity)).ne'
  have h1 := hp a
  have h2 := hp b
  have h3 : ((-1 : ℝ) ^ (a.1 + b.1 + a.2 + b.2)) * (-1) ^ (b.1 + a.1 + b.2 + a.2) = 1 := by
    rw [← pow_add, show a.1 + b.1 + a.2 + b.2 + (b.1 + a.1 + b.2 + a.2) = 2 * (a.1 + b.1 + a.2 + b.2) by omega, pow_mul]
    simp
  unfold roseSwap
  field_simp
  linear_combination h3

theorem symmR_sym (B K : RelLabel) (T0 : ℕ) : RelSym (fun _ => roseSwap) T0 (symmR B K) := by
  intro l S J T N l' S' J' T' N'
  rw [symmR_nat, symmR_nat]
  by_cases h1 : B = ⟨N, l, S, J, T⟩ ∧ K = ⟨N', l', S', J', T'⟩
  · rw [if_pos h1]
    by_cases h2 : B = ⟨N', l', S', J', T'⟩ ∧ K = ⟨N, l, S, J, T⟩
    · rw [if_pos h2]
      have e := h1.1.symm.trans h2.1
      simp only [RelLabel.mk.injEq] at e
      obtain ⟨-, -, -, rfl, rfl⟩ := e
      dsimp only
      rw [roseSwap_self, mul_one]
    · rw [if_neg h2, if_pos ⟨h1.2, h1.1⟩]
      exact (roseSwap_inv _ _).symm
  · rw [if_neg h1]
    by_cases h2 : K = ⟨N, l, S, J, T⟩ ∧ B = ⟨N', l', S', J', T'⟩
    · rw [if_pos h2, if_pos ⟨h2.2, h2.1⟩, mul_one]
    · rw [if_neg h2, if_neg (by tauto), if_neg (by tauto), mul_zero]

/-- The factor of an exchange, for coupling coefficients: the conjugate operator. -/
theorem swap_conjugate (J J' T T' J0 T0 : ℕ) (m m' M0 MT MT' MT0 : ℤ) :
    Osc.cg J' m' J0 M0 J m * Osc.cg T' MT' T0 MT0 T MT * roseSwap (J, T) (J', T') =
      sgn (M0 + MT0) * (Osc.cg J m J0 (-M0) J' m' * Osc.cg T MT T0 (-MT0) T' MT') := by
  have h1 := cg_turn J' m' J0 M0 J m
  have h2 := cg_turn T' MT' T0 MT0 T MT
  have p1 : √(2 * (J : ℝ) + 1) ≠ 0 := (Real.sqrt_pos.mpr (by positivity)).ne'
  have p2 : √(2 * (T : ℝ) + 1) ≠ 0 := (Real.sqrt_pos.mpr (by positivity)).ne'
  have s1 : sgn ((J : ℤ) + J' + M0) = sgn (J + J') * sgn M0 := (sgn_mul_sgn _ _).symm
  have s2 : sgn ((T : ℤ) + T' + MT0) = sgn (T + T') * sgn MT0 := (sgn_mul_sgn _ _).symm
  have s3 : sgn (M0 + MT0) = sgn M0 * sgn MT0 := (sgn_mul_sgn _ _).symm
  have s4 : ((-1 : ℝ) ^ (J + J' + T + T')) = sgn (J + J') * sgn (T + T') := by
    rw [sgn_mul_sgn]
    rw [← Relative.sgn_pow]
    congr 1
    push_cast
    ring
  have q1 := sgn_mul_self M0
  have q2 := sgn_mul_self MT0
  rw [s1] at h1
  rw [s2] at h2
  unfold roseSwap
  simp only
  rw [Real.sqrt_mul (by positivity), Real.sqrt_mul (by positivity), s4, s3]
  field_simp
  have e1 : sgn M0 * (√(2 * (J : ℝ) + 1) * Osc.cg J m J0 (-M0) J' m') = sgn (J + J') * (√(2 * (J' : ℝ) + 1) * Osc.cg J' m' J0 M0 J m) := by
    rw [h1]
    linear_combination (sgn (J + J') * (√(2 * (J' : ℝ) + 1) * Osc.cg J' m' J0 M0 J m)) * q1
  have e2 : sgn MT0 * (√(2 * (T : ℝ) + 1) * Osc.cg T MT T0 (-MT0) T' MT') = sgn (T + T') * (√(2 * (T' : ℝ) + 1) * Osc.cg T' MT' T0 MT0 T MT) := by
    rw [h2]
    linear_combination (sgn (T + T') * (√(2 * (T' : ℝ) + 1) * Osc.cg T' MT' T0 MT0 T MT)) * q2
  have := congrArg₂ (· * ·) e1 e2
  linear_combination -this

/-- What it means to be that operator, in terms of reduced elements. -/
theorem symmUnit_relative {O : Nucl →ₗ[ℝ] Nucl} {Nmax J0 T0 : ℕ} {M0 MT0 : ℤ} {B K : RelLabel} {Jmax : Int} (hJ : (Nmax : Int) + 1 ≤ Jmax) :
    IsSymmUnit O Nmax J0 T0 M0 MT0 B K ↔ IsRelative O Nmax Jmax J0 T0 M0 MT0 (symmR B K) := by
  have b : ∀ {r : LSPair} {S Jr T : ℕ}, IsMotion r S Jr T → r.1 + r.2.2.1 ≤ Nmax → (Jr : Int) ≤ Jmax := by
    intro r S Jr T h hN
    have h1 := h.rel
    have h2 := h.momentum
    have h3 := h.spin
    unfold Moshinsky.Osc at h1
    unfold Tri at h2
    omega
  unfold IsSymmUnit IsRelative
  refine forall₂_congr fun r r' => forall₃_congr fun S Jr T => forall₃_congr fun S' Jr' T' => forall₃_congr fun mr mc MT => forall₃_congr fun mr' mc' MT' =>
    forall₃_congr fun h h' hN => forall_congr' fun hN' => ?_
  refine forall₃_congr fun _ _ _ => forall₃_congr fun _ _ _ => Eq.congr_right ?_
  by_cases e : (r.2.2, mc) = (r'.2.2, mc')
  · rw [if_pos e, if_pos (show (r.2.2, mc) = (r'.2.2, mc') ∧ (Jr : Int) ≤ Jmax ∧ (Jr' : Int) ≤ Jmax from ⟨e, b h hN, b h' hN'⟩), symmR_nat]
    split_ifs
    · rw [mul_one]
    · rw [swap_conjugate]
    · rw [mul_zero]
  · rw [if_neg e, if_neg fun x => e x.1]

theorem symmUnit_exists (Nmax J0 T0 : ℕ) (M0 MT0 : ℤ) (B K : RelLabel) : ∃ O, IsSymmUnit O Nmax J0 T0 M0 MT0 B K := by
  obtain ⟨O, hO⟩ := relative_exists Nmax (Nmax + 1) J0 T0 M0 MT0 (symmR B K)
  exact ⟨O, (symmUnit_relative le_rfl).mpr hO⟩

/-! ## The relative file -/

/-- The two states that the words after `symmunit` name (documentation at the head of `relative-gen.cpp`, line 78). -/
def Names (u : UnitLabels) (T0 : ℕ) (B K : RelLabel) : Prop :=
  u = ⟨T0, B.N, B.L, B.S, B.J, B.T, K.N, K.L, K.S, K.J, K.T⟩

theorem unit_holds {o : OpLabels} {N : ℕ} {u : UnitLabels} {T0 : ℕ} {bra ket : RelSub} {n' n : ℕ} {B K : RelLabel} (hu : Names u T0 B K)
    (hc : Relative.Gen.Canonical o N (N + 1) u T0 bra ket n' n) {file : String} {op : Relative.RelOp} {f : RelFile}
    (hf : Wrote ⟨file, o, N, N + 1, Relative.Gen.allSectors o N, op⟩ f) (hs : Relative.Gen.IsUnit (Relative.Gen.allSectors o N) op T0 bra ket n' n) (t : ℕ) :
    FileHolds (fun _ => roseSwap) f t (onlyIn T0 (symmR B K) t) := by
  have hsec : f.sectors t = Relative.Gen.allSectors o N t := by
    unfold RelFile.sectors Relative.Gen.allSectors
    rw [hf.labels, hf.Nmax, hf.Jmax]
  refine ⟨?_, ?_⟩
  · unfold onlyIn
    split_ifs
    · exact symmR_sym B K t
    · intro l S J T N l' S' J' T' N'
      rw [mul_zero]
  · intro k x y hk i j hi hj hij
    rw [hsec] at hk
    obtain ⟨hlt, he⟩ := List.getElem?_eq_some_iff.mp hk
    have hlt' : k < (op t).length := (hs t).length_eq ▸ hlt
    have hold := (List.forall₂_iff_get.mp (hs t)).2 k hlt hlt' i j
    simp only [List.get_eq_getElem, he] at hold
    rw [hf.blocks t k _ (List.getElem?_eq_getElem hlt') i j _ hold]
    unfold onlyIn
    by_cases ht : t = T0
    swap
    · rw [if_neg ht, if_neg fun z => ht z.1]
    rw [if_pos ht, symmR_nat]
    have hm := Relative.mem_sectors.mp (List.mem_of_getElem? hk)
    have b1 := hc.braLabels
    have b2 := hc.braState
    have k1 := hc.ketLabels
    have k2 := hc.ketState
    unfold Names at hu
    rw [hu] at b1 b2 k1 k2
    simp only [Nat.cast_inj] at b1 k1
    have eB : ∀ {z : RelSub} {i : ℕ}, z ∈ relSpace N (N + 1) → (B = ⟨z.L + 2 * i, z.L, z.S, z.J, z.T⟩ ↔ z = bra ∧ i = n') := by
      intro z i hz
      obtain ⟨c1, c2, c3, c4, c5⟩ := B
      simp only [RelLabel.mk.injEq]
      constructor
      · intro h
        dsimp only at b1 b2 k1 k2
        refine ⟨Relative.Gen.sub_ext hz hc.hbra (by omega) (by omega) (by omega), ?_⟩
        omega
      · rintro ⟨rfl, rfl⟩
        dsimp only at b1 b2
        omega
    have eK : ∀ {z : RelSub} {i : ℕ}, z ∈ relSpace N (N + 1) → (K = ⟨z.L + 2 * i, z.L, z.S, z.J, z.T⟩ ↔ z = ket ∧ i = n) := by
      intro z i hz
      obtain ⟨c1, c2, c3, c4, c5⟩ := K
      simp only [RelLabel.mk.injEq]
      constructor
      · intro h
        dsimp only at b1 b2 k1 k2
        refine ⟨Relative.Gen.sub_ext hz hc.hket (by omega) (by omega) (by omega), ?_⟩
        omega
      · rintro ⟨rfl, rfl⟩
        dsimp only at k1 k2
        omega
    simp only [eB hm.2.1, eK hm.2.2.1, eK hm.2.1, eB hm.2.2.1, Prod.mk.injEq]
    by_cases h1 : (x = bra ∧ i = n') ∧ y = ket ∧ j = n
    · rw [if_pos h1, if_pos ⟨ht, ⟨h1.1.1, h1.2.1⟩, h1.1.2, h1.2.2⟩]
    · suffices hs : ¬((x = ket ∧ i = n) ∧ y = bra ∧ j = n') by
        rw [if_neg h1, if_neg hs, if_neg fun z => h1 ⟨⟨z.2.1.1, z.2.2.1⟩, z.2.1.2, z.2.2.2⟩]
      rintro ⟨⟨rfl, rfl⟩, rfl, rfl⟩
      apply h1
      have o1 := hc.order
      have o2 := hm.2.2.2.1
      unfold Relative.SubLt at o1 o2
      have hxy : x = y := by
        rcases o1 with ⟨e, -⟩ | o1
        · exact e.symm
        · rcases o2 with e | o2
          · exact e
          · dsimp only at o2
            omega
      have := hij hxy
      rcases o1 with ⟨-, o1⟩ | o1
      · exact ⟨⟨hxy, by omega⟩, hxy.symm, by omega⟩
      · subst hxy
        omega

variable {w : World} {ctl : Input} {p : Params} {f : RelFile}

/-- In the file that `moshinsky` writes to `output`, opened again, the element between two states is, but for the rounding to single precision and values
below `10⁻¹⁴`, the reduced element of the operator that connects `B` and `K`. -/
def HoldsSymmUnit (w : World) (mode : Mode) (fmt : Format) (d : Desc) (r : BitVec 32 → BitVec 32) (output : String) (Nmax J0 T0 : ℕ) (B K : RelLabel)
    (out : Output) : Prop :=
  ∃ file, out = .h2 output file ∧ ∀ k s, (d.index w.lib).sectors[k]? = some s → ∃ start m st,
    openIn w.lib w.hf mode file = .ok (fmt, d, start) ∧
    readHistory ⟨w.hf.fm, fmt, mode, d.index w.lib⟩ file [k] (InState.init start) = .ok ([m], st) ∧
    m.rows = s.bra.size ∧ m.cols = s.ket.size ∧
    ∀ i j x y, s.bra.states[i]? = some x → s.ket.states[j]? = some y → (s.braIndex = s.ketIndex → i ≤ j) → ∃ e : ℝ,
      m.val i j = w.hf.fm.ofF32 (r (w.hf.fm.toF32
        (if |e| < 1e-14 * (H2.pairNorm s.bra.species x * H2.pairNorm s.ket.species y) then 0 else e))) ∧
      ∀ (M0 : ℤ) (O : Nucl →ₗ[ℝ] Nucl), IsSymmUnit O Nmax J0 T0 M0 (projection s.bra.species - projection s.ket.species) B K →
        ∀ M M', nasElement O d.orbs s x y M M' = Osc.cg s.ket.J M' J0 M0 s.bra.J M * e

/-- **C182.**  Asked for `symmunit`, with two states of the relative motion in canonical order that the operator connects, `relative-gen` writes a relative file,
and `moshinsky`, given that file, writes the elements, between states of two nucleons, of the Hermitian operator that connects these two states and no others. -/
theorem symmunit_moshinsky {lib : Relative.Gen.Lib} {nm : Mixer.Control.Numbers} {gctl : Input} {o : OpLabels} {N : ℕ} {u : UnitLabels} {gfile : String}
    (hq : Relative.Gen.Request nm gctl o N (.symmunit u) gfile) {T0 : ℕ} {bra ket : RelSub} {n' n : ℕ} {B K : RelLabel} (hu : Names u T0 B K)
    (hc : Relative.Gen.Canonical o N (N + 1) u T0 bra ket n' n) :
    ∃ gout, Relative.Gen.run nm lib gctl = .ok gout ∧ gout.file = gfile ∧
      ∀ {w : World} {ctl : Input} {p : Params} {f : RelFile} {mode : Mode} {fmt : Format} {d : Desc} {r : BitVec 32 → BitVec 32} {out : Output},
        Wrote gout f → MakesH2 w ctl p f o N mode fmt d r out → HoldsSymmUnit w mode fmt d r p.output (truncOf p).N2max o.J0 T0 B K out := by
  obtain ⟨op, hop, hst⟩ := Relative.Gen.unit_written (lib := lib) hq hc
  refine ⟨_, hop, rfl, fun {w ctl p f mode fmt d r out} hw h => ?_⟩
  have hlab : f.labels = o := hw.labels
  have hNm : f.Nmax = N := hw.Nmax
  have hJm : f.Jmax = N + 1 := hw.Jmax
  have hg : Given w f (onlyIn T0 (symmR B K)) := by
    refine ⟨fun t _ _ => ?_, by rw [hlab]; exact h.law, by rw [hlab]; exact hq.three⟩
    rw [h.swap]
    exact unit_holds hu hc hw hst t
  obtain ⟨file, hout, hall⟩ := moshinsky_operator h.coefficients h.asks h.cutoff h.source h.target h.input hg h.spaces h.bound (by rw [hNm]; exact h.enough)
    (by rw [hlab]; exact h.basis) h.format h.modeOf h.matrix (by rw [hlab]; exact h.desc) h.expressible h.wf r h.text h.binary h.run
  refine ⟨file, hout, fun k s hk => ?_⟩
  obtain ⟨start, m, st, q1, q2, q3, q4, q5⟩ := hall k s hk
  refine ⟨start, m, st, q1, q2, q3, q4, fun i j x y hxi hyj hij => ?_⟩
  obtain ⟨e, he, hO⟩ := q5 i j x y hxi hyj hij
  refine ⟨e, he, fun M0 O hact M M' => ?_⟩
  have hrel := hO M0 (fun t => if t = T0 then O else 0) (fun t _ _ => ?_) M M'
  · rw [hlab] at hrel
    rw [← hrel, trueElement, Finset.sum_eq_single_of_mem T0 (Finset.mem_Icc.mpr hc.range)]
    · rw [if_pos rfl]
      rfl
    · intro t _ hne
      rw [if_neg hne, LinearMap.zero_apply, ← innerL_apply, map_zero]
  · rw [hlab, hJm]
    unfold onlyIn
    by_cases h0 : t = T0
    · subst h0
      rw [if_pos rfl, if_pos rfl]
      exact (symmUnit_relative (by have := h.enough; push_cast; omega)).mp hact
    · rw [if_neg h0, if_neg h0]
      exact relative_zero _ _ _ _ _ _

/-! ## A run -/

/-- Numbers that `relative-gen` reads. -/
def numbersU : Mixer.Control.Numbers := ⟨fun s => if s = "2" then some 2 else if s = "1" then some 1 else if s = "0" then some 0 else none, fun _ => none⟩

/-- The operator of `libraries/moshinsky/test/writerel_symmunit_Nmax04_rel.in`: from `¹S0` with two quanta to `¹S0` without. -/
def unitControl : Input := ⟨[["0", "0", "0", "0"], ["2"], ["symmunit", "0", "0", "0", "0", "0", "1", "2", "0", "0", "0", "1"], ["op.rel"]], true⟩

theorem unit_request : Relative.Gen.Request numbersU unitControl ⟨0, 0, 0, 0⟩ 2 (.symmunit ⟨0, 0, 0, 0, 0, 1, 2, 0, 0, 0, 1⟩) "op.rel" :=
  ⟨Relative.Gen.control_file.mp (by
    simp [Relative.Gen.readParams, Input.line, Mixer.Control.int, Mixer.Control.word, numbersU, unitControl, Relative.Gen.readChoice, H2.Except.ok_bind']), by decide⟩

theorem unit_canonical : Relative.Gen.Canonical ⟨0, 0, 0, 0⟩ 2 3 ⟨0, 0, 0, 0, 0, 1, 2, 0, 0, 0, 1⟩ 0 ⟨0, 0, 0, 1, 2, 2⟩ ⟨0, 0, 0, 1, 2, 2⟩ 0 1 :=
  ⟨rfl, by decide, by decide, by decide, by decide, by decide, by decide, by decide, by decide, by decide, .inl ⟨rfl, by decide⟩⟩

/-- C182 for a run: two nucleons with up to two quanta. -/
theorem symmunit_file (hf : H2.HeaderFloat) (lib : Relative.Gen.Lib) :
    ∃ gout file, Relative.Gen.run numbersU lib unitControl = .ok gout ∧ Program.run (afterGen hf gout) controlC = .ok (.h2 "op.bin" file) ∧
      HoldsSymmUnit (afterGen hf gout) .binary .v0 scalarDesc id "op.bin" 2 0 0 ⟨0, 0, 0, 0, 1⟩ ⟨2, 0, 0, 0, 1⟩ (.h2 "op.bin" file) := by
  have hn : Names ⟨0, 0, 0, 0, 0, 1, 2, 0, 0, 0, 1⟩ 0 ⟨0, 0, 0, 0, 1⟩ ⟨2, 0, 0, 0, 1⟩ := rfl
  obtain ⟨op, hrun, hst⟩ := Relative.Gen.unit_written (lib := lib) unit_request unit_canonical
  obtain ⟨gout, hrun', hfile, h⟩ := symmunit_moshinsky (lib := lib) unit_request hn unit_canonical
  have hgo := Except.ok.inj (hrun'.symm.trans hrun)
  have hrel : (afterGen hf gout).rel? paramsC.input = some (fileFrom gout) := if_pos hfile.symm
  have hout : ∃ out, Program.run (afterGen hf gout) controlC = .ok out := by
    have hg : Given (afterGen hf gout) (fileFrom gout) (onlyIn 0 (symmR ⟨0, 0, 0, 0, 1⟩ ⟨2, 0, 0, 0, 1⟩)) :=
      ⟨fun t _ _ => unit_holds hn unit_canonical (file := "op.rel") (by
        have := wrote_from gout
        rwa [show Wrote gout (fileFrom gout) = Wrote _ (fileFrom gout) from congrArg (Wrote · (fileFrom gout)) hgo] at this) hst t, fun T0 => swapLaw_envC _ T0, by
        show gout.labels.T0max ≤ 2
        rw [hgo]
        exact Nat.zero_le 2⟩
    rw [moshinsky_h2 (p := paramsC) asksC (by decide) rfl rfl hrel hg (worldC_spaces hf numbersC _ _ (truncOf paramsC)) (by decide)
      (by show 2 ≤ gout.Nmax; rw [hgo]) (fun fmt _ => pnLib_basis rfl paramsC _ _ fmt (by decide))]
    exact scalar_result rfl ⟨rfl, rfl, rfl⟩ (by show gout.labels.J0 = 0; rw [hgo]) (by show gout.labels.g0 = 0; rw [hgo]) _
  obtain ⟨out, ho⟩ := hout
  have hh := h (w := afterGen hf gout) (ctl := controlC) (p := paramsC) (mode := .binary) (fmt := .v0) (d := scalarDesc) (r := id) (wrote_from gout)
    ⟨coefficients_envC _, rfl, fun T0 => swapLaw_envC _ T0, asksC, by decide, rfl, rfl, hrel, worldC_spaces hf numbersC _ _ (truncOf paramsC),
      by decide, by decide, fun fmt _ => pnLib_basis rfl paramsC _ _ fmt (by decide), rfl, by decide, by decide, rfl, scalar_expressible hf _, scalar_wf,
      by simp, fun _ => rfl, ho⟩
  obtain ⟨file, rfl, hh'⟩ := hh
  exact ⟨gout, file, hrun', ho, file, rfl, hh'⟩

end Verif.Moshinsky
