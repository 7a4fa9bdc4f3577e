import Verif.Moshinsky.NucleonInteraction
import Verif.Moshinsky.NucleonGenExample
import Verif.Moshinsky.ProgramExamples

/-!
# The identity

The identity on the relative motion becomes the unit matrix of the H2 file.
-/

namespace Verif.Moshinsky
open Verif MvPolynomial Osc Program
open Verif.SU2 hiding couple
open Verif.H2 (Mode Desc Sector Species Format openIn readHistory InState)
open Verif.Relative (RelFile RelSub OpLabels relSpace)
open Verif.Relative.Gen (Input)

/-- The blocks of a relative file are unit matrices in the isoscalar component, and zero elsewhere. -/
def IsUnit (f : RelFile) : Prop :=
  ∀ T0 k x y, T0 ≤ f.labels.T0max → (f.sectors T0)[k]? = some (x, y) → ∀ i j, i < x.size → j < y.size → (x = y → i ≤ j) →
    f.blocks T0 k i j = if T0 = 0 ∧ x = y ∧ i = j then 1 else 0

/-- Two states of the proton-neutron basis are the same: species, angular momentum and orbitals agree. -/
def SamePair (orbs : H2.OrbSpace) (s : Sector) (x y : H2.State) : Prop :=
  s.bra.species = s.ket.species ∧ s.bra.J = s.ket.J ∧ pairOf orbs s.bra.species x = pairOf orbs s.ket.species y

instance (orbs : H2.OrbSpace) (s : Sector) (x y : H2.State) : Decidable (SamePair orbs s x y) := by
  unfold SamePair
  infer_instance

/-- In the file that `moshinsky` writes to `output`, opened again, the element between two states is 1 if they are the same, and 0 otherwise, in
single precision. -/
def HoldsUnit (w : World) (mode : Mode) (fmt : Format) (d : Desc) (r : BitVec 32 → BitVec 32) (output : String) (out : Output) : Prop :=
  ∃ file, out = .h2 output file ∧ ∀ k s, (d.index w.lib).sectors[k]? = some s → ∃ start m st,
    openIn w.lib w.hf mode file = .ok (fmt, d, start) ∧
    readHistory ⟨w.hf.fm, fmt, mode, d.index w.lib⟩ file [k] (InState.init start) = .ok ([m], st) ∧
    m.rows = s.bra.size ∧ m.cols = s.ket.size ∧
    ∀ i j x y, s.bra.states[i]? = some x → s.ket.states[j]? = some y → (s.braIndex = s.ketIndex → i ≤ j) →
      m.val i j = w.hf.fm.ofF32 (r (w.hf.fm.toF32 (if SamePair d.orbs s x y then 1 else 0)))

/-- The identity acts on the relative motion with the elements of the unit matrix. -/
theorem identity_relative {Nmax : ℕ} {Jmax : Int} (hJ : (Nmax : Int) + 1 ≤ Jmax) :
    IsRelative LinearMap.id Nmax Jmax 0 0 0 0 (identityR 0) := by
  intro r r' S Jr T S' Jr' T' mr mc MT mr' mc' MT' h h' hN hN' hm hc hMT hm' hc' hMT'
  have b : ∀ {r : LSPair} {S Jr T : ℕ}, IsMotion r S Jr T → r.1 + r.2.2.1 ≤ Nmax → (Jr : Int) ≤ Jmax := by
    intro r S Jr T h hN
    have h1 := h.rel
    have h2 := h.momentum
    have h3 := h.spin
    unfold Moshinsky.Osc at h1
    unfold Tri at h2
    omega
  rw [LinearMap.id_apply, relCM_ortho h h' hm hc hMT]
  unfold identityR
  by_cases e : (r, S, Jr, T) = (r', S', Jr', T')
  · simp only [Prod.mk.injEq] at e
    obtain ⟨rfl, rfl, rfl, rfl⟩ := e
    by_cases e1 : mc = mc'
    · subst e1
      rw [if_pos (⟨rfl, b h hN, b h' hN'⟩ : (r.2.2, mc) = (r.2.2, mc) ∧ (Jr : Int) ≤ Jmax ∧ (Jr : Int) ≤ Jmax), if_pos (⟨rfl, rfl, rfl⟩ : (0 : ℕ) = 0 ∧ _ ∧ _), mul_one]
      by_cases e2 : mr = mr'
      · subst e2
        by_cases e3 : MT = MT'
        · subst e3
          rw [if_pos rfl, cg_same Jr hm, cg_same T hMT, mul_one]
        · rw [cg_other e3, mul_zero, if_neg]
          simp [e3]
      · rw [cg_other e2, zero_mul, if_neg]
        simp [e2]
    · rw [if_neg, if_neg]
      · simp [e1]
      · simp [e1]
  · rw [if_neg]
    · split_ifs with h1 h2
      · exfalso
        apply e
        simp only [Prod.mk.injEq, Nat.cast_inj] at h1 h2
        obtain ⟨-, ⟨a1, a2, a3, a4⟩, a5⟩ := h2
        ext <;> simp_all
      · rw [mul_zero]
      · rfl
    · rintro x
      apply e
      simp only [Prod.mk.injEq] at x ⊢
      tauto

theorem zero_relative (Nmax : ℕ) (Jmax : Int) (J0 T0 : ℕ) (M0 MT0 : ℤ) : IsRelative 0 Nmax Jmax J0 T0 M0 MT0 fun _ _ _ _ => 0 := by
  intro r r' S Jr T S' Jr' T' mr mc MT mr' mc' MT' h h' hN hN' hm hc hMT hm' hc' hMT'
  rw [mul_zero, LinearMap.zero_apply, ← innerL_apply, map_zero]
  split_ifs <;> rfl

theorem unit_given {f : RelFile} {N J T0max : ℕ} (hlab : f.labels = ⟨0, 0, 0, T0max⟩) (hT : T0max ≤ 2) (hN : f.Nmax = N) (hJ : f.Jmax = J)
    (hf : IsUnit f) {w : World} (hsw : w.env.swap = fun _ => roseSwap) (hlaw : ∀ T0, SwapLaw w.env 0 T0) : Given w f identityR := by
  refine ⟨fun T0 _ h2 => ?_, by rw [hlab]; exact hlaw, by rw [hlab]; exact hT⟩
  rw [hsw]
  refine ⟨identity_sym T0, ?_⟩
  intro k x y hk i j hi hj hij
  rw [hf T0 k x y h2 hk i j hi hj hij]
  unfold identityR
  have hm := List.mem_of_getElem? hk
  rw [RelFile.sectors, hN, hJ, Relative.mem_sectors] at hm
  have ex := Relative.relSub_eq hm.2.1
  have ey := Relative.relSub_eq hm.2.2.1
  refine if_congr (and_congr_right fun _ => ?_) rfl rfl
  simp only [Prod.mk.injEq, Nat.cast_inj]
  constructor
  · rintro ⟨⟨e1, e2, e3, e4⟩, e5⟩
    refine ⟨?_, by omega⟩
    dsimp only at ex ey
    rw [ex, ey, e1, e2, e3]
  · rintro ⟨rfl, rfl⟩
    simp

/-- The states of a subspace of like nucleons are in canonical order, and two nucleons in one orbital are coupled to an even `J`: what
`basis::TwoBodySpaceJJJPN` makes. -/
def Canonical (s : H2.Subspace) : Prop := ∀ x ∈ s.states, s.species ≠ .pn → x.index1 ≤ x.index2 ∧ (x.index1 = x.index2 → s.J % 2 = 0)

theorem pair_of {t : Trunc} {orbs : H2.OrbSpace} (h : OscOrbitals orbs) {s : H2.Subspace} (hs : PnStates t orbs s) (hc : Canonical s) {x : H2.State}
    (hx : x ∈ s.states) : IsPnPair (pairOf orbs s.species x).1 (pairOf orbs s.species x).2 s.J s.species := by
  obtain ⟨a1, a2⟩ := orbitals_of h hs hx
  obtain ⟨⟨ho, he, -, -⟩, -, -⟩ := pn_good h hs hx
  obtain ⟨e1, e2⟩ := labAt_eq orbs s.species x
  simp only [Program.pnState, e1, e2] at ho he
  obtain ⟨-, -, -, t, -⟩ := hs x hx
  exact ⟨a1, a2, t, fun hp => ho.mp (hc x hx hp).1, fun hp e => (hc x hx hp).2 (he.mpr e)⟩

theorem projection_inj {a b : Species} (h : projection a = projection b) : a = b := by
  cases a <;> cases b <;> first | rfl | exact absurd h (by decide)

theorem pairNorm_le (sp : Species) (x : H2.State) : 0 ≤ H2.pairNorm sp x ∧ H2.pairNorm sp x ≤ 1 := by
  unfold H2.pairNorm
  refine ⟨by positivity, ?_⟩
  rw [div_le_one (by positivity)]
  refine Real.one_le_sqrt.mpr ?_
  split_ifs <;> norm_num

variable {w : World} {ctl : Input} {p : Params} {f : RelFile}

/-- **C181.**  If the relative file holds the identity, for all angular momenta that occur, the H2 file that `moshinsky` makes of it holds the unit
matrix: no element is lost or counted twice on the way through the coupling schemes, whatever the truncation. -/
theorem identity_moshinsky {N T0max : ℕ} (hlab : f.labels = ⟨0, 0, 0, T0max⟩) (hT : T0max ≤ 2) (hN : f.Nmax = N) (hJ : f.Jmax = N + 1) (hf : IsUnit f)
    {mode : Mode} {fmt : Format} {d : Desc} {r : BitVec 32 → BitVec 32} {out : Output} (h : MakesH2 w ctl p f ⟨0, 0, 0, T0max⟩ N mode fmt d r out)
    (hc : ∀ s ∈ (d.index w.lib).sectors, Canonical s.bra ∧ Canonical s.ket) : HoldsUnit w mode fmt d r p.output out := by
  obtain ⟨file, hout, hall⟩ := moshinsky_operator h.coefficients h.asks h.cutoff h.source h.target h.input
    (unit_given hlab hT hN (J := N + 1) (by rw [hJ]) hf h.swap h.law) h.spaces h.bound (by rw [hN]; exact h.enough) (by rw [hlab]; exact h.basis) h.format h.modeOf h.matrix
    (by rw [hlab]; exact h.desc) h.expressible h.wf r h.text h.binary h.run
  refine ⟨file, hout, fun k s hk => ?_⟩
  obtain ⟨start, m, st, q1, q2, q3, q4, q5⟩ := hall k s hk
  refine ⟨start, m, st, q1, q2, q3, q4, fun i j x y hxi hyj hij => ?_⟩
  obtain ⟨e, he, hO⟩ := q5 i j x y hxi hyj hij
  have hs := List.mem_of_getElem? hk
  have hb := h.basis fmt h.format
  rw [← h.desc] at hb
  have px := pair_of hb.orbitals (hb.bra s hs) (hc s hs).1 (List.mem_of_getElem? hxi)
  have py := pair_of hb.orbitals (hb.ket s hs) (hc s hs).2 (List.mem_of_getElem? hyj)
  have hJJ : s.bra.J = s.ket.J := by
    have := hb.momentum s hs
    have hd : d.J0 = 0 := by rw [h.desc]; rfl
    rw [hd] at this
    have := abs_le.mp this.1
    omega
  have key : e = if SamePair d.orbs s x y then 1 else 0 := by
    rw [hlab] at hO
    dsimp only at hO
    by_cases hp : projection s.bra.species = projection s.ket.species
    · have h1 := hO 0 (fun T0 => if T0 = 0 then LinearMap.id else 0) (fun T0 _ _ => by
        by_cases h0 : T0 = 0
        · subst h0
          rw [if_pos rfl, hp, sub_self, hJ]
          exact identity_relative (by have := h.enough; omega)
        · rw [if_neg h0, show identityR T0 = fun _ _ _ _ => 0 from by
            funext a b c d
            exact if_neg fun x => h0 x.1]
          exact zero_relative _ _ _ _ _ _) 0 0
      rw [← hJJ, cg_same s.bra.J (by simp), one_mul] at h1
      rw [← h1, trueElement, Finset.sum_eq_single_of_mem 0 (by simp)]
      · rw [if_pos rfl, LinearMap.id_apply, ← hJJ, states_orthonormal px (hJJ ▸ py) (by simp)]
        refine if_congr ?_ rfl rfl
        unfold SamePair
        simp only [Prod.mk.injEq, true_and, Prod.ext_iff]
        have := projection_inj hp
        tauto
      · intro T0 _ h0
        rw [if_neg h0, LinearMap.zero_apply, ← innerL_apply, map_zero]
    · have h1 := hO 0 (fun _ => 0) (fun T0 _ _ => by
        intro r r' S Jr T S' Jr' T' mr mc MT mr' mc' MT' h h' hN hN' hm hc hMT hm' hc' hMT'
        have z : Osc.cg T' MT' T0 (projection s.bra.species - projection s.ket.species) T MT * identityR T0 (r.2.1, S, Jr, T) r.1 (r'.2.1, S', Jr', T') r'.1 = 0 := by
          by_cases h0 : T0 = 0
          · subst h0
            rw [Osc.cg_range (.inr (by simpa using sub_ne_zero.mpr hp)), zero_mul]
          · rw [show identityR T0 _ _ _ _ = 0 from if_neg fun x => h0 x.1, mul_zero]
        rw [LinearMap.zero_apply, ← innerL_apply, map_zero, mul_assoc, z, mul_zero]
        split_ifs <;> rfl) 0 0
      rw [← hJJ, cg_same s.bra.J (by simp), one_mul] at h1
      rw [if_neg fun x => hp (by rw [x.1]), ← h1, trueElement]
      refine (Finset.sum_eq_zero fun T0 _ => ?_)
      rw [LinearMap.zero_apply, ← innerL_apply, map_zero]
  rw [he, key]
  by_cases hp : SamePair d.orbs s x y
  · rw [if_pos hp, if_neg]
    obtain ⟨a1, a2⟩ := pairNorm_le s.bra.species x
    obtain ⟨b1, b2⟩ := pairNorm_le s.ket.species y
    rw [abs_one, not_lt]
    have : H2.pairNorm s.bra.species x * H2.pairNorm s.ket.species y ≤ 1 := mul_le_one₀ a2 b1 b2
    nlinarith
  · rw [if_neg hp, ite_self]

/-! ## From the name -/

/-- `basis::ConstructIdentityOperatorRelativeLSJT`, as far as needed: unit matrices in the diagonal sectors of the isoscalar component, and zero
elsewhere. -/
def MakesIdentity (lib : Relative.Gen.Lib) : Prop :=
  ∀ (o : OpLabels) (sectors : ℕ → List (RelSub × RelSub)), ∃ op : Relative.RelOp, lib.identity o sectors = .ok op ∧
    ∀ (T0 k : ℕ) (x y : RelSub), (sectors T0)[k]? = some (x, y) → ∃ b : Relative.Entries, (op T0)[k]? = some b ∧
      ∀ i j, i < x.size → j < y.size → b i j = .ok (if T0 = 0 ∧ x = y ∧ i = j then 1 else 0)

/-- What `relative-gen` writes for `identity`. -/
theorem identity_written {lib : Relative.Gen.Lib} (hl : MakesIdentity lib) {nm : Mixer.Control.Numbers} {gctl : Input} {N T0max : ℕ} {gfile : String}
    (hq : Relative.Gen.Request nm gctl ⟨0, 0, 0, T0max⟩ N (.plain "identity") gfile) :
    ∃ gout, Relative.Gen.run nm lib gctl = .ok gout ∧ gout.file = gfile ∧
      ∀ f, Wrote gout f → f.labels = ⟨0, 0, 0, T0max⟩ ∧ f.Nmax = N ∧ f.Jmax = N + 1 ∧ IsUnit f := by
  obtain ⟨op, hop, hb⟩ := hl ⟨0, 0, 0, T0max⟩ (Relative.Gen.allSectors ⟨0, 0, 0, T0max⟩ N)
  refine ⟨⟨gfile, ⟨0, 0, 0, T0max⟩, N, N + 1, Relative.Gen.allSectors ⟨0, 0, 0, T0max⟩ N, op⟩, ?_, ?_, ?_⟩
  · rw [Relative.Gen.run_request hq]
    simp only [Relative.Gen.dispatch]
    rw [if_neg (by decide), if_pos trivial, hop]
    rfl
  · rfl
  · intro f hf
    refine ⟨hf.labels, hf.Nmax, hf.Jmax, ?_⟩
    intro T0 k x y hT hk i j hi hj _
    have hk' : (Relative.Gen.allSectors ⟨0, 0, 0, T0max⟩ N T0)[k]? = some (x, y) := by
      rw [RelFile.sectors, hf.labels, hf.Nmax, hf.Jmax] at hk
      exact hk
    obtain ⟨b, hb1, hb2⟩ := hb T0 k x y hk'
    exact hf.blocks T0 k b hb1 i j _ (hb2 i j hi hj)

/-- **C181**, from the name: `relative-gen` asked for `identity`, and `moshinsky`. -/
theorem named_identity_moshinsky {lib : Relative.Gen.Lib} (hl : MakesIdentity lib) {nm : Mixer.Control.Numbers} {gctl : Input} {N T0max : ℕ} {gfile : String}
    (hq : Relative.Gen.Request nm gctl ⟨0, 0, 0, T0max⟩ N (.plain "identity") gfile) :
    ∃ gout, Relative.Gen.run nm lib gctl = .ok gout ∧ gout.file = gfile ∧
      ∀ {w : World} {ctl : Input} {p : Params} {f : RelFile} {mode : Mode} {fmt : Format} {d : Desc} {r : BitVec 32 → BitVec 32} {out : Output},
        Wrote gout f → MakesH2 w ctl p f ⟨0, 0, 0, T0max⟩ N mode fmt d r out →
        (∀ s ∈ (d.index w.lib).sectors, Canonical s.bra ∧ Canonical s.ket) → HoldsUnit w mode fmt d r p.output out := by
  obtain ⟨gout, h1, h2, h3⟩ := identity_written hl hq
  refine ⟨gout, h1, h2, fun {w ctl p f mode fmt d r out} hw hm hc => ?_⟩
  obtain ⟨a1, a2, a3, a4⟩ := h3 f hw
  exact identity_moshinsky a1 hq.three a2 a3 a4 hm hc

/-! ## A run -/

/-- A library that makes the identity. -/
noncomputable def identityLib (lib : Relative.Gen.Lib) : Relative.Gen.Lib :=
  { lib with identity := fun _ sectors => .ok fun T0 => (sectors T0).map fun s i j => .ok (if T0 = 0 ∧ s.1 = s.2 ∧ i = j then 1 else 0) }

theorem identityLib_makes (lib : Relative.Gen.Lib) : MakesIdentity (identityLib lib) := by
  intro o sectors
  refine ⟨_, rfl, fun T0 k x y hk => ⟨_, ?_, fun i j _ _ => rfl⟩⟩
  rw [List.getElem?_map, hk]
  rfl

def identityControl : Input := ⟨[["0", "0", "0", "0"], ["2"], ["identity"], ["op.rel"]], true⟩

theorem identity_request : Relative.Gen.Request numbersC identityControl ⟨0, 0, 0, 0⟩ 2 (.plain "identity") "op.rel" :=
  ⟨Relative.Gen.control_file.mp (by
    simp [Relative.Gen.readParams, Input.line, Mixer.Control.int, Mixer.Control.word, numbersC, identityControl, Relative.Gen.readChoice, H2.Except.ok_bind']), by decide⟩

theorem scalar_canonical : ∀ s ∈ (scalarDesc.index pnLib).sectors, Canonical s.bra ∧ Canonical s.ket := by
  have key : ∀ {t : H2.Subspace}, t ∈ pnSpace scalarDesc.orbs scalarDesc.wmax → Canonical t := by
    intro t ht x hx hp
    obtain ⟨l, -, rfl⟩ := List.mem_map.mp ht
    obtain ⟨z, hz, rfl⟩ := List.mem_map.mp hx
    exact (mem_having.mp hz).2.2.2.2 hp
  intro s hs
  obtain ⟨h1, h2, -⟩ := sector_mem hs
  exact ⟨key (List.mem_of_getElem? h1), key (List.mem_of_getElem? h2)⟩

/-- C181 for a run: two nucleons with up to two quanta. -/
theorem identity_file (hf : H2.HeaderFloat) (lib : Relative.Gen.Lib) :
    ∃ gout file, Relative.Gen.run numbersC (identityLib lib) identityControl = .ok gout ∧ Program.run (afterGen hf gout) controlC = .ok (.h2 "op.bin" file) ∧
      HoldsUnit (afterGen hf gout) .binary .v0 scalarDesc id "op.bin" (.h2 "op.bin" file) := by
  obtain ⟨gout, hrun, hfile, hw⟩ := identity_written (identityLib_makes lib) identity_request
  obtain ⟨a1, a2, a3, a4⟩ := hw (fileFrom gout) (wrote_from gout)
  have hrel : (afterGen hf gout).rel? paramsC.input = some (fileFrom gout) := if_pos hfile.symm
  have hout : ∃ out, Program.run (afterGen hf gout) controlC = .ok out := by
    have hg := unit_given (w := afterGen hf gout) (f := fileFrom gout) (J := 3) a1 (by decide) a2 a3 a4 rfl fun T0 => swapLaw_envC _ T0
    rw [moshinsky_h2 (p := paramsC) asksC (by decide) rfl rfl hrel hg (worldC_spaces hf numbersC _ _ (truncOf paramsC)) (by decide)
      (by rw [a2]; decide) (fun fmt _ => pnLib_basis rfl paramsC _ _ fmt (by decide))]
    exact scalar_result rfl ⟨rfl, rfl, rfl⟩ (by rw [a1]) (by rw [a1]) _
  obtain ⟨out, ho⟩ := hout
  obtain ⟨gout', hrun', -, h⟩ := named_identity_moshinsky (identityLib_makes lib) identity_request
  obtain rfl : gout = gout' := Except.ok.inj (hrun.symm.trans hrun')
  have hh := h (w := afterGen hf gout) (ctl := controlC) (p := paramsC) (mode := .binary) (fmt := .v0) (d := scalarDesc) (r := id) (wrote_from gout)
    ⟨coefficients_envC _, rfl, fun T0 => swapLaw_envC _ T0, asksC, by decide, rfl, rfl, hrel, worldC_spaces hf numbersC _ _ (truncOf paramsC),
      by decide, by decide, fun fmt _ => pnLib_basis rfl paramsC _ _ fmt (by decide), rfl, by decide, by decide, rfl, scalar_expressible hf _, scalar_wf,
      by simp, fun _ => rfl, ho⟩ scalar_canonical
  obtain ⟨file, rfl, hh'⟩ := hh
  exact ⟨gout, file, hrun, ho, file, rfl, hh'⟩

end Verif.Moshinsky
