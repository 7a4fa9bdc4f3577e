import Verif.Moshinsky.NucleonActs

/-!
# The Coulomb operator, from its name to the H2 file

`relative-gen` writes the Coulomb operator in its isospin components (`relative_me.cpp` 989-1106).  `moshinsky`, given that file, writes the
elements of the interaction between two protons, between two neutrons, or between any two nucleons.
-/

namespace Verif.Moshinsky
open Verif MvPolynomial Osc Program
open Verif.SU2 hiding couple
open Verif.H2 (Format Mode Desc Sector Subspace OrbSpace Species BasisLib WriteCall Stored storedFactor InState openIn readHistory Expressible
  formatOfCode deducedIOMode)
open Verif.Relative (RelFile RelSub OpLabels Cfg cgD harmD unitD OpType coulombFactor coulombValue)
open Verif.Relative.Gen (Input)
open Verif.Mixer.Control (Numbers)

/-! ## Specification -/

/-- Between states of up to `Nmax` quanta, `V` is an operator on the distance between the nucleons, with radial elements `v`: it leaves the
angular momentum of the relative motion and the centre-of-mass motion as they are. -/
def IsCentral (V : Two →ₗ[ℝ] Two) (Nmax : ℕ) (v : ℕ → ℕ → ℕ → ℝ) : Prop :=
  ∀ (n l n2 l2 n' l' n2' l2' : ℕ) (m m2 m' m2' : ℤ), |m| ≤ l → |m2| ≤ l2 → |m'| ≤ l' → |m2'| ≤ l2' →
    2 * n + l + (2 * n2 + l2) ≤ Nmax → 2 * n' + l' + (2 * n2' + l2') ≤ Nmax →
    fock (single relative n l m * single centre n2 l2 m2) (V (single relative n' l' m' * single centre n2' l2' m2')) =
      if (l, m, n2, l2, m2) = (l', m', n2', l2', m2') then v n n' l else 0

/-- The species of the pairs between which the operator acts. -/
def ActsOn : OpType → Species → Prop
  | .total, _ => True
  | .p, sp => sp = .pp
  | .n, sp => sp = .nn

instance (t : OpType) (sp : Species) : Decidable (ActsOn t sp) := by
  cases t <;> unfold ActsOn <;> infer_instance

/-- The pairs of nucleons between which the operator acts. -/
def Among : OpType → Fin 2 → Fin 2 → Prop
  | .total, _, _ => True
  | .p, τ, τ' => τ = kind true ∧ τ' = kind true
  | .n, τ, τ' => τ = kind false ∧ τ' = kind false

instance (t : OpType) (τ τ' : Fin 2) : Decidable (Among t τ τ') := by
  cases t <;> unfold Among <;> infer_instance

/-- The part of a state in which the nucleons are such a pair. -/
noncomputable def among (t : OpType) : Nucl →ₗ[ℝ] Nucl where
  toFun u σ σ' τ τ' := if Among t τ τ' then u σ σ' τ τ' else 0
  map_add' u v := by
    funext σ σ' τ τ'
    simp only [Pi.add_apply]
    split_ifs
    · rfl
    · rw [add_zero]
  map_smul' c u := by
    funext σ σ' τ τ'
    simp only [Pi.smul_apply, RingHom.id_apply]
    split_ifs
    · rfl
    · rw [smul_zero]

/-- The isospin components that an operator between given pairs has. -/
def CoulombLabels (t : OpType) (o : OpLabels) : Prop := o.J0 = 0 ∧ o.g0 = 0 ∧ o.T0min = 0 ∧ (t = .total ∨ o.T0max = 2)

/-! ## Isospin -/

/-- The operator that multiplies the states of isospin `T MT` by `c T MT`. -/
noncomputable def isoOp (c : ℕ → ℤ → ℝ) : Nucl →ₗ[ℝ] Nucl where
  toFun u σ σ' τ τ' := ∑ T ∈ Finset.range 2, ∑ M ∈ Finset.Icc (-(T : ℤ)) T, (c T M * pairSpin T M τ τ') • ∑ a, ∑ a', pairSpin T M a a' • u σ σ' a a'
  map_add' u v := by
    funext σ σ' τ τ'
    simp only [Pi.add_apply, smul_add, Finset.sum_add_distrib]
  map_smul' k u := by
    funext σ σ' τ τ'
    simp only [Pi.smul_apply, RingHom.id_apply, Finset.smul_sum]
    refine Finset.sum_congr rfl fun T _ => Finset.sum_congr rfl fun M _ => Finset.sum_congr rfl fun a _ => Finset.sum_congr rfl fun a' _ => ?_
    rw [smul_comm k, smul_comm k]

theorem isoOp_ten (c : ℕ → ℤ → ℝ) (u : Two) (x : Fin 2 → Fin 2 → ℝ) {T : ℕ} {M : ℤ} (hT : T ≤ 1) (hM : |M| ≤ T) :
    isoOp c (ten u x (pairSpin T M)) = c T M • ten u x (pairSpin T M) := by
  funext σ σ' τ τ'
  show ∑ T' ∈ Finset.range 2, ∑ M' ∈ Finset.Icc (-(T' : ℤ)) T', (c T' M' * pairSpin T' M' τ τ') • ∑ a, ∑ a', pairSpin T' M' a a' •
    ((x σ σ' * pairSpin T M a a') • u) = c T M • ((x σ σ' * pairSpin T M τ τ') • u)
  have e : ∀ (T' : ℕ) (M' : ℤ), T' ≤ 1 → |M'| ≤ T' → ∑ a, ∑ a', pairSpin T' M' a a' • ((x σ σ' * pairSpin T M a a') • u) =
      if T' = T ∧ M' = M then x σ σ' • u else 0 := by
    intro T' M' h1 h2
    have := pairSpin_ortho (S' := T) (M' := M) h1 h2
    rw [← ite_zero_smul, ← mul_one (x σ σ'), ← mul_ite_zero, ← this]
    simp only [Finset.mul_sum, Finset.sum_smul, smul_smul]
    refine Finset.sum_congr rfl fun a _ => Finset.sum_congr rfl fun a' _ => ?_
    congr 1
    ring
  rw [Finset.sum_eq_single_of_mem T (by rw [Finset.mem_range]; omega), Finset.sum_eq_single_of_mem M (by rw [Finset.mem_Icc, ← abs_le]; exact hM)]
  · rw [e T M hT hM, if_pos ⟨rfl, rfl⟩, smul_smul, smul_smul]
    congr 1
    ring
  · intro M' h hne
    rw [Finset.mem_Icc, ← abs_le] at h
    rw [e T M' hT h, if_neg fun k => hne k.2, smul_zero]
  · intro T' h hne
    rw [Finset.mem_range] at h
    refine Finset.sum_eq_zero fun M' h' => ?_
    rw [Finset.mem_Icc, ← abs_le] at h'
    rw [e T' M' (by omega) h', if_neg fun k => hne k.1, smul_zero]

theorem isoOp_sum (s : Finset ℕ) (c : ℕ → ℕ → ℤ → ℝ) : ∑ k ∈ s, isoOp (c k) = isoOp fun T M => ∑ k ∈ s, c k T M := by
  refine LinearMap.ext fun u => ?_
  rw [LinearMap.sum_apply]
  funext σ σ' τ τ'
  simp only [Finset.sum_apply]
  show ∑ k ∈ s, ∑ T ∈ Finset.range 2, ∑ M ∈ Finset.Icc (-(T : ℤ)) T, (c k T M * pairSpin T M τ τ') • ∑ a, ∑ a', pairSpin T M a a' • u σ σ' a a' =
    ∑ T ∈ Finset.range 2, ∑ M ∈ Finset.Icc (-(T : ℤ)) T, ((∑ k ∈ s, c k T M) * pairSpin T M τ τ') • ∑ a, ∑ a', pairSpin T M a a' • u σ σ' a a'
  rw [Finset.sum_comm]
  refine Finset.sum_congr rfl fun T _ => ?_
  rw [Finset.sum_comm]
  refine Finset.sum_congr rfl fun M _ => ?_
  rw [Finset.sum_mul, Finset.sum_smul]

/-- The pairs in states of good isospin. -/
theorem isoOp_among (t : OpType) {c : ℕ → ℤ → ℝ} (hc : ∀ (T : ℕ) (M : ℤ), T ≤ 1 → |M| ≤ T → c T M = match t with
    | .total => 1
    | .p => if T = 1 ∧ M = 1 then 1 else 0
    | .n => if T = 1 ∧ M = -1 then 1 else 0) : isoOp c = among t := by
  refine LinearMap.ext fun u => ?_
  funext σ σ' τ τ'
  show ∑ T ∈ Finset.range 2, ∑ M ∈ Finset.Icc (-(T : ℤ)) T, (c T M * pairSpin T M τ τ') • ∑ a, ∑ a', pairSpin T M a a' • u σ σ' a a' =
    if Among t τ τ' then u σ σ' τ τ' else 0
  have h00 := hc 0 0 (by decide) (by decide)
  have h11 := hc 1 1 (by decide) (by decide)
  have h10 := hc 1 0 (by decide) (by decide)
  have h1m := hc 1 (-1) (by decide) (by decide)
  have i0 : Finset.Icc (-((0 : ℕ) : ℤ)) (0 : ℕ) = {0} := by decide
  have i1 : Finset.Icc (-((1 : ℕ) : ℤ)) (1 : ℕ) = {1, 0, -1} := by decide
  have j1 : (1 : ℤ) ∉ ({0, -1} : Finset ℤ) := by decide
  have j2 : (0 : ℤ) ∉ ({-1} : Finset ℤ) := by decide
  have q2 : √2 * √2 = (2 : ℝ) := Real.mul_self_sqrt (by norm_num)
  have e2 : √(1 / 2) = (√2)⁻¹ := by rw [one_div, Real.sqrt_inv]
  have k0 : pairSpin 0 0 0 1 = (√2)⁻¹ := by
    have := pairSpin_expansion (sp := .pn) (T := 0) (by decide)
    simpa [projection, isProton, kind, expansion, e2] using this
  have k1 : pairSpin 1 0 0 1 = (√2)⁻¹ := by
    have := pairSpin_expansion (sp := .pn) (T := 1) (by decide)
    simpa [projection, isProton, kind, expansion, e2] using this
  have kp : pairSpin 1 1 0 0 = 1 := by
    have := pairSpin_expansion (sp := .pp) (T := 1) (by decide)
    simpa [projection, isProton, kind, expansion] using this
  have kn : pairSpin 1 (-1) 1 1 = 1 := by
    have := pairSpin_expansion (sp := .nn) (T := 1) (by decide)
    simpa [projection, isProton, kind, expansion] using this
  have l0 : pairSpin 0 0 1 0 = -(√2)⁻¹ := by
    rw [pairSpin_exchange, k0]
    ring
  have l1 : pairSpin 1 0 1 0 = (√2)⁻¹ := by
    rw [pairSpin_exchange, k1]
    ring
  have z : ∀ (T : ℕ) (M : ℤ) (a a' : Fin 2), 2 * M ≠ proj a + proj a' → pairSpin T M a a' = 0 := fun T M a a' h => by
    rw [pairSpin, cgd, if_neg]
    tauto
  have v00 : pairSpin 0 0 = ![![0, (√2)⁻¹], ![-(√2)⁻¹, 0]] := by
    funext σ σ'
    fin_cases σ <;> fin_cases σ'
    exacts [z _ _ _ _ (by decide), k0, l0, z _ _ _ _ (by decide)]
  have v10 : pairSpin 1 0 = ![![0, (√2)⁻¹], ![(√2)⁻¹, 0]] := by
    funext σ σ'
    fin_cases σ <;> fin_cases σ'
    exacts [z _ _ _ _ (by decide), k1, l1, z _ _ _ _ (by decide)]
  have v11 : pairSpin 1 1 = ![![1, 0], ![0, 0]] := by
    funext σ σ'
    fin_cases σ <;> fin_cases σ'
    exacts [kp, z _ _ _ _ (by decide), z _ _ _ _ (by decide), z _ _ _ _ (by decide)]
  have v1m : pairSpin 1 (-1) = ![![0, 0], ![0, 1]] := by
    funext σ σ'
    fin_cases σ <;> fin_cases σ'
    exacts [z _ _ _ _ (by decide), z _ _ _ _ (by decide), z _ _ _ _ (by decide), kn]
  rw [Finset.sum_range_succ, Finset.sum_range_one, i0, i1, Finset.sum_singleton, Finset.sum_insert j1, Finset.sum_insert j2, Finset.sum_singleton,
    v00, v10, v11, v1m, h00, h11, h10, h1m]
  have i2 : (√2)⁻¹ * (√2)⁻¹ = (1 / 2 : ℝ) := by rw [← mul_inv, q2]; norm_num
  cases t <;> fin_cases τ <;> fin_cases τ' <;> simp [Among, kind, Fin.sum_univ_two]
  · simp only [smul_smul, i2]
    module
  · simp only [smul_smul, i2]
    module

/-- The isospin coefficients of the three components in the triplet. -/
theorem triplet_laws : Relative.TripletLaws cgD where
  zero P hP := by
    have := cgd_scalar (j := 2) (m := P) (by rw [← Relative.ms_eq]; exact hP)
    rw [show cgD 2 P 0 0 2 P = _ from Relative.cgD_nat 2 P 0 0 2 P]
    exact this
  one P hP := by
    have := cgd_vector_zero (j := 2) (m := P) (by rw [← Relative.ms_eq]; exact hP)
    rw [show cgD 2 P 2 0 2 P = _ from Relative.cgD_nat 2 P 2 0 2 P, eq_div_iff (by positivity), ← this]
    norm_num
  two P hP := by
    have h : P = -2 ∨ P = 0 ∨ P = 2 := by
      simp only [Relative.ms, Finset.mem_image, Finset.mem_range] at hP
      obtain ⟨k, hk, rfl⟩ := hP
      omega
    have i : Finset.Icc (0 : ℤ) 2 = {0, 1, 2} := by decide
    have j1 : (0 : ℤ) ∉ ({1, 2} : Finset ℤ) := by decide
    have j2 : (1 : ℤ) ∉ ({2} : Finset ℤ) := by decide
    have q2 : √2 * √2 = (2 : ℝ) := Real.mul_self_sqrt (by norm_num)
    have q : √(2 + 1) * √2 * √2 / √((Nat.factorial 5 : ℕ) : ℝ) = (√10)⁻¹ := by
      rw [← Real.sqrt_mul (by norm_num), ← Real.sqrt_mul (by norm_num), ← Real.sqrt_div (by norm_num), ← Real.sqrt_inv]
      norm_num [Nat.factorial]
    rw [show cgD 2 P 4 0 2 P = _ from Relative.cgD_nat 2 P 4 0 2 P]
    rcases h with rfl | rfl | rfl <;>
      simp [cgd, trid, prd, tSum, tTerm, rf, ff, sgn, i, Finset.sum_insert j1, Finset.sum_insert j2, q]
    · linear_combination (1 / 2 * (√10)⁻¹) * q2
    · ring
    · linear_combination (1 / 2 * (√10)⁻¹) * q2
/-- The factor of component `T0` in the states of isospin `T M`. -/
noncomputable def chan (t : OpType) (T0 T : ℕ) (M : ℤ) : ℝ := Osc.cg T M T0 0 T M * (coulombFactor t T T0).getD 0

theorem among_sum (t : OpType) {o : OpLabels} (ho : CoulombLabels t o) : ∑ T0 ∈ Finset.Icc o.T0min o.T0max, isoOp (chan t T0) = among t := by
  obtain ⟨-, -, h0, h2⟩ := ho
  rw [isoOp_sum]
  refine isoOp_among t fun T M hT hM => ?_
  have mem : 2 * M ∈ Relative.ms (2 * T) := by
    rw [Relative.ms_eq, even_mem, Finset.mem_Icc, ← abs_le]
    exact hM
  have e : ∀ T0 : ℕ, Osc.cg T M T0 0 T M = cgD (2 * T : ℕ) (2 * M) (2 * T0 : ℕ) 0 (2 * T : ℕ) (2 * M) := fun T0 => by
    rw [Relative.cgD_nat, cg_even, mul_zero]
  have i : Finset.Icc 0 2 = Finset.range 3 := by decide
  have q : 1 / √2 * √2 = (1 : ℝ) := one_div_mul_cancel (by positivity)
  have species : ∀ proton : Bool, ∑ T0 ∈ Finset.range 3, chan (if proton then .p else .n) T0 T M = if T = 1 ∧ M = (if proton then 1 else -1) then 1 else 0 := by
    intro proton
    obtain ⟨k1, k2⟩ := Relative.coulomb_species triplet_laws (fun _ _ _ => √2) proton (s := ⟨0, 0, 0, T, 0, 0⟩) 0 0
    have hT' : T = 0 ∨ T = 1 := by omega
    rcases hT' with rfl | rfl
    · refine (Finset.sum_eq_zero fun T0 _ => ?_).trans (if_neg fun h => absurd h.1 (by decide)).symm
      cases proton <;> simp [chan, coulombFactor]
    · have := k1 rfl (2 * M) mem
      simp only [coulombValue, if_true, q, mul_one] at this
      simp only [chan, e, true_and]
      rw [show (if M = (if proton = true then 1 else -1) then (1 : ℝ) else 0) = if 2 * M = (if proton = true then 2 else -2) then 1 else 0 from
        if_congr (by cases proton <;> simp <;> omega) rfl rfl, ← this]
      rfl
  cases t with
  | total =>
    rw [h0, Finset.sum_eq_single_of_mem 0 (by simp)]
    · have := cgd_scalar (j := 2 * T) (m := 2 * M) (by rw [← Relative.ms_eq]; exact mem)
      rw [chan, cg_even, coulombFactor]
      simp [this]
    · intro T0 _ h
      simp [chan, coulombFactor, h]
  | p =>
    rw [h0, h2.resolve_left (by decide), i]
    exact species true
  | n =>
    rw [h0, h2.resolve_left (by decide), i]
    exact species false

/-- The reduced elements of component `T0`. -/
noncomputable def coulombRME (t : OpType) (v : ℕ → ℕ → ℕ → ℝ) (T0 : ℕ) : RelRME := fun b N b' N' =>
  if b = b' then (coulombFactor t b.2.2.2.toNat T0).getD 0 * v ((N - b.1) / 2).toNat ((N' - b'.1) / 2).toNat b.1.toNat else 0

/-- The component as an operator on the relative motion. -/
theorem coulomb_relative {V : Two →ₗ[ℝ] Two} {Nmax : ℕ} {v : ℕ → ℕ → ℕ → ℝ} (hV : IsCentral V Nmax v) (t : OpType) (T0 : ℕ) {Jmax : Int}
    (hJ : (Nmax : Int) + 1 ≤ Jmax) : IsRelative (isoOp (chan t T0) ∘ₗ onMotion V) Nmax Jmax 0 T0 0 0 (coulombRME t v T0) := by
  intro r r' S Jr T S' Jr' T' mr mc MT mr' mc' MT' h h' hN hN' hm hc hMT hm' hc' hMT'
  have j : ∀ {r : LSPair} {S Jr T : ℕ}, IsMotion r S Jr T → r.1 + r.2.2.1 ≤ Nmax → (Jr : Int) ≤ Jmax := fun h hN => by
    have h1 := h.momentum
    have h2 := h.rel.1
    have h3 := h.spin
    unfold Tri at h1
    omega
  have quanta : ∀ {r : LSPair} {S Jr T : ℕ}, IsMotion r S Jr T → r.1 + r.2.2.1 ≤ Nmax →
      2 * ((r.1 - r.2.1) / 2) + r.2.1 + (2 * ((r.2.2.1 - r.2.2.2) / 2) + r.2.2.2) ≤ Nmax := fun h hN => by
    have h1 := h.rel.1
    have h2 := h.cm.1
    omega
  rw [relCM, relCM, element_couple]
  set n := (r.1 - r.2.1) / 2 with hn
  set n' := (r'.1 - r'.2.1) / 2 with hn'
  -- as if between states of the same radial motion
  have key : ∀ m ∈ Finset.Icc (-(r.2.1 : ℤ)) r.2.1, ∀ mS : ℤ, ∀ m' ∈ Finset.Icc (-(r'.2.1 : ℤ)) r'.2.1, ∀ mS' : ℤ,
      inner (ten (single relative n r.2.1 m * single centre ((r.2.2.1 - r.2.2.2) / 2) r.2.2.2 mc) (pairSpin S mS) (pairSpin T MT))
        ((isoOp (chan t T0) ∘ₗ onMotion V) (ten (single relative n' r'.2.1 m' * single centre ((r'.2.2.1 - r'.2.2.2) / 2) r'.2.2.2 mc') (pairSpin S' mS')
          (pairSpin T' MT'))) =
      chan t T0 T' MT' * v n n' r.2.1 *
        inner (ten (single relative n r.2.1 m * single centre ((r.2.2.1 - r.2.2.2) / 2) r.2.2.2 mc) (pairSpin S mS) (pairSpin T MT))
          (ten (single relative n r'.2.1 m' * single centre ((r'.2.2.1 - r'.2.2.2) / 2) r'.2.2.2 mc') (pairSpin S' mS') (pairSpin T' MT')) := by
    intro m km mS m' km' mS'
    rw [Finset.mem_Icc, ← abs_le] at km km'
    rw [LinearMap.comp_apply, onMotion_ten, isoOp_ten _ _ _ h'.isospin hMT', ← innerL_apply, map_smul, smul_eq_mul, innerL_apply, inner_ten, inner_ten,
      hV n r.2.1 _ _ n' r'.2.1 _ _ m mc m' mc' km hc km' hc' (quanta h hN) (quanta h' hN'), motion_ortho km hc]
    simp only [Prod.mk.injEq, true_and]
    by_cases k : r.2.1 = r'.2.1 ∧ m = m' ∧ (r.2.2.1 - r.2.2.2) / 2 = (r'.2.2.1 - r'.2.2.2) / 2 ∧ r.2.2.2 = r'.2.2.2 ∧ mc = mc'
    · rw [if_pos k, if_pos (by tauto)]
      ring
    · rw [if_neg k, if_neg (by tauto)]
      ring
  rw [Finset.sum_congr rfl fun m hm => Finset.sum_congr rfl fun mS _ => Finset.sum_congr rfl fun m' hm' => Finset.sum_congr rfl fun mS' _ => by
    rw [key m hm mS m' hm' mS']]
  have back := element_couple LinearMap.id Osc.cg r.2.1 S Jr r'.2.1 S' Jr' mr mr'
    (fun m mS => ten (single relative n r.2.1 m * single centre ((r.2.2.1 - r.2.2.2) / 2) r.2.2.2 mc) (pairSpin S mS) (pairSpin T MT))
    (fun m mS => ten (single relative n r'.2.1 m * single centre ((r'.2.2.1 - r'.2.2.2) / 2) r'.2.2.2 mc') (pairSpin S' mS) (pairSpin T' MT'))
  simp only [LinearMap.id_apply] at back
  have pull : ∀ k : ℝ, ∑ m ∈ Finset.Icc (-(r.2.1 : ℤ)) r.2.1, ∑ mS ∈ Finset.Icc (-(S : ℤ)) S, ∑ m' ∈ Finset.Icc (-(r'.2.1 : ℤ)) r'.2.1,
      ∑ mS' ∈ Finset.Icc (-(S' : ℤ)) S', Osc.cg r.2.1 m S mS Jr mr * Osc.cg r'.2.1 m' S' mS' Jr' mr' * (k *
        inner (ten (single relative n r.2.1 m * single centre ((r.2.2.1 - r.2.2.2) / 2) r.2.2.2 mc) (pairSpin S mS) (pairSpin T MT))
          (ten (single relative n r'.2.1 m' * single centre ((r'.2.2.1 - r'.2.2.2) / 2) r'.2.2.2 mc') (pairSpin S' mS') (pairSpin T' MT'))) =
      k * ∑ m ∈ Finset.Icc (-(r.2.1 : ℤ)) r.2.1, ∑ mS ∈ Finset.Icc (-(S : ℤ)) S, ∑ m' ∈ Finset.Icc (-(r'.2.1 : ℤ)) r'.2.1,
      ∑ mS' ∈ Finset.Icc (-(S' : ℤ)) S', Osc.cg r.2.1 m S mS Jr mr * Osc.cg r'.2.1 m' S' mS' Jr' mr' *
        inner (ten (single relative n r.2.1 m * single centre ((r.2.2.1 - r.2.2.2) / 2) r.2.2.2 mc) (pairSpin S mS) (pairSpin T MT))
          (ten (single relative n r'.2.1 m' * single centre ((r'.2.2.1 - r'.2.2.2) / 2) r'.2.2.2 mc') (pairSpin S' mS') (pairSpin T' MT')) := fun k => by
    simp only [Finset.mul_sum]
    refine Finset.sum_congr rfl fun _ _ => Finset.sum_congr rfl fun _ _ => Finset.sum_congr rfl fun _ _ => Finset.sum_congr rfl fun _ _ => ?_
    ring
  rw [pull, ← back]
  have z : ∀ {k : ℕ} {J J' : ℕ} {M M' : ℤ}, M ≠ M' → Osc.cg J' M' k 0 J M = 0 := fun {k J J' M M'} hne => by
    rw [cg_even, cgd, if_neg]
    rintro ⟨h, -⟩
    omega
  have w : IsMotion (2 * n + r'.2.1, r'.2) S' Jr' T' := ⟨⟨by dsimp only; omega, by dsimp only; omega⟩, h'.cm, h'.spin, h'.isospin, h'.momentum, h'.parity⟩
  have o := relCM_ortho (mr' := mr') (mc' := mc') (MT' := MT') h w hm hc hMT
  rw [relCM, relCM] at o
  dsimp only at o
  rw [show (2 * n + r'.2.1 - r'.2.1) / 2 = n by omega] at o
  rw [o]
  have hr1 : r.1 = 2 * n + r.2.1 := by
    obtain ⟨k1, k2⟩ := h.rel
    omega
  by_cases k : (r, S, Jr, T, mr, mc, MT) = ((2 * n + r'.2.1, r'.2), S', Jr', T', mr', mc', MT')
  · rw [if_pos k]
    simp only [Prod.mk.injEq] at k
    obtain ⟨k1, rfl, rfl, rfl, rfl, rfl, rfl⟩ := k
    have k2 : r.2 = r'.2 := by rw [k1]
    rw [if_pos ⟨by rw [k2], j h hN, j h hN⟩, coulombRME, if_pos (by rw [k2]), chan]
    have c0 : Osc.cg Jr mr 0 0 Jr mr = 1 := by
      rw [cg_even]
      exact cgd_scalar (by rw [even_mem, Finset.mem_Icc, ← abs_le]; exact hm)
    dsimp only
    rw [c0, Int.toNat_natCast, Int.toNat_natCast, show (((r.1 : Int) - r.2.1) / 2).toNat = n by omega,
      show (((r'.1 : Int) - r'.2.1) / 2).toNat = n' by have := h'.rel.1; omega]
    ring
  · rw [if_neg k, mul_zero]
    split_ifs with k2
    · rw [coulombRME]
      split_ifs with k3
      · simp only [Prod.mk.injEq, Nat.cast_inj] at k3
        obtain ⟨⟨k4, k5⟩, -⟩ : (r.2.2 = r'.2.2 ∧ mc = mc') ∧ _ := ⟨by simpa using k2.1, trivial⟩
        by_cases k6 : mr = mr'
        · by_cases k7 : MT = MT'
          · refine absurd ?_ k
            simp only [Prod.mk.injEq]
            have k8 : r.2 = r'.2 := Prod.ext k3.1 k4
            exact ⟨Prod.ext (by dsimp only; rw [hr1, k3.1]) k8, k3.2.1, k3.2.2.1, k3.2.2.2, k6, k5, k7⟩
          · rw [z (J := T) k7]
            ring
        · rw [z (J := Jr) k6]
          ring
      · rw [mul_zero]
    · rfl

/-! ## The relative file -/

theorem coulombRME_sym (t : OpType) {v : ℕ → ℕ → ℕ → ℝ} (hv : ∀ n' n l, v n' n l = v n n' l) (T0 l S J T N l' S' J' T' N' : ℕ) :
    coulombRME t v T0 (l, S, J, T) N (l', S', J', T') N' = roseSwap (J, T) (J', T') * coulombRME t v T0 (l', S', J', T') N' (l, S, J, T) N := by
  unfold coulombRME
  by_cases h : ((l : Int), (S : Int), (J : Int), (T : Int)) = ((l' : Int), (S' : Int), (J' : Int), (T' : Int))
  · rw [if_pos h, if_pos h.symm]
    simp only [Prod.mk.injEq, Nat.cast_inj] at h
    obtain ⟨rfl, rfl, rfl, rfl⟩ := h
    have e : roseSwap (J, T) (J, T) = 1 := by
      unfold roseSwap
      dsimp only
      rw [show J + J + T + T = 2 * (J + T) by ring, pow_mul, neg_one_sq, one_pow, one_mul, div_self (by positivity)]
    rw [e, one_mul, hv]
  · rw [if_neg h, if_neg fun k => h k.symm, mul_zero]

/-- The file that is written for the Coulomb operator holds the reduced elements of its components. -/
theorem coulomb_given {lib : Relative.Gen.Lib} {nm : Numbers} {gctl : Input} {o : OpLabels} {N : ℕ} {t : OpType} {steps : Int} {gfile : String}
    (hq : Relative.Gen.Request nm gctl o N (.coulomb t steps) gfile) (ho : CoulombLabels t o)
    (hv : ∀ n' n l, lib.coulomb steps n' n l = lib.coulomb steps n n' l) :
    ∃ gout, Relative.Gen.run nm lib gctl = .ok gout ∧ gout.file = gfile ∧ gout.labels = o ∧ gout.Nmax = N ∧ gout.Jmax = N + 1 ∧
    ∀ (w : World) (f : RelFile), Wrote gout f → (w.env.swap = fun _ => roseSwap) → (∀ T0, SwapLaw w.env o.J0 T0) →
      Given w f (coulombRME t fun n' n l => 1 / √2 * lib.coulomb steps n' n l) := by
  obtain ⟨op, hop, hall⟩ := Relative.coulomb_components (lib.coulomb steps) t (N := N) (o := o) (sectors := Relative.Gen.allSectors o N)
    (fun T0 _ p hp => (Relative.Gen.sec_ok hp).ket) ho.1 ho.2.1
  refine ⟨⟨gfile, o, N, N + 1, Relative.Gen.allSectors o N, op⟩, ?_, rfl, rfl, rfl, rfl, fun w f hw hsw hlaw => ⟨fun T0 h1 h2 => ?_, ?_, ?_⟩⟩
  · rw [Relative.Gen.run_request hq, Relative.Gen.dispatch, hop]
    rfl
  · rw [hw.labels] at h1 h2
    rw [hsw]
    refine ⟨fun l S J T N l' S' J' T' N' => coulombRME_sym t (fun n' n l => by rw [hv]) T0 l S J T N l' S' J' T' N', ?_⟩
    intro k x y hk i j hi hj _
    have hsec : f.sectors T0 = Relative.Gen.allSectors o N T0 := by
      unfold RelFile.sectors Relative.Gen.allSectors
      rw [hw.labels, hw.Nmax, hw.Jmax]
    rw [hsec] at hk
    have h3 := hq.three
    have hf := hall T0 (by dsimp only at h2; omega)
    obtain ⟨hlt, hkk⟩ := List.getElem?_eq_some_iff.mp hk
    have hlt' : k < (op T0).length := hf.length_eq ▸ hlt
    have hb := (List.forall₂_iff_get.mp hf).2 k hlt hlt' i j
    rw [List.get_eq_getElem, List.get_eq_getElem, hkk, if_pos ⟨h1, h2⟩] at hb
    rw [hw.blocks T0 k _ (List.getElem?_eq_getElem hlt') i j _ hb]
    have ok := Relative.Gen.sec_ok (List.mem_of_getElem? hk)
    unfold coulombRME coulombValue
    by_cases hxy : x = y
    · subst hxy
      rw [if_pos rfl, if_pos rfl]
      dsimp only
      rw [Int.toNat_natCast, Int.toNat_natCast, show (((x.L + 2 * i : ℕ) : Int) - x.L) / 2 = (i : Int) by omega,
        show (((x.L + 2 * j : ℕ) : Int) - x.L) / 2 = (j : Int) by omega, Int.toNat_natCast, Int.toNat_natCast]
    · rw [if_neg hxy, if_neg]
      intro h
      simp only [Prod.mk.injEq, Nat.cast_inj] at h
      exact hxy (Relative.sub_eq ok.bra ok.ket h.1 h.2.1 h.2.2.1 h.2.2.2)
  · rw [hw.labels]
    exact hlaw
  · rw [hw.labels]
    exact hq.three

/-! ## Sectors -/

theorem among_nas (t : OpType) (a b : Lab) (J : ℕ) (M : ℤ) (sp : Species) :
    among t (nasState a b J M sp) = if ActsOn t sp then nasState a b J M sp else 0 := by
  have h : ∀ τ τ' : Fin 2, ¬ (τ = kind (isProton sp).1 ∧ τ' = kind (isProton sp).2) → ¬ (τ' = kind (isProton sp).1 ∧ τ = kind (isProton sp).2) →
      ∀ σ σ', nasState a b J M sp σ σ' τ τ' = 0 := by
    intro τ τ' h1 h2 σ σ'
    simp only [nasState, asym, Pi.smul_apply, Pi.sub_apply, swapped, exchanged, pnState, if_neg h1, if_neg h2, map_zero, sub_zero, smul_zero]
  funext σ σ' τ τ'
  show (if Among t τ τ' then nasState a b J M sp σ σ' τ τ' else 0) = _
  by_cases k : ActsOn t sp
  · rw [if_pos k]
    split_ifs with k1
    · rfl
    · refine (h τ τ' ?_ ?_ σ σ').symm <;> cases t <;> cases sp <;> revert τ τ' <;> simp [ActsOn, Among, kind, isProton] at k ⊢ <;> decide
  · rw [if_neg k]
    split_ifs with k1
    · refine h τ τ' ?_ ?_ σ σ' <;> cases t <;> cases sp <;> revert τ τ' <;> simp [ActsOn, Among, kind, isProton] at k ⊢ <;> decide
    · rfl

/-- The operator between pairs of one kind is the operator between all nucleons in the sectors of these pairs, and zero in the others. -/
theorem among_element (t : OpType) (V : Two →ₗ[ℝ] Two) (orbs : OrbSpace) (s : Sector) (x y : H2.State) (M M' : ℤ) :
    nasElement (among t ∘ₗ onMotion V) orbs s x y M M' = if ActsOn t s.ket.species then nasElement (onMotion V) orbs s x y M M' else 0 := by
  have e : among t ∘ₗ onMotion V = onMotion V ∘ₗ among t := by
    refine LinearMap.ext fun u => ?_
    funext σ σ' τ τ'
    show (if Among t τ τ' then V (u σ σ' τ τ') else 0) = V (if Among t τ τ' then u σ σ' τ τ' else 0)
    split_ifs
    · rfl
    · rw [map_zero]
  unfold nasElement
  rw [e, LinearMap.comp_apply, among_nas]
  split_ifs
  · rfl
  · rw [map_zero, ← innerL_apply, map_zero]

/-! ## Property -/

variable {w : World} {ctl : Input} {p : Params} {f : RelFile}

/-- **C179.**  The Coulomb operator, from its name to the H2 file: if `relative-gen` is asked for the Coulomb operator between protons, between
neutrons, or between all nucleons, with the isospin components that the operator has, it writes a relative file, and `moshinsky`, given that
file, writes a file which, opened again, holds for every stored pair of states a number that is, but for the rounding to single precision and
the values below `10⁻¹⁴` that are dropped, the reduced element `e`, between the normalised antisymmetrised states, of the operator on the
distance of the nucleons with the radial elements of the library, times the factor `1/√2` between the distance and the coordinate of the
relative oscillator; and zero in the sectors of other nucleons. -/
theorem coulomb_moshinsky {lib : Relative.Gen.Lib} {nm : Numbers} {gctl : Input} {o : OpLabels} {N : ℕ} {t : OpType} {steps : Int} {gfile : String}
    (hq : Relative.Gen.Request nm gctl o N (.coulomb t steps) gfile) (ho : CoulombLabels t o)
    (hv : ∀ n' n l, lib.coulomb steps n' n l = lib.coulomb steps n n' l) :
    ∃ gout, Relative.Gen.run nm lib gctl = .ok gout ∧ gout.file = gfile ∧
    ∀ (_ : Wrote gout f) (_ : Coefficients w.env) (_ : w.env.swap = fun _ => roseSwap) (_ : ∀ T0, SwapLaw w.env o.J0 T0) (_ : Asks w.nm ctl p)
      (_ : 0 ≤ p.cutoff) (_ : p.source = .rel) (_ : p.target = .jjjpn) (_ : w.rel? p.input = some f) (_ : Spaces w (truncOf p) (truncOf p).N2max)
      (_ : (truncOf p).N2max ≤ 84) (_ : (truncOf p).N2max ≤ N)
      (_ : ∀ fmt, formatOfCode p.format = .ok fmt → PnBasis (truncOf p) w.lib (targetDesc w p (truncOf p) o fmt))
      {fmt : Format} {mode : Mode} (_ : formatOfCode p.format = .ok fmt) (_ : deducedIOMode p.output = .ok mode)
      (_ : mode ≠ .matrix) {d : Desc} (_ : d = targetDesc w p (truncOf p) o fmt)
      (_ : Expressible w.lib w.hf mode fmt d) (_ : ∀ s ∈ (d.index w.lib).sectors, s.WF)
      (r : BitVec 32 → BitVec 32) (_ : mode = .text → ∀ x, w.hf.fm.scan (w.hf.fm.fmt x) = some (r x)) (_ : mode = .binary → r = id)
      {out : Output} (_ : Program.run w ctl = .ok out),
    ∃ file, out = .h2 p.output file ∧ ∀ k s, (d.index w.lib).sectors[k]? = some s → ∃ start m st,
      openIn w.lib w.hf mode file = .ok (fmt, d, start) ∧
      readHistory ⟨w.hf.fm, fmt, mode, d.index w.lib⟩ file [k] (InState.init start) = .ok ([m], st) ∧
      m.rows = s.bra.size ∧ m.cols = s.ket.size ∧
      ∀ i j x y, s.bra.states[i]? = some x → s.ket.states[j]? = some y → (s.braIndex = s.ketIndex → i ≤ j) → ∃ e : ℝ,
        m.val i j = w.hf.fm.ofF32 (r (w.hf.fm.toF32
          (if |e| < 1e-14 * (H2.pairNorm s.bra.species x * H2.pairNorm s.ket.species y) then 0 else e))) ∧
        (projection s.bra.species = projection s.ket.species →
        ∀ V : Two →ₗ[ℝ] Two, IsCentral V (truncOf p).N2max (fun n' n l => 1 / √2 * lib.coulomb steps n' n l) →
        ∀ M M', (if ActsOn t s.ket.species then nasElement (onMotion V) d.orbs s x y M M' else 0) = Osc.cg s.ket.J M' 0 0 s.bra.J M * e) := by
  obtain ⟨gout, hrun, hfile, glab, gN, gJ, hgiven⟩ := coulomb_given hq ho hv
  refine ⟨gout, hrun, hfile, ?_⟩
  intro hw hcf hsw hlaw ha hc hs ht hf hsp h84 hN hpn fmt mode hfmt hmode hmat d hd hx hwf r hr hb out h
  have hlab : f.labels = o := hw.labels.trans glab
  have hNm : f.Nmax = N := hw.Nmax.trans gN
  have hJm : f.Jmax = N + 1 := hw.Jmax.trans gJ
  have hg := hgiven w f hw hsw hlaw
  obtain ⟨file, hout, hall⟩ := moshinsky_operator hcf ha hc hs ht hf hg hsp h84 (by rw [hNm]; exact hN) (by rw [hlab]; exact hpn) hfmt hmode hmat
    (by rw [hlab]; exact hd) hx hwf r hr hb h
  refine ⟨file, hout, fun k s hk => ?_⟩
  obtain ⟨start, m, st, q1, q2, q3, q4, q5⟩ := hall k s hk
  refine ⟨start, m, st, q1, q2, q3, q4, fun i j x y hxi hyj hij => ?_⟩
  obtain ⟨e, he, hO⟩ := q5 i j x y hxi hyj hij
  refine ⟨e, he, fun hp V hV M M' => ?_⟩
  have hrel := hO 0 (fun T0 => isoOp (chan t T0) ∘ₗ onMotion V) (fun T0 _ _ => by
    rw [hlab, ho.1, hp, sub_self, hJm]
    exact coulomb_relative hV t T0 (by push_cast; omega)) M M'
  rw [hlab, ho.1] at hrel
  rw [← among_element, ← hrel, trueElement, nasElement]
  simp only [← innerL_apply, LinearMap.comp_apply]
  rw [← among_sum t ho, LinearMap.sum_apply, map_sum]

end Verif.Moshinsky
