import Verif.Mixer.Denote2
import Verif.Moshinsky.NucleonActs

/-!
# The states of two nucleons of `h2mixer` and of `moshinsky`

Two nucleons are described in `Verif/Separable` by the product of two copies of the space of one nucleon, and in `Verif/Moshinsky` by polynomials in six
creation operators for each value of the spins and of the isospins.  Here the two are identified.
-/

namespace Verif.Mixer
open Verif Verif.Mapping Verif.Xform Verif.Obme Verif.Separable Verif.SU2 MvPolynomial
open Verif.Moshinsky (Nucl swapped asym exchanged onMotion onSpin onIsospin proj pnState nasState jjOf orbL Lab spinor)
open Verif.Moshinsky.Osc (One Two one fock onFirst onSecond fock_prod first second)
open scoped TensorProduct

/-- The first nucleon in the state `u` and the second in the state `v`. -/
noncomputable def joined : Nucleon ⊗[ℝ] Nucleon →ₗ[ℝ] Nucl :=
  TensorProduct.lift (LinearMap.mk₂ ℝ (fun u v σ σ' τ τ' => onFirst (u σ τ) * onSecond (v σ' τ'))
    (fun u u' v => by funext σ σ' τ τ'; simp only [Pi.add_apply, map_add, add_mul])
    (fun c u v => by funext σ σ' τ τ'; simp only [Pi.smul_apply, map_smul, smul_mul_assoc])
    (fun u v v' => by funext σ σ' τ τ'; simp only [Pi.add_apply, map_add, mul_add])
    (fun c u v => by funext σ σ' τ τ'; simp only [Pi.smul_apply, map_smul, mul_smul_comm]))

theorem joined_tmul (u v : Nucleon) (σ σ' τ τ' : Fin 2) : joined (u ⊗ₜ v) σ σ' τ τ' = onFirst (u σ τ) * onSecond (v σ' τ') := rfl

/-- Scalar products are the same. -/
theorem joined_inner (x y : Nucleon ⊗[ℝ] Nucleon) : Moshinsky.inner (joined x) (joined y) = LinearMap.BilinForm.tmul form1 form1 x y := by
  rw [← Moshinsky.innerL_apply]
  induction x using TensorProduct.induction_on with
  | zero => simp
  | add a b ha hb => simp only [map_add, LinearMap.add_apply, ha, hb]
  | tmul u v =>
    induction y using TensorProduct.induction_on with
    | zero => simp
    | add a b ha hb => simp only [map_add, ha, hb]
    | tmul u' v' =>
      rw [LinearMap.BilinForm.tensorDistrib_tmul, Moshinsky.innerL_apply, Moshinsky.inner]
      simp only [joined_tmul, fock_prod, form1_apply, smul_eq_mul, Fin.sum_univ_two]
      ring

/-- The exchange of the nucleons. -/
theorem joined_swap (x : Nucleon ⊗[ℝ] Nucleon) : joined (TensorProduct.comm ℝ Nucleon Nucleon x) = swapped (joined x) := by
  induction x using TensorProduct.induction_on with
  | zero =>
    funext σ σ' τ τ'
    simp [swapped, exchanged]
  | add a b ha hb =>
    rw [map_add, map_add, ha, hb, map_add]
    funext σ σ' τ τ'
    simp [swapped, exchanged]
  | tmul u v =>
    rw [TensorProduct.comm_tmul]
    funext σ σ' τ τ'
    rw [joined_tmul, swapped, joined_tmul, exchanged, map_mul, mul_comm]
    congr 1
    · rw [onFirst, onSecond, rename_rename]
      rfl
    · rw [onFirst, onSecond, rename_rename]
      rfl

/-! ## The states of the two-body basis -/

/-- The pairs of species. -/
def speciesOf : H2.Species → Species2
  | .pp => .pp
  | .nn => .nn
  | .pn => .pn

/-- The labels `(N, 2j)` of an orbital. -/
def labOf (a : Orb) : Lab := (2 * a.n + a.l, a.twiceJ)

/-- `j = l ± 1/2`. -/
def HasSpin (a : Orb) : Prop := a.twiceJ = 2 * a.l + 1 ∨ a.twiceJ + 1 = 2 * a.l

theorem orbL_labOf {a : Orb} (h : HasSpin a) : orbL (labOf a) = a.l := by
  unfold orbL labOf HasSpin at *
  dsimp only
  split_ifs <;> omega

theorem nucleon_spin (a : SpOrb) (μ : ℤ) (σ τ : Fin 2) : Separable.nucleon a μ σ τ = if τ = kindOf a.sp then Moshinsky.spin1 a.n a.l a.tj μ σ else 0 := rfl

theorem joined_pair (sp : H2.Species) (J : ℕ) (M : ℤ) {a b : Orb} (ha : HasSpin a) (hb : HasSpin b) :
    joined (pairState Separable.nucleon (2 * M) (spOrb (speciesOf sp).first a) (spOrb (speciesOf sp).second b) J) =
      pnState (jjOf (labOf a) (labOf b)) J M (Moshinsky.Program.isProton sp).1 (Moshinsky.Program.isProton sp).2 := by
  funext σ σ' τ τ'
  have k1 : kindOf (speciesOf sp).first = Moshinsky.kind (Moshinsky.Program.isProton sp).1 := by cases sp <;> rfl
  have k2 : kindOf (speciesOf sp).second = Moshinsky.kind (Moshinsky.Program.isProton sp).2 := by cases sp <;> rfl
  have n1 : ((labOf a).1 - a.l) / 2 = a.n := by unfold labOf; dsimp only; omega
  have n2 : ((labOf b).1 - b.l) / 2 = b.n := by unfold labOf; dsimp only; omega
  have t1 : (labOf a).2 = a.twiceJ := rfl
  have t2 : (labOf b).2 = b.twiceJ := rfl
  simp only [pairState, map_sum, map_smul, Finset.sum_apply, Pi.smul_apply, joined_tmul, nucleon_spin, pnState, jjOf, n1, n2, t1, t2, orbL_labOf ha, orbL_labOf hb,
    Moshinsky.spinor_first, Moshinsky.spinor_second, spOrb, k1, k2]
  by_cases h1 : τ = Moshinsky.kind (Moshinsky.Program.isProton sp).1
  · by_cases h2 : τ' = Moshinsky.kind (Moshinsky.Program.isProton sp).2
    · simp only [h1, h2, if_true, and_self]
    · have h3 : ¬(τ = Moshinsky.kind (Moshinsky.Program.isProton sp).1 ∧ τ' = Moshinsky.kind (Moshinsky.Program.isProton sp).2) := fun h => h2 h.2
      rw [if_neg h3]
      simp only [if_neg h2, map_zero, mul_zero, smul_zero, Finset.sum_const_zero]
  · have h3 : ¬(τ = Moshinsky.kind (Moshinsky.Program.isProton sp).1 ∧ τ' = Moshinsky.kind (Moshinsky.Program.isProton sp).2) := fun h => h1 h.1
    rw [if_neg h3]
    simp only [if_neg h1, map_zero, zero_mul, smul_zero, Finset.sum_const_zero]

/-- The normalised antisymmetrised states are the same. -/
theorem joined_nas (sp : H2.Species) (J : ℕ) (M : ℤ) {a b : Orb} (ha : HasSpin a) (hb : HasSpin b) :
    joined (pairOf Separable.nucleon (speciesOf sp) J a b (2 * M)) = nasState (labOf a) (labOf b) J M sp := by
  have h1 : (spOrb (speciesOf sp).first a).HalfOdd := by unfold HasSpin at ha; unfold SpOrb.HalfOdd spOrb; dsimp only; omega
  have h2 : (spOrb (speciesOf sp).second b).HalfOdd := by unfold HasSpin at hb; unfold SpOrb.HalfOdd spOrb; dsimp only; omega
  rw [pairOf, nas, ← comm_pair _ _ _ _ _ h1 h2, map_smul, map_smul, map_sub, joined_swap, joined_pair sp J M ha hb, nasState, asym]
  congr 1
  have e : spOrb (speciesOf sp).first a = spOrb (speciesOf sp).second b ↔ sp ≠ .pn ∧ labOf a = labOf b := by
    have : (speciesOf sp).first = (speciesOf sp).second ↔ sp ≠ .pn := by cases sp <;> decide
    unfold spOrb labOf HasSpin at *
    rw [SpOrb.mk.injEq, this, Prod.mk.injEq]
    constructor
    · rintro ⟨h, h3, h4, h5⟩
      exact ⟨h, by omega, h5⟩
    · rintro ⟨h, h3, h4⟩
      exact ⟨h, by omega, by omega, h4⟩
  by_cases h : sp ≠ .pn ∧ labOf a = labOf b
  · rw [if_pos (e.2 h), if_pos h]
    norm_num
  · rw [if_neg (fun h' => h (e.1 h')), if_neg h]
    norm_num

/-- Elements of an operator on both descriptions. -/
theorem joined_element {O2 : Nucleon ⊗[ℝ] Nucleon →ₗ[ℝ] Nucleon ⊗[ℝ] Nucleon} {O : Nucl →ₗ[ℝ] Nucl} (h : joined ∘ₗ O2 = O ∘ₗ joined) (x y : Nucleon ⊗[ℝ] Nucleon) :
    elem2 form1 O2 x y = Moshinsky.inner (joined x) (O (joined y)) := by
  rw [elem2, ← joined_inner, ← LinearMap.comp_apply, h, LinearMap.comp_apply]

end Verif.Mixer
