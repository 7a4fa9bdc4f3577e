import Verif.Mixer.JoinedOps

/-!
# The named operators of `relative-gen` as sums and coupled products of operators on one nucleon
-/

namespace Verif.Mixer
open Verif Verif.Mapping Verif.Xform Verif.Obme Verif.Separable Verif.SU2 MvPolynomial
open Verif.Moshinsky (Nucl onMotion onSpin onIsospin distanceSq angular Physical tau sg spinIsospin casimirSum separation harmonic2)
open Verif.Relative (jmat OpLabels)
open Verif.Relative.Gen (Choice)
open scoped TensorProduct

/-! ## Specification -/

/-- The isospin of a nucleon. -/
noncomputable def iso1 (p : ℤ) : Nucleon →ₗ[ℝ] Nucleon := onIsospin1 (jmat 1 (2 * p))

/-- Spin times isospin. -/
noncomputable def gt1 (q p : ℤ) : Nucleon →ₗ[ℝ] Nucleon := spin1 q ∘ₗ iso1 p

/-- `(r1 - r2)²`. -/
noncomputable def distance2 : Op2 := onBoth (square pos1) + (2 : ℝ) • √3 • onEach 1 1 0 pos1 pos1 0

/-- `(r1 - r2) × (p1 - p2) / 2`. -/
noncomputable def orbital2 (q : ℤ) : Op2 :=
  (1 / 2 : ℝ) • onBoth (orbital1 q) + (1 / 2 : ℝ) • (√2 • onEach 1 1 1 pos1 grad1 q - √2 • onEach 1 1 1 grad1 pos1 q)

/-- `(τ1 + τ2) (r1 - r2)²`. -/
noncomputable def isoDistance2 (p : ℤ) : Op2 :=
  (2 : ℝ) • (onBoth (iso1 p ∘ₗ square pos1) + onEach 0 0 0 (fun _ => iso1 p) (fun _ => square pos1) 0 + onEach 0 0 0 (fun _ => square pos1) (fun _ => iso1 p) 0 +
    (2 : ℝ) • √3 • (onEach 1 1 0 (fun u => iso1 p ∘ₗ pos1 u) pos1 0 + onEach 1 1 0 pos1 (fun u => iso1 p ∘ₗ pos1 u) 0))

/-- `(τ1 + τ2) (r1 - r2) × (p1 - p2) / 2`. -/
noncomputable def isoOrbital2 (q p : ℤ) : Op2 :=
  onBoth (iso1 p ∘ₗ orbital1 q) + onEach 0 1 1 (fun _ => iso1 p) orbital1 q + onEach 1 0 1 orbital1 (fun _ => iso1 p) q +
    √2 • (onEach 1 1 1 (fun u => iso1 p ∘ₗ pos1 u) grad1 q + onEach 1 1 1 pos1 (fun u => iso1 p ∘ₗ grad1 u) q -
      onEach 1 1 1 (fun u => iso1 p ∘ₗ grad1 u) pos1 q - onEach 1 1 1 grad1 (fun u => iso1 p ∘ₗ pos1 u) q)

/-- The position of a nucleon, coupled with itself to rank two. -/
noncomputable def stretch1 (q : ℤ) : Nucleon →ₗ[ℝ] Nucleon := ∑ u ∈ projs 2, ∑ v ∈ projs 2, cgd 2 u 2 v 4 q • (pos1 u ∘ₗ pos1 v)

/-- `r² Y2 / 2` for `r = r1 - r2`. -/
noncomputable def quadrupole2 (q : ℤ) : Op2 := (1 / 2 : ℝ) • √(15 / (8 * Real.pi)) • (onBoth (stretch1 q) - (2 : ℝ) • onEach 1 1 2 pos1 pos1 q)

/-- `(τ1 + τ2) r² Y2 / 2` for `r = r1 - r2`. -/
noncomputable def isoQuadrupole2 (q p : ℤ) : Op2 :=
  √(15 / (8 * Real.pi)) • (onBoth (iso1 p ∘ₗ stretch1 q) + onEach 0 2 2 (fun _ => iso1 p) stretch1 q + onEach 2 0 2 stretch1 (fun _ => iso1 p) q -
    (2 : ℝ) • (onEach 1 1 2 (fun u => iso1 p ∘ₗ pos1 u) pos1 q + onEach 1 1 2 pos1 (fun u => iso1 p ∘ₗ pos1 u) q))

/-- The Casimir operator of SU(4). -/
noncomputable def casimir2 : Op2 :=
  onBoth (square spin1 + square (fun p => iso1 (p / 2)) + (4 : ℝ) • (square spin1 ∘ₗ square fun p => iso1 (p / 2))) - (2 : ℝ) • √3 • onEach 1 1 0 spin1 spin1 0 +
    (2 : ℝ) • ∑ p ∈ ({1, 0, -1} : Finset ℤ), sg p • (onEach 0 0 0 (fun _ => iso1 p) (fun _ => iso1 (-p)) 0 - (4 : ℝ) • √3 • onEach 1 1 0 (gt1 · p) (gt1 · (-p)) 0)

/-- The operators of `relative-gen` with isospin projection `p`, written with one-body operators as `h2mixer` needs them. -/
inductive Separates : Choice → ℤ → (ℤ → Op2) → Prop
  | distance : Separates (.coordinateSqr .r 0) 0 fun _ => distance2
  | isoDistance (p : ℤ) : Separates (.coordinateSqr .r 1) p fun _ => isoDistance2 p
  | rsqr : Separates (.plain "rsqr") 0 fun _ => distance2
  | quadrupole : Separates (.quadrupole .r 0) 0 quadrupole2
  | isoQuadrupole (p : ℤ) : Separates (.quadrupole .r 1) p fun q => isoQuadrupole2 q p
  | orbital : Separates (.orbital 0) 0 orbital2
  | isoOrbital (p : ℤ) : Separates (.orbital 1) p fun q => isoOrbital2 q p
  | spin : Separates (.spin 0) 0 fun q => onBoth (spin1 q)
  | isoSpin (p : ℤ) : Separates (.spin 1) p fun q => (2 : ℝ) • onBoth (gt1 q p)
  | isospin (p : ℤ) : Separates (.plain "isospin") p fun _ => onBoth (iso1 p)
  | casimir : Separates (.plain "su4casimir") 0 fun _ => casimir2
  | gamowTeller (p : ℤ) : Separates (.plain "LENPIC-LOGT") p fun q => (-(129 / 100) : ℝ) • (2 : ℝ) • onBoth (gt1 q p)

/-! ## Proofs -/

theorem joins_distance : Joins distance2 (onMotion distanceSq) := by
  rw [distance2, ← gap_eq]
  exact joins_gap

theorem joins_orbital {q : ℤ} (hq : |q| ≤ 1) : Joins (orbital2 (2 * q)) (onMotion (angular q)) := by
  rw [orbital2, ← swirl_eq hq]
  exact joins_swirl q

theorem joins_spins (q : ℤ) : Joins (onBoth (spin1 (2 * q))) (Moshinsky.spin 0 q + Moshinsky.spin 1 q) := by
  have := (joins_spin_first (jmat 1 (2 * q))).add (joins_spin_second (jmat 1 (2 * q)))
  rw [← spin1, atFirst, atSecond, ← onBoth] at this
  exact this

theorem joins_isospins (p : ℤ) : Joins (onBoth (iso1 p)) (Moshinsky.isospin 0 p + Moshinsky.isospin 1 p) := by
  have := (joins_isospin_first (jmat 1 (2 * p))).add (joins_isospin_second (jmat 1 (2 * p)))
  rw [← iso1, atFirst, atSecond, ← onBoth] at this
  exact this

theorem joins_gt (q p : ℤ) : Joins ((2 : ℝ) • onBoth (gt1 (2 * q) p)) (spinIsospin q p) := by
  have e : onBoth (gt1 (2 * q) p) = atFirst (spin1 (2 * q)) ∘ₗ atFirst (iso1 p) + atSecond (spin1 (2 * q)) ∘ₗ atSecond (iso1 p) :=
    TensorProduct.ext' fun u v => by
      simp only [onBoth, gt1, atFirst, atSecond, LinearMap.add_apply, LinearMap.comp_apply, TensorProduct.map_tmul, LinearMap.id_apply]
  rw [e, spin1, iso1, spinIsospin]
  exact (((joins_spin_first (jmat 1 (2 * q))).comp (joins_isospin_first (jmat 1 (2 * p)))).add
    ((joins_spin_second (jmat 1 (2 * q))).comp (joins_isospin_second (jmat 1 (2 * p))))).smul 2

theorem joins_tau {O2 : Op2} {O : Nucl →ₗ[ℝ] Nucl} (p : ℤ) (h : Joins O2 O) : Joins ((2 : ℝ) • (onBoth (iso1 p) ∘ₗ O2)) (tau 1 p ∘ₗ O) := by
  have := ((joins_isospins p).comp h).smul 2
  rw [tau, if_neg (by decide)]
  exact this

theorem onEach_zero {k : ℕ} (X Y : ℤ → Nucleon →ₗ[ℝ] Nucleon) {q : ℤ} (hq : q ∈ projs (2 * k)) : onEach 0 k k X Y q = TensorProduct.map (X 0) (Y q) := by
  have p0 : projs (2 * 0) = {0} := by decide
  rw [onEach, p0, Finset.sum_singleton, Finset.sum_eq_single_of_mem q hq]
  · rw [cgd_exchange, cgd_scalar hq, mul_one]
    simp [Moshinsky.sgn]
  · intro v _ hv
    rw [cgd_of_ne (by omega), zero_smul]

theorem onEach_zero' {k : ℕ} (X Y : ℤ → Nucleon →ₗ[ℝ] Nucleon) {q : ℤ} (hq : q ∈ projs (2 * k)) : onEach k 0 k X Y q = TensorProduct.map (X q) (Y 0) := by
  have p0 : projs (2 * 0) = {0} := by decide
  rw [onEach, p0, Finset.sum_eq_single_of_mem q hq]
  · rw [Finset.sum_singleton, cgd_scalar hq, one_smul]
  · intro v _ hv
    rw [Finset.sum_singleton, cgd_of_ne (by omega), zero_smul]

theorem both_both (T U : Nucleon →ₗ[ℝ] Nucleon) : onBoth T ∘ₗ onBoth U = onBoth (T ∘ₗ U) + TensorProduct.map T U + TensorProduct.map U T :=
  TensorProduct.ext' fun u v => by
    simp only [onBoth, LinearMap.comp_apply, LinearMap.add_apply, map_add, TensorProduct.map_tmul, LinearMap.id_apply]
    abel

theorem both_each (T : Nucleon →ₗ[ℝ] Nucleon) (J1 J2 J0 : ℕ) (X Y : ℤ → Nucleon →ₗ[ℝ] Nucleon) (q : ℤ) :
    onBoth T ∘ₗ onEach J1 J2 J0 X Y q = onEach J1 J2 J0 (fun u => T ∘ₗ X u) Y q + onEach J1 J2 J0 X (fun u => T ∘ₗ Y u) q :=
  TensorProduct.ext' fun u v => by
    simp only [onEach, onBoth, LinearMap.comp_apply, LinearMap.add_apply, LinearMap.sum_apply, LinearMap.smul_apply, map_sum, map_smul, TensorProduct.map_tmul,
      LinearMap.id_apply, smul_add, Finset.sum_add_distrib]

theorem joins_isoDistance (p : ℤ) : Joins (isoDistance2 p) (tau 1 p ∘ₗ onMotion distanceSq) := by
  have := joins_tau p joins_distance
  rw [distance2, LinearMap.comp_add, both_both, LinearMap.comp_smul, LinearMap.comp_smul, both_each] at this
  rw [isoDistance2, onEach_zero _ _ (by decide), onEach_zero _ _ (by decide)]
  exact this

theorem joins_isoOrbital {q : ℤ} (hq : |q| ≤ 1) (p : ℤ) : Joins (isoOrbital2 (2 * q) p) (tau 1 p ∘ₗ onMotion (angular q)) := by
  have hm : 2 * q ∈ projs (2 * 1) := by
    rw [abs_le] at hq
    rw [mem_projs]
    omega
  have := joins_tau p (joins_orbital hq)
  rw [orbital2, LinearMap.comp_add, LinearMap.comp_smul, both_both, LinearMap.comp_smul, LinearMap.comp_sub, LinearMap.comp_smul, LinearMap.comp_smul, both_each, both_each] at this
  rw [isoOrbital2, onEach_zero _ _ hm, onEach_zero' _ _ hm]
  convert this using 1
  module

/-! ## The Casimir operator -/

/-- The scalar product of two vectors. -/
theorem sum_three {M : Type*} [AddCommGroup M] [Module ℝ M] (f : ℤ → M) : ∑ q ∈ ({1, 0, -1} : Finset ℤ), sg q • f q = f 0 - f 1 - f (-1) := by
  rw [Finset.sum_insert (by decide), Finset.sum_pair (by decide), sg, sg, sg, if_neg (by decide), if_pos rfl, if_neg (by decide)]
  module

theorem onBoth_add (U W : Nucleon →ₗ[ℝ] Nucleon) : onBoth (U + W) = onBoth U + onBoth W :=
  TensorProduct.ext' fun u v => by
    simp only [onBoth, LinearMap.add_apply, TensorProduct.map_tmul, LinearMap.id_apply, TensorProduct.add_tmul, TensorProduct.tmul_add]
    abel

theorem onBoth_sub (U W : Nucleon →ₗ[ℝ] Nucleon) : onBoth (U - W) = onBoth U - onBoth W :=
  TensorProduct.ext' fun u v => by
    simp only [onBoth, LinearMap.add_apply, LinearMap.sub_apply, TensorProduct.map_tmul, LinearMap.id_apply, TensorProduct.sub_tmul, TensorProduct.tmul_sub]
    abel

theorem onBoth_smul (c : ℝ) (U : Nucleon →ₗ[ℝ] Nucleon) : onBoth (c • U) = c • onBoth U :=
  TensorProduct.ext' fun u v => by
    simp only [onBoth, LinearMap.add_apply, LinearMap.smul_apply, TensorProduct.map_tmul, LinearMap.id_apply, TensorProduct.smul_tmul', TensorProduct.tmul_smul, smul_add]

theorem spin_iso (q p : ℤ) : iso1 p ∘ₗ spin1 q = spin1 q ∘ₗ iso1 p := by
  refine LinearMap.ext fun u => ?_
  funext σ τ
  simp only [iso1, spin1, LinearMap.comp_apply, onSpin1_apply, onIsospin1_apply, Finset.smul_sum]
  rw [Finset.sum_comm]
  refine Finset.sum_congr rfl fun a _ => Finset.sum_congr rfl fun b _ => ?_
  rw [smul_comm]

theorem dot_three (X Y : ℤ → Nucleon →ₗ[ℝ] Nucleon) :
    TensorProduct.map (X 0) (Y 0) - TensorProduct.map (X 2) (Y (-2)) - TensorProduct.map (X (-2)) (Y 2) = -(√3 • onEach 1 1 0 X Y 0) := by
  rw [dot_eq]
  abel

/-- The square of a vector on both nucleons. -/
theorem square_both (A : ℤ → Nucleon →ₗ[ℝ] Nucleon) : onBoth (A 0) ∘ₗ onBoth (A 0) - onBoth (A 2) ∘ₗ onBoth (A (-2)) - onBoth (A (-2)) ∘ₗ onBoth (A 2) =
    onBoth (square A) - (2 : ℝ) • √3 • onEach 1 1 0 A A 0 := by
  have h := dot_three A A
  rw [both_both, both_both, both_both, square, onBoth_sub, onBoth_sub]
  rw [show (2 : ℝ) • √3 • onEach 1 1 0 A A 0 = -((2 : ℝ) • -(√3 • onEach 1 1 0 A A 0)) by module, ← h]
  module

theorem gt_gt (q p : ℤ) : gt1 q p ∘ₗ gt1 (-q) (-p) = (spin1 q ∘ₗ spin1 (-q)) ∘ₗ (iso1 p ∘ₗ iso1 (-p)) := by
  refine LinearMap.ext fun u => ?_
  have := LinearMap.congr_fun (spin_iso (-q) p) (iso1 (-p) u)
  simp only [LinearMap.comp_apply] at this
  simp only [gt1, LinearMap.comp_apply, this]

theorem square_gt (p : ℤ) : onBoth (gt1 0 p) ∘ₗ onBoth (gt1 0 (-p)) - onBoth (gt1 2 p) ∘ₗ onBoth (gt1 (-2) (-p)) - onBoth (gt1 (-2) p) ∘ₗ onBoth (gt1 2 (-p)) =
    onBoth (square spin1 ∘ₗ (iso1 p ∘ₗ iso1 (-p))) - √3 • onEach 1 1 0 (gt1 · p) (gt1 · (-p)) 0 - √3 • onEach 1 1 0 (gt1 · (-p)) (gt1 · p) 0 := by
  have h := dot_three (gt1 · p) (gt1 · (-p))
  have h' := dot_three (gt1 · (-p)) (gt1 · p)
  have g0 : gt1 0 p ∘ₗ gt1 0 (-p) = (spin1 0 ∘ₗ spin1 0) ∘ₗ (iso1 p ∘ₗ iso1 (-p)) := gt_gt 0 p
  have g1 : gt1 2 p ∘ₗ gt1 (-2) (-p) = (spin1 2 ∘ₗ spin1 (-2)) ∘ₗ (iso1 p ∘ₗ iso1 (-p)) := gt_gt 2 p
  have g2 : gt1 (-2) p ∘ₗ gt1 2 (-p) = (spin1 (-2) ∘ₗ spin1 2) ∘ₗ (iso1 p ∘ₗ iso1 (-p)) := gt_gt (-2) p
  rw [both_both, both_both, both_both, g0, g1, g2, square, LinearMap.sub_comp, LinearMap.sub_comp, onBoth_sub, onBoth_sub, sub_eq_add_neg _ (√3 • onEach 1 1 0 (gt1 · p) _ 0),
    sub_eq_add_neg _ (√3 • onEach 1 1 0 (gt1 · (-p)) _ 0), ← h, ← h']
  abel

theorem joins_sum {s : Finset ℤ} {f : ℤ → Op2} {g : ℤ → Nucl →ₗ[ℝ] Nucl} (h : ∀ q ∈ s, Joins (f q) (g q)) : Joins (∑ q ∈ s, f q) (∑ q ∈ s, g q) := by
  induction s using Finset.induction_on with
  | empty => exact Joins.zero
  | insert a s ha ih =>
    rw [Finset.sum_insert ha, Finset.sum_insert ha]
    exact (h a (Finset.mem_insert_self a s)).add (ih fun q hq => h q (Finset.mem_insert_of_mem hq))

theorem casimir_terms : casimir2 =
    ∑ q ∈ ({1, 0, -1} : Finset ℤ), sg q • (onBoth (spin1 (2 * q)) ∘ₗ onBoth (spin1 (2 * -q)) + onBoth (iso1 q) ∘ₗ onBoth (iso1 (-q))) +
    ∑ q ∈ ({1, 0, -1} : Finset ℤ), ∑ p ∈ ({1, 0, -1} : Finset ℤ), (sg q * sg p) • (((2 : ℝ) • onBoth (gt1 (2 * q) p)) ∘ₗ ((2 : ℝ) • onBoth (gt1 (2 * -q) (-p)))) := by
  have hS := square_both spin1
  have h0 := square_gt 0
  have h1 := square_gt 1
  have h2 := square_gt (-1)
  have sq : square (fun p => iso1 (p / 2)) = iso1 0 ∘ₗ iso1 0 - iso1 1 ∘ₗ iso1 (-1) - iso1 (-1) ∘ₗ iso1 1 := rfl
  have z : (0 : ℤ) ∈ projs (2 * 0) := by decide
  have inner : ∀ p, ∑ q ∈ ({1, 0, -1} : Finset ℤ), sg q • (((2 : ℝ) • onBoth (gt1 (2 * q) p)) ∘ₗ ((2 : ℝ) • onBoth (gt1 (2 * -q) (-p)))) =
      (4 : ℝ) • (onBoth (gt1 0 p) ∘ₗ onBoth (gt1 0 (-p)) - onBoth (gt1 2 p) ∘ₗ onBoth (gt1 (-2) (-p)) - onBoth (gt1 (-2) p) ∘ₗ onBoth (gt1 2 (-p))) := by
    intro p
    rw [sum_three fun q => ((2 : ℝ) • onBoth (gt1 (2 * q) p)) ∘ₗ ((2 : ℝ) • onBoth (gt1 (2 * -q) (-p)))]
    simp only [LinearMap.comp_smul, LinearMap.smul_comp, mul_zero, mul_one, neg_zero, mul_neg, neg_neg]
    module
  have outer : ∑ q ∈ ({1, 0, -1} : Finset ℤ), ∑ p ∈ ({1, 0, -1} : Finset ℤ),
      (sg q * sg p) • (((2 : ℝ) • onBoth (gt1 (2 * q) p)) ∘ₗ ((2 : ℝ) • onBoth (gt1 (2 * -q) (-p)))) =
      ∑ p ∈ ({1, 0, -1} : Finset ℤ), sg p • ((4 : ℝ) • (onBoth (gt1 0 p) ∘ₗ onBoth (gt1 0 (-p)) - onBoth (gt1 2 p) ∘ₗ onBoth (gt1 (-2) (-p)) -
        onBoth (gt1 (-2) p) ∘ₗ onBoth (gt1 2 (-p)))) := by
    rw [Finset.sum_comm]
    refine Finset.sum_congr rfl fun p _ => ?_
    rw [← inner p, Finset.smul_sum]
    exact Finset.sum_congr rfl fun q _ => by rw [smul_smul, mul_comm]
  rw [outer, casimir2, sum_three fun p => onEach 0 0 0 (fun _ => iso1 p) (fun _ => iso1 (-p)) 0 - (4 : ℝ) • √3 • onEach 1 1 0 (gt1 · p) (gt1 · (-p)) 0,
    sum_three fun q => onBoth (spin1 (2 * q)) ∘ₗ onBoth (spin1 (2 * -q)) + onBoth (iso1 q) ∘ₗ onBoth (iso1 (-q)),
    sum_three fun p => (4 : ℝ) • (onBoth (gt1 0 p) ∘ₗ onBoth (gt1 0 (-p)) - onBoth (gt1 2 p) ∘ₗ onBoth (gt1 (-2) (-p)) - onBoth (gt1 (-2) p) ∘ₗ onBoth (gt1 2 (-p))), h0, h1, h2,
    sq, onEach_zero _ _ z, onEach_zero _ _ z, onEach_zero _ _ z]
  simp only [onBoth_add, onBoth_sub, onBoth_smul, LinearMap.comp_sub, mul_zero, mul_one, neg_zero, mul_neg, neg_neg, both_both (iso1 _)]
  have hS' : onBoth (square spin1) = onBoth (spin1 0) ∘ₗ onBoth (spin1 0) - onBoth (spin1 2) ∘ₗ onBoth (spin1 (-2)) - onBoth (spin1 (-2)) ∘ₗ onBoth (spin1 2) +
      (2 : ℝ) • √3 • onEach 1 1 0 spin1 spin1 0 := by
    rw [hS]
    module
  rw [hS']
  module

theorem cg_even2 (μ ν q : ℤ) : Moshinsky.Osc.cg 1 μ 1 ν 2 q = cgd 2 (2 * μ) 2 (2 * ν) 4 (2 * q) := (cgd_even 1 μ 1 ν 2 q).symm

theorem joins_stretch (q : ℤ) : Joins (√(15 / (8 * Real.pi)) • ∑ u ∈ projs 2, ∑ v ∈ projs 2, cgd 2 u 2 v 4 (2 * q) • (apart (u / 2) ∘ₗ apart (v / 2))) (onMotion (harmonic2 q)) := by
  have e : onMotion (harmonic2 q) = √(15 / (8 * Real.pi)) • ∑ u ∈ projs (2 * 1), ∑ v ∈ projs (2 * 1), cgd 2 u 2 v 4 (2 * q) •
      (onMotion (separation (u / 2)) ∘ₗ onMotion (separation (v / 2))) := by
    rw [Moshinsky.sum_even]
    simp only [Moshinsky.sum_even, ← cg_even2, Int.mul_ediv_cancel_left _ (two_ne_zero : (2 : ℤ) ≠ 0)]
    refine LinearMap.ext fun x => ?_
    funext σ σ' τ τ'
    simp only [harmonic2, LinearMap.smul_apply, LinearMap.sum_apply, Pi.smul_apply, Finset.sum_apply, ← onMotion_comp]
    simp only [onMotion, LinearMap.coe_mk, AddHom.coe_mk, LinearMap.smul_apply, LinearMap.sum_apply]
    rfl
  rw [e]
  exact (joins_sum fun u _ => joins_sum fun v _ => ((joins_apart _).comp (joins_apart _)).smul _).smul _

theorem stretch_eq (q : ℤ) : ∑ u ∈ projs 2, ∑ v ∈ projs 2, cgd 2 u 2 v 4 q • (apart (u / 2) ∘ₗ apart (v / 2)) =
    onBoth (stretch1 q) - (2 : ℝ) • onEach 1 1 2 pos1 pos1 q := by
  have sym : ∀ u v : ℤ, cgd 2 u 2 v 4 q = cgd 2 v 2 u 4 q := fun u v => by
    rw [cgd_exchange]
    norm_num [Moshinsky.sgn]
  have h1 : ∑ u ∈ projs 2, ∑ v ∈ projs 2, cgd 2 u 2 v 4 q • TensorProduct.map (pos1 v) (pos1 u) = onEach 1 1 2 pos1 pos1 q := by
    rw [onEach, Finset.sum_comm]
    exact Finset.sum_congr rfl fun u _ => Finset.sum_congr rfl fun v _ => by rw [sym]
  have h2 : ∑ u ∈ projs 2, ∑ v ∈ projs 2, cgd 2 u 2 v 4 q • TensorProduct.map (pos1 u) (pos1 v) = onEach 1 1 2 pos1 pos1 q := rfl
  have h3 : onBoth (stretch1 q) = ∑ u ∈ projs 2, ∑ v ∈ projs 2, cgd 2 u 2 v 4 q • onBoth (pos1 u ∘ₗ pos1 v) := by
    refine TensorProduct.ext' fun x y => ?_
    simp only [onBoth, stretch1, LinearMap.add_apply, TensorProduct.map_tmul, LinearMap.sum_apply, LinearMap.smul_apply, LinearMap.id_apply, TensorProduct.sum_tmul,
      TensorProduct.tmul_sum, TensorProduct.smul_tmul', TensorProduct.tmul_smul, smul_add, Finset.sum_add_distrib]
  have h4 : ∀ u v : ℤ, apart (u / 2) ∘ₗ apart (v / 2) = onBoth (pos1 u ∘ₗ pos1 v) - TensorProduct.map (pos1 u) (pos1 v) - TensorProduct.map (pos1 v) (pos1 u) := by
    intro u v
    refine TensorProduct.ext' fun x y => ?_
    simp only [apart, atFirst, atSecond, onBoth, pos1, LinearMap.sub_apply, LinearMap.add_apply, LinearMap.comp_apply, map_sub, TensorProduct.map_tmul, LinearMap.id_apply]
    abel
  have key : ∑ u ∈ projs 2, ∑ v ∈ projs 2, cgd 2 u 2 v 4 q • (apart (u / 2) ∘ₗ apart (v / 2)) + (onEach 1 1 2 pos1 pos1 q + onEach 1 1 2 pos1 pos1 q) = onBoth (stretch1 q) := by
    rw [h3]
    nth_rw 1 [← h2]
    rw [← h1]
    simp only [← Finset.sum_add_distrib]
    refine Finset.sum_congr rfl fun u _ => Finset.sum_congr rfl fun v _ => ?_
    rw [h4]
    module
  rw [← key]
  module

theorem joins_harmonic (q : ℤ) : Joins (√(15 / (8 * Real.pi)) • (onBoth (stretch1 (2 * q)) - (2 : ℝ) • onEach 1 1 2 pos1 pos1 (2 * q))) (onMotion (harmonic2 q)) := by
  rw [← stretch_eq]
  exact joins_stretch q

theorem joins_quadrupole (q p : ℤ) : Joins (quadrupole2 (2 * q)) ((1 / 2 : ℝ) • (tau 0 p ∘ₗ onMotion (harmonic2 q))) := by
  rw [tau, if_pos rfl, LinearMap.id_comp]
  exact (joins_harmonic q).smul _

theorem joins_isoQuadrupole {q : ℤ} (hq : |q| ≤ 2) (p : ℤ) : Joins (isoQuadrupole2 (2 * q) p) ((1 / 2 : ℝ) • (tau 1 p ∘ₗ onMotion (harmonic2 q))) := by
  have hm : 2 * q ∈ projs (2 * 2) := by
    rw [abs_le] at hq
    rw [mem_projs]
    omega
  have := (joins_tau p (joins_harmonic q)).smul (1 / 2)
  rw [LinearMap.comp_smul, LinearMap.comp_sub, LinearMap.comp_smul, both_both, both_each] at this
  rw [isoQuadrupole2, onEach_zero _ _ hm, onEach_zero' _ _ hm]
  rw [show ∀ X : Op2, (1 / 2 : ℝ) • (2 : ℝ) • X = X from fun X => by module] at this
  exact this

theorem joins_casimir : Joins casimir2 casimirSum := by
  rw [casimir_terms, casimirSum]
  refine Joins.add (joins_sum fun q _ => ?_) (joins_sum fun q _ => joins_sum fun p _ => ?_)
  · exact (((joins_spins q).comp (joins_spins (-q))).add ((joins_isospins q).comp (joins_isospins (-q)))).smul _
  · exact ((joins_gt q p).comp (joins_gt (-q) (-p))).smul _

/-- The operators are the same. -/
theorem separates_joins {c : Choice} {Lab : OpLabels → Prop} {J0 T0 : ℕ} {O : ℤ → ℤ → Nucl →ₗ[ℝ] Nucl} (h : Physical c Lab J0 T0 O) {p : ℤ} {sep : ℤ → Op2}
    (hs : Separates c p sep) {q : ℤ} (hq : |q| ≤ J0) : Joins (sep (2 * q)) (O q p) := by
  generalize hc : c = c' at h
  cases hs with
  | distance => cases h with
    | distance T0 => cases hc; exact joins_distance
    | _ => simp at hc
  | isoDistance p => cases h with
    | distance T0 => cases hc; exact joins_isoDistance p
    | _ => simp at hc
  | rsqr => cases h with
    | rsqr => exact joins_distance
    | _ => simp at hc
  | quadrupole => cases h with
    | quadrupole T0 => cases hc; exact joins_quadrupole q _
    | _ => simp at hc
  | isoQuadrupole p => cases h with
    | quadrupole T0 => cases hc; exact joins_isoQuadrupole (by exact_mod_cast hq) p
    | _ => simp at hc
  | orbital => cases h with
    | orbital T0 => cases hc; exact joins_orbital (by exact_mod_cast hq)
    | _ => simp at hc
  | isoOrbital p => cases h with
    | orbital T0 => cases hc; exact joins_isoOrbital (by exact_mod_cast hq) p
    | _ => simp at hc
  | spin => cases h with
    | spin => exact joins_spins q
    | _ => simp at hc
  | isoSpin p => cases h with
    | spinIsovector => exact joins_gt q p
    | _ => simp at hc
  | isospin p => cases h with
    | isospin => exact joins_isospins p
    | _ => simp at hc
  | casimir => cases h with
    | casimir => exact joins_casimir
    | _ => simp at hc
  | gamowTeller p => cases h with
    | gamowTeller => exact (joins_gt q p).smul _
    | _ => simp at hc

end Verif.Mixer
