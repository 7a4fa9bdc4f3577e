import Mathlib.Analysis.Real.Sqrt
import Mathlib.Algebra.BigOperators.Ring.Finset
import Mathlib.Algebra.BigOperators.Group.Finset.Sigma
import Mathlib.Tactic.Ring
import Mathlib.Tactic.LinearCombination

/-!
# Angular momentum by projections

Specification of reduced matrix elements, independent of recoupling coefficients: states of good angular momentum are
sums over projections with Clebsch-Gordan coefficients, and a reduced element is what remains of the elements between
all projections when the Clebsch-Gordan coefficient of the Wigner-Eckart theorem is divided out (Rose normalisation).
Angular momenta and projections are doubled throughout.
-/

namespace Verif.Relative

/-- `(j1 m1 j2 m2|j m)`, arguments doubled. -/
abbrev Cg := Int → Int → Int → Int → Int → Int → ℝ

/-- The projections of `j`. -/
def ms (tj : ℕ) : Finset Int := (Finset.range (tj + 1)).image fun k : ℕ => 2 * (k : Int) - tj

/-- Element of `A` between products of two projections coupled to `j' M'` and `j M`. -/
noncomputable def couple (cg : Cg) (a' b' j' a b j : ℕ) (A : Int → Int → Int → Int → ℝ) (M' M : Int) : ℝ :=
  ∑ x' ∈ ms a', ∑ y' ∈ ms b', ∑ x ∈ ms a, ∑ y ∈ ms b,
    cg a' x' b' y' j' M' * cg a x b y j M * A x' y' x y

/-- The spherical components `J_0 = J_z`, `J_{±1} = ∓ J_± / √2` between projections of `j`. -/
noncomputable def jmat (tj : ℕ) (q m' m : Int) : ℝ :=
  if q = 0 then (if m' = m then (m : ℝ) / 2 else 0)
  else if q = 2 then (if m' = m + 2 then -(Real.sqrt (((tj : ℝ) - m) * (tj + m + 2)) / 2) / Real.sqrt 2 else 0)
  else if q = -2 then (if m' = m - 2 then Real.sqrt (((tj : ℝ) + m) * (tj - m + 2)) / 2 / Real.sqrt 2 else 0)
  else 0

/-- Kronecker symbol. -/
def δ (x y : Int) : ℝ := if x = y then 1 else 0

/-- Wigner-Eckart: `A q` are the components of an operator of rank `k` with reduced element `x`. -/
def WE (cg : Cg) (j' k j : ℕ) (A : Int → Int → Int → ℝ) (x : ℝ) : Prop :=
  ∀ m' ∈ ms j', ∀ q ∈ ms k, ∀ m ∈ ms j, A q m' m = cg j m k q j' m' * x

/-! ## Laws of Clebsch-Gordan coefficients and of recoupling factors, label by label -/

/-- The reduced element of the angular momentum itself is `√(j(j+1))`. -/
def VectorLaw (cg : Cg) (tj : ℕ) : Prop := WE cg tj 2 tj (jmat tj) (Real.sqrt ((tj : ℝ) * (tj + 2) / 4))

/-- Coupling with zero changes nothing. -/
def ScalarLaw (cg : Cg) (tj : ℕ) : Prop := ∀ m' ∈ ms tj, ∀ m ∈ ms tj, cg tj m 0 0 tj m' = δ m' m

/-- Coupled states are orthonormal. -/
def OrthoLaw (cg : Cg) (a b j' j : ℕ) : Prop :=
  ∀ M' ∈ ms j', ∀ M ∈ ms j,
    ∑ x ∈ ms a, ∑ y ∈ ms b, cg a x b y j' M' * cg a x b y j M = if j' = j then δ M' M else 0

/-- Coupled states are states of the total angular momentum. -/
def TotalLaw (cg : Cg) (a b j' j : ℕ) : Prop :=
  ∀ q ∈ ms 2, ∀ M' ∈ ms j', ∀ M ∈ ms j,
    couple cg a b j' a b j (fun x' y' x y => jmat a q x' x * δ y' y + δ x' x * jmat b q y' y) M' M =
      if j' = j then jmat j q M' M else 0

/-- `f` is the factor of Racah's reduction for an operator on the first system. -/
def Reduces1 (cg : Cg) (f : ℝ) (a' a b j' j k : ℕ) : Prop :=
  WE cg j' k j (fun q => couple cg a' b j' a b j fun x' y' x y => cg a x k q a' x' * δ y' y) f

/-- `f` is the factor of Racah's reduction for an operator on the second system. -/
def Reduces2 (cg : Cg) (f : ℝ) (a b' b j' j k : ℕ) : Prop :=
  WE cg j' k j (fun q => couple cg a b' j' a b j fun x' y' x y => δ x' x * cg b y k q b' y') f

/-! ## Linear algebra of `couple` -/

theorem couple_congr {cg : Cg} {a' b' j' a b j : ℕ} {A B : Int → Int → Int → Int → ℝ} {M' M : Int}
    (h : ∀ x' ∈ ms a', ∀ y' ∈ ms b', ∀ x ∈ ms a, ∀ y ∈ ms b, A x' y' x y = B x' y' x y) :
    couple cg a' b' j' a b j A M' M = couple cg a' b' j' a b j B M' M := by
  refine Finset.sum_congr rfl fun x' hx' => Finset.sum_congr rfl fun y' hy' => Finset.sum_congr rfl fun x hx =>
    Finset.sum_congr rfl fun y hy => ?_
  rw [h x' hx' y' hy' x hx y hy]

theorem couple_smul {cg : Cg} {a' b' j' a b j : ℕ} (c : ℝ) (A : Int → Int → Int → Int → ℝ) (M' M : Int) :
    couple cg a' b' j' a b j (fun x' y' x y => c * A x' y' x y) M' M = c * couple cg a' b' j' a b j A M' M := by
  simp only [couple, Finset.mul_sum]
  refine Finset.sum_congr rfl fun x' _ => Finset.sum_congr rfl fun y' _ => Finset.sum_congr rfl fun x _ =>
    Finset.sum_congr rfl fun y _ => ?_
  ring

theorem couple_mul {cg : Cg} {a' b' j' a b j : ℕ} (c : ℝ) (A : Int → Int → Int → Int → ℝ) (M' M : Int) :
    couple cg a' b' j' a b j (fun x' y' x y => A x' y' x y * c) M' M = couple cg a' b' j' a b j A M' M * c := by
  rw [mul_comm, ← couple_smul]
  simp only [mul_comm]

theorem couple_add {cg : Cg} {a' b' j' a b j : ℕ} (A B : Int → Int → Int → Int → ℝ) (M' M : Int) :
    couple cg a' b' j' a b j (fun x' y' x y => A x' y' x y + B x' y' x y) M' M =
      couple cg a' b' j' a b j A M' M + couple cg a' b' j' a b j B M' M := by
  simp only [couple, mul_add, Finset.sum_add_distrib]

theorem couple_zero {cg : Cg} {a' b' j' a b j : ℕ} (M' M : Int) :
    couple cg a' b' j' a b j (fun _ _ _ _ => 0) M' M = 0 := by
  simp [couple]

theorem couple_id {cg : Cg} {a b j' j : ℕ} (M' M : Int) :
    couple cg a b j' a b j (fun x' y' x y => δ x' x * δ y' y) M' M =
      ∑ x ∈ ms a, ∑ y ∈ ms b, cg a x b y j' M' * cg a x b y j M := by
  simp only [couple, δ]
  refine Finset.sum_congr rfl fun x' hx' => Finset.sum_congr rfl fun y' hy' => ?_
  simp [hx', hy']

/-- The identity between coupled states. -/
theorem couple_ortho {cg : Cg} {a b j' j : ℕ} (h : OrthoLaw cg a b j' j) {M' M : Int} (hM' : M' ∈ ms j') (hM : M ∈ ms j) :
    couple cg a b j' a b j (fun x' y' x y => δ x' x * δ y' y) M' M = if j' = j then δ M' M else 0 := by
  rw [couple_id, h M' hM' M hM]

/-- Racah's reduction for any operator of rank `k` on the first system. -/
theorem reduce1 {cg : Cg} {f : ℝ} {a' a b j' j k : ℕ} (h : Reduces1 cg f a' a b j' j k)
    {A : Int → Int → Int → ℝ} {x : ℝ} (hA : WE cg a' k a A x) :
    WE cg j' k j (fun q => couple cg a' b j' a b j fun x' y' x y => A q x' x * δ y' y) (f * x) := by
  intro M' hM' q hq M hM
  have h1 := h M' hM' q hq M hM
  simp only at h1 ⊢
  rw [← mul_assoc, ← h1, ← couple_mul]
  refine couple_congr fun x' hx' y' _ x0 hx y _ => ?_
  rw [hA x' hx' q hq x0 hx]
  ring

theorem reduce2 {cg : Cg} {f : ℝ} {a b' b j' j k : ℕ} (h : Reduces2 cg f a b' b j' j k)
    {A : Int → Int → Int → ℝ} {x : ℝ} (hA : WE cg b' k b A x) :
    WE cg j' k j (fun q => couple cg a b' j' a b j fun x' y' x y => δ x' x * A q y' y) (f * x) := by
  intro M' hM' q hq M hM
  have h1 := h M' hM' q hq M hM
  simp only at h1 ⊢
  rw [← mul_assoc, ← h1, ← couple_mul]
  refine couple_congr fun x' _ y' hy' x0 _ y hy => ?_
  rw [hA y' hy' q hq y hy]
  ring

theorem WE.add {cg : Cg} {j' k j : ℕ} {A B : Int → Int → Int → ℝ} {x y : ℝ} (hA : WE cg j' k j A x)
    (hB : WE cg j' k j B y) : WE cg j' k j (fun q m' m => A q m' m + B q m' m) (x + y) := by
  intro m' hm' q hq m hm
  simp only
  rw [hA m' hm' q hq m hm, hB m' hm' q hq m hm]
  ring

theorem WE.smul {cg : Cg} {j' k j : ℕ} {A : Int → Int → Int → ℝ} {x : ℝ} (c : ℝ) (hA : WE cg j' k j A x) :
    WE cg j' k j (fun q m' m => c * A q m' m) (c * x) := by
  intro m' hm' q hq m hm
  simp only
  rw [hA m' hm' q hq m hm]
  ring

theorem WE.congr {cg : Cg} {j' k j : ℕ} {A B : Int → Int → Int → ℝ} {x : ℝ} (hA : WE cg j' k j A x)
    (h : ∀ m' ∈ ms j', ∀ q ∈ ms k, ∀ m ∈ ms j, B q m' m = A q m' m) : WE cg j' k j B x := by
  intro m' hm' q hq m hm
  rw [h m' hm' q hq m hm, hA m' hm' q hq m hm]

theorem WE.zero {cg : Cg} {j' k j : ℕ} {A : Int → Int → Int → ℝ}
    (h : ∀ m' ∈ ms j', ∀ q ∈ ms k, ∀ m ∈ ms j, A q m' m = 0) : WE cg j' k j A 0 := by
  intro m' hm' q hq m hm
  rw [h m' hm' q hq m hm, mul_zero]

end Verif.Relative
