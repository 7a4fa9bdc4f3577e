import Verif.Relative.States

/-!
# Products of tensor operators, and the axial two-nucleon current

Specification: an operator on the orbital motion coupled with one on the spins, and the operator built from the
products `σ1 τ1`, `σ2 τ2` and `[σ1 ⊗ σ2]₁ [τ1 ⊗ τ2]₁` with central and tensor radial parts.
-/

namespace Verif.Relative
open Verif Verif.H2 Verif.Osc MeasureTheory Set

/-- Component `q` of the product of rank `k` of two operators of rank `k1` and `k2`. -/
noncomputable def product (cg : Cg) (k1 k2 k : ℕ) (A B : Int → ℝ) (q : Int) : ℝ :=
  ∑ u ∈ ms k1, ∑ v ∈ ms k2, cg k1 u k2 v k q * (A u * B v)

/-- `f` is the factor of Racah's reduction for a product of operators on the two systems. -/
def Reduces12 (cg : Cg) (f : ℝ) (a' b' j' a b j k1 k2 k : ℕ) : Prop :=
  WE cg j' k j (fun q => couple cg a' b' j' a b j fun x' y' x y =>
    product cg k1 k2 k (fun u => cg a x k1 u a' x') (fun v => cg b y k2 v b' y') q) f

/-- `σ1` (or `τ1`). -/
noncomputable def sigma1 (q a' b' a b : Int) : ℝ := 2 * jmat 1 q a' a * δ b' b

/-- `σ2` (or `τ2`). -/
noncomputable def sigma2 (q a' b' a b : Int) : ℝ := δ a' a * (2 * jmat 1 q b' b)

/-- `[σ1 ⊗ σ2]₁` (or the same of isospins). -/
noncomputable def crossPair (cg : Cg) (q a' b' a b : Int) : ℝ :=
  product cg 2 2 2 (fun u => 2 * jmat 1 u a' a) (fun v => 2 * jmat 1 v b' b) q

/-- A pair operator with a spin part `X` and an isospin part `Y`, a central radial part and a part coupled with the
second spherical harmonic `C`. -/
noncomputable def pairOp (cg : Cg) (C : ℕ → ℕ → Int → Int → Int → ℝ) (central tensor : ℕ → ℕ → ℕ → ℕ → ℝ)
    (X Y : Int → Int → Int → Int → Int → ℝ) (q p : Int) (c' c : Cfg) : ℝ :=
  (if c'.L = c.L then central c'.n c'.L c.n c.L * (δ c'.mL c.mL * X q c'.m1 c'.m2 c.m1 c.m2) else 0)
      * Y p c'.t1 c'.t2 c.t1 c.t2
    + tensor c'.n c'.L c.n c.L
      * product cg 4 2 2 (fun u => C c'.L c.L u c'.mL c.mL) (fun v => X v c'.m1 c'.m2 c.m1 c.m2) q
      * Y p c'.t1 c'.t2 c.t1 c.t2

/-! ## Radial integrals by sampling -/

/-- The values of `f(r(z)) r'(z)` at `z = k/(N-1)` for `r = b z/(1-z)`, zero at both ends. -/
noncomputable def samples (N : ℕ) (b : ℝ) (f : ℝ → ℝ) : List ℝ :=
  (List.range N).map fun k : ℕ =>
    if k = 0 ∨ k + 1 = N then 0
    else f (b * ((k / ((N : ℝ) - 1)) / (1 - k / ((N : ℝ) - 1)))) * (b / (1 - k / ((N : ℝ) - 1)) ^ 2)

/-- Radial integral by the rule `rule`, which is given the points and the values. -/
noncomputable def radialInt (rule : List ℝ → List ℝ → ℝ) (N : ℕ) (b : ℝ) (f : ℝ → ℝ) : ℝ :=
  rule ((List.range N).map fun k : ℕ => (k : ℝ) / ((N : ℝ) - 1)) (samples N b f)

/-! ## The axial current -/

namespace Axial

/-- Mass of the pion in inverse fm. -/
noncomputable def mpi : ℝ := 138.03 / 197.3269804
/-- Decay constant of the pion in inverse fm. -/
noncomputable def fpi : ℝ := 92.4 / 197.3269804
/-- `c3` in fm. -/
noncomputable def c3 : ℝ := -(4.69 * 0.1973269804)
/-- `c4` in fm. -/
noncomputable def c4 : ℝ := 3.4 * 0.1973269804
/-- `g_A M^3 / (12 π F^2)`. -/
noncomputable def strength : ℝ := 1.29 * mpi ^ 3 / (12 * Real.pi * fpi ^ 2)
/-- `D = c_D / (F^2 Λ)` in fm^3, `Λ` = 700 MeV. -/
noncomputable def dConst (cD : ℝ) : ℝ := cD / (fpi ^ 2 * (700 / 197.3269804))

/-- Regulated Yukawa function `exp(-x)/x`, `x = M r`. -/
noncomputable def yukawa (R r : ℝ) : ℝ :=
  Real.exp (-(mpi * r)) / (mpi * r) * (1 - Real.exp (-(r / R) ^ 2)) ^ 6

/-- Tensor function `exp(-x)/x (1 + 3/x + 3/x^2)`. -/
noncomputable def yukawaT (R r : ℝ) : ℝ :=
  yukawa R r * (1 + 3 / (mpi * r) + 3 / (mpi * r) ^ 2)

/-- Smeared delta function of the contact term. -/
noncomputable def gauss (R r : ℝ) : ℝ := Real.exp (-(r / R) ^ 2) / (Real.sqrt Real.pi * R) ^ 3

/-- The current: `c3` and `c4` terms of one-pion range with radial integral `I`, and a contact term. -/
noncomputable def current (cg : Cg) (C : ℕ → ℕ → Int → Int → Int → ℝ) (I : (ℝ → ℝ) → ℝ) (b R : ℝ)
    (contact : ℕ → ℕ → ℕ → ℕ → ℝ) (q p : Int) (c' c : Cfg) : ℝ :=
  let Y n' L' n L := I fun r => oscFn n' L' b r * (mpi * yukawa R r) * oscFn n L b r
  let T n' L' n L := I fun r => oscFn n' L' b r * (mpi * yukawaT R r) * oscFn n L b r
  let c3c n' L' n L := -(c3 * strength / mpi * Y n' L' n L) + contact n' L' n L
  let c3t n' L' n L := Real.sqrt 10 * c3 * strength / mpi * T n' L' n L
  let c4c n' L' n L := 2 * c4 * strength / mpi * Y n' L' n L
  let c4t n' L' n L := Real.sqrt 10 * c4 * strength / mpi * T n' L' n L
  pairOp cg C c3c c3t sigma1 sigma1 q p c' c + pairOp cg C c3c c3t sigma2 sigma2 q p c' c
    + pairOp cg C c4c c4t (crossPair cg) (crossPair cg) q p c' c

/-- Contact term between states of equal `L`, from the integrals of the wave functions times the smeared delta. -/
noncomputable def contactAll (I : (ℝ → ℝ) → ℝ) (b R D : ℝ) (n' L' n L : ℕ) : ℝ :=
  -(D / 4) * (I (fun r => oscFn n' L' b r * gauss R r) * I fun r => oscFn n L b r * gauss R r)

/-- Matrix element of `-(D/4) |g⟩⟨g|` with `g` the smeared delta function: `g` is spherical, so only `L = 0` is
reached, and `∫ d³r φ g = √(4π) ∫ dr r u(r) g(r)`. -/
noncomputable def contactS (I : (ℝ → ℝ) → ℝ) (b R D : ℝ) (n' L' n L : ℕ) : ℝ :=
  if L' = 0 ∧ L = 0 then
    -(D / 4) * (4 * Real.pi * (I (fun r => r * oscFn n' L' b r * gauss R r) * I fun r => r * oscFn n L b r * gauss R r))
  else 0

end Axial

end Verif.Relative
