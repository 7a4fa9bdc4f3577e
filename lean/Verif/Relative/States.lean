import Verif.Relative.AmSpec
import Verif.Relative.Labels
import Verif.Osc.SquareIntegral
import Verif.Osc.IntegralProps

/-!
# Relative states and physical operators

Specification: the states `|n (L S)J T⟩` of two nucleons in relative motion as sums over the projections of the orbital
angular momentum, the two spins and the two isospins, the operators as matrices between those projections, and the
reduced matrix elements they have.  Nothing here refers to recoupling coefficients.
-/

namespace Verif.Relative
open Verif Verif.H2 Verif.Osc MeasureTheory Set

/-- Uncoupled state of relative motion and of the two spins and isospins (projections doubled). -/
structure Cfg where
  n : ℕ
  L : ℕ
  mL : Int
  m1 : Int
  m2 : Int
  t1 : Int
  t2 : Int

/-- Element of `A` between `⟨n' (L' S')J' M' T' P'|` and `|n (L S)J M T P⟩`. -/
noncomputable def element (cg : Cg) (A : Cfg → Cfg → ℝ) (s' s : RelSub) (n' n : ℕ) (M' M P' P : Int) : ℝ :=
  couple cg (2 * s'.L) (2 * s'.S) (2 * s'.J) (2 * s.L) (2 * s.S) (2 * s.J) (fun x' y' x y =>
    couple cg 1 1 (2 * s'.S) 1 1 (2 * s.S) (fun a' b' a b =>
      couple cg 1 1 (2 * s'.T) 1 1 (2 * s.T) (fun c' d' c d =>
        A ⟨n', s'.L, x', a', b', c', d'⟩ ⟨n, s.L, x, a, b, c, d⟩) P' P) y' y) M' M

/-- `x` is the reduced element, in angular momentum and isospin (Rose), of the operator of rank `J0`, `T0` with
components `A q p`. -/
def Reduced (cg : Cg) (J0 T0 : ℕ) (A : Int → Int → Cfg → Cfg → ℝ) (s' s : RelSub) (n' n : ℕ) (x : ℝ) : Prop :=
  ∀ M' ∈ ms (2 * s'.J), ∀ q ∈ ms (2 * J0), ∀ M ∈ ms (2 * s.J),
    ∀ P' ∈ ms (2 * s'.T), ∀ p ∈ ms (2 * T0), ∀ P ∈ ms (2 * s.T),
      element cg (A q p) s' s n' n M' M P' P =
        cg (2 * s.J : ℕ) M (2 * J0 : ℕ) q (2 * s'.J : ℕ) M' * cg (2 * s.T : ℕ) P (2 * T0 : ℕ) p (2 * s'.T : ℕ) P' * x

/-! ## Operators -/

/-- Identity on both spins, or on both isospins. -/
def idPair (a' b' a b : Int) : ℝ := δ a' a * δ b' b

/-- `s1 + s2`, or `t1 + t2`: component `q`. -/
noncomputable def sumPair (q a' b' a b : Int) : ℝ := jmat 1 q a' a * δ b' b + δ a' a * jmat 1 q b' b

/-- Isospin part: identity for `T0 = 0`, `τ1 + τ2` for `T0 = 1`. -/
noncomputable def isoPair (T0 : ℕ) (p a' b' a b : Int) : ℝ := if T0 = 0 then idPair a' b' a b else 2 * sumPair p a' b' a b

/-- Radial integral of `r²` for relative length `√2`. -/
noncomputable def rSqr (n' L' n L : ℕ) : ℝ :=
  ∫ x in Ioi (0 : ℝ), oscFn n' L' (Real.sqrt 2) x * (x ^ 2 * oscFn n L (Real.sqrt 2) x)

/-- Radial integral of `r` for relative length `√2`. -/
noncomputable def rOne (n' L' n L : ℕ) : ℝ :=
  ∫ x in Ioi (0 : ℝ), oscFn n' L' (Real.sqrt 2) x * (x * oscFn n L (Real.sqrt 2) x)

/-- Radial integral of `1/r` for relative length `√2`. -/
noncomputable def rInv (n' L' n L : ℕ) : ℝ :=
  ∫ x in Ioi (0 : ℝ), oscFn n' L' (Real.sqrt 2) x * (x⁻¹ * oscFn n L (Real.sqrt 2) x)

/-- Integral of `k²` between the momentum wave functions of relative length `√2`: in momentum space the length is
`1/√2` and a wave function has the phase `(-1)^n`. -/
noncomputable def kSqr (n' n L : ℕ) : ℝ :=
  (-1) ^ (n' + n) * ∫ k in Ioi (0 : ℝ), oscFn n' L (1 / Real.sqrt 2) k * (k ^ 2 * oscFn n L (1 / Real.sqrt 2) k)

/-- Spin and orbital identity with a radial part. -/
noncomputable def centralOp (radial : ℕ → ℕ → ℕ → ℝ) (T0 : ℕ) (_q p : Int) (c' c : Cfg) : ℝ :=
  if c'.L = c.L then
    radial c'.n c.n c.L * (δ c'.mL c.mL * idPair c'.m1 c'.m2 c.m1 c.m2) * isoPair T0 p c'.t1 c'.t2 c.t1 c.t2
  else 0

/-- `r²`, isoscalar or times `τ1 + τ2`. -/
noncomputable def rSqrOp : ℕ → Int → Int → Cfg → Cfg → ℝ := centralOp fun n' n L => rSqr n' L n L

/-- `k²`, isoscalar or times `τ1 + τ2`. -/
noncomputable def kSqrOp : ℕ → Int → Int → Cfg → Cfg → ℝ := centralOp kSqr

/-- The identity in the radial quantum number. -/
def same (n' n : ℕ) : ℝ := if n' = n then 1 else 0

/-- Relative orbital angular momentum. -/
noncomputable def orbitalOp (T0 : ℕ) (q p : Int) (c' c : Cfg) : ℝ :=
  if c'.L = c.L then
    same c'.n c.n * (jmat (2 * c.L) q c'.mL c.mL * idPair c'.m1 c'.m2 c.m1 c.m2) * isoPair T0 p c'.t1 c'.t2 c.t1 c.t2
  else 0

/-- Spin: `s1 + s2` for `T0 = 0`, `s1 τ1 + s2 τ2` for `T0 = 1`. -/
noncomputable def spinOp (T0 : ℕ) (q p : Int) (c' c : Cfg) : ℝ :=
  if c'.L = c.L then
    if T0 = 0 then
      same c'.n c.n * (δ c'.mL c.mL * sumPair q c'.m1 c'.m2 c.m1 c.m2) * idPair c'.t1 c'.t2 c.t1 c.t2
    else
      same c'.n c.n * (δ c'.mL c.mL * (jmat 1 q c'.m1 c.m1 * δ c'.m2 c.m2))
          * (2 * jmat 1 p c'.t1 c.t1 * δ c'.t2 c.t2)
        + same c'.n c.n * (δ c'.mL c.mL * (δ c'.m1 c.m1 * jmat 1 q c'.m2 c.m2))
          * (δ c'.t1 c.t1 * (2 * jmat 1 p c'.t2 c.t2))
  else 0

/-- Isospin `t1 + t2`. -/
noncomputable def isospinOp (_q p : Int) (c' c : Cfg) : ℝ :=
  if c'.L = c.L then
    same c'.n c.n * (δ c'.mL c.mL * idPair c'.m1 c'.m2 c.m1 c.m2) * sumPair p c'.t1 c'.t2 c.t1 c.t2
  else 0

/-- `r² Y2 / 2`, isoscalar or times `τ1 + τ2`, given the matrix `Y` of the spherical harmonic. -/
noncomputable def quadrupoleOp (Y : ℕ → ℕ → Int → Int → Int → ℝ) (T0 : ℕ) (q p : Int) (c' c : Cfg) : ℝ :=
  rSqr c'.n c'.L c.n c.L / 2 * (Y c'.L c.L q c'.mL c.mL * idPair c'.m1 c'.m2 c.m1 c.m2)
    * isoPair T0 p c'.t1 c'.t2 c.t1 c.t2

/-- The dipole `(τ1 - τ2) r`, given the matrix `N` of the unit vector. -/
noncomputable def dipoleOp (N : ℕ → ℕ → Int → Int → Int → ℝ) (q p : Int) (c' c : Cfg) : ℝ :=
  rOne c'.n c'.L c.n c.L * (N c'.L c.L q c'.mL c.mL * idPair c'.m1 c'.m2 c.m1 c.m2)
    * (2 * (jmat 1 p c'.t1 c.t1 * δ c'.t2 c.t2 - δ c'.t1 c.t1 * jmat 1 p c'.t2 c.t2))

/-! ## Laws of the libraries, for the labels in use -/

/-- Two spins one-half, or two isospins one-half. -/
structure HalfLaws (cg : Cg) (am : Am) : Prop where
  ortho : ∀ S' S : ℕ, S' ≤ 1 → S ≤ 1 → OrthoLaw cg 1 1 (2 * S') (2 * S)
  total : ∀ S' S : ℕ, S' ≤ 1 → S ≤ 1 → TotalLaw cg 1 1 (2 * S') (2 * S)
  red1 : ∀ S' S : ℕ, S' ≤ 1 → S ≤ 1 → Reduces1 cg (am.rose1 1 1 (2 * S') 1 1 (2 * S) 2) 1 1 1 (2 * S') (2 * S) 2
  red2 : ∀ S' S : ℕ, S' ≤ 1 → S ≤ 1 → Reduces2 cg (am.rose2 1 1 (2 * S') 1 1 (2 * S) 2) 1 1 1 (2 * S') (2 * S) 2
  half : VectorLaw cg 1
  vector : ∀ S : ℕ, S ≤ 1 → VectorLaw cg (2 * S)
  scalar : ∀ S : ℕ, S ≤ 1 → ScalarLaw cg (2 * S)
  zero : ∀ q ∈ ms 2, cg 0 0 2 q 0 0 = 0
  jrme : ∀ S' S : ℕ, S' ≤ 1 → S ≤ 1 → am.jRME (2 * S') (2 * S) = if S' = S then Real.sqrt (((S * (S + 1) : ℕ) : ℝ)) else 0

/-- Orbital motion and spin of the two subspaces of a sector. -/
structure LSLaws (cg : Cg) (am : Am) (s' s : RelSub) : Prop where
  ortho : s'.L = s.L → s'.S = s.S → OrthoLaw cg (2 * s.L) (2 * s.S) (2 * s'.J) (2 * s.J)
  scalar : ScalarLaw cg (2 * s.J)
  vector : VectorLaw cg (2 * s.L)
  red1 : s'.S = s.S → tri s'.L 1 s.L → tri s'.J 1 s.J →
    Reduces1 cg (am.rose1 (2 * s'.L) (2 * s'.S) (2 * s'.J) (2 * s.L) (2 * s.S) (2 * s.J) 2)
      (2 * s'.L) (2 * s.L) (2 * s.S) (2 * s'.J) (2 * s.J) 2
  red2 : s'.L = s.L → tri s'.S 1 s.S → tri s'.J 1 s.J →
    Reduces2 cg (am.rose2 (2 * s'.L) (2 * s'.S) (2 * s'.J) (2 * s.L) (2 * s.S) (2 * s.J) 2)
      (2 * s.L) (2 * s'.S) (2 * s.S) (2 * s'.J) (2 * s.J) 2

/-- The subspaces of `RelativeSpaceLSJT` truncated at `N`. -/
structure SubOK (N : ℕ) (s : RelSub) : Prop where
  S : s.S ≤ 1
  T : s.T ≤ 1
  LSJ : tri s.L s.S s.J
  sym : (s.L + s.S + s.T) % 2 = 1
  Nmax : s.Nmax = N
  L : s.L ≤ N
  size : s.size = (N - s.L) / 2 + 1

/-- The sectors of component `T0` of an operator with labels `o`. -/
structure SecOK (N : ℕ) (o : OpLabels) (T0 : ℕ) (s' s : RelSub) : Prop where
  bra : SubOK N s'
  ket : SubOK N s
  J : tri s'.J o.J0 s.J
  T : tri s'.T T0 s.T
  g : (s'.L + s.L + o.g0) % 2 = 0

/-! ## Elements of products -/

theorem element_congr {cg : Cg} {A B : Cfg → Cfg → ℝ} {s' s : RelSub} {n' n : ℕ} {M' M P' P : Int}
    (h : ∀ c' c : Cfg, c'.n = n' → c'.L = s'.L → c.n = n → c.L = s.L → A c' c = B c' c) :
    element cg A s' s n' n M' M P' P = element cg B s' s n' n M' M P' P := by
  unfold element
  refine couple_congr fun x' _ y' _ x _ y _ => couple_congr fun a' _ b' _ a _ b _ =>
    couple_congr fun c' _ d' _ c _ d _ => h _ _ rfl rfl rfl rfl

theorem element_zero {cg : Cg} {s' s : RelSub} {n' n : ℕ} {M' M P' P : Int} :
    element cg (fun _ _ => 0) s' s n' n M' M P' P = 0 := by
  simp only [element, couple_zero]

theorem element_add {cg : Cg} (A B : Cfg → Cfg → ℝ) {s' s : RelSub} {n' n : ℕ} {M' M P' P : Int} :
    element cg (fun c' c => A c' c + B c' c) s' s n' n M' M P' P =
      element cg A s' s n' n M' M P' P + element cg B s' s n' n M' M P' P := by
  simp only [element, couple_add]

/-- A product of a radial, an orbital, a spin and an isospin part. -/
theorem element_prod {cg : Cg} (r : ℝ) (O : Int → Int → ℝ) (X Y : Int → Int → Int → Int → ℝ) {s' s : RelSub}
    {n' n : ℕ} {M' M P' P : Int} :
    element cg (fun c' c => r * (O c'.mL c.mL * X c'.m1 c'.m2 c.m1 c.m2) * Y c'.t1 c'.t2 c.t1 c.t2)
      s' s n' n M' M P' P =
    r * couple cg (2 * s'.L) (2 * s'.S) (2 * s'.J) (2 * s.L) (2 * s.S) (2 * s.J)
        (fun x' y' x y => O x' x * couple cg 1 1 (2 * s'.S) 1 1 (2 * s.S) X y' y) M' M
      * couple cg 1 1 (2 * s'.T) 1 1 (2 * s.T) Y P' P := by
  simp only [element, couple_smul, couple_mul, mul_assoc]
  rw [← couple_mul]
  simp only [mul_assoc]

end Verif.Relative
