import Verif.Relative.NLOM1
import Verif.Relative.N2LOSpec

/-!
# The two-nucleon magnetic dipole current

Specification: the states `|(n l, N Λ)L S; J T⟩` of two nucleons in relative and centre-of-mass motion as sums over the
projections of both orbital angular momenta, the two spins and the two isospins, and the magnetic dipole operator of
one-pion range as a matrix between those projections.  `NLOM1Cartesian.lean` gives its meaning in terms of vectors.
-/

namespace Verif.Relative.Relcm
open Verif Verif.H2 Verif.Osc Verif.Relative MeasureTheory Set Axial

/-- Uncoupled state of relative and centre-of-mass motion and of the two spins and isospins (projections doubled). -/
structure Cfg where
  nr : ℕ
  lr : ℕ
  mr : Int
  nc : ℕ
  lc : ℕ
  mc : Int
  m1 : Int
  m2 : Int
  t1 : Int
  t2 : Int

/-- Radial quantum number of the relative motion. -/
def State.nr (p : State) : ℕ := (p.Nr - p.lr) / 2
/-- Radial quantum number of the centre-of-mass motion. -/
def State.nc (p : State) : ℕ := (p.Nc - p.lc) / 2

/-- Element of `A` between two relative-cm states. -/
noncomputable def element (cg : Cg) (A : Cfg → Cfg → ℝ) (s' s : Sub) (p' p : State) (M' M P' P : Int) : ℝ :=
  couple cg (2 * s'.L) (2 * s'.S) (2 * s'.J) (2 * s.L) (2 * s.S) (2 * s.J) (fun X' Y' X Y =>
    couple cg (2 * p'.lr) (2 * p'.lc) (2 * s'.L) (2 * p.lr) (2 * p.lc) (2 * s.L) (fun x' z' x z =>
      couple cg 1 1 (2 * s'.S) 1 1 (2 * s.S) (fun a' b' a b =>
        couple cg 1 1 (2 * s'.T) 1 1 (2 * s.T) (fun c' d' c d =>
          A ⟨p'.nr, p'.lr, x', p'.nc, p'.lc, z', a', b', c', d'⟩ ⟨p.nr, p.lr, x, p.nc, p.lc, z, a, b, c, d⟩)
          P' P) Y' Y) X' X) M' M

/-- `x` is the reduced element, in angular momentum and isospin (Rose), of the operator of rank `J0`, `T0` with
components `A q p`. -/
def Reduced (cg : Cg) (J0 T0 : ℕ) (A : Int → Int → Cfg → Cfg → ℝ) (s' s : Sub) (p' p : State) (x : ℝ) : Prop :=
  ∀ M' ∈ ms (2 * s'.J), ∀ q ∈ ms (2 * J0), ∀ M ∈ ms (2 * s.J),
    ∀ P' ∈ ms (2 * s'.T), ∀ v ∈ ms (2 * T0), ∀ P ∈ ms (2 * s.T),
      element cg (A q v) s' s p' p M' M P' P =
        cg (2 * s.J : ℕ) M (2 * J0 : ℕ) q (2 * s'.J : ℕ) M' * cg (2 * s.T : ℕ) P (2 * T0 : ℕ) v (2 * s'.T : ℕ) P' * x

/-! ## The operator -/

/-- Mass of the nucleon in inverse fm: mean of proton and neutron. -/
noncomputable def mN : ℝ := (938.272 + 939.565) / 2 / 197.3269804

/-- `-√(3/4π) g_A² m_N m_π / (24 π F²)`. -/
noncomputable def strength : ℝ :=
  -(Real.sqrt (3 / (4 * Real.pi)) * (1.29 ^ 2 * mN * mpi / (24 * Real.pi * fpi ^ 2)))

/-- Local regulator; none for `R = 0`. -/
noncomputable def reg (R r : ℝ) : ℝ := if R = 0 then 1 else (1 - Real.exp (-(r / R) ^ 2)) ^ 6

/-- Radial integral of `e^{-x}/x^k`, `x = m_π r`, with the regulator. -/
noncomputable def yukK (I : (ℝ → ℝ) → ℝ) (b R : ℝ) (k n' l' n l : ℕ) : ℝ :=
  I (fun r => oscFn n' l' b r * (Real.exp (-(mpi * r)) / r ^ k * reg R r) * oscFn n l b r) / mpi ^ k

/-- Radial integral of the centre-of-mass coordinate. -/
noncomputable def cmCoord (b : ℝ) (n' l' n l : ℕ) : ℝ :=
  ∫ x in Ioi (0 : ℝ), oscFn n' l' b x * (x * oscFn n l b x)

/-- `[σ1 ⊗ σ2]_k` (or the same of isospins), `k` doubled. -/
noncomputable def pairK (cg : Cg) (k : ℕ) (q a' b' a b : Int) : ℝ :=
  product cg 2 2 k (fun u => 2 * jmat 1 u a' a) (fun v => 2 * jmat 1 v b' b) q

/-- `[[C_{k1}(r̂) ⊗ C_1(R̂)]_k ⊗ [σ1 ⊗ σ2]_{S0}]_1`, given the matrices `C` of the spherical harmonics. -/
noncomputable def term (cg : Cg) (C : ℕ → ℕ → ℕ → Int → Int → Int → ℝ) (k1 k S0 : ℕ) (q : Int) (c' c : Cfg) : ℝ :=
  product cg (2 * k) (2 * S0) 2
    (product cg (2 * k1) 2 (2 * k) (fun u => C k1 c'.lr c.lr u c'.mr c.mr) fun v => C 1 c'.lc c.lc v c'.mc c.mc)
    (fun v => pairK cg (2 * S0) v c'.m1 c'.m2 c.m1 c.m2) q

/-- The part within the relative motion: `e^{-x}` and `e^{-x}/x` with `[σ1 ⊗ σ2]_1` and `√10 [C_2(r̂) ⊗ [σ1 ⊗ σ2]_1]_1`. -/
noncomputable def intrinsic (cg : Cg) (C : ℕ → ℕ → ℕ → Int → Int → Int → ℝ) (F : ℕ → ℕ → ℕ → ℕ → ℕ → ℝ) (q : Int)
    (c' c : Cfg) : ℝ :=
  if c'.nc = c.nc ∧ c'.lc = c.lc then
    δ c'.mc c.mc *
      ((if c'.lr = c.lr then
          (2 * F 0 c'.nr c'.lr c.nr c.lr - F 1 c'.nr c'.lr c.nr c.lr)
            * (δ c'.mr c.mr * pairK cg 2 q c'.m1 c'.m2 c.m1 c.m2)
        else 0)
      + (F 0 c'.nr c'.lr c.nr c.lr + F 1 c'.nr c'.lr c.nr c.lr)
          * (Real.sqrt 10 * product cg 4 2 2 (fun u => C 2 c'.lr c.lr u c'.mr c.mr)
              (fun v => pairK cg 2 v c'.m1 c'.m2 c.m1 c.m2) q))
  else 0

/-- The part with the centre-of-mass coordinate `X`: `m_π X e^{-x}` with the scalar product of the spins, and
`m_π X e^{-x} (1 + 3/x + 3/x²)` with the four terms that make up the tensor operator. -/
noncomputable def sachs (cg : Cg) (C : ℕ → ℕ → ℕ → Int → Int → Int → ℝ) (F : ℕ → ℕ → ℕ → ℕ → ℕ → ℝ)
    (X : ℕ → ℕ → ℕ → ℕ → ℝ) (q : Int) (c' c : Cfg) : ℝ :=
  mpi * X c'.nc c'.lc c.nc c.lc *
    (F 0 c'.nr c'.lr c.nr c.lr * (-Real.sqrt 3 * term cg C 1 1 0 q c' c)
      + (F 0 c'.nr c'.lr c.nr c.lr + 3 * F 1 c'.nr c'.lr c.nr c.lr + 3 * F 2 c'.nr c'.lr c.nr c.lr)
        * (Real.sqrt (3 / 5) * term cg C 1 1 2 q c' c + Real.sqrt (9 / 5) * term cg C 1 2 2 q c' c
          + Real.sqrt (14 / 5) * term cg C 3 2 2 q c' c + Real.sqrt (28 / 5) * term cg C 3 3 2 q c' c))

/-- The magnetic dipole operator: both parts times `[τ1 ⊗ τ2]_1`. -/
noncomputable def m1Op (cg : Cg) (C : ℕ → ℕ → ℕ → Int → Int → Int → ℝ) (F : ℕ → ℕ → ℕ → ℕ → ℕ → ℝ)
    (X : ℕ → ℕ → ℕ → ℕ → ℝ) (q v : Int) (c' c : Cfg) : ℝ :=
  strength * (intrinsic cg C F q c' c + sachs cg C F X q c' c) * pairK cg 2 v c'.t1 c'.t2 c.t1 c.t2

/-! ## Laws of the libraries, for the labels in use -/

/-- Two spins one-half, or two isospins one-half: reduction of `[σ1 ⊗ σ2]_k`.  The factor is zero if the triangle is
broken, and for rank one between triplets, where `σ1 × σ2` is odd under exchange. -/
structure PairLaws (cg : Cg) (am : Am) (am12 : Am12) : Prop where
  pair : ∀ S' S S0 : ℕ, S' ≤ 1 → S ≤ 1 → S0 ≤ 2 →
    Reduces12 cg (if tri S' S S0 then am12.rose12 1 1 (2 * S') 1 1 (2 * S) 2 2 (2 * S0) else 0)
      1 1 (2 * S') 1 1 (2 * S) 2 2 (2 * S0)
  odd : am12.rose12 1 1 2 1 1 2 2 2 2 = 0
  half : WE cg 1 2 1 (jmat 1) (am.jRME 1 1)

/-- Orbital motions and spin of two states.  A reduction factor is zero if a triangle is broken. -/
structure Laws (cg : Cg) (am : Am) (am12 : Am12) (C : ℕ → ℕ → ℕ → Int → Int → Int → ℝ) (s' s : Sub) (p' p : State) :
    Prop where
  both : ∀ k1 k : ℕ, (k1, k) ∈ [(1, 1), (1, 2), (3, 2), (3, 3)] →
    Reduces12 cg (if tri p'.lr p.lr k1 && tri p'.lc p.lc 1 && tri s'.L s.L k then
        am12.rose12 (2 * p'.lr) (2 * p'.lc) (2 * s'.L) (2 * p.lr) (2 * p.lc) (2 * s.L) (2 * k1) 2 (2 * k) else 0)
      (2 * p'.lr) (2 * p'.lc) (2 * s'.L) (2 * p.lr) (2 * p.lc) (2 * s.L) (2 * k1) 2 (2 * k)
  first : p'.lc = p.lc →
    Reduces1 cg (if tri p'.lr p.lr 2 && tri s'.L s.L 2 then
        am.rose1 (2 * p'.lr) (2 * p'.lc) (2 * s'.L) (2 * p.lr) (2 * p.lc) (2 * s.L) 4 else 0)
      (2 * p'.lr) (2 * p.lr) (2 * p.lc) (2 * s'.L) (2 * s.L) 4
  ortho : p'.lr = p.lr → p'.lc = p.lc → OrthoLaw cg (2 * p.lr) (2 * p.lc) (2 * s'.L) (2 * s.L)
  spin : ∀ kL kS : ℕ, (kL, kS) ∈ [(1, 0), (1, 2), (2, 2), (3, 2), (2, 1)] →
    Reduces12 cg (if tri s'.L s.L kL && tri s'.S s.S kS then
        am12.rose12 (2 * s'.L) (2 * s'.S) (2 * s'.J) (2 * s.L) (2 * s.S) (2 * s.J) (2 * kL) (2 * kS) 2 else 0)
      (2 * s'.L) (2 * s'.S) (2 * s'.J) (2 * s.L) (2 * s.S) (2 * s.J) (2 * kL) (2 * kS) 2
  second : s'.L = s.L →
    Reduces2 cg (if tri s'.S s.S 1 then
        am.rose2 (2 * s'.L) (2 * s'.S) (2 * s'.J) (2 * s.L) (2 * s.S) (2 * s.J) 2 else 0)
      (2 * s.L) (2 * s'.S) (2 * s.S) (2 * s'.J) (2 * s.J) 2
  harm : ∀ k : ℕ, k ∈ [1, 2, 3] →
    WE cg (2 * p'.lr) (2 * k) (2 * p.lr) (C k p'.lr p.lr)
      (if tri p'.lr p.lr k then am12.cRME (2 * p'.lr) (2 * p.lr) (2 * k) else 0)
  harmCM : WE cg (2 * p'.lc) 2 (2 * p.lc) (C 1 p'.lc p.lc)
      (if tri p'.lc p.lc 1 then am12.cRME (2 * p'.lc) (2 * p.lc) 2 else 0)
  parity : ¬ (p'.lc = p.lc + 1 ∨ p.lc = p'.lc + 1) → ∀ q m' m, C 1 p'.lc p.lc q m' m = 0

/-- The states of `RelativeCMSpaceLSJT` truncated at `N`. -/
structure StateOK (N : ℕ) (p : State) : Prop where
  lr : p.lr ≤ p.Nr
  lc : p.lc ≤ p.Nc
  parity : p.Nr % 2 = p.lr % 2
  parityC : p.Nc % 2 = p.lc % 2
  top : p.Nr + p.Nc ≤ N

/-- Labels of a subspace. -/
structure SubOK (N : ℕ) (s : Sub) : Prop where
  S : s.S ≤ 1
  T : s.T ≤ 1
  states : ∀ p ∈ s.states, StateOK N p

/-- A block holds the reduced elements of `A`. -/
def Holds (cg : Cg) (J0 T0 : ℕ) (A : Int → Int → Cfg → Cfg → ℝ) (sec : Sec) (b : Entries) : Prop :=
  ∀ (i j : ℕ) (p' p : State), sec.1.states[i]? = some p' → sec.2.states[j]? = some p →
    ∃ x, b i j = .ok x ∧ Reduced cg J0 T0 A sec.1 sec.2 p' p x

/-- Component `T0` holds the operator `A`, sector by sector, and the other components are zero. -/
def Stores (cg : Cg) (J0 T0 : ℕ) (A : Int → Int → Cfg → Cfg → ℝ) (sectors : ℕ → List Sec) (op : RelOp) : Prop :=
  List.Forall₂ (Holds cg J0 T0 A) (sectors T0) (op T0) ∧
    ∀ t, t ≠ T0 → List.Forall₂ (fun _ b => ∀ i j, b i j = .ok 0) (sectors t) (op t)

end Verif.Relative.Relcm
