import Verif.Relative.Construct
import Verif.Osc.Model

/-!
# Next-to-next-to-leading-order Gamow-Teller operator

Model of `ConstructN2LOGTOperator` (`libraries/relative/lenpic_relative_me.cpp` 58-345) and of the constants it uses
(`libraries/relative/lenpic_constants.h`).

Arithmetic of `double` is real arithmetic; the end points of the mesh, where the code multiplies zeros and infinities
and replaces what is not finite by zero, are zero.  The spline integration is a parameter.  An uncaught exception is
`exitFailure`.  Output to the terminal and the test for NaN are left out.
-/

namespace Verif.Relative
open Verif Verif.H2 Verif.Osc

/-- `am` library: further coefficients.  All angular momenta are doubled. -/
structure Am12 where
  /-- `RacahReductionFactor12Rose(j1',j2',J',j1,j2,J,k1,k2,k)` -/
  rose12 : ℕ → ℕ → ℕ → ℕ → ℕ → ℕ → ℕ → ℕ → ℕ → ℝ
  /-- `jjJCoupledAngularMomentumJ1RME(j1',j2',J',j1,j2,J)` -/
  jj1 : ℕ → ℕ → ℕ → ℕ → ℕ → ℕ → ℝ
  /-- `jjJCoupledAngularMomentumJ2RME(j1',j2',J',j1,j2,J)` -/
  jj2 : ℕ → ℕ → ℕ → ℕ → ℕ → ℕ → ℝ
  /-- `SphericalHarmonicCRME(L',L,k)` -/
  cRME : ℕ → ℕ → ℕ → ℝ

namespace Lenpic

/-- `hbarc` (`lenpic_constants.h` 60). -/
noncomputable def hbarc : ℝ := 197.3269804
/-- `hbarc_GeV` (61). -/
noncomputable def hbarcGeV : ℝ := hbarc / 1000
/-- `pion_mass_fm` (68, 75). -/
noncomputable def pionMass : ℝ := 138.03 / hbarc
/-- `pion_decay_constant_fm` (87, 88). -/
noncomputable def pionDecay : ℝ := 92.4 / hbarc
/-- `chiral_breaking_scale_fm` (95, 97). -/
noncomputable def chiralScale : ℝ := 700 / hbarc
/-- `SCS_c3_fm` (106, 108). -/
noncomputable def c3 : ℝ := -4.69 * hbarcGeV
/-- `SCS_c4_fm` (109, 111). -/
noncomputable def c4 : ℝ := 3.40 * hbarcGeV

/-- `SCS_cD` (114-121). -/
noncomputable def cD (R : ℝ) : Except Err ℝ :=
  if |R - 0.9| < 1e-4 then .ok 2.1 else if |R - 1.0| < 1e-4 then .ok 7.2 else .error .exitFailure

/-- `SCS_D_fm3` (122-127). -/
noncomputable def dFm3 (R : ℝ) : Except Err ℝ := do
  let c ← cD R
  pure (c / (pionDecay * pionDecay * chiralScale))

/-- `opep_prefactor` (`lenpic_relative_me.cpp` 75-77). -/
noncomputable def opepPrefactor : ℝ := gA * pionMass ^ 3 / (12 * Real.pi * pionDecay ^ 2)

end Lenpic

open Lenpic

/-- `kSpinFactors[bra_S][ket_S]` (`lenpic_relative_me.cpp` 84-100). -/
noncomputable def spinFactor (am : Am) (am12 : Am12) (S' S : ℕ) : ℝ :=
  if tri S' S 1 then am12.rose12 1 1 (2 * S') 1 1 (2 * S) 2 2 2 * 2 * am.jRME 1 1 * 2 * am.jRME 1 1 else 0

/-- `kSU4Factors[bra_S][ket_S][bra_T][ket_T]` (`lenpic_relative_me.cpp` 108-123). -/
noncomputable def su4Factor (am12 : Am12) (S' S T' T : ℕ) : ℝ :=
  if tri S' S 1 && tri T' T 1 then
    2 * am12.jj1 1 1 (2 * S') 1 1 (2 * S) * 2 * am12.jj1 1 1 (2 * T') 1 1 (2 * T)
      + 2 * am12.jj2 1 1 (2 * S') 1 1 (2 * S) * 2 * am12.jj2 1 1 (2 * T') 1 1 (2 * T)
  else 0

/-- The parameters of the mesh: number of points, relative oscillator length and `spline::CubicIntegrate`. -/
structure Quad where
  points : ℕ
  b : ℝ
  cubic : List ℝ → List ℝ → ℝ

/-- `z_grid` (`lenpic_relative_me.cpp` 153, `mesh.h` 24-39). -/
noncomputable def Quad.z (g : Quad) (k : ℕ) : ℝ := k / ((g.points : ℝ) - 1)

/-- Sampling of an integrand on the mesh, with `jacobian_grid` and `FixEndpointSingularitiesToZero`, and integration
(`lenpic_relative_me.cpp` 293-299, `mesh.h` 93-108). -/
noncomputable def Quad.integrate (g : Quad) (f : ℝ → Except Err ℝ) : Except Err ℝ := do
  let v ← (List.range g.points).mapM fun k =>
    if k = 0 ∨ k + 1 = g.points then .ok 0 else do
      let y ← f (transformedCoordinate .position g.b (g.z k))
      pure (y * transformedCoordinateJacobian .position g.b (g.z k))
  pure (g.cubic ((List.range g.points).map g.z) v)

/-- `oscillator_functions_grid[l][n]` and `oscillator_functions_rm1_grid[l][n]` at a point
(`lenpic_relative_me.cpp` 179-193). -/
noncomputable def oscAt (g : Quad) (Nmax l n : ℕ) (shift r : ℝ) : Except Err ℝ :=
  if l ≤ Nmax then
    match (waveFunctions .position (((Nmax - l) / 2 : ℕ) : Int) l g.b r shift)[n]? with
    | some y => .ok y
    | none => .error .undefinedBehaviour
  else .error .undefinedBehaviour

/-- `local_regulator_grid` at a point (`lenpic_relative_me.cpp` 167-170); `R = 0` does not get here. -/
noncomputable def localReg (R r : ℝ) : ℝ := (1 - Real.exp (-r * r / (R * R))) ^ 6

/-- `nonlocal_regulator_grid` at a point (`lenpic_relative_me.cpp` 172-177). -/
noncomputable def nonlocalReg (R r : ℝ) : ℝ := Real.exp (-r * r / (R * R)) / (Real.pi * R * R) ^ (1.5 : ℝ)

/-- `w_grid` at a point (`lenpic_relative_me.cpp` 161-165). -/
noncomputable def wGrid (r : ℝ) : ℝ := 1 + 3 * (1 + pionMass * r) / (pionMass * pionMass * r * r)

/-- `yukawa_integral` (`lenpic_relative_me.cpp` 293-299). -/
noncomputable def yukawaValue (g : Quad) (R : ℝ) (Nmax L' n' L n : ℕ) : Except Err ℝ := do
  let i ← g.integrate fun r => do
    let x ← oscAt g Nmax L' n' (-0.5) r
    let y ← oscAt g Nmax L n (-0.5) r
    pure (x * Real.exp (-pionMass * r) * y * localReg R r)
  pure (i / pionMass)

/-- `yukawa_w_integral` (`lenpic_relative_me.cpp` 303-309). -/
noncomputable def yukawaWValue (g : Quad) (R : ℝ) (Nmax L' n' L n : ℕ) : Except Err ℝ := do
  let i ← g.integrate fun r => do
    let x ← oscAt g Nmax L' n' (-0.5) r
    let y ← oscAt g Nmax L n (-0.5) r
    pure (x * Real.exp (-pionMass * r) * wGrid r * y * localReg R r)
  pure (i / pionMass)

/-- `nonlocal_regulator_integral` (`lenpic_relative_me.cpp` 313-328). -/
noncomputable def nonlocalValue (g : Quad) (R : ℝ) (Nmax L' n' L n : ℕ) : Except Err ℝ :=
  if L' = L then do
    let i' ← g.integrate fun r => do
      let x ← oscAt g Nmax L' n' 0 r
      pure (x * nonlocalReg R r)
    let i ← g.integrate fun r => do
      let y ← oscAt g Nmax L n 0 r
      pure (y * nonlocalReg R r)
    pure (i' * i)
  else .ok 0

/-- One sector of `ConstructN2LOGTOperator` (`lenpic_relative_me.cpp` 222-342). -/
noncomputable def n2loBlock (am : Am) (am12 : Am12) (g : Quad) (R D : ℝ) (Nmax : ℕ) (s' s : RelSub) :
    Except Err Entries :=
  if !(decide (s'.L = s.L) || tri s'.L s.L 2) then .ok zeroE
  else if !(tri s'.S s.S 1 && tri s'.T s.T 1) then .ok zeroE
  else
    let c2 := if tri s'.L s.L 2 then am12.cRME (2 * s'.L) (2 * s.L) 4 else 0
    let second := am.rose2 (2 * s'.L) (2 * s'.S) (2 * s'.J) (2 * s.L) (2 * s.S) (2 * s.J) 2
    let both := am12.rose12 (2 * s'.L) (2 * s'.S) (2 * s'.J) (2 * s.L) (2 * s.S) (2 * s.J) 4 2 2
    let su4 := second * su4Factor am12 s'.S s.S s'.T s.T
    let spiniso := second * spinFactor am am12 s'.S s.S * spinFactor am am12 s'.T s.T
    let c2su4 := both * c2 * su4Factor am12 s'.S s.S s'.T s.T
    let c2spiniso := both * c2 * spinFactor am am12 s'.S s.S * spinFactor am am12 s'.T s.T
    .ok fun i j => do
      let y ← yukawaValue g R Nmax s'.L i s.L j
      let w ← yukawaWValue g R Nmax s'.L i s.L j
      let nl ← nonlocalValue g R Nmax s'.L i s.L j
      pure (opepPrefactor * y * (-c3 * su4 + 2 * c4 * spiniso)
        + opepPrefactor * Real.sqrt 10 * w * (c3 * c2su4 + c4 * c2spiniso)
        + -D / 4 * su4 * nl)

/-- `ConstructN2LOGTOperator` (`lenpic_relative_me.cpp` 58-345): the contact constant comes first (78) and throws for
other regulators; then the labels are checked (126-138). -/
noncomputable def constructN2LOGT (am : Am) (am12 : Am12) (cubic : List ℝ → List ℝ → ℝ) (o : OpLabels) (Nmax : ℕ)
    (sectors : ℕ → List RSec) (R b : ℝ) (points : ℕ) : Except Err RelOp := do
  let D ← dFm3 R
  if o.J0 ≠ 1 ∨ o.g0 ≠ 0 ∨ 1 < o.T0min ∨ o.T0max < 1 then .error .exitFailure
  else do
    let ms ← (sectors 1).mapM fun p => n2loBlock am am12 ⟨points, b * Real.sqrt 2, cubic⟩ R D Nmax p.1 p.2
    pure fun t => if t = 1 then ms else (sectors t).map fun _ => zeroE

end Verif.Relative
