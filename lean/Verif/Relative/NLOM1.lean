import Verif.Relative.N2LO
import Verif.Relative.Gen
import Verif.Osc.Model

/-!
# Next-to-leading-order magnetic dipole operator, and `relcm-gen`

Model of `ConstructNLOM1Operator` (`libraries/relative/lenpic_relcm_me.cpp` 36-435) and of
`programs/relutils/relcm-gen.cpp`.

Arithmetic of `double` is real arithmetic; the end points of the mesh, where the code replaces what is not finite by
zero, are zero.  The spline integration, the recoupling coefficients and `basis::RelativeCMSpaceLSJT` with its sectors
are parameters.  An uncaught exception is `exitFailure`.  Output to the terminal, the tests for NaN and the order in
which threads take sectors are left out.
-/

namespace Verif.Relative.Relcm
open Verif Verif.H2 Verif.Osc Verif.Relative Lenpic

/-- Labels of a relative-cm state: quanta and orbital angular momenta of the relative and of the centre-of-mass motion
(`lenpic_relcm_me.cpp` 178-179). -/
structure State where
  Nr : ℕ
  lr : ℕ
  Nc : ℕ
  lc : ℕ
  deriving DecidableEq, Repr

/-- `basis::RelativeCMSubspaceLSJT`: labels (`lenpic_relcm_me.cpp` 162) and states. -/
structure Sub where
  L : ℕ
  S : ℕ
  J : ℕ
  T : ℕ
  g : ℕ
  states : List State
  deriving DecidableEq, Repr

/-- A sector: bra and ket subspace. -/
abbrev Sec := Sub × Sub

/-- `nucleon_mass_fm` (`lenpic_constants.h` 70-79). -/
noncomputable def nucleonMass : ℝ := ((938.272 + 939.565) / 2) / hbarc

/-- `kSpinFactors[bra_S][ket_S][S0]` (`lenpic_relcm_me.cpp` 50-68). -/
noncomputable def spinFactors (am : Am) (am12 : Am12) (S' S S0 : ℕ) : ℝ :=
  if tri S' S S0 then
    am12.rose12 1 1 (2 * S') 1 1 (2 * S) 2 2 (2 * S0) * 2 * am.jRME 1 1 * 2 * am.jRME 1 1
  else 0

/-- `regulator_grid` at a point (`lenpic_relcm_me.cpp` 104-107). -/
noncomputable def regulator (R r : ℝ) : ℝ := if R = 0 then 1 else (1 - Real.exp (-r * r / (R * R))) ^ 6

/-- `cm_changing` (`lenpic_relcm_me.cpp` 183-184). -/
def cmChanging (p' p : State) : Bool :=
  decide (((p'.Nc : Int) - p.Nc).natAbs = 1) && decide (((p'.lc : Int) - p.lc).natAbs = 1)

/-- `cm_preserving` (`lenpic_relcm_me.cpp` 185). -/
def cmPreserving (p' p : State) : Bool := decide (p'.Nc = p.Nc) && decide (p'.lc = p.lc)

/-- `spherical_harmonic_rmes[0][k]` and, for `k` at most one, `[1][k]` (`lenpic_relcm_me.cpp` 198-222). -/
noncomputable def harmRME (am12 : Am12) (l' l k : ℕ) : ℝ :=
  if k = 0 then (if l' = l then 1 else 0)
  else if tri l' l k then am12.cRME (2 * l') (2 * l) (2 * k) else 0

/-- `RacahReductionFactor12Rose` between the orbital motions (`lenpic_relcm_me.cpp` 259-261 and alike). -/
noncomputable def orbital12 (am12 : Am12) (s' s : Sub) (p' p : State) (k1 k : ℕ) : ℝ :=
  am12.rose12 (2 * p'.lr) (2 * p'.lc) (2 * s'.L) (2 * p.lr) (2 * p.lc) (2 * s.L) (2 * k1) 2 (2 * k)

/-- `RacahReductionFactor12Rose` between orbital motion and spin (`lenpic_relcm_me.cpp` 263-265 and alike). -/
noncomputable def spin12 (am12 : Am12) (s' s : Sub) (kL kS : ℕ) : ℝ :=
  am12.rose12 (2 * s'.L) (2 * s'.S) (2 * s'.J) (2 * s.L) (2 * s.S) (2 * s.J) (2 * kL) (2 * kS) 2

/-- `tensor_product_rmes[0]` (`lenpic_relcm_me.cpp` 236-244). -/
noncomputable def a0 (am : Am) (am12 : Am12) (s' s : Sub) (p' p : State) : ℝ :=
  if tri s'.S s.S 1 && decide (p'.lr = p.lr) && decide (s'.L = s.L) then
    am.rose2 (2 * s'.L) (2 * s'.S) (2 * s'.J) (2 * s.L) (2 * s.S) (2 * s.J) 2 * spinFactors am am12 s'.S s.S 1
  else 0

/-- `tensor_product_rmes[1]` to `[5]`: coefficient `c`, spin rank `S0`, ranks `k1` of the relative and `k` of the total
orbital part (`lenpic_relcm_me.cpp` 249-331). -/
noncomputable def aCM (am : Am) (am12 : Am12) (s' s : Sub) (p' p : State) (c : ℝ) (S0 k1 k : ℕ) : ℝ :=
  if tri s'.S s.S S0 && tri p'.lr p.lr k1 && tri p'.lc p.lc 1 && tri s'.L s.L k then
    c * orbital12 am12 s' s p' p k1 k * harmRME am12 p'.lr p.lr k1 * harmRME am12 p'.lc p.lc 1
      * spin12 am12 s' s k S0 * spinFactors am am12 s'.S s.S S0
  else 0

/-- `tensor_product_rmes[6]` (`lenpic_relcm_me.cpp` 333-352). -/
noncomputable def a6 (am : Am) (am12 : Am12) (s' s : Sub) (p' p : State) : ℝ :=
  if tri s'.S s.S 1 && decide (p'.lc = p.lc) && tri p'.lr p.lr 2 && tri s'.L s.L 2 then
    Real.sqrt 10 * am.rose1 (2 * p'.lr) (2 * p'.lc) (2 * s'.L) (2 * p.lr) (2 * p.lc) (2 * s.L) 4
      * harmRME am12 p'.lr p.lr 2 * harmRME am12 p'.lc p.lc 0 * spin12 am12 s' s 2 1 * spinFactors am am12 s'.S s.S 1
  else 0

/-- `f0_integral`, `f1_integral`, `f2_integral` for the power shifts 0, -0.5, -1 (`lenpic_relcm_me.cpp` 354-389). -/
noncomputable def fIntegral (g : Quad) (R : ℝ) (Nmax : ℕ) (shift : ℝ) (p' p : State) : Except Err ℝ :=
  g.integrate fun r => do
    let x ← oscAt g Nmax p'.lr ((p'.Nr - p'.lr) / 2) shift r
    let y ← oscAt g Nmax p.lr ((p.Nr - p.lr) / 2) shift r
    pure (x * Real.exp (-pionMass * r) * y * regulator R r)

/-- `f2_integral` is only evaluated if it is used (`lenpic_relcm_me.cpp` 378-388). -/
noncomputable def f2Integral (g : Quad) (R : ℝ) (Nmax : ℕ) (p' p : State) : Except Err ℝ :=
  if cmChanging p' p then fIntegral g R Nmax (-1) p' p else .ok 0

/-- The part that changes the centre-of-mass motion (`lenpic_relcm_me.cpp` 401-425). -/
noncomputable def cmPart (am : Am) (am12 : Am12) (bcm f0 f1 f2 : ℝ) (s' s : Sub) (p' p : State) : Except Err ℝ :=
  if cmChanging p' p then do
    let x ← coordinate p'.Nc p'.lc p.Nc p.lc 1
    let cm := bcm * pionMass * x
    let A1 := aCM am am12 s' s p' p (-Real.sqrt 3) 0 1 1
    let A2 := aCM am am12 s' s p' p (Real.sqrt (3 / 5)) 2 1 1
    let A3 := aCM am am12 s' s p' p (Real.sqrt (9 / 5)) 2 1 2
    let A4 := aCM am am12 s' s p' p (Real.sqrt (14 / 5)) 2 3 2
    let A5 := aCM am am12 s' s p' p (Real.sqrt (28 / 5)) 2 3 3
    pure (f0 * cm * (A1 + A2 + A3 + A4 + A5) + 3 * (f1 / pionMass) * cm * (A2 + A3 + A4 + A5)
      + 3 * (f2 / (pionMass * pionMass)) * cm * (A2 + A3 + A4 + A5))
  else .ok 0

/-- The part within one centre-of-mass motion (`lenpic_relcm_me.cpp` 392-399). -/
noncomputable def relPart (am : Am) (am12 : Am12) (f0 f1 : ℝ) (s' s : Sub) (p' p : State) : ℝ :=
  if cmPreserving p' p then
    f0 * (a6 am am12 s' s p' p + 2 * a0 am am12 s' s p' p)
      + f1 / pionMass * (a6 am am12 s' s p' p - a0 am am12 s' s p' p)
  else 0

/-- What is accumulated in one element (`lenpic_relcm_me.cpp` 171-427). -/
noncomputable def m1Entry (am : Am) (am12 : Am12) (g : Quad) (R bcm : ℝ) (Nmax : ℕ) (s' s : Sub) (p' p : State) :
    Except Err ℝ :=
  if !cmChanging p' p && !cmPreserving p' p then .ok 0
  else if !(decide (p'.lc = p.lc) || tri p'.lc p.lc 1) then .ok 0
  else if !(decide (p'.lr = p.lr) || tri p'.lr p.lr 1 || tri p'.lr p.lr 2 || tri p'.lr p.lr 3) then .ok 0
  else do
    let f0 ← fIntegral g R Nmax 0 p' p
    let f1 ← fIntegral g R Nmax (-0.5) p' p
    let f2 ← f2Integral g R Nmax p' p
    let c ← cmPart am am12 bcm f0 f1 f2 s' s p' p
    pure (0 + relPart am am12 f0 f1 s' s p' p + c)

/-- The factor of a block apart from the isospin (`lenpic_relcm_me.cpp` 429-433). -/
noncomputable def m1Prefactor : ℝ :=
  -Real.sqrt (3 / (4 * Real.pi)) * gA ^ 2 * nucleonMass * pionMass / (24 * Real.pi * pionDecay ^ 2)

/-- One sector (`lenpic_relcm_me.cpp` 146-434). -/
noncomputable def m1Block (am : Am) (am12 : Am12) (g : Quad) (R bcm : ℝ) (Nmax : ℕ) (s' s : Sub) : Entries :=
  if s'.T = s.T then zeroE
  else fun i j =>
    match s'.states[i]?, s.states[j]? with
    | some p', some p => do
      let x ← m1Entry am am12 g R bcm Nmax s' s p' p
      pure (x * (m1Prefactor * spinFactors am am12 s'.T s.T 1))
    | _, _ => .error .undefinedBehaviour

/-- `ConstructNLOM1Operator` (`lenpic_relcm_me.cpp` 36-435). -/
noncomputable def constructNLOM1 (am : Am) (am12 : Am12) (cubic : List ℝ → List ℝ → ℝ) (o : OpLabels) (Nmax : ℕ)
    (sectors : ℕ → List Sec) (R b : ℝ) (points : ℕ) : Except Err RelOp :=
  if o.J0 ≠ 1 ∨ o.g0 ≠ 0 ∨ 1 < o.T0min ∨ o.T0max < 1 then .error .exitFailure
  else
    .ok fun t =>
      if t = 1 then
        (sectors 1).map fun p =>
          m1Block am am12 ⟨points, b * Real.sqrt 2, cubic⟩ R (b / Real.sqrt 2) Nmax p.1 p.2
      else (sectors t).map fun _ => zeroE

/-! ## The program -/

open Verif.Mixer.Control Verif.Relative.Gen

/-- The operator of line 3, with the parameters that belong to it (`relcm-gen.cpp` 58-69). -/
inductive Choice where
  | nlom1 (R b : ℝ) (steps : Int)
  | other (name : String)

/-- `Parameters` (`relcm-gen.cpp` 58-69). -/
structure Params where
  J0 : Int
  g0 : Int
  T0min : Int
  T0max : Int
  Nmax : Int
  choice : Choice
  file : String

/-- Line 3 (`relcm-gen.cpp` 115-132). -/
def readChoice (nm : Numbers) (ws : List String) : Except Err Choice := do
  let (name, ws) ← word ws
  if name = "LENPIC-NLOM1" then do
    let (R, ws) ← num nm ws
    let (b, ws) ← num nm ws
    let (n, _) ← int nm ws
    pure (.nlom1 R b n)
  else pure (.other name)

/-- `ReadParameters` (`relcm-gen.cpp` 71-142). -/
def readParams (nm : Numbers) (f : Input) : Except Err Params := do
  let (J0, ws) ← int nm (f.line 0)
  let (g0, ws) ← int nm ws
  let (T0min, ws) ← int nm ws
  let (T0max, _) ← int nm ws
  let (Nmax, _) ← int nm (f.line 1)
  let choice ← readChoice nm (f.line 2)
  let (file, _) ← word (f.line 3)
  pure ⟨J0, g0, T0min, T0max, Nmax, choice, file⟩

/-- What the absent libraries provide. -/
structure Lib where
  am : Am
  am12 : Am12
  cubic : List ℝ → List ℝ → ℝ
  /-- `basis::RelativeCMSpaceLSJT(Nmax)` -/
  space : ℕ → List Sub

/-- `basis::RelativeCMSectorsLSJT` as the other `basis` sectors: in the order of the subspaces, bra not after ket,
triangles and parity.  None are set up for components out of range. -/
def sectorsOf (o : OpLabels) (sp : List Sub) (T0 : ℕ) : List Sec :=
  if o.T0min ≤ T0 ∧ T0 ≤ o.T0max then
    (List.range sp.length).flatMap fun i =>
      (List.range sp.length).filterMap fun j =>
        match sp[i]?, sp[j]? with
        | some s', some s =>
          if i ≤ j ∧ tri s'.J o.J0 s.J ∧ tri s'.T T0 s.T ∧ (s'.g + s.g + o.g0) % 2 = 0 then some (s', s) else none
        | _, _ => none
  else []

/-- What is handed to `basis::WriteRelativeCMOperatorLSJT`. -/
structure Output where
  file : String
  labels : OpLabels
  Nmax : ℕ
  sectors : ℕ → List Sec
  blocks : RelOp

/-- The default argument `num_points` (`lenpic_relcm_me.h` 39). -/
def defaultPoints : ℕ := 3000

/-- `PopulateOperator` (`relcm-gen.cpp` 148-202) and `main` (208-239).  The number of steps is not passed on.
Simplified: negative labels and truncations are undefined behaviour, as is a component beyond the containers. -/
noncomputable def run (nm : Numbers) (lib : Lib) (f : Input) : Except Err Output := do
  let p ← readParams nm f
  match p.choice with
  | .other _ => .error .exitFailure
  | .nlom1 R b _ =>
    if p.J0 < 0 ∨ p.g0 < 0 ∨ p.T0min < 0 ∨ p.T0max < 0 ∨ p.Nmax < 0 then .error .undefinedBehaviour
    else
      let o : OpLabels := ⟨p.J0.toNat, p.g0.toNat, p.T0min.toNat, p.T0max.toNat⟩
      let sectors := sectorsOf o (lib.space p.Nmax.toNat)
      do
        let op ← constructNLOM1 lib.am lib.am12 lib.cubic o p.Nmax.toNat sectors R b defaultPoints
        if 2 < o.T0max then .error .undefinedBehaviour
        else pure ⟨p.file, o, p.Nmax.toNat, sectors, op⟩

end Verif.Relative.Relcm
