import Verif.Common
import Mathlib.Analysis.Real.Sqrt
import Mathlib.Analysis.SpecialFunctions.Gamma.Basic
import Mathlib.Analysis.SpecialFunctions.Pow.Real

/-!
# Oscillator radial matrix elements and wave functions

Model of `libraries/analytic/radial_oscillator_me.h`, `libraries/quadrature/oscillator_wf.h`
and the coordinate transformation of `libraries/quadrature/mesh.h`.

Numbers of type `double` are modelled as real numbers.  Literals keep their decimal value.
`std::sqrt` of a negative argument is the outcome `notANumber`.
-/

namespace Verif.Osc
open Verif

/-- `constexpr double k_sqrt_2 = 1.414213562373095`
(`radial_oscillator_me.h` 31): the decimal literal, not the square root of two. -/
noncomputable def kSqrt2 : ℝ := 1.414213562373095

/-- `std::sqrt`: a negative argument gives NaN. -/
noncomputable def fsqrt (x : ℝ) : Except Err ℝ :=
  if x < 0 then .error .notANumber else .ok (Real.sqrt x)

/-- `CDaggerOscillatorMatrixElement` (`radial_oscillator_me.h` 33-58). -/
noncomputable def cDagger (braN braL ketN ketL : Int) : Except Err ℝ :=
  let deltaL := braL - ketL
  let deltaN := braN - ketN
  let N : ℝ := ketN
  let l : ℝ := ketL
  if deltaN = 1 then
    if deltaL = 1 then fsqrt (N + l + 3)
    else if deltaL = -1 then (fsqrt (N - l + 2)).map (fun x => -x)
    else .ok 0
  else .ok 0

/-- `COscillatorMatrixElement` (`radial_oscillator_me.h` 60-85). -/
noncomputable def cLower (braN braL ketN ketL : Int) : Except Err ℝ :=
  let deltaL := braL - ketL
  let deltaN := braN - ketN
  let N : ℝ := ketN
  let l : ℝ := ketL
  if deltaN = -1 then
    if deltaL = 1 then (fsqrt (N - l)).map (fun x => -x)
    else if deltaL = -1 then fsqrt (N + l + 1)
    else .ok 0
  else .ok 0

/-- `CoordinateOscillatorMatrixElement` (`radial_oscillator_me.h` 87-122). -/
noncomputable def coordinate (braN braL ketN ketL : Int) (sign : Int) : Except Err ℝ := do
  let deltaL := braL - ketL
  assertE (decide (deltaL = -1 ∨ deltaL = 1))
  let up ← cDagger braN braL ketN ketL
  let down ← cLower braN braL ketN ketL
  return ((sign : ℝ) * up + down) / kSqrt2

/-- `CoordinateSqrOscillatorMatrixElement` (`radial_oscillator_me.h` 124-196). -/
noncomputable def coordinateSqr (braN braL ketN ketL : Int) (sign : Int) : Except Err ℝ :=
  let deltaL := braL - ketL
  let deltaN := braN - ketN
  let N : ℝ := ketN
  let l : ℝ := ketL
  let s : ℝ := sign
  if deltaN = 2 then
    if deltaL = 2 then (fsqrt ((N + l + 5) * (N + l + 3))).map (fun x => 0.5 * x)
    else if deltaL = 0 then (fsqrt ((N + l + 3) * (N - l + 2))).map (fun x => -0.5 * x)
    else if deltaL = -2 then (fsqrt ((N - l + 2) * (N - l + 4))).map (fun x => 0.5 * x)
    else .ok 0
  else if deltaN = 0 then
    if deltaL = 2 then (fsqrt ((N - l) * (N + l + 3))).map (fun x => -s * x)
    else if deltaL = 0 then .ok (s * (N + 1.5))
    else if deltaL = -2 then (fsqrt ((N - l + 2) * (N + l + 1))).map (fun x => -s * x)
    else .ok 0
  else if deltaN = -2 then
    if deltaL = 2 then (fsqrt ((N - l - 2) * (N - l))).map (fun x => 0.5 * x)
    else if deltaL = 0 then (fsqrt ((N - l) * (N + l + 1))).map (fun x => -0.5 * x)
    else if deltaL = -2 then (fsqrt ((N + l + 1) * (N + l - 1))).map (fun x => 0.5 * x)
    else .ok 0
  else .ok 0

/-! ## Wave functions (`oscillator_wf.h`) -/

/-- The template parameter `coord_sign`: position (`+1`) or momentum (`-1`) space
(`static_assert` admits nothing else). -/
inductive CoordSign where
  | position
  | momentum
  deriving DecidableEq

/-- Value of `coord_sign`. -/
def CoordSign.val : CoordSign → ℤ
  | .position => 1
  | .momentum => -1

/-- `UnitlessCoordSqr` (`oscillator_wf.h` 26-33). -/
noncomputable def unitlessCoordSqr (c : CoordSign) (b x : ℝ) : ℝ :=
  match c with
  | .position => (x * x) / (b * b)
  | .momentum => (x * x) * (b * b)

/-- `OscillatorWaveFunctionRecurrence0` (`oscillator_wf.h` 34-52). -/
noncomputable def recurrence0 (c : CoordSign) (l : ℕ) (b x2 shift : ℝ) : ℝ :=
  match c with
  | .position =>
    (Real.sqrt (2 / (b * Real.Gamma (l + 1.5))) * b ^ shift)
      * Real.exp (-x2 / 2) * x2 ^ ((l + 1 + shift) / 2)
  | .momentum =>
    (Real.sqrt ((2 * b) / Real.Gamma (l + 1.5)) * b ^ (-shift))
      * Real.exp (-x2 / 2) * x2 ^ ((l + 1 + shift) / 2)

/-- `OscillatorWaveFunctionRecurrence1` (`oscillator_wf.h` 54-60). -/
noncomputable def recurrence1 (c : CoordSign) (l : ℕ) (x2 wf1 : ℝ) : ℝ :=
  ((c.val : ℝ) * ((1.5 + l - x2) / Real.sqrt (l + 1.5))) * wf1

/-- `OscillatorWaveFunctionRecurrenceN` (`oscillator_wf.h` 62-72). -/
noncomputable def recurrenceN (c : CoordSign) (n l : ℕ) (x2 wf1 wf2 : ℝ) : ℝ :=
  (c.val : ℝ) * ((-x2 + (2 * n + l - 0.5)) * wf1 - Real.sqrt (((n : ℝ) - 1) * (n + l - 0.5)) * wf2)
    / Real.sqrt (n * (n + l + 0.5))

/-- The loop `for (int n = 2; n <= nmax; ++n) wf[n] = ...` (`oscillator_wf.h` 127-133) with
`k` iterations left, the array being the elements stored so far. -/
noncomputable def fillLoop (c : CoordSign) (l : ℕ) (x2 : ℝ) : (k : ℕ) → Array ℝ → Array ℝ
  | 0, wf => wf
  | k + 1, wf =>
    let n := wf.size
    fillLoop c l x2 k (wf.push (recurrenceN c n l x2 (wf.getD (n - 1) 0) (wf.getD (n - 2) 0)))

/-- `OscillatorWaveFunctions` (`oscillator_wf.h` 74-136), for a scalar argument. -/
noncomputable def waveFunctions (c : CoordSign) (nmax : Int) (l : ℕ) (b x shift : ℝ) : Array ℝ :=
  if nmax < 0 then #[]
  else
    let x2 := unitlessCoordSqr c b x
    let wf : Array ℝ := #[recurrence0 c l b x2 shift]
    if nmax = 0 then wf
    else
      let wf := wf.push (recurrence1 c l x2 (wf.getD 0 0))
      if nmax = 1 then wf
      else fillLoop c l x2 (nmax.toNat - 1) wf

/-- The three local variables of `OscillatorWaveFunction` (`oscillator_wf.h` 173-175). -/
structure Regs where
  wf : ℝ
  m1 : ℝ
  m2 : ℝ

/-- Body of the loop of `OscillatorWaveFunction` (`oscillator_wf.h` 193-198): two swaps and
the recurrence. -/
noncomputable def regStep (c : CoordSign) (l : ℕ) (x2 : ℝ) (i : ℕ) (r : Regs) : Regs :=
  -- std::swap(wf_m2, wf_m1)
  let r := { r with m1 := r.m2, m2 := r.m1 }
  -- std::swap(wf, wf_m1)
  let r := { r with wf := r.m1, m1 := r.wf }
  { r with wf := recurrenceN c i l x2 r.m1 r.m2 }

/-- The loop, from `i`, `k` iterations left. -/
noncomputable def regLoop (c : CoordSign) (l : ℕ) (x2 : ℝ) : (k i : ℕ) → Regs → Regs
  | 0, _, r => r
  | k + 1, i, r => regLoop c l x2 k (i + 1) (regStep c l x2 i r)

/-- `OscillatorWaveFunction` (`oscillator_wf.h` 138-202).  `g1`, `g2` are the indeterminate
initial values of the uninitialised locals `wf_m1`, `wf_m2`. -/
noncomputable def waveFunction (c : CoordSign) (n : Int) (l : ℕ) (b x shift : ℝ) (g1 g2 : ℝ) : ℝ :=
  if n < 0 then 0
  else
    let x2 := unitlessCoordSqr c b x
    let r : Regs := ⟨recurrence0 c l b x2 shift, g1, g2⟩
    if n = 0 then r.wf
    else
      -- std::swap(wf, wf_m1)
      let r : Regs := { r with wf := r.m1, m1 := r.wf }
      let r : Regs := { r with wf := recurrence1 c l x2 r.m1 }
      if n = 1 then r.wf
      else (regLoop c l x2 (n.toNat - 1) 2 r).wf

/-! ## Mesh (`mesh.h`) -/

/-- `TransformedCoordinate` (`mesh.h` 41-65), scalar argument. -/
noncomputable def transformedCoordinate (c : CoordSign) (b z : ℝ) : ℝ :=
  match c with
  | .position => (z / (1 - z)) * b
  | .momentum => (z / (1 - z)) / b

/-- `TransformedCoordinateJacobian` (`mesh.h` 67-91), scalar argument. -/
noncomputable def transformedCoordinateJacobian (c : CoordSign) (b z : ℝ) : ℝ :=
  match c with
  | .position => (1 / ((1 - z) * (1 - z))) * b
  | .momentum => (1 / ((1 - z) * (1 - z))) / b

end Verif.Osc
