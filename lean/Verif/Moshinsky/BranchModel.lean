import Verif.Moshinsky.Branch

/-!
# Model of the branching to the proton-neutron scheme

`TwoBodyMatrixJJJPN`, `libraries/moshinsky/moshinsky_xform.cpp` 795-1116.

Simplifications: `double` is `ℝ`; the `jjJT` space, its sectors and the index canonicalisation belong to
the `basis` library and are given by their lookup functions; the contributions to one matrix element
are added up element by element, where the code has the loop over elements innermost.
-/

namespace Verif.Moshinsky
open Verif

/-- Labels `(N, 2j)` of an oscillator orbital. -/
abbrev Lab := ℕ × ℕ

/-- `basis::TwoBodyStateJJJPN`: orbital indices (each within its species) and labels. -/
structure PnState where
  i1 : ℕ
  i2 : ℕ
  o1 : Lab
  o2 : Lab
  deriving DecidableEq, Repr

/-- `basis::TwoBodySubspaceJJJPN`. -/
structure PnSub where
  Tz : Int
  J : Int
  g : Int
  states : List PnState

/-- The `jjJT` source operator: `LookUpSubspaceIndex` by `(J,T,g)`, `LookUpStateIndex` in a subspace,
`LookUpSectorIndex` for component `T0`, the matrices, and the state indices and factor returned by
`basis::CanonicalizeIndicesJT`. `none` stands for `kNone`. -/
structure JTSource where
  sub : Int → Int → Int → Option ℕ
  state : ℕ → Lab → Lab → Option ℕ
  sector : Int → ℕ → ℕ → Option ℕ
  mat : Int → ℕ → ℕ → ℕ → ℝ
  canon : Int → ℕ → ℕ → ℕ → ℕ → ℕ × ℕ × ℝ

/-- Integers from `a` to `b`: `for (int i=a; i<=b; ++i)`. -/
def loop (a b : Int) : List Int := (List.range (b - a + 1).toNat).map fun i : ℕ => a + (i : Int)

/-- Canonicalisation of the orbitals of one state, lines 1024-1044 (bra) and 1060-1080 (ket): factor
and ordered labels. -/
noncomputable def orderPair (s : PnState) (J T : Int) : ℝ × Lab × Lab :=
  if s.i1 ≤ s.i2 then (1, s.o1, s.o2)
  else (sgn (((s.o1.2 : Int) + s.o2.2) / 2 + J + T), s.o2, s.o1)

/-- `pn_expansion_factor`, lines 1012-1016. -/
noncomputable def pnExpansion (Tzb Tzk : Int) : ℝ :=
  if ¬(Tzb = 0 ↔ Tzk = 0) then Real.sqrt (1 / 2)
  else if Tzb = 0 ∧ Tzk = 0 then 1 / 2
  else 1

/-- A state index `kNone` would be used to access a matrix. -/
def found : Option ℕ → Except Err ℕ
  | some i => .ok i
  | none => .error .undefinedBehaviour

/-- Contribution of the source sector `(T0,T_bra,T_ket)` to one target element, lines 875-1109. -/
noncomputable def branchTerm (src : JTSource) (bra ket : PnSub) (b k : PnState) (T0 Tb Tk : Int) :
    Except Err ℝ :=
  if !tri Tb T0 Tk then .ok 0
  else match src.sub bra.J Tb bra.g, src.sub ket.J Tk ket.g with
    | some sb, some sk => do
      let idx ← found (src.sector T0 (min sb sk) (max sb sk))
      let c ← isospinCoefficient Tb Tk T0 (bra.Tz - ket.Tz) ket.Tz
      if b.i1 = b.i2 ∧ ¬ (bra.J + Tb).tmod 2 = 1 then pure 0
      else if k.i1 = k.i2 ∧ ¬ (ket.J + Tk).tmod 2 = 1 then pure 0
      else do
        let pb := orderPair b bra.J Tb
        let pk := orderPair k ket.J Tk
        let ib ← found (src.state sb pb.2.1 pb.2.2)
        let ik ← found (src.state sk pk.2.1 pk.2.2)
        let r := src.canon T0 sb sk ib ik
        pure (pnExpansion bra.Tz ket.Tz * c * (pb.1 * pk.1 * r.2.2 * src.mat T0 idx r.1 r.2.1))
    | _, _ => .ok 0

/-- The isospin combinations visited, lines 868-873. -/
def isospins (T0min T0max Tzb Tzk : Int) : List (Int × Int × Int) :=
  (loop (max T0min (Tzb - Tzk)) T0max).flatMap fun T0 =>
    (loop |Tzb| 1).flatMap fun Tb => (loop |Tzk| 1).map fun Tk => (T0, Tb, Tk)

/-- One target matrix element. -/
noncomputable def branchElement (src : JTSource) (T0min T0max : Int) (bra ket : PnSub)
    (b k : PnState) : Except Err ℝ := do
  let l ← (isospins T0min T0max bra.Tz ket.Tz).mapM fun t => branchTerm src bra ket b k t.1 t.2.1 t.2.2
  pure l.sum

/-- `TwoBodyMatrixJJJPN`: rows of the matrix; only the upper triangle of a diagonal sector is
computed. `diagonal` is `IsDiagonal()` of the target sector. -/
noncomputable def branchMatrix (src : JTSource) (T0min T0max : Int) (diagonal : Bool)
    (bra ket : PnSub) : Except Err (List (List ℝ)) := do
  assertE (decide (0 ≤ bra.Tz - ket.Tz))
  bra.states.zipIdx.mapM fun b => ket.states.zipIdx.mapM fun k =>
    if diagonal && !decide (b.2 ≤ k.2) then .ok 0
    else branchElement src T0min T0max bra ket b.1 k.1

end Verif.Moshinsky
