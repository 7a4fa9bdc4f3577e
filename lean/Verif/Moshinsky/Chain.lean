import Verif.Moshinsky.Recouple
import Verif.Moshinsky.RelCM
import Verif.Relative.Converters

/-!
# The stages of the Moshinsky transformation of an operator

Model of `TransformOperatorRelativeLSJTToRelativeCMLSJTN`, `TransformOperatorRelativeCMLSJTNToTwoBodyLSJTN`,
`TransformOperatorTwoBodyLSJTNToTwoBodyJJJTN` (`libraries/moshinsky/moshinsky_xform.cpp` 213-445, 745-787) and of the gathering
to `jjJT` done by the absent `basis` library.

Simplifications: the subspaces of the four two-body spaces are given lists (the enumeration belongs to `basis`); sectors and their
look-up are those documented for `basis` (allowed pairs of subspaces, bra not after ket); `double` is `ℝ`; a bracket is evaluated with
an empty memo table, which by C43 gives what any history of requests gives; the `am` coefficients are given functions.
-/

namespace Verif.Moshinsky
open Verif
open Verif.H2 hiding Mat
open Verif.Relative (OpLabels RelFile RelSub relSpace subIndex secIndex)

/-! ## Sectors and blocks -/

/-- The labels of a subspace on which the selection rules depend. -/
structure QN where
  J : ℕ
  T : ℕ
  g : ℕ
  deriving DecidableEq, Repr

/-- The selection rules of a sector of component `T0`. -/
def allowedQ (o : OpLabels) (T0 : ℕ) (a b : QN) : Bool :=
  Relative.tri a.J o.J0 b.J && Relative.tri a.T T0 b.T && decide ((a.g + b.g + o.g0) % 2 = 0)

/-- The selection rules for two places in the list of subspaces. -/
def allowedAt (o : OpLabels) (T0 : ℕ) (qs : List QN) (p : ℕ × ℕ) : Bool :=
  match qs[p.1]?, qs[p.2]? with
  | some a, some b => decide (p.1 ≤ p.2) && allowedQ o T0 a b
  | _, _ => false

/-- The sectors of component `T0`, as pairs of places, in the order of the places. -/
def sectorPairs (o : OpLabels) (T0 : ℕ) (qs : List QN) : List (ℕ × ℕ) :=
  ((List.range qs.length).product (List.range qs.length)).filter (allowedAt o T0 qs)

/-- `LookUpSectorIndex`. -/
def lookSector (ps : List (ℕ × ℕ)) (b k : ℕ) : Option ℕ := ps.idxOf? (b, k)

/-- `basis::OperatorBlocks`: matrices by sector. -/
abbrev Blocks := List (List (List ℝ))

/-- An entry of a block. -/
def entry (m : Blocks) (k i j : ℕ) : ℝ := ((m.getD k []).getD i []).getD j 0

/-- `GetSubspace` at a place. -/
def getSub {α : Type} (l : List α) (i : ℕ) : Except Err α :=
  match l[i]? with
  | some a => .ok a
  | none => .error .undefinedBehaviour

/-! ## What the transformation depends on -/

/-- The coefficients of the `am` library, and the factor of `basis::CanonicalizeIndicesJT` by component and the `(J,T)` of bra and
ket of an element that is looked up in reversed order. -/
structure ChainEnv where
  am : RelEnv
  mosh : Env
  nine : NineJ
  swap : ℕ → ℕ × ℕ → ℕ × ℕ → ℝ

/-- The labels of a relative-cm or LS subspace, and its place. -/
def LSSub.labels (s : LSSub) : ℕ × ℕ × ℕ × ℕ × ℕ × ℕ := (s.L, s.S, s.J, s.T, s.g, s.N)

def LSSub.qn (s : LSSub) : QN := ⟨s.J, s.T, s.g⟩

def JJSub.qn (s : JJSub) : QN := ⟨s.J, s.T, s.g⟩

/-- `basis::TwoBodySubspaceJJJT`. -/
structure JTSub where
  J : ℕ
  T : ℕ
  g : ℕ
  states : List (Lab × Lab)

def JTSub.qn (s : JTSub) : QN := ⟨s.J, s.T, s.g⟩

/-- A relative-cm state; relative-cm subspaces have the form of LS subspaces, with states `(Nr,lr,Nc,lc)`. -/
def rcState (s : LSSub) (p : LSPair) : RCState := ⟨p.1, p.2.1, p.2.2.1, p.2.2.2, s.L, s.S, s.J, s.T⟩

/-- A two-body LS state. -/
def tbState (p : LSPair) : TBState := ⟨p.1, p.2.1, p.2.2.1, p.2.2.2⟩

/-! ## Relative to relative-cm -/

/-- `LookUpStateIndex` in a relative subspace: states by number of quanta. -/
def relState (f : RelFile) (k : ℕ) (N : Int) : Option ℕ :=
  match (relSpace f.Nmax f.Jmax)[k]? with
  | some s => if (s.L : Int) ≤ N ∧ N ≤ f.Nmax ∧ (N - s.L) % 2 = 0 then some ((N - s.L) / 2).toNat else none
  | none => none

/-- `J` and `T` of a subspace at a place. -/
def relJT (f : RelFile) (k : ℕ) : ℕ × ℕ :=
  match (relSpace f.Nmax f.Jmax)[k]? with
  | some s => (s.J, s.T)
  | none => (0, 0)

/-- Component `T0` of the operator in a file, as seen by `RelativeCMMatrixLSJTN`. -/
noncomputable def relSource (env : ChainEnv) (f : RelFile) (T0 : ℕ) : RelSource where
  Nmax := f.Nmax
  Jmax := f.Jmax
  sub := fun l => subIndex (relSpace f.Nmax f.Jmax) l.1 l.2.1 l.2.2.1 l.2.2.2.1 l.2.2.2.2
  state := relState f
  canon := fun sb sk ib ik =>
    if sb < sk ∨ sb = sk ∧ ib ≤ ik then ((sb, sk), (ib, ik), 1)
    else ((sk, sb), (ik, ib), env.swap T0 (relJT f sb) (relJT f sk))
  sector := secIndex (relSpace f.Nmax f.Jmax) (f.sectors T0)
  mat := f.blocks T0

/-- `TransformOperatorRelativeLSJTToRelativeCMLSJTN` for one component, lines 213-281. -/
noncomputable def rcBlocks (env : ChainEnv) (f : RelFile) (rc : List LSSub) (T0 : ℕ) : Except Err Blocks :=
  (sectorPairs f.labels T0 (rc.map LSSub.qn)).mapM fun p => do
    let b ← getSub rc p.1
    let k ← getSub rc p.2
    b.states.mapM fun x => k.states.mapM fun y =>
      relCMElement env.am (relSource env f T0) f.labels.J0 (rcState b x) (rcState k y)

/-! ## Relative-cm to LS -/

/-- The value of a bracket. -/
noncomputable def bracketValue (env : Env) (k : Key) : Except Err ℝ :=
  match run env id (k.height + 1) k (fun _ => none) with
  | .ok r => .ok r.1
  | .error (.err e) => .error e
  | .error .depth => .error .undefinedBehaviour

/-- `TransformationMatrixRelativeCMTwoBodyLSJTN`, lines 287-342. -/
noncomputable def bracketMatrix (env : Env) (rc ls : LSSub) : Except Err (List (List ℝ)) := do
  assertE (decide (rc.labels = ls.labels))
  rc.states.mapM fun r => ls.states.mapM fun p => do
    let v ← bracketValue env (bracketKey (rcState rc r) (tbState p))
    pure (Real.sqrt 2 * v)

/-- `LookUpSubspaceIndex`. -/
def lookLS (l : List LSSub) (labels : ℕ × ℕ × ℕ × ℕ × ℕ × ℕ) : Option ℕ := (l.map LSSub.labels).idxOf? labels

/-- An entry of a matrix. -/
def at2 (m : List (List ℝ)) (i j : ℕ) : ℝ := (m.getD i []).getD j 0

/-- The product of `TwoBodyMatrixLSJTN`, lines 363-366: the sizes of the source block are those of the bracket matrices. -/
def sandwich (nb nk : ℕ) (U : List (List ℝ)) (M : ℕ → ℕ → ℝ) (V : List (List ℝ)) : List (List ℝ) :=
  (List.range nb).map fun i => (List.range nk).map fun j =>
    ∑ r ∈ Finset.range U.length, ∑ s ∈ Finset.range V.length, at2 U r i * M r s * at2 V s j

/-- `TransformOperatorRelativeCMLSJTNToTwoBodyLSJTN` for one component, lines 371-445.  An index `kNone` is passed on to `GetSector`. -/
noncomputable def lsBlocks (env : ChainEnv) (o : OpLabels) (rc : List LSSub) (m : Blocks) (ls : List LSSub) (T0 : ℕ) :
    Except Err Blocks :=
  (sectorPairs o T0 (ls.map LSSub.qn)).mapM fun p => do
    let b ← getSub ls p.1
    let k ← getSub ls p.2
    let bi ← found (lookLS rc b.labels)
    let ki ← found (lookLS rc k.labels)
    let n ← found (lookSector (sectorPairs o T0 (rc.map LSSub.qn)) bi ki)
    let rb ← getSub rc bi
    let rk ← getSub rc ki
    let U ← bracketMatrix env.mosh rb b
    let V ← bracketMatrix env.mosh rk k
    pure (sandwich b.states.length k.states.length U (entry m n) V)

/-! ## LS to jj -/

/-- `J` and `T` of a subspace at a place. -/
def jtAt (qs : List QN) (k : ℕ) : ℕ × ℕ :=
  match qs[k]? with
  | some q => (q.J, q.T)
  | none => (0, 0)

/-- Component `T0` of the LS operator, as seen by `TwoBodyMatrixJJJTN`. -/
noncomputable def lsSource (env : ChainEnv) (o : OpLabels) (ls : List LSSub) (m : Blocks) (T0 : ℕ) : LSSource where
  subs := ls
  canon := fun b k => if b ≤ k then (b, k, false, 1)
    else (k, b, true, env.swap T0 (jtAt (ls.map LSSub.qn) b) (jtAt (ls.map LSSub.qn) k))
  sector := lookSector (sectorPairs o T0 (ls.map LSSub.qn))
  mat := entry m

/-- `TransformOperatorTwoBodyLSJTNToTwoBodyJJJTN` for one component, lines 745-787. -/
noncomputable def jjBlocks (env : ChainEnv) (o : OpLabels) (ls : List LSSub) (m : Blocks) (jj : List JJSub) (T0 : ℕ) :
    Except Err Blocks :=
  (sectorPairs o T0 (jj.map JJSub.qn)).mapM fun p => do
    let b ← getSub jj p.1
    let k ← getSub jj p.2
    (List.range b.states.length).mapM fun i => (List.range k.states.length).mapM fun j =>
      recoupleElement env.nine (lsSource env o ls m T0) b k i j

/-! ## Gathering -/

/-- The place of a pair of orbitals among the subspaces of given `N`. -/
def locate (jj : List JJSub) (q : QN) (x : Lab × Lab) : Option (ℕ × ℕ) :=
  match jj.findIdx? (fun s => decide (s.qn = q ∧ s.N = x.1.1 + x.2.1)) with
  | none => none
  | some b =>
    match jj[b]? with
    | none => none
    | some s => (s.states.findIdx? fun t => decide (((t.N1, t.tj1), (t.N2, t.tj2)) = x)).map fun i => (b, i)

/-- One element of `basis::GatherOperatorTwoBodyJJJTNToTwoBodyJJJT`: the element of the operator between the same states, looked
up in canonical order of the subspaces of given `N`. -/
noncomputable def gatherElement (env : ChainEnv) (o : OpLabels) (jj : List JJSub) (m : Blocks) (T0 : ℕ) (b k : JTSub)
    (x y : Lab × Lab) : Except Err ℝ :=
  match locate jj b.qn x, locate jj k.qn y with
  | some (bi, i), some (ki, j) =>
    if bi ≤ ki then do
      let n ← found (lookSector (sectorPairs o T0 (jj.map JJSub.qn)) bi ki)
      pure (entry m n i j)
    else do
      let n ← found (lookSector (sectorPairs o T0 (jj.map JJSub.qn)) ki bi)
      pure (env.swap T0 (b.J, b.T) (k.J, k.T) * entry m n j i)
  | _, _ => .error .undefinedBehaviour

/-- `basis::GatherOperatorTwoBodyJJJTNToTwoBodyJJJT` for one component. -/
noncomputable def jtBlocks (env : ChainEnv) (o : OpLabels) (jj : List JJSub) (m : Blocks) (jt : List JTSub) (T0 : ℕ) :
    Except Err Blocks :=
  (sectorPairs o T0 (jt.map JTSub.qn)).mapM fun p => do
    let b ← getSub jt p.1
    let k ← getSub jt p.2
    b.states.mapM fun x => k.states.mapM fun y => gatherElement env o jj m T0 b k x y

/-- The `jjJT` operator, as seen by `TwoBodyMatrixJJJPN`. -/
noncomputable def jtSource (env : ChainEnv) (o : OpLabels) (jt : List JTSub) (m : ℕ → Blocks) : JTSource where
  sub := fun J T g => jt.findIdx? fun s => decide ((s.J : Int) = J ∧ (s.T : Int) = T ∧ (s.g : Int) = g)
  state := fun k a b => match jt[k]? with
    | some s => s.states.idxOf? (a, b)
    | none => none
  sector := fun T0 b k => if (o.T0min : Int) ≤ T0 ∧ T0 ≤ o.T0max
    then lookSector (sectorPairs o T0.toNat (jt.map JTSub.qn)) b k else none
  mat := fun T0 => entry (m T0.toNat)
  canon := fun T0 sb sk ib ik =>
    if sb < sk ∨ sb = sk ∧ ib ≤ ik then (ib, ik, 1)
    else (ik, ib, env.swap T0.toNat (jtAt (jt.map JTSub.qn) sb) (jtAt (jt.map JTSub.qn) sk))

end Verif.Moshinsky
