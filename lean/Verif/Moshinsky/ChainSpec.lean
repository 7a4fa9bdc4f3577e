import Verif.Moshinsky.Chain

/-!
# What the Moshinsky transformation is to compute

The two-body spaces by their quantum numbers, and the matrix elements between two-body states as sums over the relative and
centre-of-mass motion, and over `L` and `S`, of those of the relative operator.
-/

namespace Verif.Moshinsky
open Verif
open Verif.H2 hiding Mat
open Verif.Relative (OpLabels RelFile RelSub relSpace)

/-! ## The spaces -/

/-- Truncation by the quanta of a nucleon and of the pair. -/
structure Trunc where
  N1max : ℕ
  N2max : ℕ

/-- `(N,l)` is an oscillator orbital. -/
def Osc (N l : ℕ) : Prop := l ≤ N ∧ l % 2 = N % 2

instance (N l : ℕ) : Decidable (Osc N l) := by unfold Osc; infer_instance

/-- Triangle inequality. -/
def Tri (a b c : ℕ) : Prop := a ≤ b + c ∧ b ≤ a + c ∧ c ≤ a + b

instance (a b c : ℕ) : Decidable (Tri a b c) := by unfold Tri; infer_instance

/-- Relative and centre-of-mass motion `(Nr,lr,Nc,lc)` of two nucleons with `N` quanta, orbital angular momentum `L`, spin `S` and
isospin `T`: the relative motion is antisymmetric. -/
def IsRC (N L S T : ℕ) (p : LSPair) : Prop :=
  Osc p.1 p.2.1 ∧ Osc p.2.2.1 p.2.2.2 ∧ p.1 + p.2.2.1 = N ∧ Tri p.2.1 p.2.2.2 L ∧ (p.2.1 + S + T) % 2 = 1

instance (N L S T : ℕ) : DecidablePred (IsRC N L S T) := fun p => by unfold IsRC; infer_instance

/-- All of them. -/
def rcStates (N L S T : ℕ) : Finset LSPair :=
  (Finset.range (N + 1) ×ˢ Finset.range (N + 1) ×ˢ Finset.range (N + 1) ×ˢ Finset.range (N + 1)).filter (IsRC N L S T)

/-- Labels of an LS or relative-cm subspace. -/
structure ValidLS (Nmax : ℕ) (s : LSSub) : Prop where
  S : s.S ≤ 1
  T : s.T ≤ 1
  J : Tri s.L s.S s.J
  g : s.g = s.N % 2
  N : s.N ≤ Nmax

/-- `basis::RelativeCMSpaceLSJTN(Nmax)` as far as needed: distinct labels, all states of each subspace. -/
structure RCSpace (Nmax : ℕ) (rc : List LSSub) : Prop where
  labels : (rc.map LSSub.labels).Nodup
  valid : ∀ s ∈ rc, ValidLS Nmax s
  nodup : ∀ s ∈ rc, s.states.Nodup
  states : ∀ s ∈ rc, ∀ p, p ∈ s.states ↔ IsRC s.N s.L s.S s.T p

/-- An LS pair within the truncation. -/
def InTrunc (t : Trunc) (N1 N2 : ℕ) : Prop := N1 ≤ t.N1max ∧ N2 ≤ t.N1max ∧ N1 + N2 ≤ t.N2max

/-- `basis::TwoBodySpaceLSJTN`: distinct labels, and all states within the truncation. -/
structure LSSpace (t : Trunc) (ls : List LSSub) : Prop where
  labels : (ls.map LSSub.labels).Nodup
  valid : ∀ s ∈ ls, ValidLS t.N2max s
  nodup : ∀ s ∈ ls, s.states.Nodup
  states : ∀ s ∈ ls, ∀ p, p ∈ s.states ↔ Admissible s p ∧ InTrunc t p.1 p.2.2.1
  complete : ∀ s p, ValidLS t.N2max s → Admissible s p → InTrunc t p.1 p.2.2.1 → s.labels ∈ ls.map LSSub.labels

/-- Two orbitals `(N,2j)` of the oscillator shell model coupled to `J`, with isospin `T` and parity `g`, in canonical order. -/
structure IsPair (t : Trunc) (q : QN) (a b : Lab) : Prop where
  odd1 : a.2 % 2 = 1
  odd2 : b.2 % 2 = 1
  top1 : a.2 ≤ 2 * a.1 + 1
  top2 : b.2 ≤ 2 * b.1 + 1
  trunc : InTrunc t a.1 b.1
  parity : q.g = (a.1 + b.1) % 2
  isospin : q.T ≤ 1
  momentum : Tri a.2 b.2 (2 * q.J)
  order : labLE a b
  pauli : a = b → (q.J + q.T) % 2 = 1

/-- The orbital angular momentum of an orbital `(N,2j)`: the neighbour of `j` with the parity of `N`. -/
def orbL (a : Lab) : ℕ := if ((a.2 - 1) / 2) % 2 = a.1 % 2 then (a.2 - 1) / 2 else (a.2 + 1) / 2

/-- The `jj` state of two orbitals. -/
def jjOf (a b : Lab) : JJState := ⟨a.1, orbL a, a.2, b.1, orbL b, b.2⟩

/-- `basis::TwoBodySpaceJJJTN`. -/
structure JJSpace (t : Trunc) (jj : List JJSub) : Prop where
  labels : (jj.map fun s => (s.qn, s.N)).Nodup
  nodup : ∀ s ∈ jj, s.states.Nodup
  states : ∀ s ∈ jj, ∀ x, x ∈ s.states ↔ ∃ a b, x = jjOf a b ∧ IsPair t s.qn a b ∧ s.N = a.1 + b.1
  complete : ∀ q a b, IsPair t q a b → (q, a.1 + b.1) ∈ jj.map fun s => (s.qn, s.N)

/-- `basis::TwoBodySpaceJJJT`. -/
structure JTSpace (t : Trunc) (jt : List JTSub) : Prop where
  labels : (jt.map JTSub.qn).Nodup
  isospin : ∀ s ∈ jt, s.T ≤ 1
  nodup : ∀ s ∈ jt, s.states.Nodup
  states : ∀ s ∈ jt, ∀ x, x ∈ s.states ↔ IsPair t s.qn x.1 x.2
  complete : ∀ q a b, IsPair t q a b → q ∈ jt.map JTSub.qn

/-! ## The operator in a file -/

/-- Component `T0` of the operator in a relative file has the reduced elements `R`: the stored elements are those of `R` between
states in canonical order, and the others follow by exchange of bra and ket. -/
structure FileHolds (swap : ℕ → ℕ × ℕ → ℕ × ℕ → ℝ) (f : RelFile) (T0 : ℕ) (R : RelRME) : Prop where
  sym : ∀ l S J T N l' S' J' T' N' : ℕ, R (l, S, J, T) N (l', S', J', T') N'
    = swap T0 (J, T) (J', T') * R (l', S', J', T') N' (l, S, J, T) N
  stored : ∀ (k : ℕ) (x y : RelSub), (f.sectors T0)[k]? = some (x, y) → ∀ i j, i < x.size → j < y.size → (x = y → i ≤ j) →
    R (x.L, x.S, x.J, x.T) (x.L + 2 * i : ℕ) (y.L, y.S, y.J, y.T) (y.L + 2 * j : ℕ) = f.blocks T0 k i j

/-- Exchange of bra and ket commutes with the coupling of a spectator: a relation between the reduction factor and the factor of an
exchange. -/
def SwapLaw (env : ChainEnv) (J0 T0 : ℕ) : Prop :=
  ∀ Jb Jk l J J' T T' : ℕ, env.am.rose Jb l J Jk l J' J0 * env.swap T0 (Jb, T) (Jk, T')
    = env.swap T0 (J, T) (J', T') * env.am.rose Jk l J' Jb l J J0

/-! ## Two-body matrix elements -/

/-- `L`, `S`, `J`, `T`. -/
structure LSJT where
  L : ℕ
  S : ℕ
  J : ℕ
  T : ℕ

/-- The state of given relative and centre-of-mass motion. -/
def motion (q : LSJT) (r : LSPair) : RCState := ⟨r.1, r.2.1, r.2.2.1, r.2.2.2, q.L, q.S, q.J, q.T⟩

/-- The arguments `(n l, n_c l_c | n1 l1, n2 l2; L)` of a bracket. -/
def brArgs (r p : LSPair) (L : ℕ) : Key :=
  ⟨((r.1 - r.2.1) / 2 : ℕ), r.2.1, ((r.2.2.1 - r.2.2.2) / 2 : ℕ), r.2.2.2, ((p.1 - p.2.1) / 2 : ℕ), p.2.1,
    ((p.2.2.1 - p.2.2.2) / 2 : ℕ), p.2.2.2, L⟩

/-- Reduced elements of an operator on relative and centre-of-mass motion; for an operator on the relative motion alone they are
`relCMSpec`. -/
abbrev RCOp := RCState → RCState → ℝ

/-- The element between antisymmetrised two-body LS states of an operator on relative and centre-of-mass motion. -/
noncomputable def lsSpec (env : ChainEnv) (A : RCOp) (q : LSJT) (p : LSPair) (q' : LSJT) (p' : LSPair) : ℝ :=
  ∑ r ∈ rcStates (p.1 + p.2.2.1) q.L q.S q.T, ∑ s ∈ rcStates (p'.1 + p'.2.2.1) q'.L q'.S q'.T,
    2 * bracket env.mosh (brArgs r p q.L) * A (motion q r) (motion q' s)
      * bracket env.mosh (brArgs s p' q'.L)

/-- The `(L,S)` to which the orbitals of a `jj` state couple. -/
def lsOf (J T : ℕ) (x : JJState) : Finset (ℕ × ℕ) :=
  (Finset.range (x.l1 + x.l2 + 1) ×ˢ Finset.range 2).filter fun c => Tri x.l1 x.l2 c.1 ∧ Tri c.1 c.2 J ∧
    ((x.N1, x.l1) = (x.N2, x.l2) → (c.1 + c.2 + T) % 2 = 1)

/-- The element between antisymmetrised `jj` states. -/
noncomputable def jjSpec (env : ChainEnv) (A : RCOp) (q : QN) (x : JJState) (q' : QN) (y : JJState) : ℝ :=
  ∑ c ∈ lsOf q.J q.T x, ∑ d ∈ lsOf q'.J q'.T y,
    env.nine x.l1 x.tj1 x.l2 x.tj2 c.1 c.2 q.J
      * lsSpec env A ⟨c.1, c.2, q.J, q.T⟩ x.pair ⟨d.1, d.2, q'.J, q'.T⟩ y.pair
      * env.nine y.l1 y.tj1 y.l2 y.tj2 d.1 d.2 q'.J

open Classical in
/-- A pair of orbitals in any order as a multiple of the pair in canonical order; zero if there is no such state. -/
noncomputable def ordered (t : Trunc) (q : Int × Int × Int) (a b : Lab) : ℝ × JJState :=
  if q.1 < 0 ∨ q.2.1 < 0 ∨ q.2.2 < 0 then (0, jjOf a b)
  else if IsPair t ⟨q.1.toNat, q.2.1.toNat, q.2.2.toNat⟩ a b then (1, jjOf a b)
  else if IsPair t ⟨q.1.toNat, q.2.1.toNat, q.2.2.toNat⟩ b a then (exchangePhase b a q, jjOf b a)
  else (0, jjOf a b)

/-- The reduced elements of the two-body operator in the `jjJT` scheme, from those `A T0` of the operator on
relative and centre-of-mass motion. -/
noncomputable def twoBody (env : ChainEnv) (t : Trunc) (A : ℕ → RCOp) : RME := fun T0 q a b q' c d =>
  (ordered t q a b).1 * (ordered t q' c d).1
    * jjSpec env (A T0.toNat) ⟨q.1.toNat, q.2.1.toNat, q.2.2.toNat⟩ (ordered t q a b).2
      ⟨q'.1.toNat, q'.2.1.toNat, q'.2.2.toNat⟩ (ordered t q' c d).2

end Verif.Moshinsky
