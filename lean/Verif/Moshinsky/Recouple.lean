import Verif.Moshinsky.BranchProps

/-!
# Recoupling from LS to jj coupling

Model of `TransformationMatrixTwoBodyLSJTNToTwoBodyJJJTN`, `SubspacesConnectedLSJTNToJJJTN` and
`TwoBodyMatrixJJJTN`, `libraries/moshinsky/moshinsky_xform.cpp` 447-744.

Simplifications: `double` is `ℝ`; `am::Unitary9J` is a given function; subspaces are lists of states in
index order, `LookUpStateIndex` is the position in the list; the sectors of the source and the
canonicalisation of subspace indices belong to the `basis` library and are given by their lookup
functions; the sizes of the stored matrices are taken to fit.
-/

namespace Verif.Moshinsky
open Verif
open Verif.H2 hiding Mat

/-- `basis::TwoBodyStateLSJTNLabels`: `(N1,l1,N2,l2)`. -/
abbrev LSPair := ℕ × ℕ × ℕ × ℕ

/-- `basis::TwoBodyStateJJJTN`; angular momenta `j` are doubled. -/
structure JJState where
  N1 : ℕ
  l1 : ℕ
  tj1 : ℕ
  N2 : ℕ
  l2 : ℕ
  tj2 : ℕ
  deriving DecidableEq, Repr

/-- `basis::TwoBodySubspaceLSJTN`. -/
structure LSSub where
  L : ℕ
  S : ℕ
  J : ℕ
  T : ℕ
  g : ℕ
  N : ℕ
  states : List LSPair

/-- `basis::TwoBodySubspaceJJJTN`. -/
structure JJSub where
  J : ℕ
  T : ℕ
  g : ℕ
  N : ℕ
  states : List JJState

/-- The orbital labels looked up for a `jj` state, line 520. -/
def JJState.pair (s : JJState) : LSPair := (s.N1, s.l1, s.N2, s.l2)

/-- `am::Unitary9J(l1,1/2,j1,l2,1/2,j2,L,S,J)` as a function of `l1, 2j1, l2, 2j2, L, S, J`. -/
abbrev NineJ := ℕ → ℕ → ℕ → ℕ → ℕ → ℕ → ℕ → ℝ

/-- The value inserted for a state, lines 535-539. -/
def nineJOf (u : NineJ) (ls : LSSub) (s : JJState) : ℝ := u s.l1 s.tj1 s.l2 s.tj2 ls.L ls.S ls.J

/-- The insertions `(row, column, value)` of `TransformationMatrixTwoBodyLSJTNToTwoBodyJJJTN`, lines
494-541, after the asserts on matching labels (484-487). -/
def recouplingEntries (u : NineJ) (ls : LSSub) (jj : JJSub) : List (ℕ × ℕ × ℝ) :=
  jj.states.zipIdx.filterMap fun s =>
    match ls.states.idxOf? s.1.pair with
    | none => none
    | some r => some (r, s.2, nineJOf u ls s.1)

/-- Element of the sparse matrix. -/
def coeff (l : List (ℕ × ℕ × ℝ)) (r c : ℕ) : ℝ :=
  ((l.filter fun e => e.1 = r ∧ e.2.1 = c).map fun e => e.2.2).sum

/-- `SubspacesConnectedLSJTNToJJJTN`, lines 553-578. -/
def connected (ls : LSSub) (jj : JJSub) : Bool :=
  ls.N == jj.N && ls.J == jj.J && ls.T == jj.T && ls.g == jj.g

/-- The LS operator: canonical subspace indices with swap flag and factor, sector lookup, matrices. -/
structure LSSource where
  subs : List LSSub
  canon : ℕ → ℕ → ℕ × ℕ × Bool × ℝ
  sector : ℕ → ℕ → Option ℕ
  mat : ℕ → ℕ → ℕ → ℝ

/-- Contribution of one pair of source subspaces (index and subspace) to one element, lines 677-737. -/
noncomputable def recoupleTerm (u : NineJ) (src : LSSource) (bra ket : JJSub) (i j : ℕ)
    (sb sk : LSSub × ℕ) : Except Err ℝ := do
  let c := src.canon sb.2 sk.2
  let idx ← found (src.sector c.1 c.2.1)
  let B := coeff (recouplingEntries u sb.1 bra)
  let K := coeff (recouplingEntries u sk.1 ket)
  if c.2.2.1 then
    pure (∑ r ∈ Finset.range sb.1.states.length, ∑ s ∈ Finset.range sk.1.states.length,
      B r i * (c.2.2.2 * src.mat idx s r) * K s j)
  else
    pure (∑ r ∈ Finset.range sb.1.states.length, ∑ s ∈ Finset.range sk.1.states.length,
      B r i * src.mat idx r s * K s j)

/-- Element `(i,j)` of `TwoBodyMatrixJJJTN`, lines 580-744: scan of all source subspaces for the bra
and for the ket, then accumulation. -/
noncomputable def recoupleElement (u : NineJ) (src : LSSource) (bra ket : JJSub) (i j : ℕ) :
    Except Err ℝ := do
  let bs := src.subs.zipIdx.filter fun s => connected s.1 bra
  let ks := src.subs.zipIdx.filter fun s => connected s.1 ket
  let l ← (bs.flatMap fun b => ks.map fun k => (b, k)).mapM fun p => recoupleTerm u src bra ket i j p.1 p.2
  pure l.sum

/-! ## Specification -/

/-- Orbital quantum numbers: `l` is at most `N` and has its parity, and `j = l ± 1/2`. -/
def GoodOrbital (N l tj : ℕ) : Prop := l ≤ N ∧ l % 2 = N % 2 ∧ (tj = 2 * l + 1 ∨ tj + 1 = 2 * l)

/-- Lexicographic order of label pairs. -/
def lexLE (a b : ℕ × ℕ) : Prop := a.1 < b.1 ∨ (a.1 = b.1 ∧ a.2 ≤ b.2)

/-- LS pairs of a subspace: oscillator orbitals, quanta, orbital triangle, canonical order, and
antisymmetry for equal orbitals. -/
def Admissible (ls : LSSub) (p : LSPair) : Prop :=
  (p.2.1 ≤ p.1 ∧ p.2.1 % 2 = p.1 % 2 ∧ p.2.2.2 ≤ p.2.2.1 ∧ p.2.2.2 % 2 = p.2.2.1 % 2) ∧
    p.1 + p.2.2.1 = ls.N ∧ (p.2.1 ≤ p.2.2.2 + ls.L ∧ p.2.2.2 ≤ p.2.1 + ls.L ∧ ls.L ≤ p.2.1 + p.2.2.2) ∧
    lexLE (p.1, p.2.1) (p.2.2.1, p.2.2.2) ∧
    ((p.1, p.2.1) = (p.2.2.1, p.2.2.2) → (ls.L + ls.S + ls.T) % 2 = 1)

/-- A canonical `jj` state. -/
structure GoodJJ (jj : JJSub) (s : JJState) : Prop where
  orb1 : GoodOrbital s.N1 s.l1 s.tj1
  orb2 : GoodOrbital s.N2 s.l2 s.tj2
  quanta : s.N1 + s.N2 = jj.N
  order : lexLE (s.N1, s.tj1) (s.N2, s.tj2)

/-! ## Properties -/

/-- C48: canonical order by `(N,j)` implies canonical order by `(N,l)`. -/
theorem canonical_order_carries_over {N1 l1 tj1 N2 l2 tj2 : ℕ} (h1 : GoodOrbital N1 l1 tj1)
    (h2 : GoodOrbital N2 l2 tj2) (h : lexLE (N1, tj1) (N2, tj2)) : lexLE (N1, l1) (N2, l2) := by
  unfold GoodOrbital lexLE at *
  simp only at *
  omega

/-- The parity condition is needed: without it the order can be reversed. -/
example : ¬ (∀ N1 l1 tj1 N2 l2 tj2 : ℕ, (tj1 = 2 * l1 + 1 ∨ tj1 + 1 = 2 * l1) →
    (tj2 = 2 * l2 + 1 ∨ tj2 + 1 = 2 * l2) → lexLE (N1, tj1) (N2, tj2) → lexLE (N1, l1) (N2, l2)) := by
  intro h
  have := h 2 1 1 2 0 1 (Or.inr rfl) (Or.inl rfl) (Or.inr ⟨rfl, le_rfl⟩)
  simp [lexLE] at this

theorem idxOf?_some {l : List LSPair} {p : LSPair} {r : ℕ} (hn : l.Nodup) :
    l.idxOf? p = some r ↔ l[r]? = some p := by
  rw [List.idxOf?, List.findIdx?_eq_some_iff_getElem]
  constructor
  · rintro ⟨h, he, _⟩
    rw [List.getElem?_eq_getElem h]
    simpa using he
  · intro h
    obtain ⟨hlt, he⟩ := List.getElem?_eq_some_iff.mp h
    refine ⟨hlt, by simpa using he, ?_⟩
    intro j hj
    simp only [beq_iff_eq]
    intro hc
    rw [← he] at hc
    have := (List.Nodup.getElem_inj_iff hn).mp hc
    omega

theorem coeff_cons (e : ℕ × ℕ × ℝ) (l : List (ℕ × ℕ × ℝ)) (r c : ℕ) :
    coeff (e :: l) r c = (if e.1 = r ∧ e.2.1 = c then e.2.2 else 0) + coeff l r c := by
  unfold coeff
  by_cases h : e.1 = r ∧ e.2.1 = c
  · rw [List.filter_cons_of_pos (by simpa using h), if_pos h]
    simp
  · rw [List.filter_cons_of_neg (by simpa using h), if_neg h, zero_add]

theorem coeff_nil (r c : ℕ) : coeff [] r c = 0 := by simp [coeff]

/-- The element expected at row `r` for a `jj` state. -/
def expected (u : NineJ) (ls : LSSub) (r : ℕ) (s : JJState) : ℝ :=
  if ls.states[r]? = some s.pair then nineJOf u ls s else 0

theorem coeff_offset (u : NineJ) (ls : LSSub) (hn : ls.states.Nodup) (l : List JJState) :
    ∀ (n r c : ℕ), coeff ((l.zipIdx n).filterMap fun s =>
      match ls.states.idxOf? s.1.pair with
      | none => none
      | some r => some (r, s.2, nineJOf u ls s.1)) r c
      = if n ≤ c then ((l[c - n]?).map (expected u ls r)).getD 0 else 0 := by
  induction l with
  | nil => intro n r c; simp [coeff_nil]
  | cons s l ih =>
    intro n r c
    rw [List.zipIdx_cons, List.filterMap_cons]
    have hrest := ih (n + 1) r c
    cases hidx : ls.states.idxOf? s.pair with
    | none =>
      simp only [hidx]
      rw [hrest]
      by_cases h1 : n + 1 ≤ c
      · rw [if_pos h1, if_pos (by omega)]
        have : c - n = (c - (n + 1)) + 1 := by omega
        rw [this, List.getElem?_cons_succ]
      · rw [if_neg h1]
        by_cases h2 : n ≤ c
        · have hc : c - n = 0 := by omega
          rw [if_pos h2, hc]
          simp only [List.getElem?_cons_zero, Option.map_some, Option.getD_some, expected]
          rw [if_neg]
          intro hs
          rw [(idxOf?_some hn).mpr hs] at hidx
          simp at hidx
        · rw [if_neg h2]
    | some r0 =>
      simp only [hidx]
      rw [coeff_cons, hrest]
      have hr0 := (idxOf?_some hn).mp hidx
      simp only
      by_cases h1 : n + 1 ≤ c
      · rw [if_pos h1, if_pos (by omega : n ≤ c), if_neg (by omega)]
        have : c - n = (c - (n + 1)) + 1 := by omega
        rw [this, List.getElem?_cons_succ, zero_add]
      · rw [if_neg h1]
        by_cases h2 : n ≤ c
        · have hc : c - n = 0 := by omega
          rw [if_pos h2, hc]
          simp only [List.getElem?_cons_zero, Option.map_some, Option.getD_some, expected, add_zero]
          by_cases hr : r0 = r
          · subst hr
            rw [if_pos ⟨rfl, by omega⟩, if_pos hr0]
          · rw [if_neg (by simp [hr]), if_neg]
            intro hs
            apply hr
            have := (idxOf?_some hn).mpr hs
            rw [hidx] at this
            exact Option.some.inj this
        · rw [if_neg h2, if_neg (by omega), add_zero]

/-- C48: element `(r,c)` of the recoupling matrix is the `9j` coefficient when LS state `r` has the
orbitals of `jj` state `c`, in the same order, and zero otherwise. -/
theorem recoupling_matrix (u : NineJ) (ls : LSSub) (jj : JJSub) (hn : ls.states.Nodup) (r c : ℕ)
    (s : JJState) (hs : jj.states[c]? = some s) :
    coeff (recouplingEntries u ls jj) r c
      = if ls.states[r]? = some (s.N1, s.l1, s.N2, s.l2)
        then u s.l1 s.tj1 s.l2 s.tj2 ls.L ls.S ls.J else 0 := by
  have := coeff_offset u ls hn jj.states 0 r c
  simp only [Nat.zero_le, if_true, Nat.sub_zero, hs, Option.map_some, Option.getD_some] at this
  exact this

/-- C48: no `jj` state loses its LS partner through ordering: in a complete LS subspace, the column of
a canonical `jj` state has an entry exactly when its orbitals satisfy the triangle and antisymmetry
conditions of the subspace. -/
theorem recoupling_finds_state (ls : LSSub) (jj : JJSub) (hN : ls.N = jj.N)
    (hfull : ∀ p, p ∈ ls.states ↔ Admissible ls p) (s : JJState) (hs : GoodJJ jj s) :
    (∃ r, ls.states.idxOf? s.pair = some r) ↔
      ((s.l1 ≤ s.l2 + ls.L ∧ s.l2 ≤ s.l1 + ls.L ∧ ls.L ≤ s.l1 + s.l2) ∧
        ((s.N1, s.l1) = (s.N2, s.l2) → (ls.L + ls.S + ls.T) % 2 = 1)) := by
  have hmem : (∃ r, ls.states.idxOf? s.pair = some r) ↔ s.pair ∈ ls.states := by
    rw [← Option.isSome_iff_exists, List.isSome_idxOf?]
  rw [hmem, hfull]
  have hord := canonical_order_carries_over hs.orb1 hs.orb2 hs.order
  have hq := hs.quanta
  simp only [Admissible, JJState.pair]
  constructor
  · rintro ⟨_, _, h1, _, h2⟩
    exact ⟨h1, h2⟩
  · rintro ⟨h1, h2⟩
    exact ⟨⟨hs.orb1.1, hs.orb1.2.1, hs.orb2.1, hs.orb2.2.1⟩, by omega, h1, hord, h2⟩

/-- Matrix elements of a two-body operator between LS states: `R (subspace) (pair) (subspace) (pair)`,
subspaces by index. -/
abbrev LSRME := ℕ → LSPair → ℕ → LSPair → ℝ

/-- An LS subspace and a `jj` subspace hold states of the same `N`, `J`, `T` and parity. -/
def SameLabels (ls : LSSub) (jj : JJSub) : Prop := ls.N = jj.N ∧ ls.J = jj.J ∧ ls.T = jj.T ∧ ls.g = jj.g

instance (ls : LSSub) (jj : JJSub) : Decidable (SameLabels ls jj) := by unfold SameLabels; infer_instance

/-- C48: subspaces are connected exactly when all the labels agree. -/
theorem connected_iff (ls : LSSub) (jj : JJSub) : connected ls jj = true ↔ SameLabels ls jj := by
  simp [connected, SameLabels, and_assoc]

/-- The stored LS matrices represent `R` for all connected subspaces: the sector exists, and the stored
matrix (transposed, with the canonicalisation factor, if the canonical order is the reverse) holds the
elements of `R`. -/
def LSRepresents (src : LSSource) (bra ket : JJSub) (R : LSRME) : Prop :=
  ∀ b k sb sk, src.subs[b]? = some sb → src.subs[k]? = some sk → SameLabels sb bra →
    SameLabels sk ket →
    ∃ idx, src.sector (src.canon b k).1 (src.canon b k).2.1 = some idx ∧
      ∀ r s p q, sb.states[r]? = some p → sk.states[s]? = some q →
        (if (src.canon b k).2.2.1 then (src.canon b k).2.2.2 * src.mat idx s r else src.mat idx r s)
          = R b p k q

/-- A sum over rows with at most one matching row. -/
theorem sum_match (l : List LSPair) (hn : l.Nodup) (p : LSPair) (x : ℝ) (f : ℕ → ℝ) (g : ℝ)
    (hf : ∀ r, l[r]? = some p → f r = g) :
    ∑ r ∈ Finset.range l.length, (if l[r]? = some p then x else 0) * f r
      = if p ∈ l then x * g else 0 := by
  by_cases h : p ∈ l
  · obtain ⟨r, hr⟩ := List.mem_iff_getElem?.mp h
    have hlt := (List.getElem?_eq_some_iff.mp hr).1
    rw [if_pos h, Finset.sum_eq_single r]
    · rw [if_pos hr, hf r hr]
    · intro r' hr' hne
      rw [if_neg, zero_mul]
      intro hc
      apply hne
      have h1 := (idxOf?_some hn).mpr hr
      have h2 := (idxOf?_some hn).mpr hc
      rw [h1] at h2
      exact (Option.some.inj h2).symm
    · intro hc
      exact absurd (Finset.mem_range.mpr hlt) hc
  · rw [if_neg h]
    refine Finset.sum_eq_zero fun r _ => ?_
    rw [if_neg, zero_mul]
    intro hc
    exact h (List.mem_iff_getElem?.mpr ⟨r, hc⟩)

theorem recoupleTerm_ok (u : NineJ) (src : LSSource) (bra ket : JJSub) (R : LSRME)
    (hR : LSRepresents src bra ket R) (hn : ∀ s ∈ src.subs, s.states.Nodup) (i j : ℕ)
    (si sj : JJState) (hi : bra.states[i]? = some si) (hj : ket.states[j]? = some sj)
    (b k : LSSub × ℕ) (hb : src.subs[b.2]? = some b.1) (hk : src.subs[k.2]? = some k.1)
    (hcb : SameLabels b.1 bra) (hck : SameLabels k.1 ket) :
    recoupleTerm u src bra ket i j b k = .ok (
      if si.pair ∈ b.1.states ∧ sj.pair ∈ k.1.states then
        nineJOf u b.1 si * R b.2 si.pair k.2 sj.pair * nineJOf u k.1 sj else 0) := by
  obtain ⟨idx, hidx, hval⟩ := hR b.2 k.2 b.1 k.1 hb hk hcb hck
  have hnb := hn b.1 (List.mem_of_getElem? hb)
  have hnk := hn k.1 (List.mem_of_getElem? hk)
  have hsum : ∑ r ∈ Finset.range b.1.states.length, ∑ s ∈ Finset.range k.1.states.length,
      coeff (recouplingEntries u b.1 bra) r i
        * (if (src.canon b.2 k.2).2.2.1 then (src.canon b.2 k.2).2.2.2 * src.mat idx s r
          else src.mat idx r s)
        * coeff (recouplingEntries u k.1 ket) s j
      = if si.pair ∈ b.1.states ∧ sj.pair ∈ k.1.states then
        nineJOf u b.1 si * R b.2 si.pair k.2 sj.pair * nineJOf u k.1 sj else 0 := by
    have e1 : ∀ r, coeff (recouplingEntries u b.1 bra) r i
        = if b.1.states[r]? = some si.pair then nineJOf u b.1 si else 0 :=
      fun r => recoupling_matrix u b.1 bra hnb r i si hi
    have e2 : ∀ s, coeff (recouplingEntries u k.1 ket) s j
        = if k.1.states[s]? = some sj.pair then nineJOf u k.1 sj else 0 :=
      fun s => recoupling_matrix u k.1 ket hnk s j sj hj
    have hinner : ∀ r ∈ Finset.range b.1.states.length, ∑ s ∈ Finset.range k.1.states.length,
        coeff (recouplingEntries u b.1 bra) r i
          * (if (src.canon b.2 k.2).2.2.1 then (src.canon b.2 k.2).2.2.2 * src.mat idx s r
            else src.mat idx r s)
          * coeff (recouplingEntries u k.1 ket) s j
        = (if b.1.states[r]? = some si.pair then nineJOf u b.1 si else 0)
          * (if sj.pair ∈ k.1.states then nineJOf u k.1 sj * R b.2 si.pair k.2 sj.pair else 0) := by
      intro r hr
      rw [e1]
      by_cases hp : b.1.states[r]? = some si.pair
      · rw [if_pos hp]
        have := sum_match k.1.states hnk sj.pair (nineJOf u k.1 sj)
          (fun s => nineJOf u b.1 si * (if (src.canon b.2 k.2).2.2.1
            then (src.canon b.2 k.2).2.2.2 * src.mat idx s r else src.mat idx r s))
          (nineJOf u b.1 si * R b.2 si.pair k.2 sj.pair)
          (fun s hs => by rw [hval r s si.pair sj.pair hp hs])
        rw [mul_ite, mul_zero]
        calc _ = _ := Finset.sum_congr rfl (fun s _ => by rw [e2 s]; ring)
          _ = _ := this
          _ = _ := by split <;> ring
      · rw [if_neg hp, zero_mul]
        exact Finset.sum_eq_zero fun s _ => by ring
    rw [Finset.sum_congr rfl hinner,
      sum_match b.1.states hnb si.pair (nineJOf u b.1 si)
        (fun _ => if sj.pair ∈ k.1.states then nineJOf u k.1 sj * R b.2 si.pair k.2 sj.pair else 0)
        _ (fun _ _ => rfl)]
    by_cases hx : si.pair ∈ b.1.states <;> by_cases hy : sj.pair ∈ k.1.states <;> simp [hx, hy] <;> ring
  unfold recoupleTerm
  simp only [hidx, found, Except.ok_bind']
  rw [← hsum]
  by_cases hc : (src.canon b.2 k.2).2.2.1 = true
  · simp only [hc, if_true, Except.pure_ok]
  · simp only [hc, Except.pure_ok]
    rfl

/-- C48: a recoupled matrix element exists and is the double sum over all LS subspaces with the labels
of the bra and of the ket which hold the orbitals of the states, of the represented operator between
the two `9j` coefficients; storage order and swaps of the LS sectors do not matter. -/
theorem recoupled_element (u : NineJ) (src : LSSource) (bra ket : JJSub) (R : LSRME)
    (hR : LSRepresents src bra ket R) (hn : ∀ s ∈ src.subs, s.states.Nodup) (i j : ℕ)
    (si sj : JJState) (hi : bra.states[i]? = some si) (hj : ket.states[j]? = some sj) :
    recoupleElement u src bra ket i j = .ok
      ((src.subs.zipIdx.filter fun s => decide (SameLabels s.1 bra)).map fun b =>
        ((src.subs.zipIdx.filter fun s => decide (SameLabels s.1 ket)).map fun k =>
          if (si.N1, si.l1, si.N2, si.l2) ∈ b.1.states ∧ (sj.N1, sj.l1, sj.N2, sj.l2) ∈ k.1.states then
            u si.l1 si.tj1 si.l2 si.tj2 b.1.L b.1.S b.1.J
              * R b.2 (si.N1, si.l1, si.N2, si.l2) k.2 (sj.N1, sj.l1, sj.N2, sj.l2)
              * u sj.l1 sj.tj1 sj.l2 sj.tj2 k.1.L k.1.S k.1.J
          else 0).sum).sum := by
  have hcon : ∀ (jj : JJSub), (fun s : LSSub × ℕ => connected s.1 jj) = fun s => decide (SameLabels s.1 jj) := by
    intro jj
    funext s
    rw [Bool.eq_iff_iff, connected_iff, decide_eq_true_iff]
  unfold recoupleElement
  simp only [hcon]
  rw [Verif.Relative.mapM_ok (g := fun p : (LSSub × ℕ) × (LSSub × ℕ) =>
      if si.pair ∈ p.1.1.states ∧ sj.pair ∈ p.2.1.states then
        nineJOf u p.1.1 si * R p.1.2 si.pair p.2.2 sj.pair * nineJOf u p.2.1 sj else 0)]
  swap
  · intro p hp
    simp only [List.mem_flatMap, List.mem_map, List.mem_filter, decide_eq_true_eq] at hp
    obtain ⟨b, ⟨hb, hcb⟩, k, ⟨hk, hck⟩, rfl⟩ := hp
    exact recoupleTerm_ok u src bra ket R hR hn i j si sj hi hj b k
      (List.mk_mem_zipIdx_iff_getElem?.mp hb) (List.mk_mem_zipIdx_iff_getElem?.mp hk) hcb hck
  simp only [Except.ok_bind', Except.pure_ok]
  congr 1
  have key : ∀ (l : List (LSSub × ℕ)) (g : (LSSub × ℕ) → List ℝ),
      (l.flatMap g).sum = (l.map fun x => (g x).sum).sum := by
    intro l g
    induction l with
    | nil => rfl
    | cons x l ih => simp [ih]
  rw [List.map_flatMap, key]
  simp only [List.map_map]
  rfl

/-- Non-vacuity: a complete LS subspace (`N=1`, `L=1`, `S=0`, `J=1`, `T=0`, `g=1`) and a canonical `jj`
state over it. -/
example : ∃ ls : LSSub, ∃ jj : JJSub, ∃ s : JJState, ls.N = jj.N ∧ (∀ p, p ∈ ls.states ↔ Admissible ls p) ∧
    ls.states.Nodup ∧ GoodJJ jj s ∧ ls.states.idxOf? s.pair = some 0 := by
  refine ⟨⟨1, 0, 1, 0, 1, 1, [(0, 0, 1, 1)]⟩, ⟨1, 0, 1, 1, [⟨0, 0, 1, 1, 1, 3⟩]⟩,
    ⟨0, 0, 1, 1, 1, 3⟩, rfl, ?_, by decide, ⟨by simp [GoodOrbital], by simp [GoodOrbital], rfl, by simp [lexLE]⟩,
    by decide⟩
  rintro ⟨N1, l1, N2, l2⟩
  simp only [List.mem_singleton, Prod.mk.injEq, Admissible, lexLE]
  omega

/-- Non-vacuity: a source whose only sector is stored in reversed order. -/
example : ∃ src : LSSource, ∃ bra : JJSub, LSRepresents src bra bra (fun _ _ _ _ => 6) ∧
    (∀ s ∈ src.subs, s.states.Nodup) ∧ (src.subs.filter fun s => connected s bra).length = 1 := by
  refine ⟨⟨[⟨1, 0, 1, 0, 1, 1, [(0, 0, 1, 1)]⟩], fun b k => (k, b, true, 2), fun _ _ => some 0,
    fun _ _ _ => 3⟩, ⟨1, 0, 1, 1, [⟨0, 0, 1, 1, 1, 3⟩]⟩, ?_, by simp, by decide⟩
  intro b k sb sk _ _ _ _
  exact ⟨0, rfl, fun _ _ _ _ _ _ => by norm_num⟩

end Verif.Moshinsky
