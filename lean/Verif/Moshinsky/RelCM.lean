import Verif.Moshinsky.BranchProps
import Verif.Moshinsky.MemoProps

/-!
# From relative to relative-cm matrix elements, and the Moshinsky transformation

Model of `RelativeCMMatrixLSJTN`, `TransformationMatrixRelativeCMTwoBodyLSJTN` and
`TwoBodyMatrixLSJTN`, `libraries/moshinsky/moshinsky_xform.cpp` 24-211, 287-369.

Simplifications: `double` is `ℝ`; `am::Unitary6JZ` and `am::RacahReductionFactor1Rose` are given
functions; the relative space and sectors and the index canonicalisation belong to the `basis` library
and are given by their lookup functions.
-/

namespace Verif.Moshinsky
open Verif
open Verif.H2 hiding Mat

/-- `basis::RelativeCMStateLSJTN`. -/
structure RCState where
  Nr : Int
  lr : Int
  Nc : Int
  lc : Int
  L : Int
  S : Int
  J : Int
  T : Int
  deriving DecidableEq, Repr

/-- Labels `(L,S,J,T,g)` of a relative subspace. -/
abbrev RelLabels := Int × Int × Int × Int × Int

/-- The relative operator component: space truncation, subspace, state and sector lookup, the state
indices and factor of `basis::CanonicalizeIndicesJT` with the canonical subspace indices, matrices. -/
structure RelSource where
  Nmax : Int
  Jmax : Int
  sub : RelLabels → Option ℕ
  state : ℕ → Int → Option ℕ
  canon : ℕ → ℕ → ℕ → ℕ → (ℕ × ℕ) × (ℕ × ℕ) × ℝ
  sector : ℕ → ℕ → Option ℕ
  mat : ℕ → ℕ → ℕ → ℝ

/-- Recoupling coefficients: `Unitary6JZ` and `RacahReductionFactor1Rose`. -/
structure RelEnv where
  z : Int → Int → Int → Int → Int → Int → ℝ
  rose : Int → Int → Int → Int → Int → Int → Int → ℝ

/-- Range of the relative angular momentum, lines 106-113: intersection of the product ranges of
`(lc,J)` and `(lr,S)`. -/
def jrRange (s : RCState) : List Int :=
  loop (max |s.lc - s.J| |s.lr - s.S|) (min (s.lc + s.J) (s.lr + s.S))

/-- Relative subspace used for a state, lines 136-143. -/
def relLabels (s : RCState) (Jr : Int) : RelLabels := (s.lr, s.S, Jr, s.T, s.lr.tmod 2)

/-- Body of the loop over `Jr_bra`, `Jr_ket`, lines 121-199. -/
noncomputable def relTerm (env : RelEnv) (src : RelSource) (J0 : Int) (b k : RCState) (Jb Jk : Int) :
    Except Err ℝ :=
  if ¬ (max Jb Jk ≤ src.Jmax) then .ok 0
  else if !tri Jb J0 Jk then .ok 0
  else do
    let sb ← found (src.sub (relLabels b Jb))
    let sk ← found (src.sub (relLabels k Jk))
    let ib ← found (src.state sb b.Nr)
    let ik ← found (src.state sk k.Nr)
    let c := src.canon sb sk ib ik
    let idx ← found (src.sector c.1.1 c.1.2)
    let me := c.2.2 * src.mat idx c.2.1.1 c.2.1.2
    pure (env.z b.lr b.lc b.L b.J b.S Jb * env.z k.lr k.lc k.L k.J k.S Jk
      * env.rose Jb b.lc b.J Jk k.lc k.J J0 * me)

/-- One element of `RelativeCMMatrixLSJTN`, lines 57-205. -/
noncomputable def relCMElement (env : RelEnv) (src : RelSource) (J0 : Int) (b k : RCState) :
    Except Err ℝ :=
  if ¬ (b.Nc = k.Nc ∧ b.lc = k.lc) then .ok 0
  else do
    assertE (decide (max b.Nr k.Nr ≤ src.Nmax))
    let l ← ((jrRange b).flatMap fun Jb => (jrRange k).map fun Jk => (Jb, Jk)).mapM
      fun p => relTerm env src J0 b k p.1 p.2
    pure l.sum

/-! ## Specification -/

/-- Reduced matrix elements of a relative operator: `R (l',S',J',T') N' (l,S,J,T) N`. -/
abbrev RelRME := (Int × Int × Int × Int) → Int → (Int × Int × Int × Int) → Int → ℝ

/-- A relative-cm state: non-negative quantum numbers, oscillator orbitals for both motions. -/
structure GoodRC (s : RCState) : Prop where
  lr : 0 ≤ s.lr
  lrNr : s.lr ≤ s.Nr
  lc : 0 ≤ s.lc
  S : 0 ≤ s.S

/-- The stored relative operator represents `R` up to the truncation: all subspaces with `J ≤ Jmax`
and states with `N ≤ Nmax` needed for the given two states are present, with their sectors. -/
def RelRepresents (src : RelSource) (J0 : Int) (R : RelRME) (b k : RCState) : Prop :=
  ∀ Jb Jk, |b.lr - b.S| ≤ Jb ∧ Jb ≤ b.lr + b.S → |k.lr - k.S| ≤ Jk ∧ Jk ≤ k.lr + k.S →
    Jb ≤ src.Jmax → Jk ≤ src.Jmax → |Jb - J0| ≤ Jk ∧ Jk ≤ Jb + J0 →
    ∃ sb sk ib ik idx, src.sub (b.lr, b.S, Jb, b.T, b.lr % 2) = some sb ∧
      src.sub (k.lr, k.S, Jk, k.T, k.lr % 2) = some sk ∧ src.state sb b.Nr = some ib ∧
      src.state sk k.Nr = some ik ∧
      src.sector (src.canon sb sk ib ik).1.1 (src.canon sb sk ib ik).1.2 = some idx ∧
      (src.canon sb sk ib ik).2.2
        * src.mat idx (src.canon sb sk ib ik).2.1.1 (src.canon sb sk ib ik).2.1.2
        = R (b.lr, b.S, Jb, b.T) b.Nr (k.lr, k.S, Jk, k.T) k.Nr

/-- The relative-cm matrix element of an operator acting on the relative motion: zero unless the
centre-of-mass motion is the same, otherwise the sum over all relative angular momenta allowed by the
couplings `(lr S) Jr` and `(Jr lc) J`, up to the truncation of the relative operator. -/
noncomputable def relCMSpec (env : RelEnv) (Jmax J0 : Int) (R : RelRME) (b k : RCState) : ℝ :=
  if (b.Nc, b.lc) = (k.Nc, k.lc) then
    ∑ Jb ∈ (Finset.Icc 0 Jmax).filter (fun x => tri b.lr b.S x ∧ tri b.lc b.J x),
      ∑ Jk ∈ (Finset.Icc 0 Jmax).filter (fun x => tri k.lr k.S x ∧ tri k.lc k.J x ∧ tri Jb J0 x),
        env.z b.lr b.lc b.L b.J b.S Jb * env.z k.lr k.lc k.L k.J k.S Jk
          * env.rose Jb b.lc b.J Jk k.lc k.J J0 * R (b.lr, b.S, Jb, b.T) b.Nr (k.lr, k.S, Jk, k.T) k.Nr
  else 0

/-! ## Properties -/

/-- C49: the relative-cm element vanishes unless the centre-of-mass quantum numbers agree, whatever
the relative operator. -/
theorem cm_conserved (env : RelEnv) (src : RelSource) (J0 : Int) (b k : RCState)
    (h : (b.Nc, b.lc) ≠ (k.Nc, k.lc)) : relCMElement env src J0 b k = .ok 0 := by
  unfold relCMElement
  rw [if_pos]
  intro hc
  exact h (Prod.ext hc.1 hc.2)

theorem mem_jrRange {s : RCState} {x : Int} :
    x ∈ jrRange s ↔ (|s.lr - s.S| ≤ x ∧ x ≤ s.lr + s.S) ∧ (|s.lc - s.J| ≤ x ∧ x ≤ s.lc + s.J) := by
  simp only [jrRange, mem_loop]
  omega

theorem relTerm_ok (env : RelEnv) {src : RelSource} {J0 : Int} {R : RelRME} {b k : RCState}
    (hb : GoodRC b) (hk : GoodRC k) (hR : RelRepresents src J0 R b k) {Jb Jk : Int}
    (hJb : Jb ∈ jrRange b) (hJk : Jk ∈ jrRange k) :
    relTerm env src J0 b k Jb Jk = .ok (if Jb ≤ src.Jmax ∧ Jk ≤ src.Jmax ∧ tri Jb J0 Jk then
      env.z b.lr b.lc b.L b.J b.S Jb * env.z k.lr k.lc k.L k.J k.S Jk
        * env.rose Jb b.lc b.J Jk k.lc k.J J0 * R (b.lr, b.S, Jb, b.T) b.Nr (k.lr, k.S, Jk, k.T) k.Nr
      else 0) := by
  rw [mem_jrRange] at hJb hJk
  unfold relTerm
  by_cases h1 : max Jb Jk ≤ src.Jmax
  swap
  · rw [if_pos h1, if_neg (by omega)]
  rw [if_neg (by omega)]
  by_cases h2 : tri Jb J0 Jk = true
  swap
  · rw [if_pos (by simpa using h2), if_neg (fun h => h2 h.2.2)]
  rw [if_neg (by simpa using h2), if_pos ⟨by omega, by omega, h2⟩]
  have h2' : |Jb - J0| ≤ Jk ∧ Jk ≤ Jb + J0 := by simpa [tri] using h2
  obtain ⟨sb, sk, ib, ik, idx, e1, e2, e3, e4, e5, e6⟩ :=
    hR Jb Jk hJb.1 hJk.1 (by omega) (by omega) h2'
  simp only [relLabels, Int.tmod_eq_emod_of_nonneg hb.lr, Int.tmod_eq_emod_of_nonneg hk.lr, e1, e2, e3,
    e4, e5, found, Except.ok_bind', e6, Except.pure_ok]

/-- C49: the element exists and is the spectator-coupled matrix element of the relative operator. -/
theorem relcm_element (env : RelEnv) {src : RelSource} {J0 : Int} {R : RelRME} {b k : RCState}
    (hb : GoodRC b) (hk : GoodRC k) (hR : RelRepresents src J0 R b k)
    (hN : (b.Nc, b.lc) = (k.Nc, k.lc) → b.Nr ≤ src.Nmax ∧ k.Nr ≤ src.Nmax) :
    relCMElement env src J0 b k = .ok (relCMSpec env src.Jmax J0 R b k) := by
  by_cases hcm : (b.Nc, b.lc) = (k.Nc, k.lc)
  swap
  · rw [cm_conserved env src J0 b k hcm, relCMSpec, if_neg hcm]
  have hcm' : b.Nc = k.Nc ∧ b.lc = k.lc := by simpa using hcm
  have hN' := hN hcm
  unfold relCMElement relCMSpec
  rw [if_neg (by simpa using hcm'), if_pos hcm]
  have ha : decide (max b.Nr k.Nr ≤ src.Nmax) = true := by
    rw [decide_eq_true_eq]; omega
  simp only [ha, assertE, if_true, Except.ok_bind']
  rw [Verif.Relative.mapM_ok (g := fun p : Int × Int =>
    if p.1 ≤ src.Jmax ∧ p.2 ≤ src.Jmax ∧ tri p.1 J0 p.2 then
      env.z b.lr b.lc b.L b.J b.S p.1 * env.z k.lr k.lc k.L k.J k.S p.2
        * env.rose p.1 b.lc b.J p.2 k.lc k.J J0
        * R (b.lr, b.S, p.1, b.T) b.Nr (k.lr, k.S, p.2, k.T) k.Nr
      else 0)]
  swap
  · intro p hp
    simp only [List.mem_flatMap, List.mem_map] at hp
    obtain ⟨Jb, hJb, Jk, hJk, rfl⟩ := hp
    exact relTerm_ok env hb hk hR hJb hJk
  simp only [Except.ok_bind', Except.pure_ok]
  congr 1
  have key : ∀ (l : List Int) (g : Int → List ℝ), (l.flatMap g).sum = (l.map fun x => (g x).sum).sum := by
    intro l g
    induction l with
    | nil => rfl
    | cons x l ih => simp [ih]
  rw [List.map_flatMap, key]
  simp only [List.map_map, jrRange]
  rw [loop_sum]
  simp only [loop_sum]
  have hset : ∀ (s : RCState), ∀ x, x ∈ Finset.Icc (max |s.lc - s.J| |s.lr - s.S|)
      (min (s.lc + s.J) (s.lr + s.S)) ↔ 0 ≤ x ∧ (tri s.lr s.S x = true ∧ tri s.lc s.J x = true) := by
    intro s x
    simp only [Finset.mem_Icc, tri, decide_eq_true_eq]
    have := abs_nonneg (s.lr - s.S)
    omega
  have hmove : ∀ {S S' : Finset Int} {f g : Int → ℝ}, (∀ x ∈ S, x ∉ S' → f x = 0) →
      (∀ x ∈ S', x ∈ S) → (∀ x ∈ S', f x = g x) → ∑ x ∈ S, f x = ∑ x ∈ S', g x := by
    intro S S' f g h1 h2 h3
    rw [← Finset.sum_congr rfl h3]
    exact (Finset.sum_subset h2 h1).symm
  apply hmove
  · intro Jb hJb hn
    rw [hset] at hJb
    simp only [Finset.mem_filter, Finset.mem_Icc, not_and] at hn
    refine Finset.sum_eq_zero fun Jk _ => ?_
    simp only [Function.comp]
    rw [if_neg]
    intro hc
    exact hn ⟨hJb.1, hc.1⟩ hJb.2.1 hJb.2.2
  · intro Jb hJb
    rw [hset]
    simp only [Finset.mem_filter, Finset.mem_Icc] at hJb
    exact ⟨hJb.1.1, hJb.2⟩
  · intro Jb hJb
    simp only [Finset.mem_filter, Finset.mem_Icc] at hJb
    apply hmove
    · intro Jk hJk hn
      rw [hset] at hJk
      simp only [Finset.mem_filter, Finset.mem_Icc, not_and] at hn
      simp only [Function.comp]
      rw [if_neg]
      intro hc
      exact hn ⟨hJk.1, hc.2.1⟩ hJk.2.1 hJk.2.2 hc.2.2
    · intro Jk hJk
      rw [hset]
      simp only [Finset.mem_filter, Finset.mem_Icc] at hJk
      exact ⟨hJk.1.1, hJk.2.1, hJk.2.2.1⟩
    · intro Jk hJk
      simp only [Finset.mem_filter, Finset.mem_Icc] at hJk
      simp only [Function.comp]
      rw [if_pos ⟨hJb.1.2, hJk.1.2, hJk.2.2.2⟩]

/-- C49: truncating the relative operator at `Jmax` loses nothing once `Jmax ≥ Nmax + S`. -/
theorem jmax_sufficient (env : RelEnv) (Nmax Jmax Jmax' J0 : Int) (R : RelRME) (b k : RCState)
    (hb : b.lr ≤ Nmax ∧ b.S ≤ 1) (hk : k.lr ≤ Nmax ∧ k.S ≤ 1) (h : Nmax + 1 ≤ Jmax) (h' : Jmax ≤ Jmax') :
    relCMSpec env Jmax J0 R b k = relCMSpec env Jmax' J0 R b k := by
  unfold relCMSpec
  split
  swap
  · rfl
  have e1 : (Finset.Icc 0 Jmax).filter (fun x => tri b.lr b.S x = true ∧ tri b.lc b.J x = true)
      = (Finset.Icc 0 Jmax').filter (fun x => tri b.lr b.S x = true ∧ tri b.lc b.J x = true) := by
    ext x
    simp only [Finset.mem_filter, Finset.mem_Icc, tri, decide_eq_true_eq]
    omega
  have e2 : ∀ Jb, (Finset.Icc 0 Jmax).filter
        (fun x => tri k.lr k.S x = true ∧ tri k.lc k.J x = true ∧ tri Jb J0 x = true)
      = (Finset.Icc 0 Jmax').filter
        (fun x => tri k.lr k.S x = true ∧ tri k.lc k.J x = true ∧ tri Jb J0 x = true) := by
    intro Jb
    ext x
    simp only [Finset.mem_filter, Finset.mem_Icc, tri, decide_eq_true_eq]
    omega
  rw [e1]
  exact Finset.sum_congr rfl fun Jb _ => by rw [e2]

/-- Same indexing, other matrices. -/
abbrev RelSource.withMat (src : RelSource) (m : ℕ → ℕ → ℕ → ℝ) : RelSource := { src with mat := m }

theorem mapM_linear {α : Type} (l : List α) (f g h : α → Except Err ℝ) (x y : ℝ)
    (hfg : ∀ a ∈ l, ∀ u v, f a = .ok u → g a = .ok v → h a = .ok (x * u + y * v)) :
    ∀ us vs, l.mapM f = .ok us → l.mapM g = .ok vs →
      ∃ ws, l.mapM h = .ok ws ∧ ws.sum = x * us.sum + y * vs.sum := by
  induction l with
  | nil =>
    intro us vs h1 h2
    simp only [List.mapM_nil, Except.pure_ok, Except.ok.injEq] at h1 h2
    subst h1 h2
    exact ⟨[], rfl, by simp⟩
  | cons a l ih =>
    intro us vs h1 h2
    rw [List.mapM_cons] at h1 h2
    obtain ⟨u, hu, h1⟩ := Except.bind_eq_ok.mp h1
    obtain ⟨us', hus, h1⟩ := Except.bind_eq_ok.mp h1
    obtain ⟨v, hv, h2⟩ := Except.bind_eq_ok.mp h2
    obtain ⟨vs', hvs, h2⟩ := Except.bind_eq_ok.mp h2
    simp only [Except.pure_ok, Except.ok.injEq] at h1 h2
    subst h1 h2
    obtain ⟨ws, hws, hsum⟩ := ih (fun a' ha' => hfg a' (by simp [ha'])) us' vs' hus hvs
    refine ⟨(x * u + y * v) :: ws, ?_, ?_⟩
    · rw [List.mapM_cons, hfg a (by simp) u v hu hv, hws]
      rfl
    · simp only [List.sum_cons, hsum]
      ring

theorem relTerm_linear (env : RelEnv) (src : RelSource) (J0 : Int) (b k : RCState) (x y u v : ℝ)
    (m m' : ℕ → ℕ → ℕ → ℝ) (p q : Int) (hu : relTerm env (src.withMat m) J0 b k p q = .ok u)
    (hv : relTerm env (src.withMat m') J0 b k p q = .ok v) :
    relTerm env (src.withMat fun i r c => x * m i r c + y * m' i r c) J0 b k p q
      = .ok (x * u + y * v) := by
  obtain ⟨N, Jm, sub, state, canon, sector, mat⟩ := src
  unfold relTerm at hu hv ⊢
  beta_reduce at hu hv ⊢
  by_cases h1 : max p q ≤ Jm
  swap
  · rw [if_pos h1] at hu hv ⊢
    simp only [Except.ok.injEq] at hu hv
    subst hu hv
    simp
  rw [if_neg (not_not.mpr h1)] at hu hv ⊢
  by_cases h2 : (!tri p J0 q) = true
  · rw [if_pos h2] at hu hv ⊢
    simp only [Except.ok.injEq] at hu hv
    subst hu hv
    simp
  rw [if_neg h2] at hu hv ⊢
  obtain ⟨sb, e1, hu⟩ := Except.bind_eq_ok.mp hu
  obtain ⟨sk, e2, hu⟩ := Except.bind_eq_ok.mp hu
  obtain ⟨ib, e3, hu⟩ := Except.bind_eq_ok.mp hu
  obtain ⟨ik, e4, hu⟩ := Except.bind_eq_ok.mp hu
  obtain ⟨idx, e5, hu⟩ := Except.bind_eq_ok.mp hu
  simp only [e1, e2, e3, e4, e5, Except.ok_bind', Except.pure_ok, Except.ok.injEq] at hu hv ⊢
  subst hu hv
  ring

/-- C49: the conversion is linear in the relative matrix elements (and in particular whether it
succeeds does not depend on their values). -/
theorem relcm_linear (env : RelEnv) (src : RelSource) (J0 : Int) (b k : RCState) (x y u v : ℝ)
    (m m' : ℕ → ℕ → ℕ → ℝ) (hu : relCMElement env (src.withMat m) J0 b k = .ok u)
    (hv : relCMElement env (src.withMat m') J0 b k = .ok v) :
    relCMElement env (src.withMat fun i r c => x * m i r c + y * m' i r c) J0 b k
      = .ok (x * u + y * v) := by
  unfold relCMElement at hu hv ⊢
  by_cases hcm : b.Nc = k.Nc ∧ b.lc = k.lc
  swap
  · rw [if_pos hcm] at hu hv ⊢
    simp only [Except.ok.injEq] at hu hv
    subst hu hv
    simp
  rw [if_neg (not_not.mpr hcm)] at hu hv ⊢
  obtain ⟨_, ha, hu⟩ := Except.bind_eq_ok.mp hu
  obtain ⟨us, hus, hu⟩ := Except.bind_eq_ok.mp hu
  obtain ⟨_, _, hv⟩ := Except.bind_eq_ok.mp hv
  obtain ⟨vs, hvs, hv⟩ := Except.bind_eq_ok.mp hv
  simp only [Except.pure_ok, Except.ok.injEq] at hu hv
  subst hu hv
  obtain ⟨ws, hws, hsum⟩ := mapM_linear _ _ _
    (fun p => relTerm env (src.withMat fun i r c => x * m i r c + y * m' i r c) J0 b k p.1 p.2) x y
    (fun p _ u v hu hv => relTerm_linear env src J0 b k x y u v m m' p.1 p.2 hu hv) us vs hus hvs
  refine Except.bind_eq_ok.mpr ⟨(), ha, Except.bind_eq_ok.mpr ⟨ws, hws, ?_⟩⟩
  rw [hsum]
  rfl

/-- Non-vacuity: one relative state (`l=1`, `S=0`, `J=1`, `T=0`) with the cm motion in its ground state. -/
example : ∃ src : RelSource, ∃ b : RCState, GoodRC b ∧ RelRepresents src 0 (fun _ _ _ _ => 4) b b ∧
    b.Nr ≤ src.Nmax ∧ (1 : Int) ∈ jrRange b := by
  refine ⟨⟨1, 2, fun _ => some 0, fun _ _ => some 0, fun a b c d => ((a, b), (c, d), 1),
    fun _ _ => some 0, fun _ _ _ => 4⟩, ⟨1, 1, 0, 0, 1, 0, 1, 0⟩, ⟨by simp, by simp, by simp, by simp⟩, ?_,
    by simp, by decide⟩
  intro Jb Jk _ _ _ _ _
  exact ⟨0, 0, 0, 0, 0, rfl, rfl, rfl, rfl, rfl, by norm_num⟩

/-! ## The Moshinsky transformation -/

/-- `basis::TwoBodyStateLSJTN`. -/
structure TBState where
  N1 : Int
  l1 : Int
  N2 : Int
  l2 : Int
  deriving DecidableEq, Repr

/-- Arguments of the bracket requested for an element of `TransformationMatrixRelativeCMTwoBodyLSJTN`,
lines 312-333 (integer divisions truncate). -/
def bracketKey (rc : RCState) (tb : TBState) : Key :=
  ⟨(rc.Nr - rc.lr).tdiv 2, rc.lr, (rc.Nc - rc.lc).tdiv 2, rc.lc, (tb.N1 - tb.l1).tdiv 2, tb.l1,
    (tb.N2 - tb.l2).tdiv 2, tb.l2, rc.L⟩

/-- Oscillator orbital labels. -/
def oscOrbital (N l : Int) : Prop := 0 ≤ l ∧ l ≤ N ∧ (N - l) % 2 = 0

/-- C44: for matching subspaces (equal total quanta and equal `L` allowed by both couplings) every
bracket requested by the transformation is an allowed one, with exact halvings and quanta `N`; none is
discarded by the selection rules. -/
theorem transformation_requests_allowed {rc : RCState} {tb : TBState} {N : Int}
    (h1 : oscOrbital rc.Nr rc.lr) (h2 : oscOrbital rc.Nc rc.lc) (h3 : oscOrbital tb.N1 tb.l1)
    (h4 : oscOrbital tb.N2 tb.l2) (hN : rc.Nr + rc.Nc = N) (hN' : tb.N1 + tb.N2 = N)
    (hL : tri rc.lr rc.lc rc.L = true) (hL' : tri tb.l1 tb.l2 rc.L = true) :
    (bracketKey rc tb).Allowed ∧ (bracketKey rc tb).rho = N ∧
      2 * (bracketKey rc tb).n1d + rc.lr = rc.Nr ∧ 2 * (bracketKey rc tb).n2d + rc.lc = rc.Nc ∧
      2 * (bracketKey rc tb).n1 + tb.l1 = tb.N1 ∧ 2 * (bracketKey rc tb).n2 + tb.l2 = tb.N2 := by
  obtain ⟨a1, a2, a3⟩ := h1
  obtain ⟨b1, b2, b3⟩ := h2
  obtain ⟨c1, c2, c3⟩ := h3
  obtain ⟨d1, d2, d3⟩ := h4
  simp only [tri, decide_eq_true_eq] at hL hL'
  simp only [bracketKey, Key.Allowed, Key.Nonneg, Key.Conserves, Key.rho]
  rw [Int.tdiv_eq_ediv_of_nonneg (by omega), Int.tdiv_eq_ediv_of_nonneg (by omega),
    Int.tdiv_eq_ediv_of_nonneg (by omega), Int.tdiv_eq_ediv_of_nonneg (by omega)]
  omega

/-- Non-vacuity. -/
example : oscOrbital 2 0 ∧ oscOrbital 1 1 ∧ oscOrbital 3 1 ∧ oscOrbital 0 0 ∧ tri 0 1 1 = true ∧
    tri 1 0 1 = true := by
  refine ⟨?_, ?_, ?_, ?_, ?_, ?_⟩ <;> simp [oscOrbital, tri]

end Verif.Moshinsky
