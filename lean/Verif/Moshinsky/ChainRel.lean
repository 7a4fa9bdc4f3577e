import Verif.Moshinsky.ChainSpec

/-!
# Sectors, and the relative stage of the chain
-/

namespace Verif.Moshinsky
open Verif
open Verif.H2 hiding Mat
open Verif.Relative (OpLabels RelFile RelSub relSpace subIndex secIndex mapM_ok)

/-! ## Sectors -/

theorem mem_sectorPairs {o : OpLabels} {T0 : ℕ} {qs : List QN} {p : ℕ × ℕ} :
    p ∈ sectorPairs o T0 qs ↔ p.1 ≤ p.2 ∧ ∃ a b, qs[p.1]? = some a ∧ qs[p.2]? = some b ∧ allowedQ o T0 a b = true := by
  obtain ⟨i, j⟩ := p
  simp only [sectorPairs, List.mem_filter]
  have e : (i, j) ∈ (List.range qs.length).product (List.range qs.length) ↔ i < qs.length ∧ j < qs.length := by
    rw [List.product.eq_def]
    simp
  rw [e]
  unfold allowedAt
  constructor
  · rintro ⟨⟨hi, hj⟩, h⟩
    simp only [List.getElem?_eq_getElem hi, List.getElem?_eq_getElem hj, Bool.and_eq_true, decide_eq_true_eq] at h
    exact ⟨h.1, _, _, List.getElem?_eq_getElem hi, List.getElem?_eq_getElem hj, h.2⟩
  · rintro ⟨hle, a, b, ha, hb, h⟩
    refine ⟨⟨(List.getElem?_eq_some_iff.mp ha).1, (List.getElem?_eq_some_iff.mp hb).1⟩, ?_⟩
    simp only [] at ha hb hle ⊢
    simp [ha, hb, h, hle]

theorem sectorPairs_nodup (o : OpLabels) (T0 : ℕ) (qs : List QN) : (sectorPairs o T0 qs).Nodup :=
  List.Nodup.filter _ (List.Nodup.product List.nodup_range List.nodup_range)

theorem idxOf?_getElem? {α : Type} [BEq α] [LawfulBEq α] {l : List α} (hn : l.Nodup) {a : α} {k : ℕ} :
    l.idxOf? a = some k ↔ l[k]? = some a := by
  rw [List.idxOf?, List.findIdx?_eq_some_iff_getElem, List.getElem?_eq_some_iff]
  constructor
  · rintro ⟨h, he, _⟩
    exact ⟨h, by simpa using he⟩
  · rintro ⟨h, he⟩
    refine ⟨h, by simpa using he, ?_⟩
    intro j hj
    simp only [beq_iff_eq]
    intro hc
    have := (List.Nodup.getElem_inj_iff hn).mp (hc.trans he.symm)
    omega

/-- A sector is found. -/
theorem lookSector_some {o : OpLabels} {T0 : ℕ} {qs : List QN} {b k : ℕ} {x y : QN} (hle : b ≤ k) (hb : qs[b]? = some x)
    (hk : qs[k]? = some y) (h : allowedQ o T0 x y = true) :
    ∃ n, lookSector (sectorPairs o T0 qs) b k = some n ∧ (sectorPairs o T0 qs)[n]? = some (b, k) := by
  obtain ⟨n, hn⟩ := List.mem_iff_getElem?.mp (mem_sectorPairs.mpr (show (b, k).1 ≤ (b, k).2 ∧ _ from ⟨hle, x, y, hb, hk, h⟩))
  exact ⟨n, (idxOf?_getElem? (sectorPairs_nodup o T0 qs)).mpr hn, hn⟩

theorem tri_iff {a b c : ℕ} : Relative.tri a b c = true ↔ Tri a b c := by simp [Relative.tri, Tri]

theorem mtri_iff {a b c : ℕ} : tri (a : Int) b c = true ↔ Tri a b c := by
  simp only [tri, Tri, decide_eq_true_eq, abs_le]
  omega

theorem tri_swap {a b c : Int} : tri a b c = tri c b a := by
  rw [Bool.eq_iff_iff]
  simp only [tri, decide_eq_true_eq, abs_le]
  omega

theorem allowedQ_iff {o : OpLabels} {T0 : ℕ} {a b : QN} : allowedQ o T0 a b = true ↔
    Tri a.J o.J0 b.J ∧ Tri a.T T0 b.T ∧ (a.g + b.g + o.g0) % 2 = 0 := by
  simp [allowedQ, tri_iff, and_assoc]

theorem allowedQ_swap {o : OpLabels} {T0 : ℕ} {a b : QN} (h : allowedQ o T0 a b = true) : allowedQ o T0 b a = true := by
  rw [allowedQ_iff] at h ⊢
  unfold Tri at *
  omega

/-! ## Blocks -/

theorem getSub_ok {α : Type} {l : List α} {i : ℕ} {a : α} (h : l[i]? = some a) : getSub l i = .ok a := by simp [getSub, h]

/-- An entry of blocks computed sector by sector. -/
theorem entry_map {α : Type} (l : List α) (g : α → List (List ℝ)) {n : ℕ} {a : α} (h : l[n]? = some a) (i j : ℕ) :
    entry (l.map g) n i j = at2 (g a) i j := by
  unfold entry at2
  congr 2
  simp [List.getD_eq_getElem?_getD, h]

/-- An entry of a matrix computed state by state. -/
theorem at2_map {α β : Type} (xs : List α) (ys : List β) (g : α → β → ℝ) {i j : ℕ} {x : α} {y : β} (hi : xs[i]? = some x)
    (hj : ys[j]? = some y) : at2 (xs.map fun x => ys.map fun y => g x y) i j = g x y := by
  simp [at2, List.getD_eq_getElem?_getD, hi, hj]

/-! ## The relative operator -/

theorem findIdx?_at {α : Type} {l : List α} {p : α → Bool} {i : ℕ} {a : α} (h : l[i]? = some a) (hp : p a = true)
    (hu : ∀ j b, l[j]? = some b → p b = true → j = i) : l.findIdx? p = some i := by
  obtain ⟨hlt, rfl⟩ := List.getElem?_eq_some_iff.mp h
  rw [List.findIdx?_eq_some_iff_getElem]
  refine ⟨hlt, hp, ?_⟩
  intro j hj hc
  have := hu j _ (List.getElem?_eq_getElem (by omega)) hc
  omega

/-- The file holds everything that a relative-cm element needs. -/
theorem file_represents {env : ChainEnv} {f : RelFile} {T0 : ℕ} {R : RelRME} (hR : FileHolds env.swap f T0 R)
    (hT0 : f.labels.T0min ≤ T0 ∧ T0 ≤ f.labels.T0max) {q q' : LSJT} {r s : LSPair}
    (hr : Osc r.1 r.2.1) (hs : Osc s.1 s.2.1) (hrN : r.1 ≤ f.Nmax) (hsN : s.1 ≤ f.Nmax) (hS : q.S ≤ 1) (hS' : q'.S ≤ 1)
    (hT : q.T ≤ 1) (hT' : q'.T ≤ 1) (ha : (r.2.1 + q.S + q.T) % 2 = 1) (ha' : (s.2.1 + q'.S + q'.T) % 2 = 1)
    (hTT : Tri q.T T0 q'.T) (hg : (r.2.1 + s.2.1 + f.labels.g0) % 2 = 0) :
    RelRepresents (relSource env f T0) f.labels.J0 R (motion q r) (motion q' s) := by
  obtain ⟨Nr, lr, Nc, lc⟩ := r
  obtain ⟨Ns, ls, Nd, ld⟩ := s
  obtain ⟨L, S, J, T⟩ := q
  obtain ⟨L', S', J', T'⟩ := q'
  simp only [Osc] at *
  intro Jb Jk hJb hJk hJb' hJk' htri
  simp only [motion, relSource] at hJb hJk hJb' hJk' htri ⊢
  rw [abs_le] at hJb hJk htri
  obtain ⟨Jb, rfl⟩ : ∃ n : ℕ, Jb = n := ⟨Jb.toNat, by omega⟩
  obtain ⟨Jk, rfl⟩ : ∃ n : ℕ, Jk = n := ⟨Jk.toNat, by omega⟩
  have hx : Relative.relSub f.Nmax lr S Jb ∈ relSpace f.Nmax f.Jmax := by
    rw [Relative.relSub_mem]
    exact ⟨by omega, hS, by omega, by rw [tri_iff]; unfold Tri; omega⟩
  have hy : Relative.relSub f.Nmax ls S' Jk ∈ relSpace f.Nmax f.Jmax := by
    rw [Relative.relSub_mem]
    exact ⟨by omega, hS', by omega, by rw [tri_iff]; unfold Tri; omega⟩
  obtain ⟨sb, hsb⟩ := List.mem_iff_getElem?.mp hx
  obtain ⟨sk, hsk⟩ := List.mem_iff_getElem?.mp hy
  have eT : (lr + S + 1) % 2 = T := by omega
  have eT' : (ls + S' + 1) % 2 = T' := by omega
  have h1 := Relative.subIndex_at hsb
  have h2 := Relative.subIndex_at hsk
  simp only [Relative.relSub, eT, eT'] at h1 h2 hsb hsk hx hy
  rw [show (((lr % 2 : ℕ) : Int)) = (lr : Int) % 2 by omega] at h1
  rw [show (((ls % 2 : ℕ) : Int)) = (ls : Int) % 2 by omega] at h2
  have h3 : relState f sb Nr = some ((Nr - lr) / 2) := by
    simp only [relState, hsb]
    rw [if_pos (by omega)]
    congr 1
    omega
  have h4 : relState f sk Ns = some ((Ns - ls) / 2) := by
    simp only [relState, hsk]
    rw [if_pos (by omega)]
    congr 1
    omega
  have hall : ∀ x y : RelSub, (x.L, x.S, x.J, x.T) = (lr, S, Jb, T) → (y.L, y.S, y.J, y.T) = (ls, S', Jk, T') →
      Relative.allowed f.labels T0 (x, y) = true ∧ Relative.allowed f.labels T0 (y, x) = true := by
    rintro ⟨a, b, c, d, _, _⟩ ⟨a', b', c', d', _, _⟩ h h'
    simp only [Prod.mk.injEq] at h h'
    obtain ⟨rfl, rfl, rfl, rfl⟩ := h
    obtain ⟨rfl, rfl, rfl, rfl⟩ := h'
    simp only [Relative.allowed, Bool.and_eq_true, tri_iff, decide_eq_true_eq]
    unfold Tri at hTT ⊢
    omega
  obtain ⟨a1, a2⟩ := hall _ _ (rfl : ((⟨lr, S, Jb, T, f.Nmax, (f.Nmax - lr) / 2 + 1⟩ : RelSub).L, _) = _)
    (rfl : ((⟨ls, S', Jk, T', f.Nmax, (f.Nmax - ls) / 2 + 1⟩ : RelSub).L, _) = _)
  have hsec : ∀ (x y : RelSub) (b k : ℕ), (relSpace f.Nmax f.Jmax)[b]? = some x → (relSpace f.Nmax f.Jmax)[k]? = some y →
      b ≤ k → Relative.allowed f.labels T0 (x, y) = true →
      ∃ n, secIndex (relSpace f.Nmax f.Jmax) (f.sectors T0) b k = some n ∧ (f.sectors T0)[n]? = some (x, y) := by
    intro x y b k hb hk hle ha
    have hm : (x, y) ∈ f.sectors T0 := by
      unfold RelFile.sectors Relative.relSectors
      rw [if_pos hT0, List.mem_filter]
      exact ⟨Relative.mem_upper.mpr ⟨b, k, hle, hb, hk⟩, ha⟩
    obtain ⟨n, hn⟩ := List.mem_iff_getElem?.mp hm
    exact ⟨n, Relative.secIndex_at hb hk hn, hn⟩
  have e1 : relJT f sb = (Jb, T) := by simp [relJT, hsb]
  have e2 : relJT f sk = (Jk, T') := by simp [relJT, hsk]
  have n1 : lr + 2 * ((Nr - lr) / 2) = Nr := by omega
  have n2 : ls + 2 * ((Ns - ls) / 2) = Ns := by omega
  by_cases hc : sb < sk ∨ sb = sk ∧ (Nr - lr) / 2 ≤ (Ns - ls) / 2
  · obtain ⟨n, g1, g2⟩ := hsec _ _ sb sk hsb hsk (by omega) a1
    refine ⟨sb, sk, (Nr - lr) / 2, (Ns - ls) / 2, n, h1, h2, h3, h4, ?_, ?_⟩
    · simpa only [if_pos hc] using g1
    · simp only [if_pos hc, one_mul]
      have := hR.stored n _ _ g2 ((Nr - lr) / 2) ((Ns - ls) / 2) (show _ < _ / 2 + 1 by omega)
        (show _ < _ / 2 + 1 by omega) (by
          intro he
          have : sb = sk := Relative.space_index_unique hsb (he ▸ hsk)
          omega)
      simp only [n1, n2] at this
      exact this.symm
  · obtain ⟨n, g1, g2⟩ := hsec _ _ sk sb hsk hsb (by omega) a2
    refine ⟨sb, sk, (Nr - lr) / 2, (Ns - ls) / 2, n, h1, h2, h3, h4, ?_, ?_⟩
    · simpa only [if_neg hc] using g1
    · simp only [if_neg hc, e1, e2]
      have := hR.stored n _ _ g2 ((Ns - ls) / 2) ((Nr - lr) / 2) (show _ < _ / 2 + 1 by omega)
        (show _ < _ / 2 + 1 by omega) (by
          intro he
          have : sk = sb := Relative.space_index_unique hsk (he ▸ hsb)
          omega)
      simp only [n1, n2] at this
      rw [← this]
      exact (hR.sym lr S Jb T Nr ls S' Jk T' Ns).symm

/-! ## Relative to relative-cm -/

theorem rcState_eq (s : LSSub) (p : LSPair) : rcState s p = motion ⟨s.L, s.S, s.J, s.T⟩ p := rfl

/-- One element of the relative-cm operator. -/
theorem rc_element {env : ChainEnv} {f : RelFile} {T0 : ℕ} {R : RelRME} (hR : FileHolds env.swap f T0 R)
    (hT0 : f.labels.T0min ≤ T0 ∧ T0 ≤ f.labels.T0max) {Nmax : ℕ} {b k : LSSub} (hb : ValidLS Nmax b)
    (hk : ValidLS Nmax k) {x y : LSPair} (hx : IsRC b.N b.L b.S b.T x) (hy : IsRC k.N k.L k.S k.T y) (hxN : x.1 ≤ f.Nmax)
    (hyN : y.1 ≤ f.Nmax)
    (ha : allowedQ f.labels T0 b.qn k.qn = true) :
    relCMElement env.am (relSource env f T0) f.labels.J0 (rcState b x) (rcState k y)
      = .ok (relCMSpec env.am f.Jmax f.labels.J0 R (rcState b x) (rcState k y)) := by
  by_cases hcm : ((rcState b x).Nc, (rcState b x).lc) = ((rcState k y).Nc, (rcState k y).lc)
  swap
  · rw [cm_conserved _ _ _ _ _ hcm, relCMSpec, if_neg hcm]
  rw [allowedQ_iff] at ha
  obtain ⟨v1, v2, v3, v4, v5⟩ := hb
  obtain ⟨w1, w2, w3, w4, w5⟩ := hk
  obtain ⟨x1, x2, x3, x4, x5⟩ := hx
  obtain ⟨y1, y2, y3, y4, y5⟩ := hy
  simp only [rcState, Prod.mk.injEq, Nat.cast_inj] at hcm
  simp only [LSSub.qn] at ha
  have hrep := file_represents hR hT0 (q := ⟨b.L, b.S, b.J, b.T⟩) (q' := ⟨k.L, k.S, k.J, k.T⟩) (r := x) (s := y) x1 y1
    (by omega) (by omega) v1 w1 v2 w2 x5 y5 ha.2.1 (by unfold Osc at *; omega)
  refine relcm_element env.am ?_ ?_ hrep ?_
  · unfold Osc at *
    exact ⟨by simp [rcState], by simp only [rcState]; omega, by simp [rcState], by simp [rcState]⟩
  · unfold Osc at *
    exact ⟨by simp [rcState], by simp only [rcState]; omega, by simp [rcState], by simp [rcState]⟩
  · intro _
    simp only [rcState, relSource]
    omega

theorem mapM_mapM_ok {α β γ : Type} {xs : List α} {ys : List β} {f : α → β → Except Err γ} {g : α → β → γ}
    (h : ∀ x ∈ xs, ∀ y ∈ ys, f x y = .ok (g x y)) :
    (xs.mapM fun x => ys.mapM fun y => f x y) = .ok (xs.map fun x => ys.map fun y => g x y) :=
  mapM_ok fun x hx => mapM_ok fun y hy => h x hx y hy

/-- What a stage establishes: blocks whose entries are given for all states of all sectors. -/
def Holds {σ τ : Type} (o : OpLabels) (T0 : ℕ) (subs : List σ) (qn : σ → QN) (states : σ → List τ) (m : Blocks)
    (R : σ → τ → σ → τ → ℝ) : Prop :=
  ∀ (n b k : ℕ) (x y : σ), (sectorPairs o T0 (subs.map qn))[n]? = some (b, k) → subs[b]? = some x → subs[k]? = some y →
    ∀ (i j : ℕ) (s t : τ), (states x)[i]? = some s → (states y)[j]? = some t → entry m n i j = R x s y t

/-- A stage that computes the matrix of each sector. -/
theorem stage_ok {σ τ : Type} (o : OpLabels) (T0 : ℕ) (subs : List σ) (qn : σ → QN) (states : σ → List τ)
    (R : σ → τ → σ → τ → ℝ) (F : ℕ × ℕ → Except Err (List (List ℝ)))
    (hF : ∀ (b k : ℕ) (x y : σ), subs[b]? = some x → subs[k]? = some y → b ≤ k → allowedQ o T0 (qn x) (qn y) = true →
      F (b, k) = .ok ((states x).map fun s => (states y).map fun t => R x s y t)) :
    ∃ m, (sectorPairs o T0 (subs.map qn)).mapM F = .ok m ∧ Holds o T0 subs qn states m R := by
  classical
  let g : ℕ × ℕ → List (List ℝ) := fun p =>
    match subs[p.1]?, subs[p.2]? with
    | some x, some y => (states x).map fun s => (states y).map fun t => R x s y t
    | _, _ => []
  refine ⟨_, mapM_ok (g := g) ?_, ?_⟩
  · rintro ⟨b, k⟩ hp
    obtain ⟨hle, qa, qb, ha, hb, hall⟩ := mem_sectorPairs.mp hp
    simp only [List.getElem?_map, Option.map_eq_some_iff] at ha hb
    obtain ⟨x, hx, rfl⟩ := ha
    obtain ⟨y, hy, rfl⟩ := hb
    simp only [g, hx, hy]
    exact hF b k x y hx hy hle hall
  · intro n b k x y hn hx hy i j s t hs ht
    rw [entry_map _ _ hn]
    simp only [g, hx, hy]
    exact at2_map _ _ _ hs ht

/-- The relative-cm stage. -/
theorem rc_stage {env : ChainEnv} {f : RelFile} {T0 : ℕ} {R : RelRME} (hR : FileHolds env.swap f T0 R)
    (hT0 : f.labels.T0min ≤ T0 ∧ T0 ≤ f.labels.T0max) {Nmax : ℕ} (hN : Nmax ≤ f.Nmax) {rc : List LSSub} (hrc : RCSpace Nmax rc) :
    ∃ m, rcBlocks env f rc T0 = .ok m ∧ Holds f.labels T0 rc LSSub.qn LSSub.states m fun b x k y =>
      relCMSpec env.am f.Jmax f.labels.J0 R (rcState b x) (rcState k y) := by
  refine stage_ok f.labels T0 rc LSSub.qn LSSub.states _ _ ?_
  intro b k x y hx hy _ hall
  simp only [getSub_ok hx, getSub_ok hy, Except.ok_bind']
  have mx := List.mem_of_getElem? hx
  have my := List.mem_of_getElem? hy
  refine mapM_mapM_ok fun s hs t ht => ?_
  have h1 := (hrc.states x mx s).mp hs
  have h2 := (hrc.states y my t).mp ht
  have h3 := h1.2.2.1
  have h4 := h2.2.2.1
  have h5 := (hrc.valid x mx).N
  have h6 := (hrc.valid y my).N
  exact rc_element hR hT0 (hrc.valid x mx) (hrc.valid y my) h1 h2 (by omega) (by omega) hall

end Verif.Moshinsky
