import Verif.Moshinsky.ChainJJ

/-!
# The operator that is branched to protons and neutrons
-/

namespace Verif.Moshinsky
open Verif
open Verif.H2 hiding Mat
open Verif.Relative (OpLabels RelFile RelSub relSpace subIndex secIndex mapM_ok)

/-! ## Pairs of orbitals in either order -/

theorem exchangePhase_comm (a b : Lab) (q : Int × Int × Int) : exchangePhase a b q = exchangePhase b a q := by
  unfold exchangePhase
  rw [add_comm (a.2 : Int)]

theorem exchangePhase_self (a b : Lab) (q : Int × Int × Int) : exchangePhase a b q * exchangePhase a b q = 1 := sgn_mul_self _

theorem ordered_swap (t : Trunc) (q : Int × Int × Int) (a b : Lab) (X : JJState → ℝ) :
    (ordered t q b a).1 * X (ordered t q b a).2 = exchangePhase a b q * ((ordered t q a b).1 * X (ordered t q a b).2) := by
  unfold ordered
  by_cases hq : q.1 < 0 ∨ q.2.1 < 0 ∨ q.2.2 < 0
  · simp [if_pos hq]
  rw [if_neg hq, if_neg hq]
  by_cases h1 : IsPair t ⟨q.1.toNat, q.2.1.toNat, q.2.2.toNat⟩ a b <;>
    by_cases h2 : IsPair t ⟨q.1.toNat, q.2.1.toNat, q.2.2.toNat⟩ b a
  · have hab : a = b := by
      have o1 := h1.order
      have o2 := h2.order
      unfold labLE at o1 o2
      exact Prod.ext (by omega) (by omega)
    subst hab
    rw [if_pos h1]
    have hp := h1.pauli rfl
    have ho := h1.odd1
    simp only [] at hp
    have : exchangePhase a a q = 1 := by
      unfold exchangePhase sgn
      rw [if_pos (by omega)]
    rw [this, one_mul, one_mul]
  · rw [if_neg h2, if_pos h1, if_pos h1]
    simp
  · rw [if_neg h1, if_pos h2, if_pos h2]
    rw [if_neg h1]
    simp only [exchangePhase_comm b a]
    rw [← mul_assoc, exchangePhase_self]
  · rw [if_neg h1, if_neg h2, if_neg h1, if_neg h2]
    simp

theorem ordered_none {t : Trunc} {jt : List JTSub} (hjt : JTSpace t jt) {q : Int × Int × Int} (a b : Lab)
    (h : jt.findIdx? (fun s => decide ((s.J : Int) = q.1 ∧ (s.T : Int) = q.2.1 ∧ (s.g : Int) = q.2.2)) = none) :
    (ordered t q a b).1 = 0 := by
  have hno : ∀ c d, ¬ (q.1 < 0 ∨ q.2.1 < 0 ∨ q.2.2 < 0) → ¬ IsPair t ⟨q.1.toNat, q.2.1.toNat, q.2.2.toNat⟩ c d := by
    intro c d hq hp
    obtain ⟨s, hs, he⟩ := List.mem_map.mp (hjt.complete _ c d hp)
    rw [List.findIdx?_eq_none_iff] at h
    have := h s hs
    simp only [decide_eq_false_iff_not] at this
    simp only [JTSub.qn, QN.mk.injEq] at he
    omega
  unfold ordered
  by_cases hq : q.1 < 0 ∨ q.2.1 < 0 ∨ q.2.2 < 0
  · rw [if_pos hq]
  · rw [if_neg hq, if_neg (hno a b hq), if_neg (hno b a hq)]

theorem ordered_canonical {t : Trunc} {q : QN} {q' : Int × Int × Int} (hq : (q.J : Int) = q'.1 ∧ (q.T : Int) = q'.2.1 ∧ (q.g : Int) = q'.2.2)
    {a b : Lab} (h : IsPair t q a b) : ordered t q' a b = (1, jjOf a b) := by
  obtain ⟨j, T, g⟩ := q'
  obtain ⟨rfl, rfl, rfl⟩ := hq
  unfold ordered
  rw [if_neg (by simp), if_pos (by simpa using h)]

/-! ## The source of the branching -/

set_option maxHeartbeats 800000 in
/-- The `jjJT` operator holds the two-body operator. -/
theorem jt_represents {env : ChainEnv} {o : OpLabels} {A : ℕ → RCOp}
    (hA : ∀ T0, o.T0min ≤ T0 → T0 ≤ o.T0max → RCSym env.swap T0 (A T0)) {t : Trunc} {jt : List JTSub} (hjt : JTSpace t jt)
    {m : ℕ → Blocks} (hm : ∀ T0, o.T0min ≤ T0 → T0 ≤ o.T0max → Holds o T0 jt JTSub.qn JTSub.states (m T0) fun b x k y =>
      jjSpec env (A T0) b.qn (jjOf x.1 x.2) k.qn (jjOf y.1 y.2)) :
    Represents (jtSource env o jt m) (twoBody env t A) o.T0min o.T0max o.J0 o.g0 where
  exchangeBra := by
    intro T0 q a b q' c d _ _
    unfold twoBody
    have := ordered_swap t q a b fun x => (ordered t q' c d).1 * jjSpec env (A T0.toNat)
      ⟨q.1.toNat, q.2.1.toNat, q.2.2.toNat⟩ x ⟨q'.1.toNat, q'.2.1.toNat, q'.2.2.toNat⟩ (ordered t q' c d).2
    linear_combination this
  exchangeKet := by
    intro T0 q a b q' c d _ _
    unfold twoBody
    have := ordered_swap t q' c d fun x => (ordered t q a b).1 * jjSpec env (A T0.toNat)
      ⟨q.1.toNat, q.2.1.toNat, q.2.2.toNat⟩ (ordered t q a b).2 ⟨q'.1.toNat, q'.2.1.toNat, q'.2.2.toNat⟩ x
    linear_combination this
  absentBra := by
    intro T0 q a b q' c d h
    unfold twoBody
    rw [ordered_none hjt a b h, zero_mul, zero_mul]
  absentKet := by
    intro T0 q a b q' c d h
    unfold twoBody
    rw [ordered_none hjt c d h, mul_zero, zero_mul]
  stored := by
    intro T0 q q' sb sk hb hk hc
    obtain ⟨⟨hlo, hhi⟩, hiso, hmom, hpar⟩ := hc
    obtain ⟨T0, rfl⟩ : ∃ n : ℕ, T0 = n := ⟨T0.toNat, by omega⟩
    have hlo' : o.T0min ≤ T0 := by omega
    have hhi' : T0 ≤ o.T0max := by omega
    simp only [jtSource] at hb hk ⊢
    have look : ∀ (p : Int × Int × Int) (n : ℕ),
        jt.findIdx? (fun s => decide ((s.J : Int) = p.1 ∧ (s.T : Int) = p.2.1 ∧ (s.g : Int) = p.2.2)) = some n →
        ∃ s, jt[n]? = some s ∧ (s.J : Int) = p.1 ∧ (s.T : Int) = p.2.1 ∧ (s.g : Int) = p.2.2 := by
      intro p n h
      obtain ⟨h1, h2, _⟩ := List.findIdx?_eq_some_iff_getElem.mp h
      exact ⟨_, List.getElem?_eq_getElem h1, of_decide_eq_true h2⟩
    obtain ⟨u, hu, u1⟩ := look q sb hb
    obtain ⟨v, hv, v1⟩ := look q' sk hk
    have mu := List.mem_of_getElem? hu
    have mv := List.mem_of_getElem? hv
    have hall : allowedQ o T0 u.qn v.qn = true := by
      rw [allowedQ_iff]
      rw [abs_le] at hiso hmom
      unfold Tri
      simp only [JTSub.qn]
      omega
    have elem : ∀ (a b c d : Lab), IsPair t u.qn a b → IsPair t v.qn c d →
        twoBody env t A T0 q a b q' c d = jjSpec env (A T0) u.qn (jjOf a b) v.qn (jjOf c d) := by
      intro a b c d h1 h2
      unfold twoBody
      rw [ordered_canonical (q := u.qn) u1 h1, ordered_canonical (q := v.qn) v1 h2]
      simp only [one_mul, Int.toNat_natCast]
      congr 1
      · simp only [JTSub.qn, QN.mk.injEq]; omega
      · simp only [JTSub.qn, QN.mk.injEq]; omega
    have found : ∀ (s : JTSub) (n : ℕ) (a b : Lab) (i : ℕ), jt[n]? = some s →
        (match jt[n]? with | some s => s.states.idxOf? (a, b) | none => none) = some i → s.states[i]? = some (a, b) ∧ IsPair t s.qn a b := by
      intro s n a b i hn h
      simp only [hn] at h
      have hs := List.mem_of_getElem? hn
      have := (idxOf?_getElem? (hjt.nodup s hs)).mp h
      exact ⟨this, (hjt.states s hs _).mp (List.mem_of_getElem? this)⟩
    have hcond : ((o.T0min : Int) ≤ T0 ∧ (T0 : Int) ≤ o.T0max) := ⟨hlo, hhi⟩
    by_cases hle : sb ≤ sk
    · obtain ⟨n, h1, h2⟩ := lookSector_some (o := o) (T0 := T0) (qs := jt.map JTSub.qn) hle (x := u.qn) (y := v.qn)
        (by simp [hu]) (by simp [hv]) hall
      refine ⟨n, ?_, ?_⟩
      · rw [min_eq_left hle, max_eq_right hle, if_pos hcond]
        exact h1
      intro a b c d ib ik hib hik
      obtain ⟨g1, g2⟩ := found u sb a b ib hu hib
      obtain ⟨g3, g4⟩ := found v sk c d ik hv hik
      rw [elem a b c d g2 g4]
      simp only [Int.toNat_natCast]
      by_cases hcan : sb < sk ∨ sb = sk ∧ ib ≤ ik
      · simp only [if_pos hcan, one_mul]
        have hx := hm T0 hlo' hhi' n sb sk u v h2 hu hv ib ik _ _ g1 g3
        dsimp only at hx
        exact hx
      · simp only [if_neg hcan]
        have hss : sb = sk := by omega
        subst hss
        have huv : u = v := Option.some.inj (hu.symm.trans hv)
        subst huv
        simp only [jtAt_ok hu]
        rw [hm T0 hlo' hhi' n sb sb u u h2 hu hu ik ib _ _ g3 g1]
        exact (jjSpec_swap (hA T0 hlo' hhi') u.qn u.qn _ _).symm
    · obtain ⟨n, h1, h2⟩ := lookSector_some (o := o) (T0 := T0) (qs := jt.map JTSub.qn) (b := sk) (k := sb) (by omega) (x := v.qn)
        (y := u.qn) (by simp [hv]) (by simp [hu]) (allowedQ_swap hall)
      refine ⟨n, ?_, ?_⟩
      · rw [min_eq_right (by omega), max_eq_left (by omega), if_pos hcond]
        exact h1
      intro a b c d ib ik hib hik
      obtain ⟨g1, g2⟩ := found u sb a b ib hu hib
      obtain ⟨g3, g4⟩ := found v sk c d ik hv hik
      rw [elem a b c d g2 g4]
      simp only [Int.toNat_natCast]
      have hcan : ¬ (sb < sk ∨ sb = sk ∧ ib ≤ ik) := by omega
      simp only [if_neg hcan, jtAt_ok hu, jtAt_ok hv]
      rw [hm T0 hlo' hhi' n sk sb v u h2 hv hu ik ib _ _ g3 g1]
      exact (jjSpec_swap (hA T0 hlo' hhi') u.qn v.qn _ _).symm

end Verif.Moshinsky
