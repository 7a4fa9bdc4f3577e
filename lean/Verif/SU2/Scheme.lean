import Verif.SU2.Complete

/-!
# Coupling schemes

A coupling scheme of several angular momenta gives a complete set of multiplets.  A multiplet is expanded in the multiplets of another
scheme with coefficients that do not depend on the projection.
-/

namespace Verif.SU2

/-- A complete set of multiplets of amplitudes; the projection of an amplitude is `w`. -/
structure Scheme {α : Type*} [DecidableEq α] (s : Sys α) (κ : Type*) where
  K : Finset κ
  j : κ → ℕ
  w : α → ℤ
  A : κ → ℤ → α → ℝ
  mult : ∀ k, Multiplet s.P s.Q (j k) (A k)
  sharp : ∀ k M a, M ≠ w a → A k M a = 0
  complete : ∀ a ∈ s.supp, ∀ b ∈ s.supp, ∑ k ∈ K, ∑ M ∈ projs (j k), A k M a * A k M b = if a = b then 1 else 0

section
variable {α β κ κ' : Type*} [DecidableEq α] [DecidableEq β] {s : Sys α} {t : Sys β}

/-- One angular momentum. -/
noncomputable def Scheme.one (j : ℕ) : Scheme (spin j) Unit where
  K := Finset.univ
  j _ := j
  w m := m
  A _ := ket j
  mult _ := ket_multiplet j
  sharp _ M a h := if_neg fun h' => h h'.2.symm
  complete a ha b hb := by
    simp only [Finset.univ_unique, Finset.sum_singleton, ket]
    have e : ∀ M ∈ projs j, ((if M ∈ projs j ∧ a = M then 1 else 0) * (if M ∈ projs j ∧ b = M then 1 else 0) : ℝ) =
        if a = M then (if a = b then 1 else 0) else 0 := by
      intro M hM
      simp only [hM, true_and]
      by_cases h1 : a = M
      · subst h1
        by_cases h2 : b = a
        · subst h2
          simp
        · simp [h2, Ne.symm h2]
      · simp [h1]
    rw [Finset.sum_congr rfl e, Finset.sum_ite_eq, if_pos (show a ∈ projs j from ha)]

theorem Scheme.sum_sharp (S : Scheme s κ) (k : κ) (a b : α) : ∑ M ∈ projs (S.j k), S.A k M a * S.A k M b =
    if S.w a = S.w b then S.A k (S.w a) a * S.A k (S.w b) b else 0 := by
  have e : ∀ M ∈ projs (S.j k), S.A k M a * S.A k M b = if S.w a = M then (if S.w a = S.w b then S.A k (S.w a) a * S.A k (S.w b) b else 0) else 0 := by
    intro M _
    split_ifs with h1 h2
    · rw [← h2, h1]
    · rw [S.sharp k M b (fun h => h2 (h1.trans h)), mul_zero]
    · rw [S.sharp k M a (fun h => h1 h.symm), zero_mul]
  rw [Finset.sum_congr rfl e, Finset.sum_ite_eq]
  split_ifs with h1 h2
  · rfl
  · rfl
  · rw [(S.mult k).out _ h1]
    simp
  · rfl

/-- Two schemes coupled. -/
noncomputable def Scheme.couple (S : Scheme s κ) (S' : Scheme t κ') : Scheme (s.prod t) ((_ : κ × κ') × ℕ) where
  K := (S.K ×ˢ S'.K).sigma fun p => sums (S.j p.1) (S'.j p.2)
  j k := k.2
  w x := S.w x.1 + S'.w x.2
  A k M x := cgd (S.j k.1.1) (S.w x.1) (S'.j k.1.2) (S'.w x.2) k.2 M * (S.A k.1.1 (S.w x.1) x.1 * S'.A k.1.2 (S'.w x.2) x.2)
  mult k := by
    have := (S.mult k.1.1).couple (prod_P s t) (prod_Q s t) (S'.mult k.1.2) k.2
    convert this using 2 with M
    funext x
    simp only [SU2.couple, Finset.sum_apply, Pi.smul_apply, mulAlong_apply, smul_eq_mul]
    have e : ∀ m1 ∈ projs (S.j k.1.1), ∀ m2 ∈ projs (S'.j k.1.2),
        cgd (S.j k.1.1) m1 (S'.j k.1.2) m2 k.2 M * (S.A k.1.1 m1 x.1 * S'.A k.1.2 m2 x.2) = if S'.w x.2 = m2 then (if S.w x.1 = m1 then
          cgd (S.j k.1.1) (S.w x.1) (S'.j k.1.2) (S'.w x.2) k.2 M * (S.A k.1.1 (S.w x.1) x.1 * S'.A k.1.2 (S'.w x.2) x.2) else 0) else 0 := by
      intro m1 _ m2 _
      split_ifs with h1 h2
      · rw [h1, h2]
      · rw [S.sharp _ _ _ (fun h => h2 h.symm)]
        ring
      · rw [S'.sharp _ _ _ (fun h => h1 h.symm)]
        ring
    rw [Finset.sum_congr rfl fun m1 h1 => Finset.sum_congr rfl (e m1 h1)]
    simp only [Finset.sum_ite_eq]
    by_cases h1 : S.w x.1 ∈ projs (S.j k.1.1)
    · by_cases h2 : S'.w x.2 ∈ projs (S'.j k.1.2)
      · simp only [h2, if_true]
        rw [Finset.sum_ite_eq, if_pos h1]
      · simp only [h2, if_false, Finset.sum_const_zero]
        rw [cgd_range fun h => h2 h.2.1, zero_mul]
    · rw [cgd_range fun h => h1 h.1, zero_mul]
      symm
      refine Finset.sum_eq_zero fun m1 hm1 => ?_
      have hne : ¬ S.w x.1 = m1 := fun h => h1 (by rw [h]; exact hm1)
      simp only [hne, if_false, ite_self]
  sharp k M x h := by rw [cgd_of_ne (Ne.symm h), zero_mul]
  complete x hx y hy := by
    rw [Sys.prod, Finset.mem_product] at hx hy
    rw [Finset.sum_sigma]
    have e : ∀ p ∈ S.K ×ˢ S'.K, (∑ J ∈ sums (S.j p.1) (S'.j p.2), ∑ M ∈ projs J,
        (cgd (S.j p.1) (S.w x.1) (S'.j p.2) (S'.w x.2) J M * (S.A p.1 (S.w x.1) x.1 * S'.A p.2 (S'.w x.2) x.2)) *
          (cgd (S.j p.1) (S.w y.1) (S'.j p.2) (S'.w y.2) J M * (S.A p.1 (S.w y.1) y.1 * S'.A p.2 (S'.w y.2) y.2))) =
        (∑ M ∈ projs (S.j p.1), S.A p.1 M x.1 * S.A p.1 M y.1) * ∑ M ∈ projs (S'.j p.2), S'.A p.2 M x.2 * S'.A p.2 M y.2 := by
      intro p _
      trans (∑ J ∈ sums (S.j p.1) (S'.j p.2), ∑ M ∈ projs J,
        cgd (S.j p.1) (S.w x.1) (S'.j p.2) (S'.w x.2) J M * cgd (S.j p.1) (S.w y.1) (S'.j p.2) (S'.w y.2) J M) *
          ((S.A p.1 (S.w x.1) x.1 * S'.A p.2 (S'.w x.2) x.2) * (S.A p.1 (S.w y.1) y.1 * S'.A p.2 (S'.w y.2) y.2))
      · simp only [Finset.sum_mul]
        refine Finset.sum_congr rfl fun J _ => Finset.sum_congr rfl fun M _ => ?_
        ring
      rw [S.sum_sharp, S'.sum_sharp]
      by_cases h1 : S.w x.1 ∈ projs (S.j p.1)
      swap
      · rw [(S.mult p.1).out _ h1]
        simp
      by_cases h2 : S'.w x.2 ∈ projs (S'.j p.2)
      swap
      · rw [(S'.mult p.2).out _ h2]
        simp
      by_cases h3 : S.w y.1 ∈ projs (S.j p.1)
      swap
      · rw [(S.mult p.1).out _ h3]
        simp
      by_cases h4 : S'.w y.2 ∈ projs (S'.j p.2)
      swap
      · rw [(S'.mult p.2).out _ h4]
        simp
      rw [cgd_complete h1 h2 h3 h4]
      split_ifs <;> first | ring1 | (exfalso; tauto)
    rw [Finset.sum_congr rfl e, Finset.sum_product]
    simp only [← Finset.mul_sum]
    rw [← Finset.sum_mul, S.complete x.1 hx.1 y.1 hy.1, S'.complete x.2 hx.2 y.2 hy.2]
    simp only [Prod.ext_iff]
    split_ifs <;> first | ring1 | (exfalso; tauto)

/-- A scheme with the angular momenta in another order. -/
noncomputable def Scheme.reorder (S : Scheme s κ) (t : Sys β) (e : β ≃ α) (hP : ∀ f, t.P (f ∘ e) = s.P f ∘ e)
    (hQ : ∀ f, t.Q (f ∘ e) = s.Q f ∘ e) (hs : ∀ b, b ∈ t.supp → e b ∈ s.supp) : Scheme t κ where
  K := S.K
  j := S.j
  w b := S.w (e b)
  A k M b := S.A k M (e b)
  mult k :=
    { out := fun m hm => by
        funext b
        rw [(S.mult k).out m hm]
        rfl
      raise := fun m hm => by
        have := hP (S.A k m)
        rw [(S.mult k).raise m hm] at this
        exact this
      lower := fun m hm => by
        have := hQ (S.A k m)
        rw [(S.mult k).lower m hm] at this
        exact this }
  sharp k M b h := S.sharp k M (e b) h
  complete a ha b hb := by
    rw [S.complete (e a) (hs a ha) (e b) (hs b hb)]
    simp only [e.injective.eq_iff]

/-- Expansion of a multiplet in those of a scheme. -/
theorem Scheme.expand (S : Scheme s κ) {J : ℕ} {u : ℤ → α → ℝ} (hu : Multiplet s.P s.Q J u) {M : ℤ} {a : α} (ha : a ∈ s.supp) :
    u M a = ∑ k ∈ S.K.filter (fun k => S.j k = J), s.form (u J) (S.A k J) * S.A k M a := by
  by_cases hM : M ∈ projs J
  swap
  · rw [hu.out M hM]
    symm
    refine Finset.sum_eq_zero fun k hk => ?_
    rw [(S.mult k).out M (by rw [(Finset.mem_filter.mp hk).2]; exact hM)]
    simp
  have e : u M a = ∑ k ∈ S.K, ∑ M' ∈ projs (S.j k), s.form (u M) (S.A k M') * S.A k M' a := by
    trans ∑ b ∈ s.supp, u M b * if a = b then 1 else 0
    · simp only [mul_ite, mul_one, mul_zero]
      rw [Finset.sum_ite_eq, if_pos ha]
    · rw [Finset.sum_congr rfl fun b hb => by rw [← S.complete a ha b hb, Finset.mul_sum], Finset.sum_comm]
      refine Finset.sum_congr rfl fun k _ => ?_
      simp only [Finset.mul_sum]
      rw [Finset.sum_comm]
      refine Finset.sum_congr rfl fun M' _ => ?_
      rw [Sys.form_apply, Finset.sum_mul]
      refine Finset.sum_congr rfl fun b _ => ?_
      ring
  rw [e, Finset.sum_filter]
  refine Finset.sum_congr rfl fun k _ => ?_
  split_ifs with h
  · have hk : Multiplet s.P s.Q J (S.A k) := h ▸ S.mult k
    rw [h, Finset.sum_eq_single_of_mem M hM, hu.overlap (s.adj_P) hk hM]
    intro M' _ hne
    rw [hu.ortho s.adj_P s.adj_Q hk (Or.inr (Ne.symm hne)), zero_mul]
  · refine Finset.sum_eq_zero fun M' _ => ?_
    rw [hu.ortho s.adj_P s.adj_Q (S.mult k) (Or.inl (Ne.symm h)), zero_mul]

/-- The coefficients do not depend on the projection. -/
theorem Scheme.overlap (S : Scheme s κ) {J : ℕ} {u : ℤ → α → ℝ} (hu : Multiplet s.P s.Q J u) {k : κ} (hk : S.j k = J) {M : ℤ} (hM : M ∈ projs J) :
    s.form (u M) (S.A k M) = s.form (u J) (S.A k J) := hu.overlap s.adj_P (hk ▸ S.mult k) hM

end

end Verif.SU2
