import Verif.Count.Sums

/-!
# C58, C59, C97: the counts of `statecount`
-/

namespace Verif.Count
open Verif
open Verif.H2 (Except.ok_bind' Except.error_bind' Except.pure_ok Except.bind_eq_ok)

/-! ## C58 -/

/-- The orbitals `(n, l, j)` are the orbitals `(N, j)`. -/
theorem nlj_orbitals (N : ℕ) (p : ℕ → Prop) [DecidablePred p] :
    ((nlj N).filter fun o => p o.2.2).card = ((orbitals N).filter fun o => p o.2).card := by
  refine Finset.card_bij (fun o _ => (2 * o.1 + o.2.1, o.2.2)) ?_ ?_ ?_
  · rintro ⟨n, l, t⟩ h
    simp only [nlj, Finset.mem_filter, Finset.mem_product, Finset.mem_range] at h
    simp only [Finset.mem_filter, mem_orbitals]
    exact ⟨by omega, h.2⟩
  · rintro ⟨n, l, t⟩ h ⟨n', l', t'⟩ h' heq
    simp only [nlj, Finset.mem_filter, Finset.mem_product, Finset.mem_range] at h h'
    simp only [Prod.mk.injEq] at heq ⊢
    omega
  · rintro ⟨M, t⟩ h
    simp only [Finset.mem_filter, mem_orbitals] at h
    by_cases hp : (M - (t - 1) / 2) % 2 = 0
    · refine ⟨((M - (t - 1) / 2) / 2, (t - 1) / 2, t), ?_, ?_⟩
      · simp only [nlj, Finset.mem_filter, Finset.mem_product, Finset.mem_range]
        exact ⟨by omega, h.2⟩
      · simp only [Prod.mk.injEq, and_true]
        omega
    · refine ⟨((M - (t + 1) / 2) / 2, (t + 1) / 2, t), ?_, ?_⟩
      · simp only [nlj, Finset.mem_filter, Finset.mem_product, Finset.mem_range]
        exact ⟨by omega, h.2⟩
      · simp only [Prod.mk.injEq, and_true]
        omega

theorem orbitals_of_j {N t : ℕ} (h1 : t % 2 = 1) (h2 : t ≤ 2 * N + 1) :
    2 * (((orbitals N).filter fun o => o.2 = t).card : ℤ) = 2 * N - t + 3 := by
  have : ((orbitals N).filter fun o => o.2 = t).card = (Finset.Icc ((t - 1) / 2) N).card := by
    refine Finset.card_bij (fun o _ => o.1) ?_ ?_ ?_
    · intro o h
      simp only [Finset.mem_filter, mem_orbitals] at h
      simp only [Finset.mem_Icc]
      omega
    · intro o h o' h' he
      simp only [Finset.mem_filter] at h h'
      exact Prod.ext he (h.2.trans h'.2.symm)
    · intro M hM
      simp only [Finset.mem_Icc] at hM
      refine ⟨(M, t), ?_, rfl⟩
      simp only [Finset.mem_filter, mem_orbitals, and_true]
      omega
  rw [this, Nat.card_Icc]
  omega

/-- **C58.** `OrbitalDimension(N, j)` is the number of orbitals `(n, l, j)` with `2n + l ≤ N` for every half-odd `j` up to
the largest; an integer `j` is rejected. -/
theorem orbital_dimension (N t : ℕ) :
    (t % 2 = 1 → t ≤ 2 * N + 1 → orbitalDimension N t = .ok (((nlj N).filter fun o => o.2.2 = t).card : ℤ)) ∧
    (t % 2 = 0 → orbitalDimension N t = .error .assertFail) := by
  constructor
  · intro h1 h2
    have := orbitals_of_j h1 h2
    rw [nlj_orbitals N (fun x => x = t)]
    unfold orbitalDimension ivalue
    rw [if_pos (by omega)]
    congr 1
    omega
  · intro h
    unfold orbitalDimension ivalue
    rw [if_neg (by omega)]

/-- The formula is used at the first `j` above the largest without harm, and is negative further up. -/
example : orbitalDimension 2 3 = .ok 2 ∧ ((nlj 2).filter fun o => o.2.2 = 3).card = 2 := by decide

/-- The shells up to `N` have `(N+1)(N+2)/2` orbitals. -/
theorem orbitals_card (N : ℕ) : 2 * (nlj N).card = (N + 1) * (N + 2) := by
  have h0 := nlj_orbitals N (fun _ => True)
  simp only [Finset.filter_true] at h0
  rw [h0]
  induction N with
  | zero => decide
  | succ N ih =>
    have : orbitals (N + 1) = orbitals N ∪ ((Finset.range (N + 2)).image fun x => (N + 1, 2 * x + 1)) := by
      ext ⟨M, t⟩
      simp only [Finset.mem_union, mem_orbitals, Finset.mem_image, Finset.mem_range, Prod.mk.injEq]
      constructor
      · rintro ⟨h1, h2, h3⟩
        by_cases hM : M = N + 1
        · exact Or.inr ⟨(t - 1) / 2, by omega, hM.symm, by omega⟩
        · exact Or.inl ⟨by omega, h2, h3⟩
      · rintro (⟨h1, h2, h3⟩ | ⟨x, h1, h2, h3⟩) <;> omega
    rw [this, Finset.card_union_of_disjoint, Finset.card_image_of_injective, Finset.card_range]
    · have := ih (nlj_orbitals N (fun _ => True) |> fun h => by simpa using h)
      nlinarith
    · intro x y h
      simp only [Prod.mk.injEq, true_and] at h
      omega
    · rw [Finset.disjoint_left]
      rintro ⟨M, t⟩ h h'
      simp only [mem_orbitals, Finset.mem_image, Finset.mem_range, Prod.mk.injEq] at h h'
      obtain ⟨x, _, h2, _⟩ := h'
      omega

/-! ## C59 -/

/-- **C59.** The closed form is the number of intermediate `J1`: those that couple with `a`, `b` and with `c`, `J`. -/
theorem couplings_count {a b c J : ℕ} (ha : a % 2 = 1) (hb : b % 2 = 1) (hc : c % 2 = 1) (hJ : J % 2 = 1) :
    ∃ S : Finset ℕ, couplings a b c J = .ok S.card ∧ ∀ J1, J1 ∈ S ↔ Couple a b J1 ∧ Couple J1 c J := by
  refine ⟨(coupled a b).filter fun J1 : ℕ => triangle J1 c J, ?_, ?_⟩
  · have h2 : ((coupled a b).filter fun J1 : ℕ => triangle J1 c J).card =
        ((Finset.Icc (max |(a : ℤ) - b| |(J : ℤ) - c|) (min ((a : ℤ) + b) (J + c))).filter fun x =>
          (x - max |(a : ℤ) - b| |(J : ℤ) - c|) % 2 = 0).card := by
      refine Finset.card_bij (fun c _ => (c : ℤ)) ?_ (fun _ _ _ _ h => by exact_mod_cast h) ?_
      · intro x hx
        simp only [Finset.mem_filter, mem_coupled, triangle_iff, couple_cases] at hx
        simp only [Finset.mem_filter, Finset.mem_Icc, max_le_iff, le_min_iff, abs_le]
        rcases abs_cases ((a : ℤ) - b) with ⟨e1, _⟩ | ⟨e1, _⟩ <;> rcases abs_cases ((J : ℤ) - c) with ⟨e2, _⟩ | ⟨e2, _⟩ <;>
          rw [e1, e2] <;> omega
      · intro x hx
        simp only [Finset.mem_filter, Finset.mem_Icc, max_le_iff, le_min_iff] at hx
        have h0 : 0 ≤ x := le_trans (abs_nonneg _) hx.1.1.1
        refine ⟨x.toNat, ?_, by omega⟩
        simp only [Finset.mem_filter, mem_coupled, triangle_iff, couple_cases]
        rcases abs_cases ((a : ℤ) - b) with ⟨e1, _⟩ | ⟨e1, _⟩ <;> rcases abs_cases ((J : ℤ) - c) with ⟨e2, _⟩ | ⟨e2, _⟩ <;>
          rw [e1, e2] at hx <;> omega
    rw [h2, card_step]
    have half : ∀ x : ℤ, x % 2 = 0 → ivalue x = .ok (x / 2) := fun x h => by unfold ivalue; rw [if_pos h]
    have dbl : ∀ x : ℤ, x % 2 = 0 → |x| = 2 * |x / 2| := fun x h => by
      conv_lhs => rw [show x = 2 * (x / 2) by omega]
      rw [abs_mul]
      rfl
    unfold couplings
    rw [half _ (by omega), half _ (by omega), half _ (by omega), half _ (by omega)]
    simp only [Except.ok_bind', Except.pure_ok]
    rw [dbl ((a : ℤ) - b) (by omega), dbl ((J : ℤ) - c) (by omega)]
    generalize |((a : ℤ) - b) / 2| = p
    generalize |((J : ℤ) - c) / 2| = q
    congr 1
    omega
  · intro J1
    simp only [Finset.mem_filter, mem_coupled, triangle_iff]

/-- **C59.** It is also the number of times `J` occurs in the product of the three angular momenta, so it does not depend
on their order. -/
theorem couplings_multiplicity {a b c J : ℕ} (ha : a % 2 = 1) (hb : b % 2 = 1) (hc : c % 2 = 1) (hJ : J % 2 = 1) :
    couplings a b c J = .ok (multiplicity {a, b, c} J) := by
  obtain ⟨S, h1, h2⟩ := couplings_count ha hb hc hJ
  rw [h1, multiplicity_three]
  congr 3
  ext J1
  simp only [h2, Finset.mem_filter, mem_coupled, triangle_iff]

/-- An integer `J` is rejected. -/
theorem couplings_integer {a b c J : ℕ} (ha : a % 2 = 1) (hb : b % 2 = 1) (hc : c % 2 = 1) (hJ : J % 2 = 0) :
    couplings a b c J = .error .assertFail := by
  unfold couplings ivalue
  rw [if_pos (by omega), if_neg (by omega)]
  rfl

example : couplings 1 3 5 3 = .ok 2 ∧ couplings 5 3 1 3 = .ok 2 ∧ couplings 1 1 7 3 = .ok 0 := by decide

/-! ## The loops -/

/-- A double loop over increasing positions. -/
theorem double_loop {c1 : ℕ → Prop} {c2 : ℕ → ℕ → Prop} {body : ℕ → ℕ → ℤ → Prop} {f : ℕ → ℕ → ℤ} {t : ℕ}
    {T : ℕ → ℕ} (h1 : ∀ a, c1 a ↔ a < t) (h2 : ∀ a b, c2 a b ↔ b < T a)
    (hb : ∀ a b v, a < t → b < T a → (body a b v ↔ v = f a b)) {total : ℤ} :
    ForSum c1 (fun a v => ForSum (c2 a) (body a) a v) 0 total ↔
      total = ∑ a ∈ Finset.Ico 0 t, ∑ b ∈ Finset.Ico a (T a), f a b :=
  forSum_iff (f := fun a => ∑ b ∈ Finset.Ico a (T a), f a b) (fun x _ => h1 x) fun a _ _ ha =>
    forSum_iff (fun x _ => h2 a x) fun b v _ hb' => hb a b v ha hb'

/-- A triple loop over increasing positions. -/
theorem triple_loop {c1 : ℕ → Prop} {c2 : ℕ → ℕ → Prop} {c3 : ℕ → ℕ → ℕ → Prop} {body : ℕ → ℕ → ℕ → ℤ → Prop}
    {f : ℕ → ℕ → ℕ → ℤ} {t : ℕ} {T : ℕ → ℕ} {U : ℕ → ℕ → ℕ} (h1 : ∀ a, c1 a ↔ a < t) (h2 : ∀ a b, c2 a b ↔ b < T a)
    (h3 : ∀ a b c, c3 a b c ↔ c < U a b)
    (hb : ∀ a b c v, a < t → b < T a → c < U a b → (body a b c v ↔ v = f a b c)) {total : ℤ} :
    ForSum c1 (fun a v => ForSum (c2 a) (fun b v => ForSum (c3 a b) (body a b) b v) a v) 0 total ↔
      total = ∑ a ∈ Finset.Ico 0 t, ∑ b ∈ Finset.Ico a (T a), ∑ c ∈ Finset.Ico b (U a b), f a b c :=
  double_loop (f := fun a b => ∑ c ∈ Finset.Ico b (U a b), f a b c) h1 h2 fun a b _ ha hb' => forSum_iff (fun x _ => h3 a b x) fun c v _ hc => hb a b c v ha hb' hc

theorem sum_two {t : ℕ} {T : ℕ → ℕ} {P : ℕ → ℕ → Prop} [∀ a b, Decidable (P a b)]
    (h : ∀ a b, a < t → a ≤ b → (b < T a ↔ b < t ∧ P a b)) (f : ℕ → ℕ → ℤ) :
    ∑ a ∈ Finset.Ico 0 t, ∑ b ∈ Finset.Ico a (T a), f a b =
      ∑ p ∈ (Finset.range t ×ˢ Finset.range t).filter (fun p => p.1 ≤ p.2 ∧ P p.1 p.2), f p.1 p.2 := by
  symm
  refine Finset.sum_finset_product _ _ _ ?_
  rintro ⟨a, b⟩
  simp only [Finset.mem_filter, Finset.mem_product, Finset.mem_range, Finset.mem_Ico]
  constructor
  · rintro ⟨⟨h1, h2⟩, h3, h4⟩
    exact ⟨⟨Nat.zero_le _, h1⟩, h3, (h a b h1 h3).mpr ⟨h2, h4⟩⟩
  · rintro ⟨⟨-, h1⟩, h3, h4⟩
    obtain ⟨h5, h6⟩ := (h a b h1 h3).mp h4
    exact ⟨⟨h1, h5⟩, h3, h6⟩

theorem sum_three {t : ℕ} {T : ℕ → ℕ} {U : ℕ → ℕ → ℕ} {P : ℕ → ℕ → ℕ → Prop} [∀ a b c, Decidable (P a b c)]
    (h : ∀ a b c, a < t → a ≤ b → b ≤ c → ((b < T a ∧ c < U a b) ↔ b < t ∧ c < t ∧ P a b c)) (f : ℕ → ℕ → ℕ → ℤ) :
    ∑ a ∈ Finset.Ico 0 t, ∑ b ∈ Finset.Ico a (T a), ∑ c ∈ Finset.Ico b (U a b), f a b c =
      ∑ p ∈ (Finset.range t ×ˢ Finset.range t ×ˢ Finset.range t).filter (fun p => p.1 ≤ p.2.1 ∧ p.2.1 ≤ p.2.2 ∧
        P p.1 p.2.1 p.2.2), f p.1 p.2.1 p.2.2 := by
  have inner : ∀ a ∈ Finset.Ico 0 t, ∑ b ∈ Finset.Ico a (T a), ∑ c ∈ Finset.Ico b (U a b), f a b c =
      ∑ q ∈ (Finset.range t ×ˢ Finset.range t).filter (fun q => a ≤ q.1 ∧ q.1 ≤ q.2 ∧ P a q.1 q.2), f a q.1 q.2 := by
    intro a ha
    simp only [Finset.mem_Ico] at ha
    symm
    rw [Finset.sum_sigma']
    refine Finset.sum_bij' (fun q _ => ⟨q.1, q.2⟩) (fun q _ => (q.1, q.2)) ?_ ?_ (fun _ _ => rfl) (fun _ _ => rfl)
      (fun _ _ => rfl)
    · rintro ⟨b, c⟩ hq
      simp only [Finset.mem_filter, Finset.mem_product, Finset.mem_range] at hq
      simp only [Finset.mem_sigma, Finset.mem_Ico]
      have := (h a b c ha.2 hq.2.1 hq.2.2.1).mpr ⟨hq.1.1, hq.1.2, hq.2.2.2⟩
      exact ⟨⟨hq.2.1, this.1⟩, hq.2.2.1, this.2⟩
    · rintro ⟨b, c⟩ hq
      simp only [Finset.mem_sigma, Finset.mem_Ico] at hq
      simp only [Finset.mem_filter, Finset.mem_product, Finset.mem_range]
      have := (h a b c ha.2 hq.1.1 hq.2.1).mp ⟨hq.1.2, hq.2.2⟩
      exact ⟨⟨this.1, this.2.1⟩, hq.1.1, hq.2.1, this.2.2⟩
  rw [Finset.sum_congr rfl inner]
  symm
  refine Finset.sum_finset_product _ _ _ ?_
  rintro ⟨a, b, c⟩
  simp only [Finset.mem_filter, Finset.mem_product, Finset.mem_range, Finset.mem_Ico]
  constructor
  · rintro ⟨⟨h1, h2, h3⟩, h4, h5, h6⟩
    exact ⟨⟨Nat.zero_le _, h1⟩, ⟨h2, h3⟩, h4, h5, h6⟩
  · rintro ⟨⟨-, h1⟩, ⟨h2, h3⟩, h4, h5, h6⟩
    exact ⟨⟨h1, h2, h3⟩, h4, h5, h6⟩

/-! ## Sums with a cut -/

/-- The positions of an enumeration and their cuts. -/
theorem Enumerates.cuts {e : Enumeration} (h : Enumerates e) (N : ℕ) : ∃ (t : ℕ) (T : ℕ → ℕ) (U : ℕ → ℕ → ℕ),
    (∀ a, e.N a ≤ N ↔ a < t) ∧ (∀ a b, e.N a + e.N b ≤ N ↔ b < T a) ∧
    (∀ a b c, e.N a + e.N b + e.N c ≤ N ↔ c < U a b) := by
  choose t ht using h.cut
  refine ⟨t N, fun a => if e.N a ≤ N then t (N - e.N a) else 0,
    fun a b => if e.N a + e.N b ≤ N then t (N - e.N a - e.N b) else 0, ht N, ?_, ?_⟩
  · intro a b
    dsimp only
    split
    · rw [← ht]
      omega
    · omega
  · intro a b c
    dsimp only
    split
    · rw [← ht]
      omega
    · omega

theorem map_two {e : Enumeration} (a b : ℕ) : (({e.orb a, e.orb b} : Multiset (ℕ × ℕ)).map Prod.snd) = {e.tj a, e.tj b} :=
  rfl

theorem map_three {e : Enumeration} (a b c : ℕ) :
    (({e.orb a, e.orb b, e.orb c} : Multiset (ℕ × ℕ)).map Prod.snd) = {e.tj a, e.tj b, e.tj c} :=
  rfl

/-- **C97.** `TwoBodyDimensionOneBodyCut` ends and counts, over the unordered pairs of orbitals in shells up to `N`, how
often `J` occurs. -/
theorem two_body_one_cut {e : Enumeration} (h : Enumerates e) {N J : ℕ} {total : ℤ} :
    TwoBodyOne e N J total ↔ total = oneBodyCut 2 N J := by
  obtain ⟨t, -, -, ht, -, -⟩ := h.cuts N
  unfold TwoBodyOne
  rw [double_loop (f := fun a b => if triangle (e.tj a) (e.tj b) J then 1 else 0) ht (fun _ b => ht b)
    (fun _ _ _ _ _ => Iff.rfl), sum_two (P := fun _ _ => True) (fun a b _ _ => by simp)]
  have := sum_pairs h ht (fun _ => True) (fun m => multiplicity (m.map Prod.snd) J)
  simp only [map_two, multiplicity_two] at this
  simp only [Finset.filter_true] at this
  rw [this]
  rfl

/-- **C97.** `TwoBodyDimensionTwoBodyCut` does so for the pairs with shells adding up to at most `N`. -/
theorem two_body_two_cut {e : Enumeration} (h : Enumerates e) {N J : ℕ} {total : ℤ} :
    TwoBodyTwo e N J total ↔ total = manyBodyCut 2 N J := by
  obtain ⟨t, T, -, ht, hT, -⟩ := h.cuts N
  unfold TwoBodyTwo
  rw [double_loop (f := fun a b => if triangle (e.tj a) (e.tj b) J then 1 else 0) ht hT
    (fun _ _ _ _ _ => Iff.rfl), sum_two (P := fun a b => e.N a + e.N b ≤ N) (fun a b _ _ => by
      rw [← hT, ← ht]
      omega)]
  have := sum_pairs h ht (fun m => (m.map Prod.fst).sum ≤ N) (fun m => multiplicity (m.map Prod.snd) J)
  simp only [map_two, multiplicity_two] at this
  unfold manyBodyCut
  rw [← this]
  simp [Enumeration.orb]

/-- **C97.** `ThreeBodyDimensionOneBodyCut` ends and counts, over the unordered triples of orbitals in shells up to `N`,
how often `J` occurs. -/
theorem three_body_one_cut {e : Enumeration} (h : Enumerates e) {N J : ℕ} (hJ : J % 2 = 1) {total : ℤ} :
    ThreeBodyOne e N J total ↔ total = oneBodyCut 3 N J := by
  obtain ⟨t, -, -, ht, -, -⟩ := h.cuts N
  unfold ThreeBodyOne
  rw [triple_loop (f := fun a b c => multiplicity {e.tj a, e.tj b, e.tj c} J) ht (fun _ b => ht b) (fun _ _ c => ht c)
    (fun a b c v _ _ _ => by
      rw [couplings_multiplicity (h.range a).1 (h.range b).1 (h.range c).1 hJ]
      exact ⟨fun e => (Except.ok.inj e).symm, fun e => e ▸ rfl⟩),
    sum_three (P := fun _ _ _ => True) (fun a b c _ _ _ => by simp)]
  have := sum_triples h ht (fun _ => True) (fun m => multiplicity (m.map Prod.snd) J)
  simp only [map_three, Finset.filter_true] at this
  rw [this]
  rfl

/-- **C97.** `ThreeBodyDimensionThreeBodyCut` does so for the triples with shells adding up to at most `N`. -/
theorem three_body_three_cut {e : Enumeration} (h : Enumerates e) {N J : ℕ} (hJ : J % 2 = 1) {total : ℤ} :
    ThreeBodyThree e N J total ↔ total = manyBodyCut 3 N J := by
  obtain ⟨t, T, U, ht, hT, hU⟩ := h.cuts N
  unfold ThreeBodyThree
  rw [triple_loop (f := fun a b c => multiplicity {e.tj a, e.tj b, e.tj c} J) ht hT hU
    (fun a b c v _ _ _ => by
      rw [couplings_multiplicity (h.range a).1 (h.range b).1 (h.range c).1 hJ]
      exact ⟨fun e => (Except.ok.inj e).symm, fun e => e ▸ rfl⟩),
    sum_three (P := fun a b c => e.N a + e.N b + e.N c ≤ N) (fun a b c _ _ _ => by
      rw [← hT, ← hU, ← ht, ← ht]
      omega)]
  have := sum_triples h ht (fun m => (m.map Prod.fst).sum ≤ N) (fun m => multiplicity (m.map Prod.snd) J)
  simp only [map_three] at this
  unfold manyBodyCut
  rw [← this]
  simp [Enumeration.orb, add_assoc]

/-! ## Sums over `J1` -/

theorem multiplicity_sum {a b c J M : ℕ} (hM : a + b ≤ 2 * M) (ha : a % 2 = 1) (hb : b % 2 = 1) :
    multiplicity {a, b, c} J = ∑ x ∈ Finset.range (M + 1),
      if triangle a b ((2 * x : ℕ) : ℤ) && triangle ((2 * x : ℕ) : ℤ) c J then 1 else 0 := by
  rw [multiplicity_three, ← Finset.natCast_card_filter]
  congr 1
  symm
  refine Finset.card_bij (fun x _ => 2 * x) ?_ (fun _ _ _ _ h => by omega) ?_
  · intro x hx
    simp only [Finset.mem_filter, Bool.and_eq_true, triangle_iff] at hx
    simp only [Finset.mem_filter, mem_coupled, triangle_iff]
    exact hx.2
  · intro c' hc
    simp only [Finset.mem_filter, mem_coupled, triangle_iff] at hc
    have h1 := couple_cases.mp hc.1
    refine ⟨c' / 2, ?_, by omega⟩
    simp only [Finset.mem_filter, Finset.mem_range, Bool.and_eq_true, triangle_iff]
    rw [show 2 * (c' / 2) = c' by omega]
    exact ⟨by omega, hc⟩

/-- **C59.** The total is the sum of the counts for each `J1` up to twice the largest `j`, with either cut. -/
theorem three_body_sum {e : Enumeration} (h : Enumerates e) {N J : ℕ} (hJ : J % 2 = 1) :
    (∃ f : ℕ → ℤ, (∀ (x : ℕ) v, ThreeBodyOneJ1 e N (2 * x : ℕ) J v ↔ v = f x) ∧
      ∀ total, ThreeBodyOne e N J total ↔ total = ∑ x ∈ Finset.range (2 * N + 2), f x) ∧
    (∃ f : ℕ → ℤ, (∀ (x : ℕ) v, ThreeBodyThreeJ1 e N (2 * x : ℕ) J v ↔ v = f x) ∧
      ∀ total, ThreeBodyThree e N J total ↔ total = ∑ x ∈ Finset.range (2 * N + 2), f x) := by
  obtain ⟨t, T, U, ht, hT, hU⟩ := h.cuts N
  have cnt : ∀ a b c v, e.N a ≤ N → e.N b ≤ N → (couplings (e.tj a) (e.tj b) (e.tj c) J = .ok v ↔
      v = ∑ x ∈ Finset.range (2 * N + 2), if triangle (e.tj a) (e.tj b) ((2 * x : ℕ) : ℤ) &&
        triangle ((2 * x : ℕ) : ℤ) (e.tj c) J then 1 else 0) := by
    intro a b c v ha hb
    have h1 := h.range a
    have h2 := h.range b
    rw [couplings_multiplicity h1.1 h2.1 (h.range c).1 hJ, multiplicity_sum (M := 2 * N + 1) (by omega) h1.1 h2.1]
    exact ⟨fun e => (Except.ok.inj e).symm, fun e => e ▸ rfl⟩
  have out : ∀ (T : ℕ → ℕ) (U : ℕ → ℕ → ℕ) (R : Finset ℕ) (g : ℕ → ℕ → ℕ → ℕ → ℤ),
      ∑ a ∈ Finset.Ico 0 t, ∑ b ∈ Finset.Ico a (T a), ∑ c ∈ Finset.Ico b (U a b), ∑ x ∈ R, g a b c x =
        ∑ x ∈ R, ∑ a ∈ Finset.Ico 0 t, ∑ b ∈ Finset.Ico a (T a), ∑ c ∈ Finset.Ico b (U a b), g a b c x := by
    intro T U R g
    symm
    rw [Finset.sum_comm]
    refine Finset.sum_congr rfl fun a _ => ?_
    rw [Finset.sum_comm]
    refine Finset.sum_congr rfl fun b _ => ?_
    rw [Finset.sum_comm]
  constructor
  · refine ⟨_, fun x v => triple_loop ht (fun _ b => ht b) (fun _ _ c => ht c) (fun _ _ _ _ _ _ _ => Iff.rfl), ?_⟩
    intro total
    unfold ThreeBodyOne
    rw [triple_loop ht (fun _ b => ht b) (fun _ _ c => ht c)
      (fun a b c v ha hb _ => cnt a b c v ((ht a).mpr ha) ((ht b).mpr hb)), out]
  · refine ⟨_, fun x v => triple_loop ht hT hU (fun _ _ _ _ _ _ _ => Iff.rfl), ?_⟩
    intro total
    unfold ThreeBodyThree
    rw [triple_loop ht hT hU
      (fun a b c v ha hb _ => cnt a b c v ((ht a).mpr ha) (by have := (hT a b).mpr hb; omega)), out]

/-- An integer `J` ends the program at the first triple. -/
theorem three_body_integer {e : Enumeration} (h : Enumerates e) {N J : ℕ} (hJ : J % 2 = 0) (total : ℤ) :
    ¬ ThreeBodyOne e N J total ∧ ¬ ThreeBodyThree e N J total := by
  have h0 : e.N 0 = 0 := by
    obtain ⟨k, h1, _⟩ := h.onto 0 1 (by norm_num) (by norm_num)
    have := h.mono 0 k (Nat.zero_le _)
    omega
  have bad : ∀ {v}, couplings (e.tj 0) (e.tj 0) (e.tj 0) J ≠ .ok v := by
    intro v
    rw [couplings_integer (h.range 0).1 (h.range 0).1 (h.range 0).1 hJ]
    simp
  constructor <;> intro hx
  · cases hx with
    | stop hn => exact hn (by omega)
    | step _ hx _ =>
      cases hx with
      | stop hn => exact hn (by omega)
      | step _ hx _ =>
        cases hx with
        | stop hn => exact hn (by omega)
        | step _ hx _ => exact bad hx
  · cases hx with
    | stop hn => exact hn (by omega)
    | step _ hx _ =>
      cases hx with
      | stop hn => exact hn (by omega)
      | step _ hx _ =>
        cases hx with
        | stop hn => exact hn (by omega)
        | step _ hx _ => exact bad hx

end Verif.Count
