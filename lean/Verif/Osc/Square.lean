import Verif.Osc.MeProps
import Mathlib.Algebra.BigOperators.Group.Finset.Basic
import Mathlib.Algebra.BigOperators.Ring.Finset

/-! # Property C28: the squared operators are squares -/

namespace Verif.Osc
open Verif Verif.H2

/-- Real value of `cDagger` where it is a number and `|δl| = 1`. -/
noncomputable def upR (N' l' N l : Int) : ℝ :=
  if N' - N = 1 then (if l' - l = 1 then Real.sqrt (N + l + 3) else -Real.sqrt (N - l + 2)) else 0

/-- Real value of `cLower` where it is a number and `|δl| = 1`. -/
noncomputable def downR (N' l' N l : Int) : ℝ :=
  if N' - N = -1 then (if l' - l = 1 then -Real.sqrt (N - l) else Real.sqrt (N + l + 1)) else 0

theorem coordinate_value {N' l' N l : Int} (h : Physical N l)
    (hl : l' - l = -1 ∨ l' - l = 1) (s : Int) :
    coordinate N' l' N l s = .ok (((s : ℝ) * upR N' l' N l + downR N' l' N l) / kSqrt2) := by
  obtain ⟨a, b, c⟩ := h
  have ra : (0 : ℝ) ≤ l := by exact_mod_cast a
  have rb : (l : ℝ) ≤ N := by exact_mod_cast b
  have hu : cDagger N' l' N l = .ok (upR N' l' N l) := by
    unfold cDagger upR
    simp only
    split_ifs with h1 h2 h3
    · exact fsqrt_ok (by linarith)
    · rw [fsqrt_ok (by linarith)]; rfl
    · omega
    · rfl
  have hd : cLower N' l' N l = .ok (downR N' l' N l) := by
    unfold cLower downR
    simp only
    split_ifs with h1 h2 h3
    · rw [fsqrt_ok (by linarith)]; rfl
    · exact fsqrt_ok (by linarith)
    · omega
    · rfl
  simp [coordinate, hl, assertE, hu, hd, Except.ok_bind', Except.pure_ok]

/-- Real value of `coordinateSqr` between physical orbitals. -/
noncomputable def sqrR (N' l' N l : Int) (s : ℝ) : ℝ :=
  if N' - N = 2 then
    if l' - l = 2 then 1 / 2 * (Real.sqrt (N + l + 5) * Real.sqrt (N + l + 3))
    else if l' - l = 0 then -1 / 2 * (Real.sqrt (N + l + 3) * Real.sqrt (N - l + 2))
    else if l' - l = -2 then 1 / 2 * (Real.sqrt (N - l + 2) * Real.sqrt (N - l + 4))
    else 0
  else if N' - N = 0 then
    if l' - l = 2 then -s * (Real.sqrt (N - l) * Real.sqrt (N + l + 3))
    else if l' - l = 0 then s * (N + 3 / 2)
    else if l' - l = -2 then -s * (Real.sqrt (N - l + 2) * Real.sqrt (N + l + 1))
    else 0
  else if N' - N = -2 then
    if l' - l = 2 then 1 / 2 * (Real.sqrt (N - l - 2) * Real.sqrt (N - l))
    else if l' - l = 0 then -1 / 2 * (Real.sqrt (N - l) * Real.sqrt (N + l + 1))
    else if l' - l = -2 then 1 / 2 * (Real.sqrt (N + l + 1) * Real.sqrt (N + l - 1))
    else 0
  else 0

theorem sqr_value {N' l' N l : Int} (h' : Physical N' l') (h : Physical N l) (s : Int) :
    coordinateSqr N' l' N l s = .ok (sqrR N' l' N l s) := by
  obtain ⟨a', b', c'⟩ := h'
  obtain ⟨a, b, c⟩ := h
  have ra : (0 : ℝ) ≤ l := by exact_mod_cast a
  have rb : (l : ℝ) ≤ N := by exact_mod_cast b
  have sm : ∀ {x y : ℝ} (k : ℝ), 0 ≤ x → 0 ≤ y →
      (fsqrt (x * y)).map (fun z => k * z) = .ok (k * (Real.sqrt x * Real.sqrt y)) := by
    intro x y k hx hy
    rw [fsqrt_ok (mul_nonneg hx hy), Real.sqrt_mul hx]; rfl
  unfold coordinateSqr sqrR
  simp only
  split_ifs with h1 h2 h3 h4 h5 h6 h7 h8 h9 h10 h11 h12
  · rw [sm _ (by linarith) (by linarith)]; norm_num
  · rw [sm _ (by linarith) (by linarith)]; norm_num
  · rw [sm _ (by linarith) (by linarith)]; norm_num
  · rfl
  · rw [sm _ (by linarith) (by linarith)]
  · norm_num
  · rw [sm _ (by linarith) (by linarith)]
  · rfl
  · have : (2 : ℝ) ≤ (N : ℝ) - l := by
      have : (2 : Int) ≤ N - l := by omega
      exact_mod_cast this
    rw [sm _ (by linarith) (by linarith)]; norm_num
  · rw [sm _ (by linarith) (by linarith)]; norm_num
  · have : (2 : ℝ) ≤ (l : ℝ) := by
      have : (2 : Int) ≤ l := by omega
      exact_mod_cast this
    rw [sm _ (by linarith) (by linarith)]; norm_num
  all_goals rfl

/-- Only the two neighbouring shells contribute to the sum over intermediate shells. -/
theorem sum_neighbours {N l'' : Int} {M : ℕ} (hM : N + 1 ≤ M) (hN : 0 ≤ N) (F : Int → ℝ)
    (h0 : ∀ m : Int, m ≠ N + 1 → m ≠ N - 1 → F m = 0) (hup : Physical (N + 1) l'')
    (hdn : ¬ Physical (N - 1) l'' → F (N - 1) = 0) :
    (∑ m ∈ (Finset.range (M + 1)).filter (fun m : ℕ => Physical m l''), F m) = F (N + 1) + F (N - 1) := by
  obtain ⟨n, rfl⟩ := Int.eq_ofNat_of_zero_le hN
  have hmem : n + 1 ∈ (Finset.range (M + 1)).filter (fun m : ℕ => Physical m l'') := by
    simp only [Finset.mem_filter, Finset.mem_range]
    exact ⟨by omega, by push_cast; exact hup⟩
  rw [← Finset.add_sum_erase _ _ hmem]
  push_cast
  congr 1
  by_cases hp : Physical ((n : Int) - 1) l''
  · have hpos : 1 ≤ n := by have h1 := hp.1; have h2 := hp.2.1; omega
    have hmem2 : n - 1 ∈ ((Finset.range (M + 1)).filter (fun m : ℕ => Physical m l'')).erase (n + 1) := by
      simp only [Finset.mem_erase, Finset.mem_filter, Finset.mem_range]
      refine ⟨by omega, by omega, ?_⟩
      have : ((n - 1 : ℕ) : Int) = (n : Int) - 1 := by omega
      rw [this]; exact hp
    rw [Finset.sum_eq_single_of_mem _ hmem2]
    · congr 1; omega
    · intro b hb hne
      simp only [Finset.mem_erase] at hb
      exact h0 _ (by have := hb.1; omega) (by omega)
  · rw [hdn hp]
    apply Finset.sum_eq_zero
    intro b hb
    simp only [Finset.mem_erase, Finset.mem_filter, Finset.mem_range] at hb
    refine h0 _ (by have := hb.1; omega) ?_
    intro h
    exact hp (h ▸ hb.2.2)

/-- **C28.** The element of the squared operator is the sum over intermediate shells of products
of coordinate elements, through either admissible intermediate `l''` — for `sign = +1` the square
of `r`, for `sign = -1` the square of `ik`.  The factor `2 / kSqrt2²` is there because the code
divides by the literal `1.414213562373095` and not by the square root of two. -/
theorem square_is_product {N' l' N l l'' s : Int} (hb : Physical N' l') (hk : Physical N l)
    (hl0 : 0 ≤ l'') (h1 : l'' - l = -1 ∨ l'' - l = 1) (h2 : l' - l'' = -1 ∨ l' - l'' = 1)
    (hs : s = 1 ∨ s = -1) {M : ℕ} (hM : N + 1 ≤ M) {f g : ℕ → ℝ} {x : ℝ}
    (hf : ∀ m : ℕ, m ≤ M → Physical m l'' → coordinate N' l' m l'' s = .ok (f m))
    (hg : ∀ m : ℕ, m ≤ M → Physical m l'' → coordinate m l'' N l s = .ok (g m))
    (hx : coordinateSqr N' l' N l s = .ok x) :
    (∑ m ∈ (Finset.range (M + 1)).filter (fun m : ℕ => Physical m l''), f m * g m)
      = 2 / kSqrt2 ^ 2 * x := by
  have hk0 : kSqrt2 ≠ 0 := by norm_num [kSqrt2]
  obtain ⟨a, b, c⟩ := hk
  obtain ⟨a', b', c'⟩ := hb
  have ra : (0 : ℝ) ≤ l := by exact_mod_cast a
  have rb : (l : ℝ) ≤ N := by exact_mod_cast b
  set F : Int → ℝ := fun m =>
    (((s : ℝ) * upR N' l' m l'' + downR N' l' m l'') / kSqrt2)
      * (((s : ℝ) * upR m l'' N l + downR m l'' N l) / kSqrt2) with hF
  have e1 : (∑ m ∈ (Finset.range (M + 1)).filter (fun m : ℕ => Physical m l''), f m * g m)
      = ∑ m ∈ (Finset.range (M + 1)).filter (fun m : ℕ => Physical m l''), F m := by
    apply Finset.sum_congr rfl
    intro m hm
    simp only [Finset.mem_filter, Finset.mem_range] at hm
    have q1 := hf m (by omega) hm.2
    rw [coordinate_value hm.2 h2] at q1
    have q2 := hg m (by omega) hm.2
    rw [coordinate_value ⟨a, b, c⟩ h1] at q2
    simp only [Except.ok.injEq] at q1 q2
    rw [← q1, ← q2]
  rw [e1, sum_neighbours hM (by omega) F]
  · -- both sides multiplied out
    have key : ((s : ℝ) * upR N' l' (N + 1) l'' + downR N' l' (N + 1) l'')
          * ((s : ℝ) * upR (N + 1) l'' N l + downR (N + 1) l'' N l)
        + ((s : ℝ) * upR N' l' (N - 1) l'' + downR N' l' (N - 1) l'')
          * ((s : ℝ) * upR (N - 1) l'' N l + downR (N - 1) l'' N l) = 2 * x := by
      have hs2 : (s : ℝ) * s = 1 := by rcases hs with h | h <;> rw [h] <;> norm_num
      by_cases hN : N' - N = 2 ∨ N' - N = 0 ∨ N' - N = -2
      · have e2 : N' = N + (N' - N) := by omega
        have el1 : l'' = l + (l'' - l) := by omega
        have el2 : l' = l'' + (l' - l'') := by omega
        have e3 : l' = l + (l' - l) := by omega
        rw [sqr_value ⟨a', b', c'⟩ ⟨a, b, c⟩] at hx
        simp only [Except.ok.injEq] at hx
        have p1 := Real.mul_self_sqrt (show (0 : ℝ) ≤ N - l by linarith)
        have p2 := Real.mul_self_sqrt (show (0 : ℝ) ≤ N - l + 2 by linarith)
        have p3 := Real.mul_self_sqrt (show (0 : ℝ) ≤ N + l + 1 by linarith)
        have p4 := Real.mul_self_sqrt (show (0 : ℝ) ≤ N + l + 3 by linarith)
        rw [← hx]
        rcases hN with hN | hN | hN <;> rcases h1 with h1 | h1 <;> rcases h2 with h2 | h2
        all_goals
          have h3 : l' - l = (l' - l'') + (l'' - l) := by ring
          rw [h1, h2] at h3
          have hn1 : N' - (N + 1) = (N' - N) - 1 := by ring
          have hn2 : N' - (N - 1) = (N' - N) + 1 := by ring
          have hn3 : N + 1 - N = 1 := by ring
          have hn4 : N - 1 - N = -1 := by ring
          rw [hN] at hn1 hn2
          have c1 : (l'' : ℝ) = l + ((l'' - l : Int) : ℝ) := by push_cast; ring
          rw [h1] at c1
          simp only [upR, downR, sqrR, hN, h1, h2, h3, hn1, hn2, hn3, hn4]
          norm_num [c1]
          rcases hs with hs | hs <;> subst hs <;> push_cast
          all_goals (ring_nf; try ring_nf at p1 p2 p3 p4)
          all_goals try linarith
      · have n1 : ¬ (N' - N = 2) := by omega
        have n2 : ¬ (N' - N = 0) := by omega
        have n3 : ¬ (N' - N = -2) := by omega
        simp only [coordinateSqr, if_neg n1, if_neg n2, if_neg n3, Except.ok.injEq] at hx
        rw [← hx]
        have m1 : ¬ (N' - (N + 1) = 1) := by omega
        have m2 : ¬ (N' - (N + 1) = -1) := by omega
        have m3 : ¬ (N' - (N - 1) = 1) := by omega
        have m4 : ¬ (N' - (N - 1) = -1) := by omega
        simp only [upR, downR, if_neg m1, if_neg m2, if_neg m3, if_neg m4]
        ring
    rw [hF]
    simp only
    field_simp
    linear_combination key
  · intro m m1 m2
    have n1 : ¬ (m - N = 1) := by omega
    have n2 : ¬ (m - N = -1) := by omega
    simp [hF, upR, downR, n1, n2]
  · unfold Physical; omega
  · intro hp
    have e : l'' - l = 1 ∧ N = l := by
      unfold Physical at hp; omega
    have q1 : ¬ (N - 1 - N = 1) := by omega
    have q2 : (N - 1 - N = -1) := by omega
    have q3 : (N : ℝ) - l = 0 := by rw [e.2]; ring
    simp [hF, upR, downR, e.1, q3, q1]

end Verif.Osc
