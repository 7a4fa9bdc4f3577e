import Verif.Relative.GenOperators
import Verif.Moshinsky.NucleonCoeff
import Verif.SU2.Vector

/-!
# The coefficients of angular momentum obey the laws

The laws asked of the `am` library (`HalfLaws`, `LSLaws`, `QuadLaws`, `UnitLaw`) are those of the coupling coefficients of Condon and
Shortley and of the reduction factors made of them, for all subspaces of all truncations.
-/

namespace Verif.Relative
open Verif Verif.H2 Verif.SU2 Verif.Moshinsky Verif.Moshinsky.Osc
open Verif.Relative (couple)

/-- The coupling coefficients of Condon and Shortley. -/
noncomputable def cgD : Cg := fun a x b y j m => cgd a.toNat x b.toNat y j.toNat m

theorem ms_eq (j : ℕ) : ms j = projs j := by
  ext m
  rw [mem_projs, ms, Finset.mem_image]
  constructor
  · rintro ⟨k, hk, rfl⟩
    rw [Finset.mem_range] at hk
    omega
  · intro h
    exact ⟨(((j : ℤ) + m) / 2).toNat, by rw [Finset.mem_range]; omega, by omega⟩

theorem cgD_nat (a : ℕ) (x : ℤ) (b : ℕ) (y : ℤ) (j : ℕ) (m : ℤ) : cgD a x b y j m = cgd a x b y j m := by
  simp only [cgD, Int.toNat_natCast]

theorem couple_cgD (a' b' j' a b j : ℕ) (A : Int → Int → Int → Int → ℝ) (M' M : Int) :
    couple cgD a' b' j' a b j A M' M = ∑ x' ∈ projs a', ∑ y' ∈ projs b', ∑ x ∈ projs a, ∑ y ∈ projs b,
      cgd a' x' b' y' j' M' * cgd a x b y j M * A x' y' x y := by
  simp only [couple, cgD_nat, ms_eq]

/-! ## One angular momentum -/

theorem jmat_up (j : ℕ) (m' m : ℤ) : jmat j 2 m' m = if m' = m + 2 then -up j m / √2 else 0 := by
  simp only [jmat, up]
  norm_num

theorem jmat_dn (j : ℕ) (m' m : ℤ) : jmat j (-2) m' m = if m' = m - 2 then dn j m / √2 else 0 := by
  simp only [jmat, dn]
  norm_num

theorem jmat_axis (j : ℕ) (m' m : ℤ) : jmat j 0 m' m = if m' = m then (m : ℝ) / 2 else 0 := by
  simp only [jmat, if_true]

theorem mem_ms_two {q : ℤ} : q ∈ ms 2 ↔ q = 0 ∨ q = 2 ∨ q = -2 := by
  rw [ms_eq, mem_projs]
  omega

theorem vector_law (j : ℕ) : VectorLaw cgD j := by
  intro m' hm' q hq m hm
  rw [ms_eq] at hm hm'
  have e : cgD j m (2 : ℕ) q j m' = cgd j m 2 q j m' := cgD_nat _ _ _ _ _ _
  rw [e]
  rcases mem_ms_two.mp hq with rfl | rfl | rfl
  · rw [jmat_axis]
    split_ifs with h
    · rw [h, cgd_vector_zero hm]
    · rw [cgd_of_ne (by omega), zero_mul]
  · rw [jmat_up]
    split_ifs with h
    · rw [h, cgd_vector_up hm]
    · rw [cgd_of_ne (by omega), zero_mul]
  · rw [jmat_dn]
    split_ifs with h
    · rw [h, cgd_vector_dn hm]
    · rw [cgd_of_ne (by omega), zero_mul]

theorem scalar_law (j : ℕ) : ScalarLaw cgD j := by
  intro m' hm' m hm
  rw [ms_eq] at hm
  rw [show cgD j m 0 0 j m' = cgd j m 0 0 j m' from cgD_nat j m 0 0 j m', δ]
  split_ifs with h
  · rw [h, cgd_scalar hm]
  · exact cgd_of_ne (by omega)

/-! ## Two angular momenta -/

theorem ortho_law {a b j' j : ℕ} (h : Coupled a b j') : OrthoLaw cgD a b j' j := by
  intro M' hM' M hM
  rw [ms_eq] at hM'
  simp only [cgD_nat, ms_eq]
  rw [cgd_ortho h hM', δ]
  split_ifs <;> tauto

theorem sum_delta {s : Finset ℤ} {x : ℤ} (h : x ∈ s) (f : ℤ → ℝ) : ∑ y ∈ s, δ x y * f y = f x := by
  rw [Finset.sum_eq_single_of_mem x h fun y _ hy => by rw [δ, if_neg (Ne.symm hy), zero_mul], δ, if_pos rfl, one_mul]

/-- The components of the angular momentum applied to a coupling coefficient. -/
theorem jmat_apply {j : ℕ} {q m' : ℤ} (hm' : m' ∈ projs j) (f : ℤ → ℝ) (hf : ∀ m, m ∉ projs j → f m = 0) :
    (q = 0 → ∑ m ∈ projs j, jmat j q m' m * f m = m' / 2 * f m') ∧
    (q = 2 → ∑ m ∈ projs j, jmat j q m' m * f m = -(dn j m' * f (m' - 2)) / √2) ∧
    (q = -2 → ∑ m ∈ projs j, jmat j q m' m * f m = up j m' * f (m' + 2) / √2) := by
  refine ⟨?_, ?_, ?_⟩
  · rintro rfl
    rw [Finset.sum_eq_single_of_mem m' hm' fun m _ hm => by rw [jmat_axis, if_neg (Ne.symm hm), zero_mul], jmat_axis, if_pos rfl]
  · rintro rfl
    by_cases h : m' - 2 ∈ projs j
    · rw [Finset.sum_eq_single_of_mem (m' - 2) h fun m _ hm => by rw [jmat_up, if_neg (by omega), zero_mul], jmat_up, if_pos (by ring), up_dn]
      ring
    · rw [hf _ h, Finset.sum_eq_zero fun m hm => ?_]
      · simp
      rw [jmat_up, if_neg, zero_mul]
      rintro rfl
      rw [add_sub_cancel_right] at h
      exact h hm
  · rintro rfl
    by_cases h : m' + 2 ∈ projs j
    · rw [Finset.sum_eq_single_of_mem (m' + 2) h fun m _ hm => by rw [jmat_dn, if_neg (by omega), zero_mul], jmat_dn, if_pos (by ring), dn_up]
      ring
    · rw [hf _ h, Finset.sum_eq_zero fun m hm => ?_]
      · simp
      rw [jmat_dn, if_neg, zero_mul]
      rintro rfl
      rw [sub_add_cancel] at h
      exact h hm

theorem mul_both (c : ℝ) (p q : Prop) [Decidable p] [Decidable q] : (c * if p ∧ q then 1 else 0) = if p then (if q then c else 0) else 0 := by
  by_cases hp : p <;> by_cases hq : q <;> simp [hp, hq]

theorem total_law {a b j' j : ℕ} (h : Coupled a b j') : TotalLaw cgD a b j' j := by
  intro q hq M' hM' M hM
  rw [ms_eq] at hM' hM
  rw [couple_cgD]
  have e : ∀ x' ∈ projs a, ∀ y' ∈ projs b, ∑ x ∈ projs a, ∑ y ∈ projs b, cgd a x' b y' j' M' * cgd a x b y j M *
      (jmat a q x' x * δ y' y + δ x' x * jmat b q y' y) = cgd a x' b y' j' M' *
      ((∑ x ∈ projs a, jmat a q x' x * cgd a x b y' j M) + ∑ y ∈ projs b, jmat b q y' y * cgd a x' b y j M) := by
    intro x' hx' y' hy'
    have e1 : ∀ x ∈ projs a, ∑ y ∈ projs b, cgd a x' b y' j' M' * cgd a x b y j M * (jmat a q x' x * δ y' y + δ x' x * jmat b q y' y) =
        cgd a x' b y' j' M' * (jmat a q x' x * cgd a x b y' j M + δ x' x * ∑ y ∈ projs b, jmat b q y' y * cgd a x b y j M) := by
      intro x _
      rw [← sum_delta hy' fun y => jmat a q x' x * cgd a x b y j M, Finset.mul_sum, ← Finset.sum_add_distrib, Finset.mul_sum]
      refine Finset.sum_congr rfl fun y _ => ?_
      ring
    rw [Finset.sum_congr rfl e1, ← Finset.mul_sum, Finset.sum_add_distrib, sum_delta hx']
  rw [Finset.sum_congr rfl fun x' hx' => Finset.sum_congr rfl fun y' hy' => e x' hx' y' hy']
  have o1 : ∀ y m, m ∉ projs a → cgd a m b y j M = 0 := fun y m hm => cgd_range fun h => hm h.1
  have o2 : ∀ x m, m ∉ projs b → cgd a x b m j M = 0 := fun x m hm => cgd_range fun h => hm h.2.1
  have key : ∀ (c : ℝ) (N : ℤ), (∀ x' ∈ projs a, ∀ y' ∈ projs b, (∑ x ∈ projs a, jmat a q x' x * cgd a x b y' j M) +
      (∑ y ∈ projs b, jmat b q y' y * cgd a x' b y j M) = c * cgd a x' b y' j N) →
      ∑ x' ∈ projs a, ∑ y' ∈ projs b, cgd a x' b y' j' M' * ((∑ x ∈ projs a, jmat a q x' x * cgd a x b y' j M) +
        ∑ y ∈ projs b, jmat b q y' y * cgd a x' b y j M) = c * if j' = j ∧ M' = N then 1 else 0 := by
    intro c N hk
    rw [← cgd_ortho h hM', Finset.mul_sum]
    refine Finset.sum_congr rfl fun x' hx' => ?_
    rw [Finset.mul_sum]
    refine Finset.sum_congr rfl fun y' hy' => ?_
    rw [hk x' hx' y' hy']
    ring
  rcases mem_ms_two.mp hq with rfl | rfl | rfl
  · rw [key (M / 2) M, jmat_axis]
    · exact mul_both _ _ _
    · intro x' hx' y' hy'
      rw [(jmat_apply hx' _ (o1 y')).1 rfl, (jmat_apply hy' _ (o2 x')).1 rfl]
      by_cases hs : x' + y' = M
      · rw [← hs]
        push_cast
        ring
      · rw [cgd_of_ne hs]
        ring
  · rw [key (-up j M / √2) (M + 2), jmat_up]
    · exact mul_both _ _ _
    · intro x' hx' y' hy'
      rw [(jmat_apply hx' _ (o1 y')).2.1 rfl, (jmat_apply hy' _ (o2 x')).2.1 rfl]
      have := cgd_raise a x' b y' j M
      linear_combination (-1 / √2) * this
  · rw [key (dn j M / √2) (M - 2), jmat_dn]
    · exact mul_both _ _ _
    · intro x' hx' y' hy'
      rw [(jmat_apply hx' _ (o1 y')).2.2 rfl, (jmat_apply hy' _ (o2 x')).2.2 rfl]
      have := cgd_lower a x' b y' j M
      linear_combination (1 / √2) * this

/-! ## Reduction -/

/-- The factor of the reduction of an operator on the first system. -/
noncomputable def red1D (a' b j' a j k : ℕ) : ℝ := overlap3 a k b a' j j' j'

/-- The factor of the reduction of an operator on the second system. -/
noncomputable def red2D (a b' j' b j k : ℕ) : ℝ := sgn (((a : ℤ) + b' - j') / 2) * sgn (((a : ℤ) + b - j) / 2) * overlap3 b k a b' j j' j'

theorem reduces1 (a' a b j' j k : ℕ) : Reduces1 cgD (red1D a' b j' a j k) a' a b j' j k := by
  intro M' _ q _ M _
  simp only [couple_cgD, cgD_nat]
  rw [red1D, mul_comm, ← reduction]
  refine Finset.sum_congr rfl fun x' _ => Finset.sum_congr rfl fun y' hy' => Finset.sum_congr rfl fun x _ => ?_
  rw [← sum_delta hy' fun y => cgd a' x' b y' j' M' * cgd a x k q a' x' * cgd a x b y j M]
  refine Finset.sum_congr rfl fun y _ => ?_
  ring

theorem reduces2 (a b' b j' j k : ℕ) : Reduces2 cgD (red2D a b' j' b j k) a b' b j' j k := by
  intro M' _ q _ M _
  simp only [couple_cgD, cgD_nat]
  rw [red2D, mul_comm, mul_assoc, ← reduction, Finset.mul_sum, Finset.sum_comm]
  refine Finset.sum_congr rfl fun y' _ => ?_
  rw [Finset.mul_sum]
  refine Finset.sum_congr rfl fun x' hx' => ?_
  rw [Finset.sum_comm, Finset.mul_sum]
  refine Finset.sum_congr rfl fun y _ => ?_
  rw [← sum_delta hx' fun x => sgn (((a : ℤ) + b' - j') / 2) * sgn (((a : ℤ) + b - j) / 2) *
    (cgd b' y' a x' j' M' * cgd b y k q b' y' * cgd b y a x j M)]
  refine Finset.sum_congr rfl fun x _ => ?_
  rw [cgd_exchange a x' b' y' j' M', cgd_exchange a x b y j M]
  ring

/-! ## The library -/

/-- The functions of the `am` library (`Am`) for the coefficients `cgD`.  The `6j` symbol is what the law of reduction makes it. -/
noncomputable def amD : Am where
  rose1 a' b' j' a _ j k := red1D a' b' j' a j k
  rose2 a' b' j' a b j k := if a' = a then red2D a b' j' b j k else 0
  threeJ a b c := sgn (((a : ℤ) - b) / 2) / √((c : ℝ) + 1) * cgd a 0 b 0 c 0
  sixJ a b c d e f := sgn (((a : ℤ) + c + d) / 2) * red1D a c b e d f / (√((d : ℝ) + 1) * √((a : ℝ) + 1))
  jRME a b := if a = b then √((a : ℝ) * (a + 2) / 4) else 0

theorem jRME_eq (S' S : ℕ) : amD.jRME (2 * S') (2 * S) = if S' = S then √(((S * (S + 1) : ℕ) : ℝ)) else 0 := by
  simp only [amD]
  by_cases h : S' = S
  · subst h
    rw [if_pos rfl, if_pos rfl]
    congr 1
    push_cast
    ring
  · rw [if_neg h, if_neg (by omega)]

theorem coupled_half {S : ℕ} (h : S ≤ 1) : Coupled 1 1 (2 * S) := by
  rw [Coupled, abs_le]
  omega

theorem half_laws : HalfLaws cgD amD where
  ortho S' S h' _ := ortho_law (coupled_half h')
  total S' S h' _ := total_law (coupled_half h')
  red1 S' S _ _ := reduces1 1 1 1 (2 * S') (2 * S) 2
  red2 S' S _ _ := by
    simp only [amD, if_true]
    exact reduces2 1 1 1 (2 * S') (2 * S) 2
  half := vector_law 1
  vector S _ := vector_law (2 * S)
  scalar S _ := scalar_law (2 * S)
  zero q _ := cgd_triangle (by rw [Coupled, abs_le]; simp only [Int.toNat_zero]; omega)
  jrme S' S _ _ := jRME_eq S' S

theorem half_sym : HalfSym cgD := by
  intro S hS x _ y _ M _
  have e : ∀ x y : ℤ, cgD 1 x 1 y (2 * S : ℕ) M = cgd 1 x 1 y (2 * S) M := fun x y => cgD_nat 1 x 1 y (2 * S) M
  rw [e, e, cgd_exchange]
  congr 1
  interval_cases S <;> simp [sgn]

theorem coupled_LSJ {N : ℕ} {s : RelSub} (h : SubOK N s) : Coupled (2 * s.L) (2 * s.S) (2 * s.J) := by
  have := h.LSJ
  simp only [tri, decide_eq_true_eq] at this
  rw [Coupled, abs_le]
  omega

theorem ls_laws {N N' : ℕ} {s' s : RelSub} (h' : SubOK N' s') (_h : SubOK N s) : LSLaws cgD amD s' s where
  ortho hL hS := ortho_law (by rw [← hL, ← hS]; exact coupled_LSJ h')
  scalar := scalar_law _
  vector := vector_law _
  red1 hS _ _ := by
    rw [hS]
    exact reduces1 (2 * s'.L) (2 * s.L) (2 * s.S) (2 * s'.J) (2 * s.J) 2
  red2 hL _ _ := by
    rw [hL]
    simp only [amD, if_true]
    exact reduces2 (2 * s.L) (2 * s'.S) (2 * s.S) (2 * s'.J) (2 * s.J) 2

/-- The elements of the second spherical harmonic. -/
noncomputable def harmD (L' L : ℕ) (q m' m : ℤ) : ℝ := cgd (2 * L) m 4 q (2 * L') m' *
  ((-1) ^ L' * √(2 * L + 1) * √(5 / (4 * Real.pi)) * amD.threeJ (2 * L') 4 (2 * L))

/-- The elements of the unit vector. -/
noncomputable def unitD (L' L : ℕ) (q m' m : ℤ) : ℝ := cgd (2 * L) m 2 q (2 * L') m' * unitRME L' L

theorem sgn_pow (n : ℕ) : sgn n = (-1) ^ n := by
  rcases Nat.even_or_odd n with h | h
  · rw [h.neg_one_pow, sgn, if_pos (by obtain ⟨k, rfl⟩ := h; omega)]
  · rw [h.neg_one_pow, sgn, if_neg (by obtain ⟨k, rfl⟩ := h; omega)]

theorem threeJ_sym (L' L : ℕ) : amD.threeJ (2 * L) 4 (2 * L') = amD.threeJ (2 * L') 4 (2 * L) := by
  simp only [amD]
  have h := cgd_turn (2 * L') 0 4 0 (2 * L) 0
  have p1 : √(((2 * L : ℕ) : ℝ) + 1) ≠ 0 := by positivity
  have p2 : √(((2 * L' : ℕ) : ℝ) + 1) ≠ 0 := by positivity
  rw [neg_zero] at h
  have e : sgn ((((2 * L : ℕ) : ℤ) - (2 * L' : ℕ) - 0) / 2) = sgn ((((2 * L : ℕ) : ℤ) - (4 : ℕ)) / 2) * sgn ((((2 * L' : ℕ) : ℤ) - (4 : ℕ)) / 2) := by
    rw [sgn_mul_sgn]
    exact sgn_parity (by omega)
  have ss := sgn_mul_self ((((2 * L : ℕ) : ℤ) - (4 : ℕ)) / 2)
  rw [e] at h
  rw [div_mul_eq_mul_div, div_mul_eq_mul_div, div_eq_div_iff p2 p1]
  linear_combination sgn ((((2 * L : ℕ) : ℤ) - (4 : ℕ)) / 2) * h + sgn ((((2 * L' : ℕ) : ℤ) - (4 : ℕ)) / 2) *
    √(((2 * L' : ℕ) : ℝ) + 1) * cgd (2 * L') 0 4 0 (2 * L) 0 * ss

theorem quad_laws (s' s : RelSub) : QuadLaws cgD amD harmD s' s where
  red hS _ _ := by
    have e : ((-1) ^ (s'.L + s.S + s.J) * √(2 * (s.J : ℝ) + 1) * √(2 * (s'.L : ℝ) + 1) * amD.sixJ (2 * s'.L) (2 * s'.J) (2 * s.S) (2 * s.J) (2 * s.L) 4) =
        red1D (2 * s'.L) (2 * s.S) (2 * s'.J) (2 * s.L) (2 * s.J) 4 := by
      simp only [amD]
      have p1 : √(2 * (s.J : ℝ) + 1) ≠ 0 := by positivity
      have p2 : √(2 * (s'.L : ℝ) + 1) ≠ 0 := by positivity
      have ss := sgn_mul_self ((s'.L + s.S + s.J : ℕ) : ℤ)
      push_cast
      rw [show ((2 : ℤ) * s'.L + 2 * s.S + 2 * s.J) / 2 = ((s'.L + s.S + s.J : ℕ) : ℤ) by push_cast; omega, ← sgn_pow, mul_div_assoc',
        div_eq_iff (mul_ne_zero p1 p2)]
      linear_combination √(2 * (s.J : ℝ) + 1) * √(2 * (s'.L : ℝ) + 1) * red1D (2 * s'.L) (2 * s.S) (2 * s'.J) (2 * s.L) (2 * s.J) 4 * ss
    rw [e]
    exact reduces1 (2 * s'.L) (2 * s.L) (2 * s.S) (2 * s'.J) (2 * s.J) 4
  harm _ := fun m' _ q _ m _ => by
    rw [harmD]
    rfl
  none h := fun q m' m => by
    rw [harmD, cgd_triangle, zero_mul]
    simp only [tri, decide_eq_true_eq] at h
    rw [Coupled, abs_le]
    omega
  sym := threeJ_sym _ _

theorem unit_law (s' s : RelSub) : UnitLaw cgD unitD s' s ∧ (¬ tri s'.L 1 s.L → ∀ q m' m, unitD s'.L s.L q m' m = 0) := by
  refine ⟨fun m' _ q _ m _ => ?_, fun h q m' m => ?_⟩
  · rw [unitD]
    rfl
  · rw [unitD, cgd_triangle, zero_mul]
    simp only [tri, decide_eq_true_eq] at h
    rw [Coupled, abs_le]
    omega

/-- The laws hold for all subspaces of all truncations. -/
theorem space_laws (N : ℕ) : Gen.SpaceLaws cgD amD harmD unitD N where
  half := half_laws
  sym := half_sym
  ls _ h' _ h := ls_laws (Gen.sub_ok h') (Gen.sub_ok h)
  quad _ _ _ _ := quad_laws _ _
  unit _ _ _ _ := unit_law _ _

end Verif.Relative
