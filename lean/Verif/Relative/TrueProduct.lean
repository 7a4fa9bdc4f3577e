import Verif.Relative.TrueAm
import Verif.Relative.N2LOSpec

/-!
# The factor of the reduction of a product of operators

Racah's factor for the product of an operator on the first and an operator on the second of two systems is a recoupling coefficient of
four angular momenta, for the coupling coefficients of Condon and Shortley.
-/

namespace Verif.Relative
open Verif Verif.H2 Verif.SU2 Verif.Moshinsky Verif.Moshinsky.Osc
open Verif.Relative (couple)

/-- The factor of the reduction of a product of operators on the two systems. -/
noncomputable def red12D (a' b' j' a b j k1 k2 k : ℕ) : ℝ := overlap4 a k1 b k2 a' b' j k j' j'

theorem reduction12 (a' b' j' a b j k1 k2 k : ℕ) (M' M q : ℤ) :
    (∑ x ∈ projs a, ∑ u ∈ projs k1, ∑ y ∈ projs b, ∑ v ∈ projs k2,
      amp4 a k1 b k2 a' b' j' M' x u y v * (cgd a x b y j M * cgd k1 u k2 v k q)) =
      red12D a' b' j' a b j k1 k2 k * cgd j M k q j' M' := by
  have e1 : (∑ x ∈ projs a, ∑ u ∈ projs k1, ∑ y ∈ projs b, ∑ v ∈ projs k2,
      amp4 a k1 b k2 a' b' j' M' x u y v * (cgd a x b y j M * cgd k1 u k2 v k q)) =
      ∑ ac ∈ sums a b, ∑ bd ∈ (sums k1 k2).filter (fun bd => Coupled ac bd j'),
        overlap4 a k1 b k2 a' b' ac bd j' j' * cgd ac M bd q j' M' *
          ((∑ x ∈ projs a, ∑ y ∈ projs b, cgd a x b y ac M * cgd a x b y j M) *
            ∑ u ∈ projs k1, ∑ v ∈ projs k2, cgd k1 u k2 v bd q * cgd k1 u k2 v k q) := by
    have e2 : ∀ x ∈ projs a, ∀ u ∈ projs k1, ∀ y ∈ projs b, ∀ v ∈ projs k2,
        amp4 a k1 b k2 a' b' j' M' x u y v * (cgd a x b y j M * cgd k1 u k2 v k q) =
        ∑ ac ∈ sums a b, ∑ bd ∈ (sums k1 k2).filter (fun bd => Coupled ac bd j'),
          overlap4 a k1 b k2 a' b' ac bd j' j' * cgd ac M bd q j' M' *
            ((cgd a x b y ac M * cgd a x b y j M) * (cgd k1 u k2 v bd q * cgd k1 u k2 v k q)) := by
      intro x hx u hu y hy v hv
      rw [recouple4 _ _ _ _ _ _ _ _ hx hu hy hv, Finset.sum_mul]
      refine Finset.sum_congr rfl fun ac _ => ?_
      rw [Finset.sum_mul]
      refine Finset.sum_congr rfl fun bd _ => ?_
      by_cases h1 : x + y = M
      · by_cases h2 : u + v = q
        · rw [amp4, h1, h2]
          ring
        · rw [cgd_of_ne (J := k) h2]
          ring
      · rw [cgd_of_ne (J := j) h1]
        ring
    rw [Finset.sum_congr rfl fun x hx => Finset.sum_congr rfl fun u hu => Finset.sum_congr rfl fun y hy =>
      Finset.sum_congr rfl fun v hv => e2 x hx u hu y hy v hv]
    have e3 : ∀ F : ℤ → ℤ → ℤ → ℤ → ℕ → ℝ, ∀ s : Finset ℕ, ∑ x ∈ projs a, ∑ u ∈ projs k1, ∑ y ∈ projs b, ∑ v ∈ projs k2, ∑ i ∈ s, F x u y v i =
        ∑ i ∈ s, ∑ x ∈ projs a, ∑ u ∈ projs k1, ∑ y ∈ projs b, ∑ v ∈ projs k2, F x u y v i := by
      intro F s
      rw [Finset.sum_comm (s := s)]
      refine Finset.sum_congr rfl fun x _ => ?_
      rw [Finset.sum_comm (s := s)]
      refine Finset.sum_congr rfl fun u _ => ?_
      rw [Finset.sum_comm (s := s)]
      refine Finset.sum_congr rfl fun y _ => ?_
      rw [Finset.sum_comm (s := s)]
    rw [e3]
    refine Finset.sum_congr rfl fun ac _ => ?_
    rw [e3]
    refine Finset.sum_congr rfl fun bd _ => ?_
    rw [Finset.sum_mul, Finset.mul_sum]
    refine Finset.sum_congr rfl fun x _ => ?_
    rw [Finset.sum_mul, Finset.mul_sum, Finset.sum_comm]
    refine Finset.sum_congr rfl fun y _ => ?_
    rw [Finset.mul_sum, Finset.mul_sum]
    refine Finset.sum_congr rfl fun u _ => ?_
    rw [Finset.mul_sum, Finset.mul_sum]
  rw [e1]
  have e4 : ∀ ac ∈ sums a b, ∀ bd ∈ (sums k1 k2).filter (fun bd => Coupled ac bd j'),
      overlap4 a k1 b k2 a' b' ac bd j' j' * cgd ac M bd q j' M' *
          ((∑ x ∈ projs a, ∑ y ∈ projs b, cgd a x b y ac M * cgd a x b y j M) *
            ∑ u ∈ projs k1, ∑ v ∈ projs k2, cgd k1 u k2 v bd q * cgd k1 u k2 v k q) =
      if ac = j then (if bd = k then red12D a' b' j' a b j k1 k2 k * cgd j M k q j' M' else 0) else 0 := by
    intro ac hac bd hbd
    rw [Finset.mem_filter, mem_sums] at hbd
    rw [mem_sums] at hac
    by_cases hM : M ∈ projs ac
    · by_cases hq : q ∈ projs bd
      · rw [cgd_ortho hac hM, cgd_ortho hbd.1 hq]
        simp only [and_true]
        by_cases h1 : ac = j
        · by_cases h2 : bd = k
          · subst h1 h2
            simp only [if_true, mul_one, red12D]
          · simp only [if_neg h2, mul_zero, ite_self]
        · simp only [if_neg h1, mul_zero, zero_mul]
      · rw [cgd_range (j1 := ac) (j2 := bd) fun h => hq h.2.1, mul_zero, zero_mul]
        split_ifs with h1 h2
        · subst h1 h2
          rw [cgd_range (j1 := ac) (j2 := bd) fun h => hq h.2.1, mul_zero]
        · rfl
        · rfl
    · rw [cgd_range (j1 := ac) (j2 := bd) fun h => hM h.1, mul_zero, zero_mul]
      split_ifs with h1 h2
      · subst h1 h2
        rw [cgd_range (j1 := ac) (j2 := bd) fun h => hM h.1, mul_zero]
      · rfl
      · rfl
  rw [Finset.sum_congr rfl fun ac hac => Finset.sum_congr rfl fun bd hbd => e4 ac hac bd hbd]
  by_cases hj : j ∈ sums a b
  · rw [Finset.sum_eq_single_of_mem j hj fun ac _ h => Finset.sum_eq_zero fun bd _ => if_neg h]
    simp only [if_true]
    rw [Finset.sum_ite_eq']
    split_ifs with h
    · rfl
    · rw [Finset.mem_filter, mem_sums, not_and_or] at h
      rcases h with h | h
      · have : red12D a' b' j' a b j k1 k2 k = 0 := by
          simp only [red12D, overlap4, amp4]
          refine Finset.sum_eq_zero fun _ _ => Finset.sum_eq_zero fun _ _ => Finset.sum_eq_zero fun _ _ => Finset.sum_eq_zero fun _ _ => ?_
          rw [cgd_triangle (j1 := k1) (j2 := k2) h]
          ring
        rw [this, zero_mul]
      · rw [cgd_triangle (j1 := j) (j2 := k) h, mul_zero]
  · rw [Finset.sum_eq_zero fun ac hac => Finset.sum_eq_zero fun bd _ => if_neg (by rintro rfl; exact hj hac)]
    rw [mem_sums] at hj
    have : red12D a' b' j' a b j k1 k2 k = 0 := by
      simp only [red12D, overlap4, amp4]
      refine Finset.sum_eq_zero fun _ _ => Finset.sum_eq_zero fun _ _ => Finset.sum_eq_zero fun _ _ => Finset.sum_eq_zero fun _ _ => ?_
      rw [cgd_triangle (j1 := a) (j2 := b) hj]
      ring
    rw [this, zero_mul]

theorem sum3 {A B C : Finset ℤ} (f : ℤ → ℤ → ℤ → ℝ) : ∑ a ∈ A, ∑ b ∈ B, ∑ c ∈ C, f a b c = ∑ c ∈ C, ∑ a ∈ A, ∑ b ∈ B, f a b c := by
  rw [Finset.sum_congr rfl fun a _ => Finset.sum_comm, Finset.sum_comm]

theorem reduces12 (a' b' j' a b j k1 k2 k : ℕ) : Reduces12 cgD (red12D a' b' j' a b j k1 k2 k) a' b' j' a b j k1 k2 k := by
  intro M' _ q _ M _
  beta_reduce
  rw [couple_cgD, mul_comm]
  simp only [product, cgD_nat, ms_eq]
  rw [← reduction12]
  have e : ∀ x u y v, amp4 a k1 b k2 a' b' j' M' x u y v =
      ∑ x' ∈ projs a', ∑ y' ∈ projs b', cgd a' x' b' y' j' M' * (cgd a x k1 u a' x' * cgd b y k2 v b' y') := by
    intro x u y v
    have e1 : ∀ x' ∈ projs a', ∑ y' ∈ projs b', cgd a' x' b' y' j' M' * (cgd a x k1 u a' x' * cgd b y k2 v b' y') =
        cgd a x k1 u a' x' * (cgd b y k2 v b' (y + v) * cgd a' x' b' (y + v) j' M') := by
      intro x' _
      rw [← collapse b y k2 v b' fun y' => cgd a' x' b' y' j' M', Finset.mul_sum]
      refine Finset.sum_congr rfl fun y' _ => ?_
      ring
    rw [Finset.sum_congr rfl e1, collapse a x k1 u a' fun x' => cgd b y k2 v b' (y + v) * cgd a' x' b' (y + v) j' M', amp4]
    ring
  simp only [e, Finset.mul_sum, Finset.sum_mul]
  rw [sum3]
  refine Finset.sum_congr rfl fun x _ => ?_
  rw [sum3, Finset.sum_comm (s := projs k1)]
  refine Finset.sum_congr rfl fun y _ => ?_
  rw [sum3]
  refine Finset.sum_congr rfl fun u _ => ?_
  rw [sum3]
  refine Finset.sum_congr rfl fun v _ => Finset.sum_congr rfl fun x' _ => Finset.sum_congr rfl fun y' _ => ?_
  ring

end Verif.Relative
