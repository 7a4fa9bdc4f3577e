import Verif.Relative.TrueAm
import Verif.Moshinsky.ProgramExamples

/-!
# The reduced elements of an operator

With the coupling coefficients of Condon and Shortley: the reduced elements of an operator by a sum over all projections, the operators
that `relative-gen` knows by name have them between all subspaces, and they follow by exchange of bra and ket.
-/

namespace Verif.Relative
open Verif Verif.H2 Verif.SU2 Verif.Moshinsky Verif.Moshinsky.Osc Verif.Moshinsky.Program
open Verif.Relative (couple)

/-! ## Operators with reduced elements -/

/-- `A` are the components of an operator of rank `J0`, `T0` on the relative motion of two nucleons. -/
def IsTensor (J0 T0 : ℕ) (A : Int → Int → Cfg → Cfg → ℝ) : Prop :=
  ∀ s' s : RelSub, s'.S ≤ 1 → s'.T ≤ 1 → s.S ≤ 1 → s.T ≤ 1 → ∀ n' n, ∃ x, Reduced cgD J0 T0 A s' s n' n x

/-- `A` are the components of a Hermitian operator. -/
def IsHermitian (J0 T0 : ℕ) (A : Int → Int → Cfg → Cfg → ℝ) : Prop :=
  ∀ q ∈ projs (2 * J0), ∀ p ∈ projs (2 * T0), ∀ c' c, A (-q) (-p) c c' = sgn ((q + p) / 2) * A q p c' c

/-- The reduced element: elements between all projections, weighted with the coefficients of the theorem of Wigner and Eckart. -/
noncomputable def redValue (J0 T0 : ℕ) (A : Int → Int → Cfg → Cfg → ℝ) (s' s : RelSub) (n' n : ℕ) : ℝ :=
  (∑ M' ∈ projs (2 * s'.J), ∑ M ∈ projs (2 * s.J), ∑ q ∈ projs (2 * J0), ∑ P' ∈ projs (2 * s'.T), ∑ P ∈ projs (2 * s.T), ∑ p ∈ projs (2 * T0),
    cgd (2 * s.J) M (2 * J0) q (2 * s'.J) M' * cgd (2 * s.T) P (2 * T0) p (2 * s'.T) P' * element cgD (A q p) s' s n' n M' M P' P) /
      ((2 * s'.J + 1) * (2 * s'.T + 1))

theorem card_projs (j : ℕ) : (projs j).card = j + 1 := by
  rw [← ms_eq, ms, Finset.card_image_of_injective _ fun a b h => by simpa using h, Finset.card_range]

theorem cgd_all {j k J : ℕ} (h : Coupled j k J) : ∑ M' ∈ projs J, ∑ M ∈ projs j, ∑ q ∈ projs k, cgd j M k q J M' * cgd j M k q J M' = (J : ℝ) + 1 := by
  rw [Finset.sum_congr rfl fun M' hM' => (cgd_ortho h hM').trans (if_pos ⟨rfl, rfl⟩), Finset.sum_const, card_projs]
  simp

theorem redValue_eq {J0 T0 : ℕ} {A : Int → Int → Cfg → Cfg → ℝ} {s' s : RelSub} {n' n : ℕ} {x : ℝ} (h : Reduced cgD J0 T0 A s' s n' n x)
    (hJ : Coupled (2 * s.J) (2 * J0) (2 * s'.J)) (hT : Coupled (2 * s.T) (2 * T0) (2 * s'.T)) : redValue J0 T0 A s' s n' n = x := by
  have pJ : ((2 * s'.J : ℕ) : ℝ) + 1 ≠ 0 := by positivity
  have pT : ((2 * s'.T : ℕ) : ℝ) + 1 ≠ 0 := by positivity
  have e : ∀ M' ∈ projs (2 * s'.J), ∀ M ∈ projs (2 * s.J), ∀ q ∈ projs (2 * J0), ∀ P' ∈ projs (2 * s'.T), ∀ P ∈ projs (2 * s.T), ∀ p ∈ projs (2 * T0),
      cgd (2 * s.J) M (2 * J0) q (2 * s'.J) M' * cgd (2 * s.T) P (2 * T0) p (2 * s'.T) P' * element cgD (A q p) s' s n' n M' M P' P =
      x * (cgd (2 * s.J) M (2 * J0) q (2 * s'.J) M' * cgd (2 * s.J) M (2 * J0) q (2 * s'.J) M') *
        (cgd (2 * s.T) P (2 * T0) p (2 * s'.T) P' * cgd (2 * s.T) P (2 * T0) p (2 * s'.T) P') := by
    intro M' hM' M hM q hq P' hP' P hP p hp
    rw [← ms_eq] at hM' hM hq hP' hP hp
    rw [h M' hM' q hq M hM P' hP' p hp P hP, cgD_nat, cgD_nat]
    ring
  rw [redValue, Finset.sum_congr rfl fun M' h1 => Finset.sum_congr rfl fun M h2 => Finset.sum_congr rfl fun q h3 =>
    Finset.sum_congr rfl fun P' h4 => Finset.sum_congr rfl fun P h5 => Finset.sum_congr rfl fun p h6 => e M' h1 M h2 q h3 P' h4 P h5 p h6]
  simp only [← Finset.mul_sum]
  rw [cgd_all hT]
  simp only [← Finset.sum_mul, ← Finset.mul_sum]
  rw [cgd_all hJ]
  push_cast at pJ pT ⊢
  rw [div_eq_iff (mul_ne_zero pJ pT)]
  ring

/-- The theorem of Wigner and Eckart, for the element by projections. -/
theorem element_redValue {J0 T0 : ℕ} {A : Int → Int → Cfg → Cfg → ℝ} {s' s : RelSub} {n' n : ℕ} (h : ∃ x, Reduced cgD J0 T0 A s' s n' n x) :
    Reduced cgD J0 T0 A s' s n' n (redValue J0 T0 A s' s n' n) := by
  obtain ⟨x, h⟩ := h
  by_cases hJ : Coupled (2 * s.J) (2 * J0) (2 * s'.J)
  · by_cases hT : Coupled (2 * s.T) (2 * T0) (2 * s'.T)
    · rwa [redValue_eq h hJ hT]
    · intro M' hM' q hq M hM P' hP' p hp P hP
      rw [h M' hM' q hq M hM P' hP' p hp P hP, cgD_nat (2 * s.T), cgd_triangle hT]
      ring
  · intro M' hM' q hq M hM P' hP' p hp P hP
    rw [h M' hM' q hq M hM P' hP' p hp P hP, cgD_nat (2 * s.J), cgd_triangle hJ]
    ring

/-! ## Exchange of bra and ket -/

theorem couple_turn (cg : Cg) (a' b' j' a b j : ℕ) (A : Int → Int → Int → Int → ℝ) (M' M : Int) :
    couple cg a b j a' b' j' (fun x y x' y' => A x' y' x y) M M' = couple cg a' b' j' a b j A M' M := by
  unfold couple
  rw [Finset.sum_congr rfl fun x _ => Finset.sum_comm, Finset.sum_comm]
  refine Finset.sum_congr rfl fun x' _ => ?_
  rw [Finset.sum_congr rfl fun x _ => Finset.sum_comm, Finset.sum_comm]
  refine Finset.sum_congr rfl fun y' _ => Finset.sum_congr rfl fun x _ => Finset.sum_congr rfl fun y _ => ?_
  ring

theorem element_turn (cg : Cg) (A : Cfg → Cfg → ℝ) (s' s : RelSub) (n' n : ℕ) (M' M P' P : Int) :
    element cg (fun c c' => A c' c) s s' n n' M M' P P' = element cg A s' s n' n M' M P' P := by
  unfold element
  rw [← couple_turn cg (2 * s'.L)]
  refine couple_congr fun x _ y _ x' _ y' _ => ?_
  rw [← couple_turn cg 1 1 (2 * s'.S)]
  refine couple_congr fun a _ b _ a' _ b' _ => ?_
  rw [← couple_turn cg 1 1 (2 * s'.T)]

theorem element_smul (cg : Cg) (k : ℝ) (A : Cfg → Cfg → ℝ) (s' s : RelSub) (n' n : ℕ) (M' M P' P : Int) :
    element cg (fun c' c => k * A c' c) s' s n' n M' M P' P = k * element cg A s' s n' n M' M P' P := by
  simp only [element, couple_smul]

theorem sum_neg (j : ℕ) (f : ℤ → ℝ) : ∑ q ∈ projs j, f (-q) = ∑ q ∈ projs j, f q := by
  refine Finset.sum_bij' (fun q _ => -q) (fun q _ => -q) ?_ ?_ ?_ ?_ ?_
  · intro q hq
    rw [mem_projs] at hq ⊢
    omega
  · intro q hq
    rw [mem_projs] at hq ⊢
    omega
  · simp
  · simp
  · simp

theorem redValue_turn {J0 T0 : ℕ} {A : Int → Int → Cfg → Cfg → ℝ} (hA : IsHermitian J0 T0 A) (s' s : RelSub) (n' n : ℕ) :
    redValue J0 T0 A s' s n' n = roseSwap (s'.J, s'.T) (s.J, s.T) * redValue J0 T0 A s s' n n' := by
  set B := √((2 * (s'.J : ℝ) + 1) * (2 * s'.T + 1)) with hB
  set K := √((2 * (s.J : ℝ) + 1) * (2 * s.T + 1)) with hK
  have b0 : B ≠ 0 := by positivity
  have k0 : K ≠ 0 := by positivity
  have bb : B * B = (2 * (s'.J : ℝ) + 1) * (2 * s'.T + 1) := Real.mul_self_sqrt (by positivity)
  have kk : K * K = (2 * (s.J : ℝ) + 1) * (2 * s.T + 1) := Real.mul_self_sqrt (by positivity)
  have key : B * ∑ M ∈ projs (2 * s.J), ∑ M' ∈ projs (2 * s'.J), ∑ q ∈ projs (2 * J0), ∑ P ∈ projs (2 * s.T), ∑ P' ∈ projs (2 * s'.T), ∑ p ∈ projs (2 * T0),
      cgd (2 * s'.J) M' (2 * J0) q (2 * s.J) M * cgd (2 * s'.T) P' (2 * T0) p (2 * s.T) P * element cgD (A q p) s s' n n' M M' P P' =
      (-1) ^ (s'.J + s.J + s'.T + s.T) * K * ∑ M' ∈ projs (2 * s'.J), ∑ M ∈ projs (2 * s.J), ∑ q ∈ projs (2 * J0), ∑ P' ∈ projs (2 * s'.T),
        ∑ P ∈ projs (2 * s.T), ∑ p ∈ projs (2 * T0),
      cgd (2 * s.J) M (2 * J0) q (2 * s'.J) M' * cgd (2 * s.T) P (2 * T0) p (2 * s'.T) P' * element cgD (A q p) s' s n' n M' M P' P := by
    rw [Finset.sum_comm, Finset.mul_sum, Finset.mul_sum]
    refine Finset.sum_congr rfl fun M' _ => ?_
    rw [Finset.mul_sum, Finset.mul_sum]
    refine Finset.sum_congr rfl fun M _ => ?_
    rw [Finset.mul_sum, Finset.mul_sum, ← sum_neg (2 * J0)]
    refine Finset.sum_congr rfl fun q hq => ?_
    rw [Finset.sum_comm, Finset.mul_sum, Finset.mul_sum]
    refine Finset.sum_congr rfl fun P' _ => ?_
    rw [Finset.mul_sum, Finset.mul_sum]
    refine Finset.sum_congr rfl fun P _ => ?_
    rw [Finset.mul_sum, Finset.mul_sum, ← sum_neg (2 * T0)]
    refine Finset.sum_congr rfl fun p hp => ?_
    have q2 : q % 2 = 0 := by
      rw [mem_projs] at hq
      omega
    have p2 : p % 2 = 0 := by
      rw [mem_projs] at hp
      omega
    have e : element cgD (A (-q) (-p)) s s' n n' M M' P P' = sgn ((q + p) / 2) * element cgD (A q p) s' s n' n M' M P' P := by
      rw [← element_turn cgD (A q p), ← element_smul]
      congr 1
      funext c c'
      exact hA q hq p hp c' c
    have h1 := cgd_turn (2 * s.J) M (2 * J0) q (2 * s'.J) M'
    have h2 := cgd_turn (2 * s.T) P (2 * T0) p (2 * s'.T) P'
    have g : sgn ((((2 * s'.J : ℕ) : ℤ) - (2 * s.J : ℕ) - q) / 2) * sgn ((((2 * s'.T : ℕ) : ℤ) - (2 * s.T : ℕ) - p) / 2) =
        (-1) ^ (s'.J + s.J + s'.T + s.T) * sgn ((q + p) / 2) := by
      rw [← sgn_pow, sgn_mul_sgn, sgn_mul_sgn]
      exact sgn_parity (by push_cast; omega)
    have gg := sgn_mul_self ((q + p) / 2)
    rw [e, hB, hK, Real.sqrt_mul (by positivity), Real.sqrt_mul (by positivity)]
    push_cast at h1 h2 g ⊢
    linear_combination √(2 * (s'.T : ℝ) + 1) * cgd (2 * s'.T) P' (2 * T0) (-p) (2 * s.T) P * sgn ((q + p) / 2) * element cgD (A q p) s' s n' n M' M P' P * h1 +
      sgn ((2 * (s'.J : ℤ) - 2 * s.J - q) / 2) * √(2 * (s.J : ℝ) + 1) * cgd (2 * s.J) M (2 * J0) q (2 * s'.J) M' * sgn ((q + p) / 2) * element cgD (A q p) s' s n' n M' M P' P * h2 +
      √(2 * (s.J : ℝ) + 1) * cgd (2 * s.J) M (2 * J0) q (2 * s'.J) M' * √(2 * (s.T : ℝ) + 1) * cgd (2 * s.T) P (2 * T0) p (2 * s'.T) P' * sgn ((q + p) / 2) * element cgD (A q p) s' s n' n M' M P' P * g +
      (-1) ^ (s'.J + s.J + s'.T + s.T) * √(2 * (s.J : ℝ) + 1) * cgd (2 * s.J) M (2 * J0) q (2 * s'.J) M' * √(2 * (s.T : ℝ) + 1) * cgd (2 * s.T) P (2 * T0) p (2 * s'.T) P' * element cgD (A q p) s' s n' n M' M P' P * gg
  have ss : ((-1 : ℝ) ^ (s'.J + s.J + s'.T + s.T)) * (-1) ^ (s'.J + s.J + s'.T + s.T) = 1 := by
    rw [← mul_pow]
    norm_num
  simp only [redValue, roseSwap, ← hB, ← hK]
  rw [← bb, ← kk, div_mul_div_comm, div_eq_div_iff (mul_ne_zero b0 b0) (mul_ne_zero b0 (mul_ne_zero k0 k0))]
  set X := ∑ M' ∈ projs (2 * s'.J), ∑ M ∈ projs (2 * s.J), ∑ q ∈ projs (2 * J0), ∑ P' ∈ projs (2 * s'.T),
        ∑ P ∈ projs (2 * s.T), ∑ p ∈ projs (2 * T0),
      cgd (2 * s.J) M (2 * J0) q (2 * s'.J) M' * cgd (2 * s.T) P (2 * T0) p (2 * s'.T) P' * element cgD (A q p) s' s n' n M' M P' P
  linear_combination -(-1) ^ (s'.J + s.J + s'.T + s.T) * K * B * key - K * K * B * X * ss

/-! ## The operators by name -/

theorem Reduced.exists {J0 T0 : ℕ} {A : Int → Int → Cfg → Cfg → ℝ} {s' s : RelSub} {n' n : ℕ} {x : ℝ} (h : Reduced cgD J0 T0 A s' s n' n x) :
    ∃ x, Reduced cgD J0 T0 A s' s n' n x := ⟨x, h⟩

/-- Operators on the spins. -/
theorem spin_part {s' s : RelSub} (hL : s'.L = s.L) {k : ℕ} (X : Int → Int → Int → Int → Int → ℝ) {x : ℝ}
    (hX : WE cgD (2 * s'.S) k (2 * s.S) (fun q => couple cgD 1 1 (2 * s'.S) 1 1 (2 * s.S) (X q)) x) :
    WE cgD (2 * s'.J) k (2 * s.J) (fun q => couple cgD (2 * s'.L) (2 * s'.S) (2 * s'.J) (2 * s.L) (2 * s.S)
      (2 * s.J) fun x' y' x y => δ x' x * couple cgD 1 1 (2 * s'.S) 1 1 (2 * s.S) (X q) y' y)
      (red2D (2 * s.L) (2 * s'.S) (2 * s'.J) (2 * s.S) (2 * s.J) k * x) := by
  have := reduce2 (reduces2 (2 * s.L) (2 * s'.S) (2 * s.S) (2 * s'.J) (2 * s.J) k) hX
  refine this.congr fun M' _ q _ M _ => ?_
  rw [← hL]

/-- Operators on the orbital motion. -/
theorem orbital_part {s' s : RelSub} (hS' : s'.S ≤ 1) (hS : s.S ≤ 1) {k : ℕ} (O : Int → Int → Int → ℝ) {x : ℝ}
    (hO : WE cgD (2 * s'.L) k (2 * s.L) O x) :
    WE cgD (2 * s'.J) k (2 * s.J) (fun q => couple cgD (2 * s'.L) (2 * s'.S) (2 * s'.J) (2 * s.L) (2 * s.S)
      (2 * s.J) fun x' y' x y => O q x' x * couple cgD 1 1 (2 * s'.S) 1 1 (2 * s.S) idPair y' y)
      (if s'.S = s.S then red1D (2 * s'.L) (2 * s.S) (2 * s'.J) (2 * s.L) (2 * s.J) k * x else 0) := by
  by_cases hSS : s'.S = s.S
  · rw [if_pos hSS]
    refine (reduce1 (reduces1 (2 * s'.L) (2 * s.L) (2 * s.S) (2 * s'.J) (2 * s.J) k) hO).congr fun M' _ q _ M _ => ?_
    rw [← hSS]
    refine couple_congr fun x' _ y' hy' x _ y hy => ?_
    rw [id_couple half_laws hS' hS' hy' hy, if_pos rfl]
  · rw [if_neg hSS]
    refine WE.zero fun M' _ q _ M _ => ?_
    rw [couple_congr (B := fun _ _ _ _ => 0) fun x' _ y' hy' x _ y hy => by
      rw [id_couple half_laws hS' hS hy' hy, if_neg hSS, mul_zero], couple_zero]

theorem central_tensor (radial : ℕ → ℕ → ℕ → ℝ) {T0 : ℕ} (h0 : T0 = 0 ∨ T0 = 1) : IsTensor 0 T0 (centralOp radial T0) := by
  intro s' s hS' hT' hS hT n' n
  by_cases hL : s'.L = s.L
  · exact (reduced_prod (r := radial n' n s.L) (fun _ => δ) (fun _ => idPair) (isoPair T0)
      (fun q p c' c h1 h2 h3 h4 => by simp [centralOp, h1, h2, h3, h4, hL])
      (spin_part hL (fun _ => idPair) (id_we half_laws hS' hS)) (iso_we half_laws hT' hT h0)).exists
  · exact ⟨0, Reduced.zero fun q p c' c _ h2 _ h4 => by simp [centralOp, h2, h4, hL]⟩

theorem orbital_tensor {T0 : ℕ} (h0 : T0 = 0 ∨ T0 = 1) : IsTensor 1 T0 (orbitalOp T0) := by
  intro s' s hS' hT' hS hT n' n
  by_cases hL : s'.L = s.L
  · have hv : WE cgD (2 * s'.L) (2 * 1) (2 * s.L) (jmat (2 * s.L)) (√(((2 * s.L : ℕ) : ℝ) * (((2 * s.L : ℕ) : ℝ) + 2) / 4)) := by
      rw [hL]
      exact vector_law (2 * s.L)
    exact (reduced_prod (r := same n' n) (jmat (2 * s.L)) (fun _ => idPair) (isoPair T0)
      (fun q p c' c h1 h2 h3 h4 => by simp [orbitalOp, h1, h2, h3, h4, hL])
      (orbital_part hS' hS _ hv) (iso_we half_laws hT' hT h0)).exists
  · exact ⟨0, Reduced.zero fun q p c' c _ h2 _ h4 => by simp [orbitalOp, h2, h4, hL]⟩

theorem spin_tensor {T0 : ℕ} (h0 : T0 = 0 ∨ T0 = 1) : IsTensor 1 T0 (spinOp T0) := by
  intro s' s hS' hT' hS hT n' n
  by_cases hL : s'.L = s.L
  swap
  · exact ⟨0, Reduced.zero fun q p c' c _ h2 _ h4 => by simp [spinOp, h2, h4, hL]⟩
  rcases h0 with rfl | rfl
  · exact (reduced_prod (r := same n' n) (J0 := 1) (T0 := 0) (fun _ => δ) sumPair (fun _ => idPair)
      (fun q p c' c h1 h2 h3 h4 => by simp [spinOp, h1, h2, h3, h4, hL])
      (spin_part hL sumPair (sum_we half_laws hS' hS)) (id_we half_laws hT' hT)).exists
  · have hX1 := reduce1 (half_laws.red1 s'.S s.S hS' hS) (half_vec half_laws)
    have hX2 := reduce2 (half_laws.red2 s'.S s.S hS' hS) (half_vec half_laws)
    have hY1 := reduce1 (half_laws.red1 s'.T s.T hT' hT) ((half_vec half_laws).smul 2)
    have hY2 := reduce2 (half_laws.red2 s'.T s.T hT' hT) ((half_vec half_laws).smul 2)
    have h1 := reduced_prod (A := fun q p c' c => same n' n * (δ c'.mL c.mL * (jmat 1 q c'.m1 c.m1 * δ c'.m2 c.m2)) * (2 * jmat 1 p c'.t1 c.t1 * δ c'.t2 c.t2))
      (J0 := 1) (T0 := 1) (fun _ => δ) (fun q a' b' a b => jmat 1 q a' a * δ b' b)
      (fun p a' b' a b => 2 * jmat 1 p a' a * δ b' b) (n' := n') (n := n) (fun _ _ _ _ _ _ _ _ => rfl)
      (spin_part hL _ hX1) hY1
    have h2 := reduced_prod (A := fun q p c' c => same n' n * (δ c'.mL c.mL * (δ c'.m1 c.m1 * jmat 1 q c'.m2 c.m2)) * (δ c'.t1 c.t1 * (2 * jmat 1 p c'.t2 c.t2)))
      (J0 := 1) (T0 := 1) (fun _ => δ) (fun q a' b' a b => δ a' a * jmat 1 q b' b)
      (fun p a' b' a b => δ a' a * (2 * jmat 1 p b' b)) (n' := n') (n := n) (fun _ _ _ _ _ _ _ _ => rfl)
      (spin_part hL _ hX2) hY2
    exact ((h1.add h2).congr fun q p c' c h1 h2 h3 h4 => by simp [spinOp, h1, h2, h3, h4, hL]).exists

theorem gamowTeller_tensor : IsTensor 1 1 gamowTellerOp := by
  intro s' s hS' hT' hS hT n' n
  obtain ⟨x, hx⟩ := spin_tensor (.inr rfl) s' s hS' hT' hS hT n' n
  exact (hx.smul (-(129 / 100))).exists

theorem isospin_tensor : IsTensor 0 1 isospinOp := by
  intro s' s hS' hT' hS hT n' n
  by_cases hL : s'.L = s.L
  · exact (reduced_prod (r := same n' n) (J0 := 0) (T0 := 1) (fun _ => δ) (fun _ => idPair) sumPair
      (fun q p c' c h1 h2 h3 h4 => by simp [isospinOp, h1, h2, h3, h4, hL])
      (spin_part hL (fun _ => idPair) (id_we half_laws hS' hS)) (sum_we half_laws hT' hT)).exists
  · exact ⟨0, Reduced.zero fun q p c' c _ h2 _ h4 => by simp [isospinOp, h2, h4, hL]⟩

theorem dot_we {S' S : ℕ} (hS' : S' ≤ 1) (hS : S ≤ 1) :
    WE cgD (2 * S') (2 * 0) (2 * S) (fun _ => couple cgD 1 1 (2 * S') 1 1 (2 * S) dotPair) (dotValue S * if S' = S then 1 else 0) := by
  refine ((id_we half_laws hS' hS).smul (dotValue S)).congr fun M' _ q _ M hM => ?_
  rw [dot_couple half_sym hS hM]

theorem casimir_tensor : IsTensor 0 0 casimirOp := by
  intro s' s hS' hT' hS hT n' n
  by_cases hL : s'.L = s.L
  swap
  · exact ⟨0, Reduced.zero fun q p c' c _ h2 _ h4 => by simp [casimirOp, h2, h4, hL]⟩
  have i1 := spin_part hL (fun _ => idPair) (id_we half_laws hS' hS)
  have i2 := id_we half_laws hT' hT
  have d1 := spin_part hL (fun _ => dotPair) (dot_we hS' hS)
  have d2 := dot_we hT' hT
  have r1 := reduced_prod (A := fun _ _ c' c => same n' n * 15 / 2 * (δ c'.mL c.mL * idPair c'.m1 c'.m2 c.m1 c.m2)
    * idPair c'.t1 c'.t2 c.t1 c.t2) (J0 := 0) (T0 := 0) (n' := n') (n := n) (fun _ => δ) (fun _ => idPair) (fun _ => idPair)
    (fun _ _ _ _ _ _ _ _ => rfl) i1 i2
  have r2 := reduced_prod (A := fun _ _ c' c => same n' n * 2 * (δ c'.mL c.mL * dotPair c'.m1 c'.m2 c.m1 c.m2)
    * idPair c'.t1 c'.t2 c.t1 c.t2) (J0 := 0) (T0 := 0) (n' := n') (n := n) (fun _ => δ) (fun _ => dotPair) (fun _ => idPair)
    (fun _ _ _ _ _ _ _ _ => rfl) d1 i2
  have r3 := reduced_prod (A := fun _ _ c' c => same n' n * 2 * (δ c'.mL c.mL * idPair c'.m1 c'.m2 c.m1 c.m2)
    * dotPair c'.t1 c'.t2 c.t1 c.t2) (J0 := 0) (T0 := 0) (n' := n') (n := n) (fun _ => δ) (fun _ => idPair) (fun _ => dotPair)
    (fun _ _ _ _ _ _ _ _ => rfl) i1 d2
  have r4 := reduced_prod (A := fun _ _ c' c => same n' n * 8 * (δ c'.mL c.mL * dotPair c'.m1 c'.m2 c.m1 c.m2)
    * dotPair c'.t1 c'.t2 c.t1 c.t2) (J0 := 0) (T0 := 0) (n' := n') (n := n) (fun _ => δ) (fun _ => dotPair) (fun _ => dotPair)
    (fun _ _ _ _ _ _ _ _ => rfl) d1 d2
  exact ((((r1.add r2).add r3).add r4).congr (B := casimirOp) fun q p c' c h1 h2 h3 h4 => by
    simp only [casimirOp, h1, h2, h3, h4, hL, if_true]
    ring).exists

theorem quadrupole_tensor {T0 : ℕ} (h0 : T0 = 0 ∨ T0 = 1) : IsTensor 2 T0 (quadrupoleOp harmD T0) := by
  intro s' s hS' hT' hS hT n' n
  have hv : WE cgD (2 * s'.L) (2 * 2) (2 * s.L) (harmD s'.L s.L) ((-1) ^ s'.L * √(2 * s.L + 1) * √(5 / (4 * Real.pi)) * amD.threeJ (2 * s'.L) 4 (2 * s.L)) := by
    intro m' _ q _ m _
    rw [harmD, cgD_nat]
  exact (reduced_prod (r := rSqr n' s'.L n s.L / 2) (harmD s'.L s.L) (fun _ => idPair) (isoPair T0)
    (fun q p c' c h1 h2 h3 h4 => by simp only [quadrupoleOp, h1, h2, h3, h4])
    (orbital_part hS' hS _ hv) (iso_we half_laws hT' hT h0)).exists

/-! ## Hermitian operators -/

theorem δ_comm (x y : ℤ) : δ x y = δ y x := by
  simp only [δ, eq_comm]

theorem jmat_turn (j : ℕ) {q : ℤ} (h : q % 2 = 0) (m' m : ℤ) : jmat j (-q) m m' = sgn (q / 2) * jmat j q m' m := by
  by_cases h0 : q = 0
  · subst h0
    simp only [jmat, neg_zero, if_true, sgn]
    by_cases e : m' = m
    · subst e
      simp
    · simp [e, Ne.symm e]
  by_cases h1 : q = 2
  · subst h1
    rw [jmat_dn, jmat_up]
    by_cases e : m' = m + 2
    · subst e
      rw [if_pos (by ring), if_pos rfl, show m = m + 2 - 2 by ring, up_dn]
      simp [sgn]
      ring
    · rw [if_neg (by omega), if_neg e, mul_zero]
  by_cases h2 : q = -2
  · subst h2
    rw [neg_neg, jmat_dn, jmat_up]
    by_cases e : m' = m - 2
    · subst e
      rw [if_pos (by ring), if_pos rfl, show m = m - 2 + 2 by ring, dn_up]
      simp [sgn]
      ring
    · rw [if_neg (by omega), if_neg e, mul_zero]
  · simp only [jmat, h0, h1, h2, neg_eq_zero, if_false]
    rw [if_neg (by omega), if_neg (by omega), mul_zero]

theorem idPair_turn (a' b' a b : ℤ) : idPair a b a' b' = idPair a' b' a b := by
  rw [idPair, idPair, δ_comm a, δ_comm b]

theorem sumPair_turn {q : ℤ} (h : q % 2 = 0) (a' b' a b : ℤ) : sumPair (-q) a b a' b' = sgn (q / 2) * sumPair q a' b' a b := by
  rw [sumPair, sumPair, jmat_turn 1 h, jmat_turn 1 h, δ_comm a, δ_comm b]
  ring

theorem same_comm (n' n : ℕ) : same n n' = same n' n := by
  simp only [same, eq_comm]

theorem dotPair_turn (a' b' a b : ℤ) : dotPair a b a' b' = dotPair a' b' a b := by
  have z : ∀ m' m, jmat 1 0 m m' = jmat 1 0 m' m := fun m' m => by simpa [sgn] using jmat_turn 1 (q := 0) rfl m' m
  have u : ∀ m' m, jmat 1 2 m m' = -jmat 1 (-2) m' m := fun m' m => by simpa [sgn] using jmat_turn 1 (q := -2) rfl m' m
  have d : ∀ m' m, jmat 1 (-2) m m' = -jmat 1 2 m' m := fun m' m => by simpa [sgn] using jmat_turn 1 (q := 2) rfl m' m
  rw [dotPair, dotPair, z a' a, z b' b, u a' a, u b' b, d a' a, d b' b]
  ring

theorem isoPair_turn {T0 : ℕ} {p : ℤ} (h : p ∈ projs (2 * T0)) (a' b' a b : ℤ) :
    isoPair T0 (-p) a b a' b' = sgn (p / 2) * isoPair T0 p a' b' a b := by
  rw [mem_projs] at h
  unfold isoPair
  split_ifs with h0
  · rw [show p = 0 by omega, idPair_turn]
    simp [sgn]
  · rw [sumPair_turn (by omega)]
    ring

theorem sgn_halves {q p : ℤ} {a b : ℕ} (hq : q ∈ projs (2 * a)) (hp : p ∈ projs (2 * b)) : sgn ((q + p) / 2) = sgn (q / 2) * sgn (p / 2) := by
  rw [mem_projs] at hq hp
  rw [sgn_mul_sgn]
  exact sgn_parity (by omega)

theorem central_hermitian {radial : ℕ → ℕ → ℕ → ℝ} (hr : ∀ n' n L, radial n n' L = radial n' n L) (T0 : ℕ) : IsHermitian 0 T0 (centralOp radial T0) := by
  intro q hq p hp c' c
  have hq' := hq
  rw [mem_projs] at hq
  rw [sgn_halves hq' hp]
  have q0 : q = 0 := by omega
  subst q0
  unfold centralOp
  by_cases h : c'.L = c.L
  · rw [if_pos h, if_pos h.symm, isoPair_turn hp, idPair_turn, δ_comm, h, hr]
    simp [sgn]
  · rw [if_neg h, if_neg (Ne.symm h), mul_zero]

theorem rSqr_comm (n' L' n L : ℕ) : rSqr n L n' L' = rSqr n' L' n L := by
  unfold rSqr
  congr 1
  funext x
  ring

theorem orbital_hermitian (T0 : ℕ) : IsHermitian 1 T0 (orbitalOp T0) := by
  intro q hq p hp c' c
  rw [sgn_halves hq hp]
  rw [mem_projs] at hq
  unfold orbitalOp
  by_cases h : c'.L = c.L
  · rw [if_pos h, if_pos h.symm, isoPair_turn hp, idPair_turn, h, jmat_turn _ (by omega), same_comm]
    ring
  · rw [if_neg h, if_neg (Ne.symm h), mul_zero]

theorem spin_hermitian {T0 : ℕ} (h0 : T0 = 0 ∨ T0 = 1) : IsHermitian 1 T0 (spinOp T0) := by
  intro q hq p hp c' c
  rw [sgn_halves hq hp]
  rw [mem_projs] at hq hp
  unfold spinOp
  by_cases h : c'.L = c.L
  · rw [if_pos h, if_pos h.symm]
    rcases h0 with rfl | rfl
    · rw [if_pos rfl, if_pos rfl, idPair_turn, sumPair_turn (by omega), same_comm, δ_comm, show p = 0 by omega]
      simp [sgn]
    · rw [if_neg one_ne_zero, if_neg one_ne_zero, same_comm, δ_comm c.mL, δ_comm c.m1, δ_comm c.m2, δ_comm c.t1, δ_comm c.t2, jmat_turn 1 (by omega),
        jmat_turn 1 (by omega), jmat_turn 1 (by omega), jmat_turn 1 (by omega)]
      ring
  · rw [if_neg h, if_neg (Ne.symm h), mul_zero]

theorem gamowTeller_hermitian : IsHermitian 1 1 gamowTellerOp := by
  intro q hq p hp c' c
  rw [gamowTellerOp, gamowTellerOp, spin_hermitian (.inr rfl) q hq p hp]
  ring

theorem isospin_hermitian : IsHermitian 0 1 isospinOp := by
  intro q hq p hp c' c
  rw [sgn_halves hq hp]
  rw [mem_projs] at hq hp
  have q0 : q = 0 := by omega
  subst q0
  unfold isospinOp
  by_cases h : c'.L = c.L
  · rw [if_pos h, if_pos h.symm, sumPair_turn (by omega), idPair_turn, δ_comm, same_comm]
    simp [sgn]
  · rw [if_neg h, if_neg (Ne.symm h), mul_zero]

theorem casimir_hermitian : IsHermitian 0 0 casimirOp := by
  intro q hq p hp c' c
  rw [mem_projs] at hq hp
  have q0 : q = 0 := by omega
  have p0 : p = 0 := by omega
  subst q0 p0
  unfold casimirOp
  by_cases h : c'.L = c.L
  · rw [if_pos h, if_pos h.symm, idPair_turn c'.m1, idPair_turn c'.t1, dotPair_turn c'.m1, dotPair_turn c'.t1, δ_comm, same_comm]
    simp [sgn]
  · rw [if_neg h, if_neg (Ne.symm h), mul_zero]

theorem harmD_turn {q : ℤ} (h : q % 2 = 0) (L' L : ℕ) (m' m : ℤ) : harmD L L' (-q) m m' = sgn (q / 2) * harmD L' L q m' m := by
  unfold harmD
  have t := cgd_turn (2 * L) m 4 q (2 * L') m'
  rw [threeJ_sym L' L]
  have e : sgn ((((2 * L' : ℕ) : ℤ) - (2 * L : ℕ) - q) / 2) = (-1) ^ L * (-1) ^ L' * sgn (q / 2) := by
    rw [← sgn_pow, ← sgn_pow, sgn_mul_sgn, sgn_mul_sgn]
    exact sgn_parity (by push_cast; omega)
  have ss : ((-1 : ℝ) ^ L) * (-1) ^ L = 1 := by
    rw [← mul_pow]
    norm_num
  rw [e] at t
  push_cast at t
  linear_combination (-1) ^ L * √(5 / (4 * Real.pi)) * amD.threeJ (2 * L') 4 (2 * L) * t + (-1) ^ L' * sgn (q / 2) * √(2 * (L : ℝ) + 1) * cgd (2 * L) m 4 q (2 * L') m' *
    √(5 / (4 * Real.pi)) * amD.threeJ (2 * L') 4 (2 * L) * ss

theorem quadrupole_hermitian (T0 : ℕ) : IsHermitian 2 T0 (quadrupoleOp harmD T0) := by
  intro q hq p hp c' c
  rw [sgn_halves hq hp]
  rw [mem_projs] at hq
  unfold quadrupoleOp
  rw [isoPair_turn hp, idPair_turn, harmD_turn (by omega), rSqr_comm]
  ring

/-- Every operator that `relative-gen` knows by name, for labels it accepts, has reduced elements between all subspaces, and they follow by
exchange of bra and ket. -/
theorem named_tensor {c : Gen.Choice} {Lab : OpLabels → Prop} {J0 T0 : ℕ} {A : Int → Int → Cfg → Cfg → ℝ} {o : OpLabels} (hn : Gen.Named harmD unitD c Lab J0 T0 A)
    (h : Lab o) : IsTensor J0 T0 A ∧ IsHermitian J0 T0 A := by
  cases hn with
  | rSqr => exact ⟨central_tensor _ h.2.2.1, central_hermitian (fun n' n L => rSqr_comm n' L n L) _⟩
  | rsqr => exact ⟨central_tensor _ (.inl rfl), central_hermitian (fun n' n L => rSqr_comm n' L n L) _⟩
  | quadrupole => exact ⟨quadrupole_tensor h.2.2.1, quadrupole_hermitian _⟩
  | orbital => exact ⟨orbital_tensor h.2.2.1, orbital_hermitian _⟩
  | spin => exact ⟨spin_tensor h.2.2.1, spin_hermitian h.2.2.1⟩
  | isospin => exact ⟨isospin_tensor, isospin_hermitian⟩
  | casimir => exact ⟨casimir_tensor, casimir_hermitian⟩
  | gamowTeller => exact ⟨gamowTeller_tensor, gamowTeller_hermitian⟩

end Verif.Relative
