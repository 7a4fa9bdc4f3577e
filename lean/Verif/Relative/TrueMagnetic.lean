import Verif.Relative.TrueCurrent
import Verif.Relative.NLOM1Program

/-!
# The magnetic dipole operator with the coefficients of Condon and Shortley

The laws that the reduction of the magnetic dipole operator relies on (C142) hold of the coupling coefficients of Condon and Shortley, and the operator is a
Hermitian tensor operator.
-/

namespace Verif.Relative.Relcm
open Verif Verif.H2 Verif.SU2 Verif.Moshinsky Verif.Moshinsky.Osc Axial
open Verif.Relative (couple)

/-! ## The laws -/

theorem not_coupled {a b c : ℕ} (h : tri a b c = false) : ¬Coupled (2 * b) (2 * c) (2 * a) := by
  simp only [tri, decide_eq_false_iff_not] at h
  rw [Coupled, abs_le]
  omega

theorem coupled_tri {a b c : ℕ} (h : tri a b c = true) : Coupled (2 * a) (2 * b) (2 * c) := by
  simp only [tri, decide_eq_true_eq] at h
  rw [Coupled, abs_le]
  omega

theorem cgD_triangle {a b c : ℕ} {x y z : ℤ} (h : ¬Coupled a b c) : cgD a x b y c z = 0 := by
  rw [cgD_nat, cgd_triangle h]

theorem reduces12_if {a' b' j' a b j k1 k2 k : ℕ} {P : Bool} (h : P = false → ¬Coupled a k1 a' ∨ ¬Coupled b k2 b' ∨ ¬Coupled j k j') :
    Reduces12 cgD (if P then am12D.rose12 a' b' j' a b j k1 k2 k else 0) a' b' j' a b j k1 k2 k := by
  cases P with
  | true => exact reduces12 a' b' j' a b j k1 k2 k
  | false =>
    intro M' hM' q hq M hM
    have r := reduces12 a' b' j' a b j k1 k2 k M' hM' q hq M hM
    beta_reduce at r ⊢
    simp only [Bool.false_eq_true, if_false, mul_zero]
    rcases h rfl with h | h | h
    · simp only [couple, product, cgD_triangle h, zero_mul, mul_zero, Finset.sum_const_zero]
    · simp only [couple, product, cgD_triangle h, mul_zero, Finset.sum_const_zero]
    · rw [r, cgD_triangle h, zero_mul]

theorem reduces1_if {a' a b j' j k : ℕ} {P : Bool} (h : P = false → ¬Coupled a k a' ∨ ¬Coupled j k j') :
    Reduces1 cgD (if P then amD.rose1 a' b j' a b j k else 0) a' a b j' j k := by
  cases P with
  | true => exact reduces1 a' a b j' j k
  | false =>
    intro M' hM' q hq M hM
    have r := reduces1 a' a b j' j k M' hM' q hq M hM
    beta_reduce at r ⊢
    simp only [Bool.false_eq_true, if_false, mul_zero]
    rcases h rfl with h | h
    · simp only [couple, cgD_triangle h, zero_mul, mul_zero, Finset.sum_const_zero]
    · rw [r, cgD_triangle h, zero_mul]

theorem reduces2_if {a b' b j' j k : ℕ} {P : Bool} (h : P = false → ¬Coupled b k b') :
    Reduces2 cgD (if P then amD.rose2 a b' j' a b j k else 0) a b' b j' j k := by
  cases P with
  | true =>
    simp only [amD, if_true]
    exact reduces2 a b' b j' j k
  | false =>
    intro M' hM' q hq M hM
    simp only [Bool.false_eq_true, if_false, mul_zero, couple, cgD_triangle (h rfl), Finset.sum_const_zero]

/-- Between triplets the antisymmetric product of two vectors on equal systems has no elements. -/
theorem triplet_odd : red12D 1 1 2 1 1 2 2 2 2 = 0 := by
  have z : ∀ M' ∈ projs 2, ∀ q ∈ projs 2, ∀ M ∈ projs 2, cgd 2 M 2 q 2 M' * red12D 1 1 2 1 1 2 2 2 2 = 0 := by
    intro M' hM' q hq M hM
    have r := reduces12 1 1 2 1 1 2 2 2 2 M' (by rw [ms_eq]; exact hM') q (by rw [ms_eq]; exact hq) M (by rw [ms_eq]; exact hM)
    beta_reduce at r
    have e : ∀ x y z : ℤ, cgD (1 : ℕ) x (1 : ℕ) y (2 : ℕ) z = cgD (1 : ℕ) y (1 : ℕ) x (2 : ℕ) z := by
      intro x y z
      rw [cgD_nat, cgD_nat, cgd_exchange]
      norm_num [sgn]
    have o : ∀ x y z : ℤ, cgD (2 : ℕ) x (2 : ℕ) y (2 : ℕ) z = -cgD (2 : ℕ) y (2 : ℕ) x (2 : ℕ) z := by
      intro x y z
      rw [cgD_nat, cgD_nat, cgd_exchange]
      norm_num [sgn]
    have p : ∀ A B : ℤ → ℝ, product cgD 2 2 2 A B q = -product cgD 2 2 2 B A q := by
      intro A B
      simp only [product]
      rw [Finset.sum_comm, ← Finset.sum_neg_distrib]
      refine Finset.sum_congr rfl fun u _ => ?_
      rw [← Finset.sum_neg_distrib]
      refine Finset.sum_congr rfl fun v _ => ?_
      rw [o v u]
      ring
    have s : ∀ A : ℤ → ℤ → ℤ → ℤ → ℝ, couple cgD 1 1 2 1 1 2 A M' M = couple cgD 1 1 2 1 1 2 (fun x' y' x y => A y' x' y x) M' M := by
      intro A
      simp only [couple]
      rw [Finset.sum_comm]
      refine Finset.sum_congr rfl fun x' _ => Finset.sum_congr rfl fun y' _ => ?_
      rw [Finset.sum_comm]
      refine Finset.sum_congr rfl fun x _ => Finset.sum_congr rfl fun y _ => ?_
      rw [e y' x', e y x]
    have n : ∀ A B : ℤ → ℤ → ℤ → ℤ → ℝ, (∀ x' y' x y, A x' y' x y = -B x' y' x y) → couple cgD 1 1 2 1 1 2 A M' M = -couple cgD 1 1 2 1 1 2 B M' M := by
      intro A B h
      simp only [couple, h, mul_neg, Finset.sum_neg_distrib]
    have t := n _ (fun x' y' x y => product cgD 2 2 2 (fun u => cgD (1 : ℕ) y (2 : ℕ) u (1 : ℕ) y') (fun v => cgD (1 : ℕ) x (2 : ℕ) v (1 : ℕ) x') q)
      fun x' y' x y => p (fun u => cgD (1 : ℕ) x (2 : ℕ) u (1 : ℕ) x') (fun v => cgD (1 : ℕ) y (2 : ℕ) v (1 : ℕ) y')
    rw [s fun x' y' x y => product cgD 2 2 2 (fun u => cgD (1 : ℕ) x (2 : ℕ) u (1 : ℕ) x') (fun v => cgD (1 : ℕ) y (2 : ℕ) v (1 : ℕ) y') q] at t
    beta_reduce at t
    rw [s] at r
    beta_reduce at r
    rw [cgD_nat] at r
    linarith
  have h := cgd_norm (j1 := 2) (j2 := 2) (J := 2) (M := 0) (by decide) (by rw [mem_projs]; decide)
  by_contra hr
  rw [Finset.sum_eq_zero] at h
  · exact one_ne_zero h.symm
  · intro m1 h1
    refine Finset.sum_eq_zero fun m2 h2 => ?_
    have := z 0 (by rw [mem_projs]; decide) m2 h2 m1 h1
    rw [(mul_eq_zero.mp this).resolve_right hr]
    norm_num

theorem pair_laws : PairLaws cgD amD am12D where
  pair S' S S0 _ _ _ := reduces12_if fun h => .inr (.inr (not_coupled h))
  odd := triplet_odd
  half := half_law

/-- The elements of the spherical harmonics in the normalisation of Racah. -/
noncomputable def harmK (k l' l : ℕ) (q m' m : ℤ) : ℝ := cgd (2 * l) m (2 * k) q (2 * l') m' * am12D.cRME (2 * l') (2 * l) (2 * k)

theorem harmK_law (k l' l : ℕ) : WE cgD (2 * l') (2 * k) (2 * l) (harmK k l' l) (if tri l' l k then am12D.cRME (2 * l') (2 * l) (2 * k) else 0) := by
  intro m' _ q _ m _
  split_ifs with h
  · exact congrArg (· * _) (cgD_nat (2 * l) m (2 * k) q (2 * l') m').symm
  · rw [harmK, cgd_triangle (not_coupled (by simpa using h)), zero_mul, mul_zero]

theorem harmK_parity {l' l : ℕ} (h : ¬(l' = l + 1 ∨ l = l' + 1)) (q m' m : ℤ) : harmK 1 l' l q m' m = 0 := by
  by_cases e : l' = l
  · subst e
    have f := cgd_flip (2 * l') 0 2 0 (2 * l') 0
    rw [neg_zero, show (((2 * l' : ℕ) : ℤ) + (2 : ℕ) - (2 * l' : ℕ)) / 2 = 1 by push_cast; omega] at f
    have z : cgd (2 * l') 0 2 0 (2 * l') 0 = 0 := by
      simp only [sgn] at f
      norm_num at f
      linarith
    simp only [harmK, am12D, amD, mul_one, z, mul_zero]
  · rw [harmK, cgd_triangle, zero_mul]
    rw [Coupled, abs_le]
    omega

/-- The laws hold for all states whose orbital angular momenta couple to those of the subspace. -/
theorem state_laws {s' s : Sub} {p' p : State} (h : tri p.lr p.lc s.L = true) : Laws cgD amD am12D harmK s' s p' p where
  both k1 k _ := reduces12_if fun h => by
    simp only [Bool.and_eq_false_iff] at h
    rcases h with (h | h) | h
    · exact .inl (not_coupled h)
    · exact .inr (.inl (not_coupled (c := 1) h))
    · exact .inr (.inr (not_coupled h))
  first e := by
    rw [e]
    refine reduces1_if fun h => ?_
    simp only [Bool.and_eq_false_iff] at h
    rcases h with h | h
    · exact .inl (not_coupled (c := 2) h)
    · exact .inr (not_coupled (c := 2) h)
  ortho _ _ := fun M' hM' M hM => by
    have := ortho_law (coupled_tri h) (j := 2 * s'.L) M hM M' hM'
    simp only [mul_comm (cgD _ _ _ _ ((2 * s.L : ℕ) : ℤ) _)] at this
    rw [this]
    by_cases e : 2 * s'.L = 2 * s.L
    · rw [if_pos e, if_pos e.symm, δ_comm]
    · rw [if_neg e, if_neg (Ne.symm e)]
  spin kL kS _ := reduces12_if fun h => by
    simp only [Bool.and_eq_false_iff] at h
    rcases h with h | h
    · exact .inl (not_coupled h)
    · exact .inr (.inl (not_coupled h))
  second e := by
    rw [e]
    exact reduces2_if fun h => not_coupled (c := 1) h
  harm k _ := harmK_law k _ _
  harmCM := harmK_law 1 _ _
  parity := harmK_parity

/-- The subspaces of a space: labels in range, and orbital angular momenta that couple to the total. -/
structure SpaceOK (N : ℕ) (space : List Sub) : Prop where
  sub : ∀ s ∈ space, SubOK N s
  couples : ∀ s ∈ space, ∀ p ∈ s.states, tri p.lr p.lc s.L = true

/-- The library with the coefficients of Condon and Shortley. -/
noncomputable def libD (cubic : List ℝ → List ℝ → ℝ) (space : ℕ → List Sub) : Lib := ⟨amD, am12D, cubic, space⟩

theorem given_true {cubic : List ℝ → List ℝ → ℝ} {space : ℕ → List Sub} {o : OpLabels} {N : ℕ} (h : SpaceOK N (space N)) :
    Given cgD harmK (libD cubic space) o N where
  pair := pair_laws
  sub := h.sub
  laws := by
    rintro ⟨s', s⟩ hm p' _ p hp
    obtain ⟨_, i, j, _, _, hj, _⟩ := mem_sectorsOf.mp hm
    exact state_laws (h.couples s (List.mem_of_getElem? hj) p hp)

/-! ## A Hermitian operator -/

theorem threeJ_swap (k l' l : ℕ) : amD.threeJ (2 * l) (2 * k) (2 * l') = amD.threeJ (2 * l') (2 * k) (2 * l) := by
  simp only [amD]
  have h := cgd_turn (2 * l') 0 (2 * k) 0 (2 * l) 0
  have p1 : √(((2 * l : ℕ) : ℝ) + 1) ≠ 0 := by positivity
  have p2 : √(((2 * l' : ℕ) : ℝ) + 1) ≠ 0 := by positivity
  rw [neg_zero] at h
  have e : sgn ((((2 * l : ℕ) : ℤ) - (2 * l' : ℕ) - 0) / 2) = sgn ((((2 * l : ℕ) : ℤ) - (2 * k : ℕ)) / 2) * sgn ((((2 * l' : ℕ) : ℤ) - (2 * k : ℕ)) / 2) := by
    rw [sgn_mul_sgn]
    exact sgn_parity (by omega)
  have ss := sgn_mul_self ((((2 * l : ℕ) : ℤ) - (2 * k : ℕ)) / 2)
  rw [e] at h
  rw [div_mul_eq_mul_div, div_mul_eq_mul_div, div_eq_div_iff p2 p1]
  linear_combination sgn ((((2 * l : ℕ) : ℤ) - (2 * k : ℕ)) / 2) * h + sgn ((((2 * l' : ℕ) : ℤ) - (2 * k : ℕ)) / 2) *
    √(((2 * l' : ℕ) : ℝ) + 1) * cgd (2 * l') 0 (2 * k) 0 (2 * l) 0 * ss

theorem harmK_turn (k l' l : ℕ) (m' m : ℤ) (q : ℤ) (h : q % 2 = 0) : harmK k l l' (-q) m m' = 1 * (sgn (q / 2) * harmK k l' l q m' m) := by
  unfold harmK
  simp only [am12D]
  rw [show 2 * l' / 2 = l' by omega, show 2 * l / 2 = l by omega]
  have t := cgd_turn (2 * l) m (2 * k) q (2 * l') m'
  rw [threeJ_swap k l' l]
  have e : sgn ((((2 * l' : ℕ) : ℤ) - (2 * l : ℕ) - q) / 2) = (-1) ^ l * (-1) ^ l' * sgn (q / 2) := by
    rw [← sgn_pow, ← sgn_pow, sgn_mul_sgn, sgn_mul_sgn]
    exact sgn_parity (by push_cast; omega)
  have ss : ((-1 : ℝ) ^ l) * (-1) ^ l = 1 := by
    rw [← mul_pow]
    norm_num
  rw [e] at t
  linear_combination (-1) ^ l * amD.threeJ (2 * l') (2 * k) (2 * l) * t + (-1) ^ l' * sgn (q / 2) * √(((2 * l : ℕ) : ℝ) + 1) * cgd (2 * l) m (2 * k) q (2 * l') m' *
    amD.threeJ (2 * l') (2 * k) (2 * l) * ss

theorem pairK_turn (S0 : ℕ) : Turns (sgn ((2 : ℤ) - S0)) (pairK cgD (2 * S0)) := by
  intro q _ a' b' a b
  unfold pairK
  rw [product_turn (α := 1) (β := 1) (A := fun u => 2 * jmat 1 u a' a) (B := fun v => 2 * jmat 1 v b' b) rfl rfl
    (fun u hu => by rw [jmat_turn 1 hu]; ring) (fun u hu => by rw [jmat_turn 1 hu]; ring)]
  rw [show (((2 : ℕ) : ℤ) + (2 : ℕ) - (2 * S0 : ℕ)) / 2 = 2 - S0 by push_cast; omega]
  ring

theorem term_turn {k1 : ℕ} (h1 : k1 % 2 = 1) (k S0 : ℕ) (q : ℤ) (c' c : Cfg) :
    term cgD harmK k1 k S0 (-q) c c' = -(sgn (q / 2) * term cgD harmK k1 k S0 q c' c) := by
  unfold term
  rw [product_turn (k1 := 2 * k) (k2 := 2 * S0) (k := 2) (α := sgn ((k1 : ℤ) + 1 - k)) (β := sgn ((2 : ℤ) - S0))
    (A := product cgD (2 * k1) 2 (2 * k) (fun u => harmK k1 c'.lr c.lr u c'.mr c.mr) fun v => harmK 1 c'.lc c.lc v c'.mc c.mc)
    (A' := product cgD (2 * k1) 2 (2 * k) (fun u => harmK k1 c.lr c'.lr u c.mr c'.mr) fun v => harmK 1 c.lc c'.lc v c.mc c'.mc)
    (B := fun v => pairK cgD (2 * S0) v c'.m1 c'.m2 c.m1 c.m2) (B' := fun v => pairK cgD (2 * S0) v c.m1 c.m2 c'.m1 c'.m2)
    (by omega) (by omega) (fun u _ => ?_) (fun u hu => pairK_turn S0 u hu _ _ _ _)]
  · rw [sgn_mul_sgn, sgn_mul_sgn, show sgn ((((2 * k : ℕ) : ℤ) + (2 * S0 : ℕ) - (2 : ℕ)) / 2 + ((k1 : ℤ) + 1 - k + (2 - S0))) = sgn 1 from
      sgn_parity (by push_cast; omega), show sgn 1 = -1 by norm_num [sgn]]
    ring
  · rw [product_turn (α := 1) (β := 1) (A := fun u => harmK k1 c'.lr c.lr u c'.mr c.mr) (B := fun v => harmK 1 c'.lc c.lc v c'.mc c.mc) (by omega) rfl
      (fun u hu => harmK_turn k1 _ _ _ _ u hu) (fun u hu => harmK_turn 1 _ _ _ _ u hu),
      show (((2 * k1 : ℕ) : ℤ) + (2 : ℕ) - (2 * k : ℕ)) / 2 = k1 + 1 - k by push_cast; omega]
    ring

theorem pair1_turn : Turns (-1) (pairK cgD 2) := by
  have := pairK_turn 1
  norm_num [sgn] at this
  exact this

theorem intrinsic_turn {F : ℕ → ℕ → ℕ → ℕ → ℕ → ℝ} (hF : ∀ k n' l' n l, F k n l n' l' = F k n' l' n l) {q : ℤ} (hq : q % 2 = 0) (c' c : Cfg) :
    intrinsic cgD harmK F (-q) c c' = -(sgn (q / 2) * intrinsic cgD harmK F q c' c) := by
  unfold intrinsic
  by_cases h : c'.nc = c.nc ∧ c'.lc = c.lc
  · rw [if_pos h, if_pos ⟨h.1.symm, h.2.symm⟩, product_turn (k1 := 4) (k2 := 2) (k := 2) (α := 1) (β := -1)
      (A := fun u => harmK 2 c'.lr c.lr u c'.mr c.mr) (A' := fun u => harmK 2 c.lr c'.lr u c.mr c'.mr)
      (B := fun v => pairK cgD 2 v c'.m1 c'.m2 c.m1 c.m2) (B' := fun v => pairK cgD 2 v c.m1 c.m2 c'.m1 c'.m2) rfl rfl
      (fun u hu => harmK_turn 2 _ _ _ _ u hu) (fun u hu => pair1_turn u hu _ _ _ _), pair1_turn q hq c'.m1, hF 0 c'.nr, hF 1 c'.nr, δ_comm c.mc, δ_comm c.mr]
    have h4 : sgn (((4 : ℕ) + (2 : ℕ) - (2 : ℕ) : ℤ) / 2) = 1 := by norm_num [sgn]
    rw [h4]
    by_cases e : c'.lr = c.lr
    · rw [if_pos e, if_pos e.symm]
      ring
    · rw [if_neg e, if_neg (Ne.symm e)]
      ring
  · rw [if_neg h, if_neg fun x => h ⟨x.1.symm, x.2.symm⟩, mul_zero, neg_zero]

theorem sachs_turn {F : ℕ → ℕ → ℕ → ℕ → ℕ → ℝ} (hF : ∀ k n' l' n l, F k n l n' l' = F k n' l' n l) {X : ℕ → ℕ → ℕ → ℕ → ℝ}
    (hX : ∀ n' l' n l, X n l n' l' = X n' l' n l) (q : ℤ) (c' c : Cfg) :
    sachs cgD harmK F X (-q) c c' = -(sgn (q / 2) * sachs cgD harmK F X q c' c) := by
  unfold sachs
  rw [term_turn rfl, term_turn rfl, term_turn rfl, term_turn rfl, term_turn rfl, hF 0 c'.nr, hF 1 c'.nr, hF 2 c'.nr, hX c'.nc]
  ring

/-- Components of a Hermitian operator: exchange of bra and ket reverses the component, with the sign of Condon and Shortley. -/
def Conjugate (A : Int → Int → Cfg → Cfg → ℝ) : Prop :=
  ∀ q v : ℤ, q % 2 = 0 → v % 2 = 0 → ∀ c' c, A (-q) (-v) c c' = sgn (q / 2) * sgn (v / 2) * A q v c' c

/-- The magnetic dipole operator is Hermitian. -/
theorem m1_conjugate (I : (ℝ → ℝ) → ℝ) (R b ρ : ℝ) : Conjugate (m1 cgD harmK I R b ρ) := by
  intro q v hq hv c' c
  have hF : ∀ k n' l' n l, yukK I (√2 * b) R k n l n' l' = yukK I (√2 * b) R k n' l' n l := by
    intro k n' l' n l
    unfold yukK
    congr 2
    funext r
    ring
  have hX : ∀ n' l' n l, ρ * cmCoord (b / √2) n l n' l' = ρ * cmCoord (b / √2) n' l' n l := by
    intro n' l' n l
    unfold cmCoord
    congr 2
    funext r
    ring
  unfold m1 m1Op
  rw [intrinsic_turn hF hq, sachs_turn hF hX, pair1_turn v hv c'.t1]
  ring

/-! ## Elements that are not stored -/

theorem couple_turn (a' b' j' a b j : ℕ) (A : ℤ → ℤ → ℤ → ℤ → ℝ) (M' M : ℤ) :
    couple cgD a b j a' b' j' (fun x y x' y' => A x' y' x y) M M' = couple cgD a' b' j' a b j A M' M := by
  simp only [couple]
  have e : ∀ F : ℤ → ℤ → ℤ → ℤ → ℝ, ∑ x ∈ ms a, ∑ y ∈ ms b, ∑ x' ∈ ms a', ∑ y' ∈ ms b', F x y x' y' =
      ∑ x' ∈ ms a', ∑ y' ∈ ms b', ∑ x ∈ ms a, ∑ y ∈ ms b, F x y x' y' := by
    intro F
    have i1 : ∀ x ∈ ms a, ∑ y ∈ ms b, ∑ x' ∈ ms a', ∑ y' ∈ ms b', F x y x' y' = ∑ x' ∈ ms a', ∑ y' ∈ ms b', ∑ y ∈ ms b, F x y x' y' := by
      intro x _
      rw [Finset.sum_comm]
      exact Finset.sum_congr rfl fun x' _ => Finset.sum_comm
    rw [Finset.sum_congr rfl i1, Finset.sum_comm]
    exact Finset.sum_congr rfl fun x' _ => Finset.sum_comm
  rw [e]
  refine Finset.sum_congr rfl fun x' _ => Finset.sum_congr rfl fun y' _ => Finset.sum_congr rfl fun x _ => Finset.sum_congr rfl fun y _ => ?_
  ring

theorem element_turn (A : Cfg → Cfg → ℝ) (s' s : Sub) (p' p : State) (M' M P' P : ℤ) :
    element cgD (fun c c' => A c' c) s s' p p' M M' P P' = element cgD A s' s p' p M' M P' P := by
  unfold element
  rw [← couple_turn (2 * s'.L) (2 * s'.S)]
  refine couple_congr fun X _ Y _ X' _ Y' _ => ?_
  rw [← couple_turn (2 * p'.lr)]
  refine couple_congr fun x _ z _ x' _ z' _ => ?_
  rw [← couple_turn 1 1 (2 * s'.S)]
  refine couple_congr fun x1 _ z1 _ x1' _ z1' _ => ?_
  rw [← couple_turn 1 1 (2 * s'.T)]

theorem element_scale (r : ℝ) (A : Cfg → Cfg → ℝ) (s' s : Sub) (p' p : State) (M' M P' P : ℤ) :
    element cgD (fun c' c => r * A c' c) s' s p' p M' M P' P = r * element cgD A s' s p' p M' M P' P := by
  have e : ∀ (a' b' j' a b j : ℕ) (B : ℤ → ℤ → ℤ → ℤ → ℝ) (N' N : ℤ),
      couple cgD a' b' j' a b j (fun x' y' x y => r * B x' y' x y) N' N = r * couple cgD a' b' j' a b j B N' N := by
    intro a' b' j' a b j B N' N
    simp only [couple, Finset.mul_sum]
    refine Finset.sum_congr rfl fun x' _ => Finset.sum_congr rfl fun y' _ => Finset.sum_congr rfl fun x _ => Finset.sum_congr rfl fun y _ => ?_
    ring
  unfold element
  simp only [e]

/-- Ratio of the two reduced elements (Rose) of a Hermitian operator between a pair of states. -/
noncomputable def ratio (j' j : ℕ) : ℝ := sgn ((j : ℤ) - j') * √(2 * j' + 1) / √(2 * j + 1)

theorem ratio_law (j' j : ℕ) {M' q M : ℤ} (hq : q % 2 = 0) :
    sgn (q / 2) * cgd (2 * j) M 2 (-q) (2 * j') M' = cgd (2 * j') M' 2 q (2 * j) M * ratio j' j := by
  have t := cgd_turn (2 * j') M' 2 q (2 * j) M
  have p : √(2 * (j : ℝ) + 1) ≠ 0 := by positivity
  have e : sgn ((((2 * j : ℕ) : ℤ) - (2 * j' : ℕ) - q) / 2) = sgn ((j : ℤ) - j') * sgn (q / 2) := by
    rw [sgn_mul_sgn]
    exact sgn_parity (by push_cast; omega)
  have ss := sgn_mul_self (q / 2)
  rw [e] at t
  push_cast at t
  rw [ratio, mul_div_assoc', eq_div_iff p]
  linear_combination sgn (q / 2) * t + sgn ((j : ℤ) - j') * √(2 * (j' : ℝ) + 1) * cgd (2 * j') M' 2 q (2 * j) M * ss

/-- The reduced element with bra and ket exchanged. -/
theorem reduced_turn {A : Int → Int → Cfg → Cfg → ℝ} (hA : Conjugate A) {s' s : Sub} {p' p : State} {x : ℝ} (h : Reduced cgD 1 1 A s' s p' p x) :
    Reduced cgD 1 1 A s s' p p' (ratio s'.J s.J * ratio s'.T s.T * x) := by
  intro M hM q hq M' hM' P hP v hv P' hP'
  have nq : -q ∈ ms (2 * 1) := by
    rw [ms_eq, mem_projs] at hq ⊢
    omega
  have nv : -v ∈ ms (2 * 1) := by
    rw [ms_eq, mem_projs] at hv ⊢
    omega
  have r := h M' hM' (-q) nq M hM P' hP' (-v) nv P hP
  rw [ms_eq, mem_projs] at hq hv
  have eq : q % 2 = 0 := by omega
  have ev : v % 2 = 0 := by omega
  have f : A q v = fun c c' => sgn (q / 2) * sgn (v / 2) * A (-q) (-v) c' c := by
    funext c c'
    have := hA q v eq ev c c'
    have s1 := sgn_mul_self (q / 2)
    have s2 := sgn_mul_self (v / 2)
    rw [this]
    linear_combination -(A q v c c') * s1 - sgn (q / 2) * sgn (q / 2) * A q v c c' * s2
  rw [f, element_scale, element_turn (A (-q) (-v)), r]
  have t1 := ratio_law s'.J s.J (M' := M') (M := M) eq
  have t2 := ratio_law s'.T s.T (M' := P') (M := P) ev
  simp only [cgD_nat, mul_one]
  linear_combination cgd (2 * s.T) P 2 (-v) (2 * s'.T) P' * sgn (v / 2) * x * t1 + cgd (2 * s'.J) M' 2 q (2 * s.J) M * ratio s'.J s.J * x * t2

/-- **C184.** With the coefficients of Condon and Shortley, a run for `LENPIC-NLOM1` writes the magnetic dipole operator.  The operator is Hermitian, so
that what is written determines the elements of the sectors which are left out. -/
theorem relcm_gen_true {nm : Verif.Mixer.Control.Numbers} {cubic : List ℝ → List ℝ → ℝ} {space : ℕ → List Sub} {f : Verif.Relative.Gen.Input} {p : Params} (h : ControlFile nm f p)
    {R b : ℝ} {n : Int} (hc : p.choice = .nlom1 R b n) (hs : Sensible p) (hl : M1Labels (labelsOf p)) (hb : 0 < b)
    (hsp : SpaceOK p.Nmax.toNat (space p.Nmax.toNat)) :
    ∃ out, run nm (libD cubic space) f = .ok out ∧ out.file = p.file ∧ out.labels = labelsOf p ∧ (out.Nmax : Int) = p.Nmax ∧
      out.sectors = sectorsOf (labelsOf p) (space p.Nmax.toNat) ∧
      Stores cgD 1 1 (m1 cgD harmK (radialInt cubic 3000 (√2 * b)) R b rootError) out.sectors out.blocks ∧
      ∀ (k : ℕ) (sec : Sec) (blk : Entries), (out.sectors 1)[k]? = some sec → (out.blocks 1)[k]? = some blk →
        ∀ (i j : ℕ) (p' q : State), sec.1.states[i]? = some p' → sec.2.states[j]? = some q →
          ∃ x, blk i j = .ok x ∧ Reduced cgD 1 1 (m1 cgD harmK (radialInt cubic 3000 (√2 * b)) R b rootError) sec.2 sec.1 q p'
            (ratio sec.1.J sec.2.J * ratio sec.1.T sec.2.T * x) := by
  obtain ⟨out, h1, h2, h3, h4, h5, h6⟩ := relcm_gen_writes h hc hs hl hb (given_true (cubic := cubic) hsp)
  refine ⟨out, h1, h2, h3, h4, h5, h6, fun k sec blk hk hb i j p' q hi hj => ?_⟩
  obtain ⟨ha, hb'⟩ := List.getElem?_eq_some_iff.mp hk
  obtain ⟨hc', hd⟩ := List.getElem?_eq_some_iff.mp hb
  have hh := h6.1.get ha hc'
  simp only [List.get_eq_getElem, hb', hd] at hh
  obtain ⟨x, hx, hr⟩ := hh i j p' q hi hj
  exact ⟨x, hx, reduced_turn (m1_conjugate _ _ _ _) hr⟩

end Verif.Relative.Relcm
