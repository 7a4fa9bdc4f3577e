import Verif.Relative.TrueReduced
import Verif.Relative.TrueProduct
import Verif.Relative.N2LOProps

/-!
# The axial current with the coefficients of Condon and Shortley

The laws that the reduction of the axial current relies on (C115) hold of the coupling coefficients of Condon and Shortley, and the current is a Hermitian
tensor operator.
-/

namespace Verif.Relative
open Verif Verif.H2 Verif.SU2 Verif.Moshinsky Verif.Moshinsky.Osc Axial
open Verif.Relative (couple)

/-- The functions of the `am` library (`Am12`) for the coefficients `cgD`. -/
noncomputable def am12D : Am12 where
  rose12 := red12D
  jj1 a' b' j' a _ j := red1D a' b' j' a j 2 * amD.jRME a' a
  jj2 a' b' j' _ b j := red2D a' b' j' b j 2 * amD.jRME b' b
  cRME a' a k := (-1) ^ (a' / 2) * √((a : ℝ) + 1) * amD.threeJ a' k a

/-- The elements of the second spherical harmonic in the normalisation of Racah. -/
noncomputable def harmC (L' L : ℕ) (q m' m : ℤ) : ℝ := cgd (2 * L) m 4 q (2 * L') m' * am12D.cRME (2 * L') (2 * L) 4

/-- It is `√(4π/5)` times the spherical harmonic of the quadrupole operator. -/
theorem harmC_eq (L' L : ℕ) (q m' m : ℤ) : harmC L' L q m' m = √(4 * Real.pi / 5) * harmD L' L q m' m := by
  have h : √(4 * Real.pi / 5) * √(5 / (4 * Real.pi)) = 1 := by
    rw [← Real.sqrt_mul (by positivity), show 4 * Real.pi / 5 * (5 / (4 * Real.pi)) = 1 by field_simp, Real.sqrt_one]
  unfold harmC harmD
  simp only [am12D]
  rw [show 2 * L' / 2 = L' by omega]
  push_cast
  linear_combination -(cgd (2 * L) m 4 q (2 * L') m' * ((-1) ^ L' * √(2 * (L : ℝ) + 1) * amD.threeJ (2 * L') 4 (2 * L))) * h

theorem half_law : WE cgD 1 2 1 (jmat 1) (amD.jRME 1 1) := by
  have := vector_law 1
  simp only [amD, if_true]
  exact this

theorem half_laws12 : HalfLaws12 cgD amD am12D where
  cross S' S _ _ _ := reduces12 1 1 (2 * S') 1 1 (2 * S) 2 2 2
  cross0 := ⟨_, reduces12 1 1 0 1 1 0 2 2 2⟩
  jj1 S' S _ _ _ := reduce1 (reduces1 1 1 1 (2 * S') (2 * S) 2) half_law
  jj2 S' S _ _ _ := reduce2 (reduces2 1 1 1 (2 * S') (2 * S) 2) half_law
  half := half_law

theorem harmC_law (L' L : ℕ) : WE cgD (2 * L') 4 (2 * L) (harmC L' L) (am12D.cRME (2 * L') (2 * L) 4) := by
  intro m' _ q _ m _
  exact congrArg (· * _) (cgD_nat (2 * L) m 4 q (2 * L') m').symm

theorem tensor_laws (s' s : RelSub) : TensorLaws cgD amD am12D harmC s' s where
  other h := by
    simp only [amD]
    rw [if_neg (by omega)]
  both _ _ _ := reduces12 _ _ _ _ _ _ 4 2 2
  harm _ := harmC_law _ _
  none h := fun q m' m => by
    rw [harmC, cgd_triangle, zero_mul]
    simp only [tri, decide_eq_true_eq] at h
    rw [Coupled, abs_le]
    omega

/-! ## A tensor operator -/

theorem pair_tensor (central tensor : ℕ → ℕ → ℕ → ℕ → ℝ) {X Y : Int → Int → Int → Int → Int → ℝ}
    (hX : ∀ S' S : ℕ, S' ≤ 1 → S ≤ 1 → ∃ x, WE cgD (2 * S') 2 (2 * S) (fun q => couple cgD 1 1 (2 * S') 1 1 (2 * S) (X q)) x)
    (hY : ∀ S' S : ℕ, S' ≤ 1 → S ≤ 1 → ∃ x, WE cgD (2 * S') 2 (2 * S) (fun q => couple cgD 1 1 (2 * S') 1 1 (2 * S) (Y q)) x) :
    IsTensor 1 1 (pairOp cgD harmC central tensor X Y) := by
  intro s' s hS' hT' hS hT n' n
  obtain ⟨x, hx⟩ := hX s'.S s.S hS' hS
  obtain ⟨y, hy⟩ := hY s'.T s.T hT' hT
  have hc : ∃ v, Reduced cgD 1 1 (fun q p c' c =>
      (if c'.L = c.L then central c'.n c'.L c.n c.L * (δ c'.mL c.mL * X q c'.m1 c'.m2 c.m1 c.m2) else 0)
        * Y p c'.t1 c'.t2 c.t1 c.t2) s' s n' n v := by
    by_cases hL : s'.L = s.L
    · exact ⟨_, reduced_prod (J0 := 1) (T0 := 1) (n' := n') (n := n) (r := central n' s'.L n s.L) (fun _ => δ) X Y
        (fun q p c' c h1 h2 h3 h4 => by simp only [h1, h2, h3, h4, if_pos hL]) (spin_part hL X hx) hy⟩
    · exact ⟨0, Reduced.zero fun q p c' c h1 h2 h3 h4 => by simp [h2, h4, hL]⟩
  have ht : ∃ v, Reduced cgD 1 1 (fun q p c' c => tensor c'.n c'.L c.n c.L
      * product cgD 4 2 2 (fun u => harmC c'.L c.L u c'.mL c.mL) (fun v => X v c'.m1 c'.m2 c.m1 c.m2) q
      * Y p c'.t1 c'.t2 c.t1 c.t2) s' s n' n v := by
    have hu := reduce12 (reduces12 (2 * s'.L) (2 * s'.S) (2 * s'.J) (2 * s.L) (2 * s.S) (2 * s.J) 4 2 2) (harmC_law s'.L s.L) hx
    refine ⟨_, reduced_gen (r := tensor n' s'.L n s.L) (Z := fun q m' a' b' m a b =>
        product cgD 4 2 2 (fun u => harmC s'.L s.L u m' m) (fun v => X v a' b' a b) q) Y
      (fun q p c' c h1 h2 h3 h4 => by simp only [h1, h2, h3, h4]) (hu.congr fun M' _ q _ M _ => ?_) hy⟩
    refine couple_congr fun x' _ y' _ x _ y _ => ?_
    rw [couple_product]
  obtain ⟨v, hv⟩ := hc
  obtain ⟨w, hw⟩ := ht
  exact ⟨_, hv.add hw⟩

theorem Tensor.add {J0 T0 : ℕ} {A B : Int → Int → Cfg → Cfg → ℝ} (hA : IsTensor J0 T0 A) (hB : IsTensor J0 T0 B) :
    IsTensor J0 T0 fun q p c' c => A q p c' c + B q p c' c := by
  intro s' s h1 h2 h3 h4 n' n
  obtain ⟨x, hx⟩ := hA s' s h1 h2 h3 h4 n' n
  obtain ⟨y, hy⟩ := hB s' s h1 h2 h3 h4 n' n
  exact ⟨_, hx.add hy⟩

/-- The current is an operator of rank one in angular momentum and in isospin. -/
theorem current_tensor (I : (ℝ → ℝ) → ℝ) (b R : ℝ) (contact : ℕ → ℕ → ℕ → ℕ → ℝ) : IsTensor 1 1 (current cgD harmC I b R contact) := by
  have p : ∀ S' S : ℕ, S' ≤ 1 → S ≤ 1 → _ := fun S' S h' h => pair_parts half_laws half_laws12 h' h
  have p1 : ∀ S' S : ℕ, S' ≤ 1 → S ≤ 1 → ∃ x, WE cgD (2 * S') 2 (2 * S) (fun q => couple cgD 1 1 (2 * S') 1 1 (2 * S) (sigma1 q)) x :=
    fun S' S h' h => let ⟨x, _, _, hx, _⟩ := p S' S h' h; ⟨x, hx⟩
  have p2 : ∀ S' S : ℕ, S' ≤ 1 → S ≤ 1 → ∃ x, WE cgD (2 * S') 2 (2 * S) (fun q => couple cgD 1 1 (2 * S') 1 1 (2 * S) (sigma2 q)) x :=
    fun S' S h' h => let ⟨_, x, _, _, hx, _⟩ := p S' S h' h; ⟨x, hx⟩
  have p3 : ∀ S' S : ℕ, S' ≤ 1 → S ≤ 1 → ∃ x, WE cgD (2 * S') 2 (2 * S) (fun q => couple cgD 1 1 (2 * S') 1 1 (2 * S) (crossPair cgD q)) x :=
    fun S' S h' h => let ⟨_, _, x, _, _, hx, _⟩ := p S' S h' h; ⟨x, hx⟩
  exact Tensor.add (Tensor.add (pair_tensor _ _ p1 p1) (pair_tensor _ _ p2 p2)) (pair_tensor _ _ p3 p3)

/-! ## A Hermitian operator -/

/-- What becomes of the components of a vector operator on two spins if bra and ket are exchanged; `ε` is -1 for operators that are Hermitian only
with a factor `i`. -/
def Turns (ε : ℝ) (X : Int → Int → Int → Int → Int → ℝ) : Prop :=
  ∀ q : ℤ, q % 2 = 0 → ∀ a' b' a b, X (-q) a b a' b' = ε * (sgn (q / 2) * X q a' b' a b)

theorem cgd_sum {j1 j2 J : ℕ} {m1 m2 M : ℤ} (h : m1 + m2 ≠ M) : cgd j1 m1 j2 m2 J M = 0 := by
  unfold cgd
  rw [if_neg fun x => h x.1]

theorem product_turn {k1 k2 k : ℕ} (h1 : k1 % 2 = 0) (h2 : k2 % 2 = 0) {A A' B B' : ℤ → ℝ} {α β : ℝ}
    (hA : ∀ u : ℤ, u % 2 = 0 → A' (-u) = α * (sgn (u / 2) * A u)) (hB : ∀ u : ℤ, u % 2 = 0 → B' (-u) = β * (sgn (u / 2) * B u)) (q : ℤ) :
    product cgD k1 k2 k A' B' (-q) = sgn (((k1 : ℤ) + k2 - k) / 2) * (α * β) * (sgn (q / 2) * product cgD k1 k2 k A B q) := by
  simp only [product, ms_eq]
  rw [← sum_neg, Finset.mul_sum, Finset.mul_sum]
  refine Finset.sum_congr rfl fun u hu => ?_
  rw [← sum_neg, Finset.mul_sum, Finset.mul_sum]
  refine Finset.sum_congr rfl fun v hv => ?_
  rw [mem_projs] at hu hv
  rw [cgD_nat, cgD_nat, hA u (by omega), hB v (by omega), cgd_flip k1 u k2 v k q]
  by_cases h : u + v = q
  · have s : sgn (q / 2) = sgn (u / 2) * sgn (v / 2) := by
      rw [sgn_mul_sgn]
      exact sgn_parity (by omega)
    have ss := sgn_mul_self (((k1 : ℤ) + k2 - k) / 2)
    rw [s]
    linear_combination -(α * β * sgn (u / 2) * sgn (v / 2) * cgd k1 (-u) k2 (-v) k (-q) * (A u * B v)) * ss
  · rw [cgd_sum (m1 := -u) (by omega)]
    ring

theorem sigma1_turn : Turns 1 sigma1 := by
  intro q h a' b' a b
  rw [sigma1, sigma1, jmat_turn 1 h, δ_comm b]
  ring

theorem sigma2_turn : Turns 1 sigma2 := by
  intro q h a' b' a b
  rw [sigma2, sigma2, jmat_turn 1 h, δ_comm a]
  ring

theorem cross_turn : Turns (-1) (crossPair cgD) := by
  intro q _ a' b' a b
  unfold crossPair
  rw [product_turn (α := 1) (β := 1) (A := fun u => 2 * jmat 1 u a' a) (B := fun v => 2 * jmat 1 v b' b) rfl rfl
    (fun u hu => by rw [jmat_turn 1 hu]; ring) (fun u hu => by rw [jmat_turn 1 hu]; ring)]
  norm_num [sgn]

theorem harmC_turn (L' L : ℕ) (m' m : ℤ) (q : ℤ) (h : q % 2 = 0) : harmC L L' (-q) m m' = 1 * (sgn (q / 2) * harmC L' L q m' m) := by
  rw [harmC_eq, harmC_eq, harmD_turn h]
  ring

theorem pair_hermitian {central tensor : ℕ → ℕ → ℕ → ℕ → ℝ} (hc : ∀ n' L' n L, central n L n' L' = central n' L' n L)
    (ht : ∀ n' L' n L, tensor n L n' L' = tensor n' L' n L) {X Y : Int → Int → Int → Int → Int → ℝ} {ε : ℝ} (he : ε * ε = 1) (hX : Turns ε X) (hY : Turns ε Y) :
    IsHermitian 1 1 (pairOp cgD harmC central tensor X Y) := by
  intro q hq p hp c' c
  rw [sgn_halves hq hp]
  rw [mem_projs] at hq hp
  unfold pairOp
  rw [hY p (by omega), product_turn (k1 := 4) (k2 := 2) (k := 2) (α := 1) (β := ε) (A := fun u => harmC c'.L c.L u c'.mL c.mL)
    (B := fun v => X v c'.m1 c'.m2 c.m1 c.m2) rfl rfl (fun u hu => harmC_turn _ _ _ _ u hu) (fun u hu => hX u hu _ _ _ _), ht]
  have h4 : sgn (((4 : ℕ) + (2 : ℕ) - (2 : ℕ) : ℤ) / 2) = 1 := by norm_num [sgn]
  rw [h4]
  by_cases h : c'.L = c.L
  · rw [if_pos h, if_pos h.symm, hX q (by omega), δ_comm c.mL, hc]
    linear_combination (sgn (q / 2) * sgn (p / 2) * Y p c'.t1 c'.t2 c.t1 c.t2 * (central c'.n c'.L c.n c.L * (δ c'.mL c.mL * X q c'.m1 c'.m2 c.m1 c.m2) +
      tensor c'.n c'.L c.n c.L * product cgD 4 2 2 (fun u => harmC c'.L c.L u c'.mL c.mL) (fun v => X v c'.m1 c'.m2 c.m1 c.m2) q)) * he
  · rw [if_neg h, if_neg (Ne.symm h)]
    linear_combination (sgn (q / 2) * sgn (p / 2) * Y p c'.t1 c'.t2 c.t1 c.t2 *
      (tensor c'.n c'.L c.n c.L * product cgD 4 2 2 (fun u => harmC c'.L c.L u c'.mL c.mL) (fun v => X v c'.m1 c'.m2 c.m1 c.m2) q)) * he

theorem Hermitian.add {J0 T0 : ℕ} {A B : Int → Int → Cfg → Cfg → ℝ} (hA : IsHermitian J0 T0 A) (hB : IsHermitian J0 T0 B) :
    IsHermitian J0 T0 fun q p c' c => A q p c' c + B q p c' c := by
  intro q hq p hp c' c
  simp only
  rw [hA q hq p hp, hB q hq p hp]
  ring

/-- The current is Hermitian. -/
theorem current_hermitian (I : (ℝ → ℝ) → ℝ) (b R : ℝ) {contact : ℕ → ℕ → ℕ → ℕ → ℝ} (hc : ∀ n' L' n L, contact n L n' L' = contact n' L' n L) :
    IsHermitian 1 1 (current cgD harmC I b R contact) := by
  have y : ∀ (f : ℝ → ℝ) (n' L' n L : ℕ), I (fun r => Verif.Osc.oscFn n L b r * f r * Verif.Osc.oscFn n' L' b r) = I fun r => Verif.Osc.oscFn n' L' b r * f r * Verif.Osc.oscFn n L b r := by
    intro f n' L' n L
    congr 1
    funext r
    ring
  refine Hermitian.add (Hermitian.add (pair_hermitian ?_ ?_ (one_mul 1) sigma1_turn sigma1_turn) (pair_hermitian ?_ ?_ (one_mul 1) sigma2_turn sigma2_turn))
    (pair_hermitian ?_ ?_ (by norm_num) cross_turn cross_turn) <;> intro n' L' n L <;> simp only <;> rw [y]
  · rw [hc]
  · rw [hc]

theorem contactAll_comm (I : (ℝ → ℝ) → ℝ) (b R D : ℝ) (n' L' n L : ℕ) : contactAll I b R D n L n' L' = contactAll I b R D n' L' n L := by
  unfold contactAll
  ring

end Verif.Relative
