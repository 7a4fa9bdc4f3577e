import Verif.Relative.N2LO
import Verif.Relative.N2LOSpec
import Verif.Relative.ConstructAm

/-!
# What `ConstructN2LOGTOperator` stores
-/

namespace Verif.Relative
open Verif Verif.H2 Verif.Osc MeasureTheory Set Axial

theorem couple_sum {cg : Cg} {a' b' j' a b j : ℕ} {ι : Type} (s : Finset ι) (A : ι → Int → Int → Int → Int → ℝ)
    (M' M : Int) :
    couple cg a' b' j' a b j (fun x' y' x y => ∑ i ∈ s, A i x' y' x y) M' M =
      ∑ i ∈ s, couple cg a' b' j' a b j (A i) M' M := by
  classical
  induction s using Finset.induction_on with
  | empty => simp [couple_zero]
  | insert i s hi ih => simp only [Finset.sum_insert hi, couple_add, ih]

theorem reduce12 {cg : Cg} {f : ℝ} {a' b' j' a b j k1 k2 k : ℕ} (h : Reduces12 cg f a' b' j' a b j k1 k2 k)
    {A B : Int → Int → Int → ℝ} {x y : ℝ} (hA : WE cg a' k1 a A x) (hB : WE cg b' k2 b B y) :
    WE cg j' k j (fun q => couple cg a' b' j' a b j fun x' y' x y =>
      product cg k1 k2 k (fun u => A u x' x) (fun v => B v y' y) q) (f * (x * y)) := by
  intro M' hM' q hq M hM
  have h1 := h M' hM' q hq M hM
  simp only at h1 ⊢
  rw [← mul_assoc, ← h1, ← couple_mul]
  refine couple_congr fun x' hx' y' hy' x0 hx y0 hy => ?_
  simp only [product, Finset.sum_mul]
  refine Finset.sum_congr rfl fun u hu => Finset.sum_congr rfl fun v hv => ?_
  rw [hA x' hx' u hu x0 hx, hB y' hy' v hv y0 hy]
  ring

theorem tri_swap (a b c : ℕ) : tri a b c = tri a c b := by
  simp only [tri]
  congr 1
  apply propext
  omega

/-- Laws of the library for the coefficients of two spins (or isospins) one-half. -/
structure HalfLaws12 (cg : Cg) (am : Am) (am12 : Am12) : Prop where
  cross : ∀ S' S : ℕ, S' ≤ 1 → S ≤ 1 → tri S' S 1 →
    Reduces12 cg (am12.rose12 1 1 (2 * S') 1 1 (2 * S) 2 2 2) 1 1 (2 * S') 1 1 (2 * S) 2 2 2
  cross0 : ∃ f, Reduces12 cg f 1 1 0 1 1 0 2 2 2
  jj1 : ∀ S' S : ℕ, S' ≤ 1 → S ≤ 1 → tri S' S 1 → WE cg (2 * S') 2 (2 * S)
    (fun q => couple cg 1 1 (2 * S') 1 1 (2 * S) fun x' y' x y => jmat 1 q x' x * δ y' y)
    (am12.jj1 1 1 (2 * S') 1 1 (2 * S))
  jj2 : ∀ S' S : ℕ, S' ≤ 1 → S ≤ 1 → tri S' S 1 → WE cg (2 * S') 2 (2 * S)
    (fun q => couple cg 1 1 (2 * S') 1 1 (2 * S) fun x' y' x y => δ x' x * jmat 1 q y' y)
    (am12.jj2 1 1 (2 * S') 1 1 (2 * S))
  half : WE cg 1 2 1 (jmat 1) (am.jRME 1 1)

/-- Laws of the library for the orbital motion and the spins of the two subspaces of a sector.  `none` of the
reduction factors of the second system between different orbital angular momenta is asked for by the code, which
evaluates them there. -/
structure TensorLaws (cg : Cg) (am : Am) (am12 : Am12) (C : ℕ → ℕ → Int → Int → Int → ℝ) (s' s : RelSub) : Prop where
  other : s'.L ≠ s.L → am.rose2 (2 * s'.L) (2 * s'.S) (2 * s'.J) (2 * s.L) (2 * s.S) (2 * s.J) 2 = 0
  both : tri s'.L s.L 2 → tri s'.S s.S 1 → tri s'.J s.J 1 →
    Reduces12 cg (am12.rose12 (2 * s'.L) (2 * s'.S) (2 * s'.J) (2 * s.L) (2 * s.S) (2 * s.J) 4 2 2)
      (2 * s'.L) (2 * s'.S) (2 * s'.J) (2 * s.L) (2 * s.S) (2 * s.J) 4 2 2
  harm : tri s'.L s.L 2 → WE cg (2 * s'.L) 4 (2 * s.L) (C s'.L s.L) (am12.cRME (2 * s'.L) (2 * s.L) 4)
  none : ¬ tri s'.L s.L 2 → ∀ q m' m, C s'.L s.L q m' m = 0

/-! ## Reduced elements of the pair operators -/

theorem element_gen {cg : Cg} (r : ℝ) (Z : Int → Int → Int → Int → Int → Int → ℝ) (Y : Int → Int → Int → Int → ℝ)
    {s' s : RelSub} {n' n : ℕ} {M' M P' P : Int} :
    element cg (fun c' c => r * Z c'.mL c'.m1 c'.m2 c.mL c.m1 c.m2 * Y c'.t1 c'.t2 c.t1 c.t2) s' s n' n M' M P' P =
    r * couple cg (2 * s'.L) (2 * s'.S) (2 * s'.J) (2 * s.L) (2 * s.S) (2 * s.J)
        (fun x' y' x y => couple cg 1 1 (2 * s'.S) 1 1 (2 * s.S) (fun a' b' a b => Z x' a' b' x a b) y' y) M' M
      * couple cg 1 1 (2 * s'.T) 1 1 (2 * s.T) Y P' P := by
  simp only [element, couple_smul, couple_mul, mul_assoc]

theorem reduced_gen {cg : Cg} {J0 T0 : ℕ} {A : Int → Int → Cfg → Cfg → ℝ} {s' s : RelSub} {n' n : ℕ} {r u v : ℝ}
    (Z : Int → Int → Int → Int → Int → Int → Int → ℝ) (Y : Int → Int → Int → Int → Int → ℝ)
    (hA : ∀ q p (c' c : Cfg), c'.n = n' → c'.L = s'.L → c.n = n → c.L = s.L →
      A q p c' c = r * Z q c'.mL c'.m1 c'.m2 c.mL c.m1 c.m2 * Y p c'.t1 c'.t2 c.t1 c.t2)
    (hU : WE cg (2 * s'.J) (2 * J0) (2 * s.J) (fun q => couple cg (2 * s'.L) (2 * s'.S) (2 * s'.J) (2 * s.L) (2 * s.S)
      (2 * s.J) fun x' y' x y => couple cg 1 1 (2 * s'.S) 1 1 (2 * s.S) (fun a' b' a b => Z q x' a' b' x a b) y' y) u)
    (hV : WE cg (2 * s'.T) (2 * T0) (2 * s.T) (fun p => couple cg 1 1 (2 * s'.T) 1 1 (2 * s.T) (Y p)) v) :
    Reduced cg J0 T0 A s' s n' n (r * u * v) := by
  intro M' hM' q hq M hM P' hP' p hp P hP
  rw [element_congr (B := fun c' c => r * Z q c'.mL c'.m1 c'.m2 c.mL c.m1 c.m2 * Y p c'.t1 c'.t2 c.t1 c.t2)
    (hA q p), element_gen]
  have h1 := hU M' hM' q hq M hM
  have h2 := hV P' hP' p hp P hP
  simp only at h1 h2
  rw [h1, h2]
  ring

theorem couple_product {cg : Cg} {a' b' j' a b j k1 k2 k : ℕ} (A : Int → ℝ) (B : Int → Int → Int → Int → Int → ℝ)
    (q M' M : Int) :
    couple cg a' b' j' a b j (fun x' y' x y => product cg k1 k2 k A (fun v => B v x' y' x y) q) M' M =
      product cg k1 k2 k A (fun v => couple cg a' b' j' a b j (B v) M' M) q := by
  simp only [product, couple_sum, couple_smul]

/-- Reduced element of a pair operator from those of its spin and isospin parts. -/
theorem pair_reduced {cg : Cg} {am : Am} {am12 : Am12} {C : ℕ → ℕ → Int → Int → Int → ℝ} (hh : HalfLaws cg am)
    {N : ℕ} {o : OpLabels} {s' s : RelSub} (ok : SecOK N o 1 s' s) (ls : LSLaws cg am s' s)
    (tl : TensorLaws cg am am12 C s' s) (hJ0 : o.J0 = 1) (central tensor : ℕ → ℕ → ℕ → ℕ → ℝ)
    (X Y : Int → Int → Int → Int → Int → ℝ) {x y : ℝ}
    (hX : WE cg (2 * s'.S) 2 (2 * s.S) (fun q => couple cg 1 1 (2 * s'.S) 1 1 (2 * s.S) (X q)) x)
    (hY : WE cg (2 * s'.T) 2 (2 * s.T) (fun q => couple cg 1 1 (2 * s'.T) 1 1 (2 * s.T) (Y q)) y) (n' n : ℕ) :
    Reduced cg 1 1 (pairOp cg C central tensor X Y) s' s n' n
      (if tri s'.S s.S 1 then
        (if s'.L = s.L then central n' s'.L n s.L * am.rose2 (2 * s'.L) (2 * s'.S) (2 * s'.J) (2 * s.L) (2 * s.S)
          (2 * s.J) 2 * (x * y) else 0)
        + (if tri s'.L s.L 2 then tensor n' s'.L n s.L
            * am12.rose12 (2 * s'.L) (2 * s'.S) (2 * s'.J) (2 * s.L) (2 * s.S) (2 * s.J) 4 2 2
            * am12.cRME (2 * s'.L) (2 * s.L) 4 * (x * y) else 0)
      else 0) := by
  have hJ : tri s'.J 1 s.J := by
    have := ok.J
    rwa [hJ0] at this
  -- spins coupled to zero on both sides
  have hS0 : ¬ tri s'.S s.S 1 → ∀ q ∈ ms 2, ∀ y' ∈ ms (2 * s'.S), ∀ y ∈ ms (2 * s.S),
      couple cg 1 1 (2 * s'.S) 1 1 (2 * s.S) (X q) y' y = 0 := by
    intro h q hq y' hy' y hy
    have h1 := ok.bra.S
    have h2 := ok.ket.S
    have h3 : s'.S = 0 ∧ s.S = 0 := by
      simp only [tri, decide_eq_true_eq] at h
      omega
    have := hX y' hy' q hq y hy
    simp only at this
    rw [this]
    rw [h3.1] at hy' ⊢
    rw [h3.2] at hy ⊢
    rw [mul_zero, mem_ms_zero] at hy' hy
    subst hy' hy
    have z := hh.zero q hq
    norm_num [z]
  -- the central part
  have hc : Reduced cg 1 1 (fun q p c' c =>
      (if c'.L = c.L then central c'.n c'.L c.n c.L * (δ c'.mL c.mL * X q c'.m1 c'.m2 c.m1 c.m2) else 0)
        * Y p c'.t1 c'.t2 c.t1 c.t2) s' s n' n
      (if tri s'.S s.S 1 then
        (if s'.L = s.L then central n' s'.L n s.L * am.rose2 (2 * s'.L) (2 * s'.S) (2 * s'.J) (2 * s.L) (2 * s.S)
          (2 * s.J) 2 * (x * y) else 0) else 0) := by
    by_cases hL : s'.L = s.L
    · by_cases hS : tri s'.S s.S 1
      · have h := reduced_prod (J0 := 1) (T0 := 1) (n' := n') (n := n) (r := central n' s'.L n s.L) (fun _ => δ) X Y
          (A := fun q p c' c => (if c'.L = c.L then central c'.n c'.L c.n c.L * (δ c'.mL c.mL * X q c'.m1 c'.m2 c.m1 c.m2)
            else 0) * Y p c'.t1 c'.t2 c.t1 c.t2)
          (fun q p c' c h1 h2 h3 h4 => by simp only [h1, h2, h3, h4, if_pos hL])
          (spin_ls ls hL (by rwa [tri_swap]) hJ X hX) hY
        rw [if_pos hS, if_pos hL]
        convert h using 1
        ring
      · rw [if_neg hS]
        have h := reduced_prod (J0 := 1) (T0 := 1) (n' := n') (n := n) (r := central n' s'.L n s.L) (u := 0)
          (fun _ => δ) X Y
          (A := fun q p c' c => (if c'.L = c.L then central c'.n c'.L c.n c.L * (δ c'.mL c.mL * X q c'.m1 c'.m2 c.m1 c.m2)
            else 0) * Y p c'.t1 c'.t2 c.t1 c.t2)
          (fun q p c' c h1 h2 h3 h4 => by simp only [h1, h2, h3, h4, if_pos hL])
          (WE.zero fun M' _ q hq M _ => by
            rw [couple_congr (B := fun _ _ _ _ => 0) fun x' _ y' hy' x _ y hy => by
              rw [hS0 hS q hq y' hy' y hy, mul_zero], couple_zero]) hY
        simpa using h
    · rw [if_neg hL, ite_self]
      exact Reduced.zero fun q p c' c h1 h2 h3 h4 => by simp [h2, h4, hL]
  -- the tensor part
  have ht : Reduced cg 1 1 (fun q p c' c => tensor c'.n c'.L c.n c.L
      * product cg 4 2 2 (fun u => C c'.L c.L u c'.mL c.mL) (fun v => X v c'.m1 c'.m2 c.m1 c.m2) q
      * Y p c'.t1 c'.t2 c.t1 c.t2) s' s n' n
      (if tri s'.S s.S 1 then
        (if tri s'.L s.L 2 then tensor n' s'.L n s.L
            * am12.rose12 (2 * s'.L) (2 * s'.S) (2 * s'.J) (2 * s.L) (2 * s.S) (2 * s.J) 4 2 2
            * am12.cRME (2 * s'.L) (2 * s.L) 4 * (x * y) else 0) else 0) := by
    by_cases hL : tri s'.L s.L 2
    · have key : ∀ {u : ℝ}, WE cg (2 * s'.J) (2 * 1) (2 * s.J) (fun q => couple cg (2 * s'.L) (2 * s'.S) (2 * s'.J)
          (2 * s.L) (2 * s.S) (2 * s.J) fun x' y' x y => product cg 4 2 2 (fun v => C s'.L s.L v x' x)
            (fun v => couple cg 1 1 (2 * s'.S) 1 1 (2 * s.S) (X v) y' y) q) u →
          Reduced cg 1 1 (fun q p c' c => tensor c'.n c'.L c.n c.L
            * product cg 4 2 2 (fun u => C c'.L c.L u c'.mL c.mL) (fun v => X v c'.m1 c'.m2 c.m1 c.m2) q
            * Y p c'.t1 c'.t2 c.t1 c.t2) s' s n' n (tensor n' s'.L n s.L * u * y) := by
        intro u hu
        refine reduced_gen (Z := fun q m' a' b' m a b =>
            product cg 4 2 2 (fun u => C s'.L s.L u m' m) (fun v => X v a' b' a b) q) Y
          (fun q p c' c h1 h2 h3 h4 => by simp only [h1, h2, h3, h4]) ?_ hY
        refine hu.congr fun M' _ q _ M _ => ?_
        refine couple_congr fun x' _ y' _ x _ y _ => ?_
        rw [couple_product]
      by_cases hS : tri s'.S s.S 1
      · rw [if_pos hS, if_pos hL]
        have := key (reduce12 (tl.both hL hS (by rwa [tri_swap])) (tl.harm hL) hX)
        convert this using 1
        ring
      · rw [if_neg hS]
        have := key (u := 0) (WE.zero fun M' _ q hq M _ => by
          rw [couple_congr (B := fun _ _ _ _ => 0) fun x' _ y' hy' x _ y hy => ?_, couple_zero]
          simp only [product]
          refine Finset.sum_eq_zero fun u _ => Finset.sum_eq_zero fun v hv => ?_
          rw [hS0 hS v hv y' hy' y hy]
          ring)
        simpa using this
    · rw [if_neg hL, ite_self]
      refine Reduced.zero fun q p c' c h1 h2 h3 h4 => ?_
      simp only [h2, h4, product, tl.none hL]
      simp
  have h : Reduced cg 1 1 (pairOp cg C central tensor X Y) s' s n' n _ := hc.add ht
  convert h using 1
  by_cases hS : tri s'.S s.S 1
  · simp only [if_pos hS]
  · simp only [if_neg hS, add_zero]

/-! ## Radial integrals -/

theorem Quad.integrate_eq (g : Quad) (hb : 0 < g.b) {f' : ℝ → Except Err ℝ} {f : ℝ → ℝ}
    (h : ∀ r, 0 < r → f' r = .ok (f r)) : g.integrate f' = .ok (radialInt g.cubic g.points g.b f) := by
  have key : ((List.range g.points).mapM fun k =>
      if k = 0 ∨ k + 1 = g.points then (.ok 0 : Except Err ℝ) else do
        let y ← f' (transformedCoordinate .position g.b (g.z k))
        pure (y * transformedCoordinateJacobian .position g.b (g.z k))) = .ok (samples g.points g.b f) := by
    have gen : ∀ l : List ℕ, (∀ k ∈ l, k < g.points) → (l.mapM fun k =>
        if k = 0 ∨ k + 1 = g.points then (.ok 0 : Except Err ℝ) else do
          let y ← f' (transformedCoordinate .position g.b (g.z k))
          pure (y * transformedCoordinateJacobian .position g.b (g.z k))) = .ok (l.map fun k : ℕ =>
            if k = 0 ∨ k + 1 = g.points then 0
            else f (g.b * ((k / ((g.points : ℝ) - 1)) / (1 - k / ((g.points : ℝ) - 1))))
              * (g.b / (1 - k / ((g.points : ℝ) - 1)) ^ 2)) := by
      intro l
      induction l with
      | nil => exact fun _ => rfl
      | cons k l ih =>
        intro hl
        rw [List.mapM_cons, ih fun x hx => hl x (by simp [hx])]
        by_cases hk : k = 0 ∨ k + 1 = g.points
        · rw [if_pos hk]
          simp [Except.ok_bind', Except.pure_ok, hk]
        · rw [if_neg hk]
          have hlt := hl k (by simp)
          rw [not_or] at hk
          have hz : 0 < g.z k ∧ g.z k < 1 := by
            have h1 : (0 : ℝ) < k := by exact_mod_cast Nat.pos_of_ne_zero hk.1
            have h2 : ((k + 1 : ℕ) : ℝ) < g.points := by
              have : k + 1 < g.points := by omega
              exact_mod_cast this
            push_cast at h2
            constructor
            · exact div_pos h1 (by linarith)
            · rw [Quad.z, div_lt_one (by linarith)]
              linarith
          have hr : 0 < transformedCoordinate .position g.b (g.z k) := by
            simp only [transformedCoordinate]
            exact mul_pos (div_pos hz.1 (by linarith [hz.2])) hb
          rw [h _ hr]
          simp only [Except.ok_bind', Except.pure_ok, List.map_cons, hk.1, hk.2, or_self, if_false]
          congr 2
          simp only [transformedCoordinate, transformedCoordinateJacobian, Quad.z]
          refine congrArg₂ (· * ·) (congrArg f (mul_comm _ _)) ?_
          rw [← pow_two, one_div, mul_comm, ← div_eq_mul_inv]
    exact gen _ fun k hk => List.mem_range.mp hk
  rw [Quad.integrate, key, Except.ok_bind', Except.pure_ok]
  rfl

theorem oscAt_eq (g : Quad) (hb : 0 < g.b) {Nmax l n : ℕ} (hl : l ≤ Nmax) (hn : n ≤ (Nmax - l) / 2) {shift r : ℝ}
    (hr : 0 < r) : oscAt g Nmax l n shift r = .ok (r ^ shift * oscFn n l g.b r) := by
  rw [oscAt, if_pos hl, wave_functions_closed_form hn l hb (Or.inl hr)]

theorem half_half {r : ℝ} (hr : 0 < r) : r ^ (-0.5 : ℝ) * r ^ (-0.5 : ℝ) = 1 / r := by
  rw [← Real.rpow_add hr]
  norm_num
  rw [Real.rpow_neg_one]

theorem pionMass_eq : Lenpic.pionMass = mpi := rfl

theorem mpi_pos : 0 < mpi := by
  unfold mpi
  norm_num

theorem localReg_eq (R r : ℝ) : localReg R r = (1 - Real.exp (-(r / R) ^ 2)) ^ 6 := by
  rw [localReg]
  congr 3
  rw [div_pow]
  ring

theorem nonlocalReg_eq {R : ℝ} (hR : 0 < R) (r : ℝ) : nonlocalReg R r = gauss R r := by
  rw [nonlocalReg, gauss]
  congr 1
  · congr 1
    rw [div_pow]
    ring
  · rw [mul_assoc, ← pow_two, Real.mul_rpow Real.pi_pos.le (by positivity), mul_pow, Real.sqrt_eq_rpow,
      ← Real.rpow_natCast (Real.pi ^ _), ← Real.rpow_mul Real.pi_pos.le, ← Real.rpow_natCast R 2, ← Real.rpow_mul hR.le,
      ← Real.rpow_natCast R 3]
    norm_num

theorem wGrid_eq {r : ℝ} (hr : 0 < r) : wGrid r = 1 + 3 / (mpi * r) + 3 / (mpi * r) ^ 2 := by
  have h := mpi_pos
  rw [wGrid, pionMass_eq]
  field_simp
  ring

section radial
variable (g : Quad) (hb : 0 < g.b) {Nmax L' L n' n : ℕ} (hL' : L' ≤ Nmax) (hL : L ≤ Nmax)
  (hn' : n' ≤ (Nmax - L') / 2) (hn : n ≤ (Nmax - L) / 2)
include hb hL' hL hn' hn

theorem yukawaValue_eq (R : ℝ) : yukawaValue g R Nmax L' n' L n =
    .ok (radialInt g.cubic g.points g.b (fun r => oscFn n' L' g.b r * (mpi * yukawa R r) * oscFn n L g.b r) / mpi) := by
  rw [yukawaValue, g.integrate_eq hb (f := fun r => oscFn n' L' g.b r * (mpi * yukawa R r) * oscFn n L g.b r)]
  · simp only [Except.ok_bind', Except.pure_ok, pionMass_eq]
  · intro r hr
    have h := mpi_pos
    simp only [oscAt_eq g hb hL' hn' hr, oscAt_eq g hb hL hn hr, Except.ok_bind', Except.pure_ok, pionMass_eq,
      localReg_eq, yukawa]
    congr 1
    have e : -mpi * r = -(mpi * r) := by ring
    rw [e]
    have := half_half hr
    have e2 : mpi * (Real.exp (-(mpi * r)) / (mpi * r) * (1 - Real.exp (-(r / R) ^ 2)) ^ 6) =
        Real.exp (-(mpi * r)) * (1 - Real.exp (-(r / R) ^ 2)) ^ 6 * (1 / r) := by field_simp
    rw [e2]
    linear_combination (oscFn n' L' g.b r * oscFn n L g.b r * Real.exp (-(mpi * r))
      * (1 - Real.exp (-(r / R) ^ 2)) ^ 6) * this

theorem yukawaWValue_eq (R : ℝ) : yukawaWValue g R Nmax L' n' L n =
    .ok (radialInt g.cubic g.points g.b (fun r => oscFn n' L' g.b r * (mpi * yukawaT R r) * oscFn n L g.b r) / mpi) := by
  rw [yukawaWValue, g.integrate_eq hb (f := fun r => oscFn n' L' g.b r * (mpi * yukawaT R r) * oscFn n L g.b r)]
  · simp only [Except.ok_bind', Except.pure_ok, pionMass_eq]
  · intro r hr
    have h := mpi_pos
    simp only [oscAt_eq g hb hL' hn' hr, oscAt_eq g hb hL hn hr, Except.ok_bind', Except.pure_ok, pionMass_eq,
      localReg_eq, yukawaT, yukawa, wGrid_eq hr]
    congr 1
    have e : -mpi * r = -(mpi * r) := by ring
    rw [e]
    generalize 1 + 3 / (mpi * r) + 3 / (mpi * r) ^ 2 = w
    have := half_half hr
    have e2 : mpi * (Real.exp (-(mpi * r)) / (mpi * r) * (1 - Real.exp (-(r / R) ^ 2)) ^ 6 * w) =
        Real.exp (-(mpi * r)) * (1 - Real.exp (-(r / R) ^ 2)) ^ 6 * w * (1 / r) := by field_simp
    rw [e2]
    linear_combination (oscFn n' L' g.b r * oscFn n L g.b r * Real.exp (-(mpi * r)) * w
      * (1 - Real.exp (-(r / R) ^ 2)) ^ 6) * this

theorem nonlocalValue_eq {R : ℝ} (hR : 0 < R) : nonlocalValue g R Nmax L' n' L n =
    .ok (if L' = L then radialInt g.cubic g.points g.b (fun r => oscFn n' L' g.b r * gauss R r)
      * radialInt g.cubic g.points g.b (fun r => oscFn n L g.b r * gauss R r) else 0) := by
  by_cases h : L' = L
  · rw [nonlocalValue, if_pos h, if_pos h]
    rw [g.integrate_eq hb (f := fun r => oscFn n' L' g.b r * gauss R r), Except.ok_bind',
      g.integrate_eq hb (f := fun r => oscFn n L g.b r * gauss R r), Except.ok_bind', Except.pure_ok]
    · intro r hr
      simp [oscAt_eq g hb hL hn hr, Except.ok_bind', Except.pure_ok, nonlocalReg_eq hR]
    · intro r hr
      simp [oscAt_eq g hb hL' hn' hr, Except.ok_bind', Except.pure_ok, nonlocalReg_eq hR]
  · rw [nonlocalValue, if_neg h, if_neg h]

end radial

/-! ## Property C115: the stored operator -/

theorem Reduced.cast {cg : Cg} {J0 T0 : ℕ} {A : Int → Int → Cfg → Cfg → ℝ} {s' s : RelSub} {n' n : ℕ} {x y : ℝ}
    (h : Reduced cg J0 T0 A s' s n' n x) (e : x = y) : Reduced cg J0 T0 A s' s n' n y := e ▸ h

/-- The spin (or isospin) parts of the current have the reduced elements of the code's tables. -/
theorem pair_parts {cg : Cg} {am : Am} {am12 : Am12} (hh : HalfLaws cg am) (h12 : HalfLaws12 cg am am12) {S' S : ℕ}
    (hS' : S' ≤ 1) (hS : S ≤ 1) :
    ∃ x1 x2 x3 : ℝ,
      WE cg (2 * S') 2 (2 * S) (fun q => couple cg 1 1 (2 * S') 1 1 (2 * S) (sigma1 q)) x1 ∧
      WE cg (2 * S') 2 (2 * S) (fun q => couple cg 1 1 (2 * S') 1 1 (2 * S) (sigma2 q)) x2 ∧
      WE cg (2 * S') 2 (2 * S) (fun q => couple cg 1 1 (2 * S') 1 1 (2 * S) (crossPair cg q)) x3 ∧
      (tri S' S 1 → x1 = 2 * am12.jj1 1 1 (2 * S') 1 1 (2 * S) ∧ x2 = 2 * am12.jj2 1 1 (2 * S') 1 1 (2 * S) ∧
        x3 = spinFactor am am12 S' S) := by
  have w1 : ∀ {x : ℝ}, WE cg (2 * S') 2 (2 * S)
      (fun q => couple cg 1 1 (2 * S') 1 1 (2 * S) fun x' y' x y => jmat 1 q x' x * δ y' y) x →
      WE cg (2 * S') 2 (2 * S) (fun q => couple cg 1 1 (2 * S') 1 1 (2 * S) (sigma1 q)) (2 * x) := fun h =>
    (h.smul 2).congr fun m' _ q _ m _ => by
      rw [← couple_smul]
      exact couple_congr fun x' _ y' _ x _ y _ => by rw [sigma1]; ring
  have w2 : ∀ {x : ℝ}, WE cg (2 * S') 2 (2 * S)
      (fun q => couple cg 1 1 (2 * S') 1 1 (2 * S) fun x' y' x y => δ x' x * jmat 1 q y' y) x →
      WE cg (2 * S') 2 (2 * S) (fun q => couple cg 1 1 (2 * S') 1 1 (2 * S) (sigma2 q)) (2 * x) := fun h =>
    (h.smul 2).congr fun m' _ q _ m _ => by
      rw [← couple_smul]
      exact couple_congr fun x' _ y' _ x _ y _ => by rw [sigma2]; ring
  by_cases h : tri S' S 1
  · refine ⟨_, _, _, w1 (h12.jj1 S' S hS' hS h), w2 (h12.jj2 S' S hS' hS h),
      reduce12 (h12.cross S' S hS' hS h) (h12.half.smul 2) (h12.half.smul 2), fun _ => ⟨rfl, rfl, ?_⟩⟩
    rw [spinFactor, if_pos h]
    ring
  · have h3 : S' = 0 ∧ S = 0 := by
      simp only [tri, decide_eq_true_eq] at h
      omega
    obtain ⟨f, hf⟩ := h12.cross0
    refine ⟨_, _, f * ((2 * am.jRME 1 1) * (2 * am.jRME 1 1)), w1 (reduce1 (hh.red1 S' S hS' hS) (half_vec hh)),
      w2 (reduce2 (hh.red2 S' S hS' hS) (half_vec hh)), ?_, fun h' => absurd h' h⟩
    obtain ⟨rfl, rfl⟩ := h3
    exact reduce12 hf (h12.half.smul 2) (h12.half.smul 2)

theorem constants_eq : Lenpic.opepPrefactor = strength ∧ Lenpic.c3 = Axial.c3 ∧ Lenpic.c4 = Axial.c4 := by
  refine ⟨?_, ?_, ?_⟩
  · rfl
  · norm_num [Lenpic.c3, Axial.c3, Lenpic.hbarcGeV, Lenpic.hbarc]
  · norm_num [Lenpic.c4, Axial.c4, Lenpic.hbarcGeV, Lenpic.hbarc]

theorem n2lo_block {cg : Cg} {am : Am} {am12 : Am12} {C : ℕ → ℕ → Int → Int → Int → ℝ} (hh : HalfLaws cg am)
    (h12 : HalfLaws12 cg am am12) {N : ℕ} {o : OpLabels} {p : RSec} (ok : SecOK N o 1 p.1 p.2)
    (ls : LSLaws cg am p.1 p.2) (tl : TensorLaws cg am am12 C p.1 p.2) (hJ0 : o.J0 = 1) (g : Quad) (hb : 0 < g.b)
    {R : ℝ} (hR : 0 < R) (D : ℝ) :
    ∃ b, n2loBlock am am12 g R D N p.1 p.2 = .ok b ∧
      Holds cg 1 1 (current cg C (radialInt g.cubic g.points g.b) g.b R
        (contactAll (radialInt g.cubic g.points g.b) g.b R D)) p b := by
  obtain ⟨s', s⟩ := p
  simp only at ok ls tl ⊢
  obtain ⟨x1, x2, x3, hx1, hx2, hx3, ex⟩ := pair_parts hh h12 ok.bra.S ok.ket.S
  obtain ⟨y1, y2, y3, hy1, hy2, hy3, ey⟩ := pair_parts hh h12 ok.bra.T ok.ket.T
  have hT : tri s'.T s.T 1 := by
    have := ok.T
    rwa [tri_swap]
  obtain ⟨ey1, ey2, ey3⟩ := ey hT
  set I := radialInt g.cubic g.points g.b with hI
  have hred : ∀ n' n, Reduced cg 1 1 (current cg C I g.b R (contactAll I g.b R D)) s' s n' n _ := fun n' n =>
    ((pair_reduced hh ok ls tl hJ0 _ _ sigma1 sigma1 hx1 hy1 n' n).add
      (pair_reduced hh ok ls tl hJ0 _ _ sigma2 sigma2 hx2 hy2 n' n)).add
      (pair_reduced hh ok ls tl hJ0 _ _ (crossPair cg) (crossPair cg) hx3 hy3 n' n)
  by_cases hL : s'.L = s.L ∨ tri s'.L s.L 2
  swap
  · rw [not_or] at hL
    refine ⟨zeroE, ?_, fun n' _ n _ => ⟨0, rfl, (hred n' n).cast ?_⟩⟩
    · rw [n2loBlock, if_pos (by simp [hL])]
    · simp [hL]
  by_cases hS : tri s'.S s.S 1
  swap
  · refine ⟨zeroE, ?_, fun n' _ n _ => ⟨0, rfl, (hred n' n).cast ?_⟩⟩
    · rw [n2loBlock, if_neg (by rcases hL with hL | hL <;> simp [hL]), if_pos (by simp [hS])]
    · simp [hS]
  obtain ⟨ex1, ex2, ex3⟩ := ex hS
  refine ⟨_, by rw [n2loBlock, if_neg (by rcases hL with hL | hL <;> simp [hL]), if_neg (by simp [hS, hT])], fun n' hn' n hn => ?_⟩
  have b1 := ok.bra.L
  have b2 := ok.ket.L
  have b3 : n' ≤ (N - s'.L) / 2 := by
    have := ok.bra.size
    simp only at hn'
    omega
  have b4 : n ≤ (N - s.L) / 2 := by
    have := ok.ket.size
    simp only at hn
    omega
  simp only [yukawaValue_eq g hb b1 b2 b3 b4, yukawaWValue_eq g hb b1 b2 b3 b4, nonlocalValue_eq g hb b1 b2 b3 b4 hR,
    Except.ok_bind', Except.pure_ok]
  refine ⟨_, rfl, (hred n' n).cast ?_⟩
  obtain ⟨k1, k2, k3⟩ := constants_eq
  rw [k1, k2, k3, ← ex3, ← ey3, su4Factor, hS, hT, ex1, ex2, ey1, ey2]
  simp only [Bool.and_self, if_true, ← hI]
  have ho := tl.other
  by_cases hL2 : tri s'.L s.L 2 <;> simp only [hL2, if_true, if_false, contactAll, Bool.false_eq_true] <;>
    by_cases hLL : s'.L = s.L
  · simp only [if_pos hLL]
    ring
  · simp only [if_neg hLL, ho hLL]
    ring
  · simp only [if_pos hLL]
    ring
  · exact absurd hL (by simp [hLL, hL2])

/-- The labels `ConstructN2LOGTOperator` accepts. -/
def AxialLabels (o : OpLabels) : Prop := o.J0 = 1 ∧ o.g0 = 0 ∧ o.T0min ≤ 1 ∧ 1 ≤ o.T0max

/-- The regulators for which a contact constant is known, with that constant. -/
def KnownRegulator (R cD : ℝ) : Prop := |R - 0.9| < 1e-4 ∧ cD = 2.1 ∨ |R - 1| < 1e-4 ∧ cD = 7.2

theorem dFm3_eq {R cD : ℝ} (h : KnownRegulator R cD) : Lenpic.dFm3 R = .ok (dConst cD) ∧ 0 < R := by
  have hd : ∀ x : ℝ, x / (Lenpic.pionDecay * Lenpic.pionDecay * Lenpic.chiralScale) = dConst x := by
    intro x
    rw [dConst, pow_two]
    rfl
  rcases h with ⟨h, rfl⟩ | ⟨h, rfl⟩
  · refine ⟨?_, ?_⟩
    · rw [Lenpic.dFm3, Lenpic.cD, if_pos h, Except.ok_bind', Except.pure_ok, hd]
    · rw [abs_lt] at h
      norm_num at h
      linarith [h.1]
  · have h' := h
    rw [abs_lt] at h'
    norm_num at h'
    refine ⟨?_, by linarith [h'.1]⟩
    rw [Lenpic.dFm3, Lenpic.cD, if_neg, if_pos (by norm_num at h ⊢; exact h), Except.ok_bind', Except.pure_ok, hd]
    rw [abs_lt]
    norm_num
    intro
    linarith [h'.1]

/-- **C115 (partial).** For the regulators with a known contact constant and the labels of an axial current the stored
component is the current with the `c3` and `c4` terms of one-pion range; other labels and other regulators are
reported.  The radial integrals are those of the spline rule.

Partial: the contact term is the one of `contactAll`, between all states of equal `L`, not the matrix element of the
smeared contact operator (`contactS`); see `contact_is_wrong`. -/
theorem n2lo_stored_partial {cg : Cg} {am : Am} {am12 : Am12} {C : ℕ → ℕ → Int → Int → Int → ℝ} (hh : HalfLaws cg am)
    (h12 : HalfLaws12 cg am am12) {N : ℕ} {o : OpLabels} {sectors : ℕ → List RSec}
    (hs : ∀ p ∈ sectors 1, SecOK N o 1 p.1 p.2 ∧ LSLaws cg am p.1 p.2 ∧ TensorLaws cg am am12 C p.1 p.2)
    (cubic : List ℝ → List ℝ → ℝ) {R b : ℝ} (hb : 0 < b) (points : ℕ) :
    (∀ cD, KnownRegulator R cD → AxialLabels o → ∃ op, constructN2LOGT am am12 cubic o N sectors R b points = .ok op ∧
      Stores cg 1 1 (current cg C (radialInt cubic points (Real.sqrt 2 * b)) (Real.sqrt 2 * b) R
        (contactAll (radialInt cubic points (Real.sqrt 2 * b)) (Real.sqrt 2 * b) R (dConst cD))) sectors op) ∧
    ((¬ AxialLabels o ∨ ¬ ∃ cD, KnownRegulator R cD) →
      constructN2LOGT am am12 cubic o N sectors R b points = .error .exitFailure) := by
  have hgood : ∀ cD, KnownRegulator R cD → constructN2LOGT am am12 cubic o N sectors R b points =
      if o.J0 ≠ 1 ∨ o.g0 ≠ 0 ∨ 1 < o.T0min ∨ o.T0max < 1 then .error .exitFailure
      else construct true 1 sectors (n2loBlock am am12 ⟨points, b * Real.sqrt 2, cubic⟩ R (dConst cD) N) := by
    intro cD hc
    rw [constructN2LOGT, (dFm3_eq hc).1, Except.ok_bind']
    rfl
  constructor
  · intro cD hc ho
    rw [hgood cD hc, if_neg (by
      obtain ⟨h1, h2, h3, h4⟩ := ho
      omega), mul_comm b]
    refine construct_stores rfl fun p hp => ?_
    exact n2lo_block hh h12 (hs p hp).1 (hs p hp).2.1 (hs p hp).2.2 ho.1 ⟨points, Real.sqrt 2 * b, cubic⟩
      (by positivity) (dFm3_eq hc).2 _
  · intro h
    by_cases hc : ∃ cD, KnownRegulator R cD
    · obtain ⟨cD, hc⟩ := hc
      rw [hgood cD hc, if_pos]
      have : ¬ AxialLabels o := by
        rcases h with h | h
        · exact h
        · exact absurd ⟨cD, hc⟩ h
      rw [AxialLabels] at this
      omega
    · have h1 : ¬ |R - 0.9| < 1e-4 := fun h => hc ⟨_, Or.inl ⟨h, rfl⟩⟩
      have h2 : ¬ |R - 1.0| < 1e-4 := fun h => hc ⟨_, Or.inr ⟨by norm_num at h ⊢; exact h, rfl⟩⟩
      rw [constructN2LOGT, Lenpic.dFm3, Lenpic.cD, if_neg h1, if_neg h2]
      rfl

end Verif.Relative
