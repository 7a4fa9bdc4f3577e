import Verif.Relative.NLOM1Spec
import Verif.Relative.N2LOProps

/-!
# Reduced elements of products between relative-cm states
-/

namespace Verif.Relative.Relcm
open Verif Verif.H2 Verif.Osc Verif.Relative MeasureTheory Set Axial

theorem element_congr {cg : Cg} {A B : Cfg → Cfg → ℝ} {s' s : Sub} {p' p : State} {M' M P' P : Int}
    (h : ∀ c' c : Cfg, c'.nr = p'.nr → c'.lr = p'.lr → c'.nc = p'.nc → c'.lc = p'.lc →
      c.nr = p.nr → c.lr = p.lr → c.nc = p.nc → c.lc = p.lc → A c' c = B c' c) :
    element cg A s' s p' p M' M P' P = element cg B s' s p' p M' M P' P := by
  unfold element
  refine couple_congr fun X' _ Y' _ X _ Y _ => couple_congr fun x' _ z' _ x _ z _ => couple_congr fun a' _ b' _ a _ b _ =>
    couple_congr fun c' _ d' _ c _ d _ => h _ _ rfl rfl rfl rfl rfl rfl rfl rfl

theorem element_add {cg : Cg} (A B : Cfg → Cfg → ℝ) {s' s : Sub} {p' p : State} {M' M P' P : Int} :
    element cg (fun c' c => A c' c + B c' c) s' s p' p M' M P' P =
      element cg A s' s p' p M' M P' P + element cg B s' s p' p M' M P' P := by
  simp only [element, couple_add]

theorem element_gen {cg : Cg} (r : ℝ) (Z : Int → Int → Int → Int → Int → Int → Int → Int → ℝ)
    (Y : Int → Int → Int → Int → ℝ) {s' s : Sub} {p' p : State} {M' M P' P : Int} :
    element cg (fun c' c => r * Z c'.mr c'.mc c'.m1 c'.m2 c.mr c.mc c.m1 c.m2 * Y c'.t1 c'.t2 c.t1 c.t2)
      s' s p' p M' M P' P =
    r * couple cg (2 * s'.L) (2 * s'.S) (2 * s'.J) (2 * s.L) (2 * s.S) (2 * s.J) (fun X' Y' X Y =>
        couple cg (2 * p'.lr) (2 * p'.lc) (2 * s'.L) (2 * p.lr) (2 * p.lc) (2 * s.L) (fun x' z' x z =>
          couple cg 1 1 (2 * s'.S) 1 1 (2 * s.S) (fun a' b' a b => Z x' z' a' b' x z a b) Y' Y) X' X) M' M
      * couple cg 1 1 (2 * s'.T) 1 1 (2 * s.T) Y P' P := by
  simp only [element, couple_smul, couple_mul, mul_assoc]

/-- Reduced element of a product of a number, a part in space and spin, and a part in isospin. -/
theorem reduced_gen {cg : Cg} {J0 T0 : ℕ} {A : Int → Int → Cfg → Cfg → ℝ} {s' s : Sub} {p' p : State} {r u v : ℝ}
    (Z : Int → Int → Int → Int → Int → Int → Int → Int → Int → ℝ) (Y : Int → Int → Int → Int → Int → ℝ)
    (hA : ∀ q w (c' c : Cfg), c'.nr = p'.nr → c'.lr = p'.lr → c'.nc = p'.nc → c'.lc = p'.lc →
      c.nr = p.nr → c.lr = p.lr → c.nc = p.nc → c.lc = p.lc →
      A q w c' c = r * Z q c'.mr c'.mc c'.m1 c'.m2 c.mr c.mc c.m1 c.m2 * Y w c'.t1 c'.t2 c.t1 c.t2)
    (hU : WE cg (2 * s'.J) (2 * J0) (2 * s.J) (fun q => couple cg (2 * s'.L) (2 * s'.S) (2 * s'.J) (2 * s.L) (2 * s.S)
      (2 * s.J) fun X' Y' X Y => couple cg (2 * p'.lr) (2 * p'.lc) (2 * s'.L) (2 * p.lr) (2 * p.lc) (2 * s.L)
        (fun x' z' x z => couple cg 1 1 (2 * s'.S) 1 1 (2 * s.S) (fun a' b' a b => Z q x' z' a' b' x z a b) Y' Y)
        X' X) u)
    (hV : WE cg (2 * s'.T) (2 * T0) (2 * s.T) (fun w => couple cg 1 1 (2 * s'.T) 1 1 (2 * s.T) (Y w)) v) :
    Reduced cg J0 T0 A s' s p' p (r * u * v) := by
  intro M' hM' q hq M hM P' hP' w hw P hP
  rw [element_congr (B := fun c' c => r * Z q c'.mr c'.mc c'.m1 c'.m2 c.mr c.mc c.m1 c.m2 * Y w c'.t1 c'.t2 c.t1 c.t2)
    (hA q w), element_gen]
  have h1 := hU M' hM' q hq M hM
  have h2 := hV P' hP' w hw P hP
  simp only at h1 h2
  rw [h1, h2]
  ring

theorem Reduced.add {cg : Cg} {J0 T0 : ℕ} {A B : Int → Int → Cfg → Cfg → ℝ} {s' s : Sub} {p' p : State} {x y : ℝ}
    (hA : Reduced cg J0 T0 A s' s p' p x) (hB : Reduced cg J0 T0 B s' s p' p y) :
    Reduced cg J0 T0 (fun q w c' c => A q w c' c + B q w c' c) s' s p' p (x + y) := by
  intro M' hM' q hq M hM P' hP' w hw P hP
  rw [element_add, hA M' hM' q hq M hM P' hP' w hw P hP, hB M' hM' q hq M hM P' hP' w hw P hP]
  ring

theorem Reduced.congr {cg : Cg} {J0 T0 : ℕ} {A B : Int → Int → Cfg → Cfg → ℝ} {s' s : Sub} {p' p : State} {x : ℝ}
    (hA : Reduced cg J0 T0 A s' s p' p x)
    (h : ∀ q w (c' c : Cfg), c'.nr = p'.nr → c'.lr = p'.lr → c'.nc = p'.nc → c'.lc = p'.lc →
      c.nr = p.nr → c.lr = p.lr → c.nc = p.nc → c.lc = p.lc → B q w c' c = A q w c' c) :
    Reduced cg J0 T0 B s' s p' p x := by
  intro M' hM' q hq M hM P' hP' w hw P hP
  rw [element_congr (h q w), hA M' hM' q hq M hM P' hP' w hw P hP]

theorem Reduced.cast {cg : Cg} {J0 T0 : ℕ} {A : Int → Int → Cfg → Cfg → ℝ} {s' s : Sub} {p' p : State} {x y : ℝ}
    (h : Reduced cg J0 T0 A s' s p' p x) (e : x = y) : Reduced cg J0 T0 A s' s p' p y := e ▸ h

theorem Reduced.zero {cg : Cg} {J0 T0 : ℕ} {A : Int → Int → Cfg → Cfg → ℝ} {s' s : Sub} {p' p : State}
    (h : ∀ q w (c' c : Cfg), c'.nr = p'.nr → c'.lr = p'.lr → c'.nc = p'.nc → c'.lc = p'.lc →
      c.nr = p.nr → c.lr = p.lr → c.nc = p.nc → c.lc = p.lc → A q w c' c = 0) :
    Reduced cg J0 T0 A s' s p' p 0 := by
  intro M' hM' q hq M hM P' hP' w hw P hP
  rw [element_congr (h q w)]
  simp only [element, couple_zero, mul_zero]

/-- A product that is coupled in its first factor. -/
theorem couple_product_left {cg : Cg} {a' b' j' a b j k1 k2 k : ℕ} (A : Int → Int → Int → Int → Int → ℝ) (B : Int → ℝ)
    (q M' M : Int) :
    couple cg a' b' j' a b j (fun x' y' x y => product cg k1 k2 k (fun u => A u x' y' x y) B q) M' M =
      product cg k1 k2 k (fun u => couple cg a' b' j' a b j (A u) M' M) B q := by
  simp only [product, couple_sum, couple_smul, couple_mul]

section
variable {cg : Cg} {am : Am} {am12 : Am12} {C : ℕ → ℕ → ℕ → Int → Int → Int → ℝ}

/-- Two spins one-half: the products have the reduced elements of the code's table. -/
theorem pairK_reduced (hp : PairLaws cg am am12) {S' S S0 : ℕ} (hS' : S' ≤ 1) (hS : S ≤ 1) (hS0 : S0 ≤ 2) :
    WE cg (2 * S') (2 * S0) (2 * S) (fun q => couple cg 1 1 (2 * S') 1 1 (2 * S) (pairK cg (2 * S0) q))
      (spinFactors am am12 S' S S0) := by
  have h := reduce12 (hp.pair S' S S0 hS' hS hS0) (hp.half.smul 2) (hp.half.smul 2)
  have e : (if tri S' S S0 then am12.rose12 1 1 (2 * S') 1 1 (2 * S) 2 2 (2 * S0) else 0)
      * (2 * am.jRME 1 1 * (2 * am.jRME 1 1)) = spinFactors am am12 S' S S0 := by
    rw [spinFactors]
    split
    · ring
    · simp
  rw [e] at h
  exact h

variable {s' s : Sub} {p' p : State}

/-- A product of an orbital and a spin part. -/
theorem product_reduced (hl : Laws cg am am12 C s' s p' p) {kL kS : ℕ}
    (hk : (kL, kS) ∈ [(1, 0), (1, 2), (2, 2), (3, 2), (2, 1)])
    {O X : Int → Int → Int → Int → Int → ℝ} {x y : ℝ}
    (hO : WE cg (2 * s'.L) (2 * kL) (2 * s.L)
      (fun u => couple cg (2 * p'.lr) (2 * p'.lc) (2 * s'.L) (2 * p.lr) (2 * p.lc) (2 * s.L) (O u)) x)
    (hX : WE cg (2 * s'.S) (2 * kS) (2 * s.S) (fun u => couple cg 1 1 (2 * s'.S) 1 1 (2 * s.S) (X u)) y) :
    WE cg (2 * s'.J) (2 * 1) (2 * s.J) (fun q => couple cg (2 * s'.L) (2 * s'.S) (2 * s'.J) (2 * s.L) (2 * s.S)
      (2 * s.J) fun X' Y' X0 Y => couple cg (2 * p'.lr) (2 * p'.lc) (2 * s'.L) (2 * p.lr) (2 * p.lc) (2 * s.L)
        (fun x' z' x z => couple cg 1 1 (2 * s'.S) 1 1 (2 * s.S) (fun a' b' a b =>
          product cg (2 * kL) (2 * kS) 2 (fun u => O u x' z' x z) (fun v => X v a' b' a b) q) Y' Y) X' X0)
      ((if tri s'.L s.L kL && tri s'.S s.S kS then spin12 am12 s' s kL kS else 0) * (x * y)) := by
  refine (reduce12 (hl.spin kL kS hk) hO hX).congr fun M' _ q _ M _ => ?_
  refine couple_congr fun X' _ Y' _ X0 _ Y _ => ?_
  rw [← couple_product_left]
  refine couple_congr fun x' _ z' _ x _ z _ => ?_
  rw [couple_product]

/-- The orbital part of the centre-of-mass terms. -/
theorem orbital_reduced (hl : Laws cg am am12 C s' s p' p) {k1 k : ℕ}
    (hk : (k1, k) ∈ [(1, 1), (1, 2), (3, 2), (3, 3)]) :
    WE cg (2 * s'.L) (2 * k) (2 * s.L)
      (fun q => couple cg (2 * p'.lr) (2 * p'.lc) (2 * s'.L) (2 * p.lr) (2 * p.lc) (2 * s.L) fun x' z' x z =>
        product cg (2 * k1) 2 (2 * k) (fun u => C k1 p'.lr p.lr u x' x) (fun v => C 1 p'.lc p.lc v z' z) q)
      ((if tri p'.lr p.lr k1 && tri p'.lc p.lc 1 && tri s'.L s.L k then orbital12 am12 s' s p' p k1 k else 0)
        * (harmRME am12 p'.lr p.lr k1 * harmRME am12 p'.lc p.lc 1)) := by
  have hk1 : k1 ∈ [1, 2, 3] := by
    simp only [List.mem_cons, Prod.mk.injEq, List.not_mem_nil, or_false] at hk ⊢
    omega
  have h0 : k1 ≠ 0 := by
    simp only [List.mem_cons, List.not_mem_nil, or_false] at hk1
    omega
  have h := reduce12 (hl.both k1 k hk) (hl.harm k1 hk1) hl.harmCM
  rw [harmRME, harmRME, if_neg h0, if_neg one_ne_zero]
  exact h

/-- One of the centre-of-mass terms. -/
theorem term_reduced (hp : PairLaws cg am am12) (hl : Laws cg am am12 C s' s p' p) (hS' : s'.S ≤ 1) (hS : s.S ≤ 1)
    {k1 k S0 : ℕ} (hk : (k1, k) ∈ [(1, 1), (1, 2), (3, 2), (3, 3)]) (hS0 : S0 ≤ 2)
    (hkS : (k, S0) ∈ [(1, 0), (1, 2), (2, 2), (3, 2), (2, 1)]) (c r v : ℝ) {A : Int → Int → Cfg → Cfg → ℝ}
    {Y : Int → Int → Int → Int → Int → ℝ}
    (hY : WE cg (2 * s'.T) 2 (2 * s.T) (fun w => couple cg 1 1 (2 * s'.T) 1 1 (2 * s.T) (Y w)) v)
    (hA : ∀ q w (c' d : Cfg), c'.nr = p'.nr → c'.lr = p'.lr → c'.nc = p'.nc → c'.lc = p'.lc →
      d.nr = p.nr → d.lr = p.lr → d.nc = p.nc → d.lc = p.lc →
      A q w c' d = r * c * term cg C k1 k S0 q c' d * Y w c'.t1 c'.t2 d.t1 d.t2) :
    Reduced cg 1 1 A s' s p' p (r * aCM am am12 s' s p' p c S0 k1 k * v) := by
  have h := reduced_gen (J0 := 1) (T0 := 1) (r := r * c) (A := A)
    (Z := fun q x' z' a' b' x z a b => product cg (2 * k) (2 * S0) 2
      (fun u => product cg (2 * k1) 2 (2 * k) (fun u => C k1 p'.lr p.lr u x' x) (fun v => C 1 p'.lc p.lc v z' z) u)
      (fun v => pairK cg (2 * S0) v a' b' a b) q) Y
    (fun q w c' d h1 h2 h3 h4 h5 h6 h7 h8 => by
      rw [hA q w c' d h1 h2 h3 h4 h5 h6 h7 h8, term, h2, h4, h6, h8])
    (product_reduced hl hkS (orbital_reduced hl hk) (pairK_reduced hp hS' hS hS0)) hY
  refine h.cast ?_
  rw [aCM]
  cases tri s'.S s.S S0 <;> cases tri p'.lr p.lr k1 <;> cases tri p'.lc p.lc 1 <;> cases tri s'.L s.L k <;>
    simp only [Bool.and_true, Bool.true_and, Bool.and_false, Bool.false_and, if_true, if_false, Bool.false_eq_true] <;>
    ring

/-- The tensor term within the relative motion. -/
theorem tensor_reduced (hp : PairLaws cg am am12) (hl : Laws cg am am12 C s' s p' p) (hS' : s'.S ≤ 1) (hS : s.S ≤ 1)
    (hc : p'.lc = p.lc) (r v : ℝ) {A : Int → Int → Cfg → Cfg → ℝ} {Y : Int → Int → Int → Int → Int → ℝ}
    (hY : WE cg (2 * s'.T) 2 (2 * s.T) (fun w => couple cg 1 1 (2 * s'.T) 1 1 (2 * s.T) (Y w)) v)
    (hA : ∀ q w (c' d : Cfg), c'.nr = p'.nr → c'.lr = p'.lr → c'.nc = p'.nc → c'.lc = p'.lc →
      d.nr = p.nr → d.lr = p.lr → d.nc = p.nc → d.lc = p.lc →
      A q w c' d = r * (δ c'.mc d.mc * (Real.sqrt 10 * product cg 4 2 2 (fun u => C 2 c'.lr d.lr u c'.mr d.mr)
        (fun v => pairK cg 2 v c'.m1 c'.m2 d.m1 d.m2) q)) * Y w c'.t1 c'.t2 d.t1 d.t2) :
    Reduced cg 1 1 A s' s p' p (r * a6 am am12 s' s p' p * v) := by
  have h1 := reduce1 (hl.first hc) (hl.harm 2 (by simp))
  have h1' : WE cg (2 * s'.L) (2 * 2) (2 * s.L)
      (fun u => couple cg (2 * p'.lr) (2 * p'.lc) (2 * s'.L) (2 * p.lr) (2 * p.lc) (2 * s.L)
        (fun x' z' x z => C 2 p'.lr p.lr u x' x * δ z' z))
      ((if tri p'.lr p.lr 2 && tri s'.L s.L 2 then
        am.rose1 (2 * p'.lr) (2 * p'.lc) (2 * s'.L) (2 * p.lr) (2 * p.lc) (2 * s.L) 4 else 0)
        * (if tri p'.lr p.lr 2 then am12.cRME (2 * p'.lr) (2 * p.lr) (2 * 2) else 0)) := by
    rw [hc] at h1 ⊢
    exact h1
  have h := reduced_gen (J0 := 1) (T0 := 1) (r := r * Real.sqrt 10) (A := A)
    (Z := fun q x' z' a' b' x z a b => product cg (2 * 2) (2 * 1) 2 (fun u => C 2 p'.lr p.lr u x' x * δ z' z)
      (fun v => pairK cg (2 * 1) v a' b' a b) q) Y
    (fun q w c' d h1 h2 h3 h4 h5 h6 h7 h8 => by
      rw [hA q w c' d h1 h2 h3 h4 h5 h6 h7 h8, h2, h6]
      congr 1
      simp only [product, Finset.mul_sum]
      refine Finset.sum_congr rfl fun u _ => Finset.sum_congr rfl fun v _ => ?_
      push_cast
      ring)
    (product_reduced hl (by simp) h1' (pairK_reduced hp hS' hS (S0 := 1) (by omega))) hY
  refine h.cast ?_
  rw [a6, harmRME, harmRME, if_neg two_ne_zero]
  cases tri s'.S s.S 1 <;> cases tri p'.lr p.lr 2 <;> cases tri s'.L s.L 2 <;>
    simp only [hc, decide_true, Bool.and_true, Bool.true_and, Bool.and_false, Bool.false_and, if_true, if_false,
      Bool.false_eq_true] <;>
    ring

/-- The central term within the relative motion. -/
theorem central_reduced (hp : PairLaws cg am am12) (hl : Laws cg am am12 C s' s p' p) (hS' : s'.S ≤ 1) (hS : s.S ≤ 1)
    (hr : p'.lr = p.lr) (hc : p'.lc = p.lc) (r v : ℝ) {A : Int → Int → Cfg → Cfg → ℝ}
    {Y : Int → Int → Int → Int → Int → ℝ}
    (hY : WE cg (2 * s'.T) 2 (2 * s.T) (fun w => couple cg 1 1 (2 * s'.T) 1 1 (2 * s.T) (Y w)) v)
    (hA : ∀ q w (c' d : Cfg), c'.nr = p'.nr → c'.lr = p'.lr → c'.nc = p'.nc → c'.lc = p'.lc →
      d.nr = p.nr → d.lr = p.lr → d.nc = p.nc → d.lc = p.lc →
      A q w c' d = r * (δ c'.mc d.mc * (δ c'.mr d.mr * pairK cg 2 q c'.m1 c'.m2 d.m1 d.m2))
        * Y w c'.t1 c'.t2 d.t1 d.t2) :
    Reduced cg 1 1 A s' s p' p (r * a0 am am12 s' s p' p * v) := by
  have hU : WE cg (2 * s'.J) (2 * 1) (2 * s.J) (fun q => couple cg (2 * s'.L) (2 * s'.S) (2 * s'.J) (2 * s.L) (2 * s.S)
      (2 * s.J) fun X' Y' X Y => couple cg (2 * p'.lr) (2 * p'.lc) (2 * s'.L) (2 * p.lr) (2 * p.lc) (2 * s.L)
        (fun x' z' x z => couple cg 1 1 (2 * s'.S) 1 1 (2 * s.S) (fun a' b' a b =>
          δ z' z * (δ x' x * pairK cg 2 q a' b' a b)) Y' Y) X' X) (a0 am am12 s' s p' p) := by
    have key : ∀ X' ∈ ms (2 * s'.L), ∀ X ∈ ms (2 * s.L), ∀ q Y' Y,
        couple cg (2 * p'.lr) (2 * p'.lc) (2 * s'.L) (2 * p.lr) (2 * p.lc) (2 * s.L)
        (fun x' z' x z => couple cg 1 1 (2 * s'.S) 1 1 (2 * s.S) (fun a' b' a b =>
          δ z' z * (δ x' x * pairK cg 2 q a' b' a b)) Y' Y) X' X =
        (if 2 * s'.L = 2 * s.L then δ X' X else 0)
          * couple cg 1 1 (2 * s'.S) 1 1 (2 * s.S) (pairK cg 2 q) Y' Y := by
      intro X' hX' X hX q Y' Y
      rw [hr, hc, ← couple_ortho (hl.ortho hr hc) hX' hX, ← couple_mul]
      refine couple_congr fun x' _ z' _ x _ z _ => ?_
      rw [couple_smul, couple_smul]
      ring
    by_cases hL : s'.L = s.L
    · have h := reduce2 (hl.second hL) (pairK_reduced hp hS' hS (S0 := 1) (by omega))
      have e : (if tri s'.S s.S 1 then
          am.rose2 (2 * s'.L) (2 * s'.S) (2 * s'.J) (2 * s.L) (2 * s.S) (2 * s.J) 2 else 0)
          * spinFactors am am12 s'.S s.S 1 = a0 am am12 s' s p' p := by
        rw [a0]
        by_cases e1 : tri s'.S s.S 1 <;> simp [e1, hr, hL]
      rw [e] at h
      refine h.congr fun M' _ q _ M _ => ?_
      rw [← hL]
      refine couple_congr fun X' hX' Y' _ X hX Y _ => ?_
      have := key X' hX' X (by rwa [← hL]) q Y' Y
      rw [← hL] at this
      rw [this, if_pos rfl]
    · have e : a0 am am12 s' s p' p = 0 := by simp [a0, hL]
      rw [e]
      refine WE.zero fun M' _ q _ M _ => ?_
      rw [couple_congr (B := fun _ _ _ _ => 0) fun X' hX' Y' _ X hX Y _ => ?_, couple_zero]
      rw [key X' hX' X hX q Y' Y, if_neg (by omega), zero_mul]
  exact reduced_gen (J0 := 1) (T0 := 1) (r := r) (A := A)
    (Z := fun q x' z' a' b' x z a b => δ z' z * (δ x' x * pairK cg 2 q a' b' a b)) Y
    (fun q w c' d h1 h2 h3 h4 h5 h6 h7 h8 => hA q w c' d h1 h2 h3 h4 h5 h6 h7 h8) hU hY

end

end Verif.Relative.Relcm
