import Verif.Relative.States
import Verif.Relative.Construct

/-!
# Lemmas on reduced elements of relative operators
-/

namespace Verif.Relative
open Verif Verif.H2 Verif.Osc MeasureTheory Set

theorem reduced_prod {cg : Cg} {J0 T0 : ℕ} {A : Int → Int → Cfg → Cfg → ℝ} {s' s : RelSub} {n' n : ℕ} {r u v : ℝ}
    (O : Int → Int → Int → ℝ) (X Y : Int → Int → Int → Int → Int → ℝ)
    (hA : ∀ q p (c' c : Cfg), c'.n = n' → c'.L = s'.L → c.n = n → c.L = s.L →
      A q p c' c = r * (O q c'.mL c.mL * X q c'.m1 c'.m2 c.m1 c.m2) * Y p c'.t1 c'.t2 c.t1 c.t2)
    (hU : WE cg (2 * s'.J) (2 * J0) (2 * s.J) (fun q => couple cg (2 * s'.L) (2 * s'.S) (2 * s'.J) (2 * s.L) (2 * s.S)
      (2 * s.J) fun x' y' x y => O q x' x * couple cg 1 1 (2 * s'.S) 1 1 (2 * s.S) (X q) y' y) u)
    (hV : WE cg (2 * s'.T) (2 * T0) (2 * s.T) (fun p => couple cg 1 1 (2 * s'.T) 1 1 (2 * s.T) (Y p)) v) :
    Reduced cg J0 T0 A s' s n' n (r * u * v) := by
  intro M' hM' q hq M hM P' hP' p hp P hP
  rw [element_congr (B := fun c' c => r * (O q c'.mL c.mL * X q c'.m1 c'.m2 c.m1 c.m2) * Y p c'.t1 c'.t2 c.t1 c.t2)
    (hA q p), element_prod]
  have h1 := hU M' hM' q hq M hM
  have h2 := hV P' hP' p hp P hP
  simp only at h1 h2
  rw [h1, h2]
  ring

theorem Reduced.add {cg : Cg} {J0 T0 : ℕ} {A B : Int → Int → Cfg → Cfg → ℝ} {s' s : RelSub} {n' n : ℕ} {x y : ℝ}
    (hA : Reduced cg J0 T0 A s' s n' n x) (hB : Reduced cg J0 T0 B s' s n' n y) :
    Reduced cg J0 T0 (fun q p c' c => A q p c' c + B q p c' c) s' s n' n (x + y) := by
  intro M' hM' q hq M hM P' hP' p hp P hP
  rw [element_add, hA M' hM' q hq M hM P' hP' p hp P hP, hB M' hM' q hq M hM P' hP' p hp P hP]
  ring

theorem Reduced.congr {cg : Cg} {J0 T0 : ℕ} {A B : Int → Int → Cfg → Cfg → ℝ} {s' s : RelSub} {n' n : ℕ} {x : ℝ}
    (hA : Reduced cg J0 T0 A s' s n' n x)
    (h : ∀ q p (c' c : Cfg), c'.n = n' → c'.L = s'.L → c.n = n → c.L = s.L → B q p c' c = A q p c' c) :
    Reduced cg J0 T0 B s' s n' n x := by
  intro M' hM' q hq M hM P' hP' p hp P hP
  rw [element_congr (h q p), hA M' hM' q hq M hM P' hP' p hp P hP]

theorem Reduced.zero {cg : Cg} {J0 T0 : ℕ} {A : Int → Int → Cfg → Cfg → ℝ} {s' s : RelSub} {n' n : ℕ}
    (h : ∀ q p (c' c : Cfg), c'.n = n' → c'.L = s'.L → c.n = n → c.L = s.L → A q p c' c = 0) :
    Reduced cg J0 T0 A s' s n' n 0 := by
  intro M' hM' q hq M hM P' hP' p hp P hP
  rw [element_congr (h q p), element_zero, mul_zero]

theorem zero_mem_ms : (0 : Int) ∈ ms 0 := by decide

theorem mem_ms_zero {x : Int} : x ∈ ms 0 ↔ x = 0 := by
  simp [ms, eq_comm]

theorem jmat_zero (q m' m : Int) (hm' : m' ∈ ms 0) (hm : m ∈ ms 0) : jmat 0 q m' m = 0 := by
  rw [mem_ms_zero] at hm' hm
  subst hm' hm
  simp [jmat]

theorem tri_zero {a c : ℕ} : tri a 0 c = true ↔ a = c := by
  simp only [tri, decide_eq_true_eq]
  omega

section half
variable {cg : Cg} {am : Am} (hh : HalfLaws cg am) {S' S : ℕ} (hS' : S' ≤ 1) (hS : S ≤ 1)
include hh hS' hS

theorem id_couple {y' y : Int} (hy' : y' ∈ ms (2 * S')) (hy : y ∈ ms (2 * S)) :
    couple cg 1 1 (2 * S') 1 1 (2 * S) idPair y' y = if S' = S then δ y' y else 0 := by
  have := couple_ortho (hh.ortho S' S hS' hS) hy' hy
  rw [show idPair = fun x' y' x y => δ x' x * δ y' y from rfl, this]
  by_cases h : S' = S
  · rw [if_pos h, if_pos (by rw [h])]
  · rw [if_neg h, if_neg (by omega)]

theorem sum_couple {q y' y : Int} (hq : q ∈ ms 2) (hy' : y' ∈ ms (2 * S')) (hy : y ∈ ms (2 * S)) :
    couple cg 1 1 (2 * S') 1 1 (2 * S) (sumPair q) y' y = if S' = S then jmat (2 * S) q y' y else 0 := by
  have := hh.total S' S hS' hS q hq y' hy' y hy
  rw [show sumPair q = fun x' y' x y => jmat 1 q x' x * δ y' y + δ x' x * jmat 1 q y' y from rfl, this]
  by_cases h : S' = S
  · rw [if_pos h, if_pos (by rw [h])]
  · rw [if_neg h, if_neg (by omega)]

theorem id_we : WE cg (2 * S') (2 * 0) (2 * S) (fun _ => couple cg 1 1 (2 * S') 1 1 (2 * S) idPair)
    (if S' = S then 1 else 0) := by
  intro m' hm' q hq m hm
  simp only
  rw [id_couple hh hS' hS hm' hm]
  by_cases h : S' = S
  · subst h
    rw [mul_zero, mem_ms_zero] at hq
    subst hq
    have := hh.scalar S' hS' m' hm' m hm
    rw [if_pos rfl, if_pos rfl, mul_one, ← this]
    rfl
  · rw [if_neg h, if_neg h, mul_zero]

theorem sum_we : WE cg (2 * S') 2 (2 * S) (fun q => couple cg 1 1 (2 * S') 1 1 (2 * S) (sumPair q))
    (if S' = S then Real.sqrt (((S * (S + 1) : ℕ) : ℝ)) else 0) := by
  intro m' hm' q hq m hm
  simp only
  rw [sum_couple hh hS' hS hq hm' hm]
  by_cases h : S' = S
  · subst h
    rw [if_pos rfl, if_pos rfl, hh.vector S' hS' m' hm' q hq m hm]
    congr 2
    push_cast
    ring
  · rw [if_neg h, if_neg h, mul_zero]

theorem iso_we {T0 : ℕ} (hT0 : T0 = 0 ∨ T0 = 1) :
    WE cg (2 * S') (2 * T0) (2 * S) (fun p => couple cg 1 1 (2 * S') 1 1 (2 * S) (isoPair T0 p))
      (if S' = S then isoFactor T0 S else 0) := by
  rcases hT0 with rfl | rfl
  · have h := id_we hh hS' hS
    have e : (fun p : Int => couple cg 1 1 (2 * S') 1 1 (2 * S) (isoPair 0 p)) =
        fun _ => couple cg 1 1 (2 * S') 1 1 (2 * S) idPair := by
      funext p
      rfl
    rw [e]
    simpa [isoFactor] using h
  · have h := (sum_we hh hS' hS).smul 2
    have e : (fun p : Int => couple cg 1 1 (2 * S') 1 1 (2 * S) (isoPair 1 p)) =
        fun q m' m => 2 * couple cg 1 1 (2 * S') 1 1 (2 * S) (sumPair q) m' m := by
      funext p m' m
      rw [← couple_smul]
      rfl
    rw [e]
    refine (show (if S' = S then isoFactor 1 S else 0) = 2 * (if S' = S then Real.sqrt (((S * (S + 1) : ℕ) : ℝ)) else 0) by
      simp only [isoFactor, if_true]; split <;> simp) ▸ h

end half

theorem half_vec {cg : Cg} {am : Am} (hh : HalfLaws cg am) : WE cg 1 2 1 (jmat 1) (Real.sqrt 3 / 2) := by
  have h := hh.half
  rw [VectorLaw] at h
  have e : Real.sqrt (((1 : ℕ) : ℝ) * (((1 : ℕ) : ℝ) + 2) / 4) = Real.sqrt 3 / 2 := by
    rw [show (((1 : ℕ) : ℝ) * (((1 : ℕ) : ℝ) + 2) / 4) = 3 / 2 ^ 2 by norm_num, Real.sqrt_div' _ (by norm_num),
      Real.sqrt_sq (by norm_num)]
  rwa [e] at h

/-! ## Orbital and spin parts -/

/-- Scalars: identity in orbital motion and spin. -/
theorem scalar_ls {cg : Cg} {am : Am} (hh : HalfLaws cg am) {s' s : RelSub} (h : LSLaws cg am s' s) (hS' : s'.S ≤ 1)
    (hS : s.S ≤ 1) (hL : s'.L = s.L) (hJ : s'.J = s.J) :
    WE cg (2 * s'.J) (2 * 0) (2 * s.J) (fun _ => couple cg (2 * s'.L) (2 * s'.S) (2 * s'.J) (2 * s.L) (2 * s.S)
      (2 * s.J) fun x' y' x y => δ x' x * couple cg 1 1 (2 * s'.S) 1 1 (2 * s.S) idPair y' y)
      (if s'.S = s.S then 1 else 0) := by
  intro M' hM' q hq M hM
  simp only
  rw [couple_congr (B := fun x' y' x y => (if s'.S = s.S then 1 else 0) * (δ x' x * δ y' y)) fun x' _ y' hy' x _ y hy => by
    rw [id_couple hh hS' hS hy' hy]; split <;> simp]
  rw [couple_smul]
  by_cases hSS : s'.S = s.S
  · rw [if_pos hSS, one_mul, mul_one]
    have := couple_ortho (h.ortho hL hSS) hM' hM
    rw [hL, hSS, this, if_pos (by rw [hJ])]
    rw [mul_zero, mem_ms_zero] at hq
    subst hq
    rw [hJ] at hM' ⊢
    rw [← h.scalar M' hM' M hM]
    rfl
  · rw [if_neg hSS]
    ring

/-- Operators on the orbital motion of rank 1. -/
theorem orbital_ls {cg : Cg} {am : Am} (hh : HalfLaws cg am) {s' s : RelSub} (h : LSLaws cg am s' s) (hS' : s'.S ≤ 1)
    (hS : s.S ≤ 1) (hL : tri s'.L 1 s.L) (hJ : tri s'.J 1 s.J) (O : Int → Int → Int → ℝ) {x : ℝ}
    (hO : WE cg (2 * s'.L) 2 (2 * s.L) O x) :
    WE cg (2 * s'.J) 2 (2 * s.J) (fun q => couple cg (2 * s'.L) (2 * s'.S) (2 * s'.J) (2 * s.L) (2 * s.S)
      (2 * s.J) fun x' y' x y => O q x' x * couple cg 1 1 (2 * s'.S) 1 1 (2 * s.S) idPair y' y)
      (if s'.S = s.S then am.rose1 (2 * s'.L) (2 * s'.S) (2 * s'.J) (2 * s.L) (2 * s.S) (2 * s.J) 2 * x else 0) := by
  by_cases hSS : s'.S = s.S
  · rw [if_pos hSS]
    refine (reduce1 (h.red1 hSS hL hJ) hO).congr fun M' _ q _ M _ => ?_
    rw [← hSS]
    refine couple_congr fun x' _ y' hy' x _ y hy => ?_
    rw [id_couple hh hS' hS' hy' hy, if_pos rfl]
  · rw [if_neg hSS]
    refine WE.zero fun M' _ q _ M _ => ?_
    rw [couple_congr (B := fun _ _ _ _ => 0) fun x' _ y' hy' x _ y hy => by
      rw [id_couple hh hS' hS hy' hy, if_neg hSS, mul_zero], couple_zero]

/-- Operators on the spins of rank 1. -/
theorem spin_ls {cg : Cg} {am : Am} {s' s : RelSub} (h : LSLaws cg am s' s)
    (hL : s'.L = s.L) (hS : tri s'.S 1 s.S) (hJ : tri s'.J 1 s.J)
    (X : Int → Int → Int → Int → Int → ℝ) {x : ℝ}
    (hX : WE cg (2 * s'.S) 2 (2 * s.S) (fun q => couple cg 1 1 (2 * s'.S) 1 1 (2 * s.S) (X q)) x) :
    WE cg (2 * s'.J) 2 (2 * s.J) (fun q => couple cg (2 * s'.L) (2 * s'.S) (2 * s'.J) (2 * s.L) (2 * s.S)
      (2 * s.J) fun x' y' x y => δ x' x * couple cg 1 1 (2 * s'.S) 1 1 (2 * s.S) (X q) y' y)
      (am.rose2 (2 * s'.L) (2 * s'.S) (2 * s'.J) (2 * s.L) (2 * s.S) (2 * s.J) 2 * x) := by
  have := reduce2 (h.red2 hL hS hJ) hX
  refine this.congr fun M' _ q _ M _ => ?_
  rw [← hL]

/-- Spins coupled to zero on both sides have no element of rank 1. -/
theorem spin_ls_zero {cg : Cg} {am : Am} (hh : HalfLaws cg am) {s' s : RelSub} (hS' : s'.S = 0) (hS : s.S = 0)
    (O : Int → Int → ℝ) (X : Int → Int → Int → Int → Int → ℝ) {x : ℝ}
    (hX : WE cg (2 * s'.S) 2 (2 * s.S) (fun q => couple cg 1 1 (2 * s'.S) 1 1 (2 * s.S) (X q)) x) :
    WE cg (2 * s'.J) 2 (2 * s.J) (fun q => couple cg (2 * s'.L) (2 * s'.S) (2 * s'.J) (2 * s.L) (2 * s.S)
      (2 * s.J) fun x' y' x y => O x' x * couple cg 1 1 (2 * s'.S) 1 1 (2 * s.S) (X q) y' y) 0 := by
  refine WE.zero fun M' _ q hq M _ => ?_
  rw [couple_congr (B := fun _ _ _ _ => 0) fun x' _ y' hy' x _ y hy => ?_, couple_zero]
  have := hX y' hy' q hq y hy
  simp only at this
  rw [this]
  rw [hS'] at hy' ⊢
  rw [hS] at hy ⊢
  rw [mul_zero, mem_ms_zero] at hy' hy
  subst hy' hy
  have z := hh.zero q hq
  norm_num [z]

end Verif.Relative
