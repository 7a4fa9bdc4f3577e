import Verif.Relative.N2LOSpec
import Verif.Relative.ConstructTable

/-!
# A table of coefficients for the axial current
-/

namespace Verif.Relative.Ex
open Verif Verif.H2 Verif.Osc MeasureTheory Set

/-- The table with the coefficients `(2x 1y|1M)`. -/
noncomputable def cgx (a x b y j M : Int) : ℝ :=
  if a = 4 ∧ b = 2 ∧ j = 2 then
    (if x + y ≠ M then 0
      else if x = 0 then (if y = 0 then -(2 / √10) else 1 / √10)
      else if x = 4 ∨ x = -4 then √6 / √10
      else if y = 0 then -(√3 / √10) else √3 / √10)
  else cg a x b y j M

theorem cgx_eq {a x b y j M : Int} (h : a ≠ 4) : cgx a x b y j M = cg a x b y j M := by
  rw [cgx, if_neg (fun e => h e.1)]

theorem couple_x {a' b' j' a b j : ℕ} (h' : a' ≠ 4) (h : a ≠ 4) (A : Int → Int → Int → Int → ℝ) (M' M : Int) :
    couple cgx a' b' j' a b j A M' M = couple cg a' b' j' a b j A M' M := by
  simp only [couple]
  refine Finset.sum_congr rfl fun x' _ => Finset.sum_congr rfl fun y' _ => Finset.sum_congr rfl fun x _ =>
    Finset.sum_congr rfl fun y _ => ?_
  rw [cgx_eq (by omega), cgx_eq (by omega)]

theorem we_x {j' k j : ℕ} (h : j ≠ 4) {A : Int → Int → Int → ℝ} {x : ℝ} (hw : WE cg j' k j A x) : WE cgx j' k j A x := by
  intro m' hm' q hq m hm
  rw [hw m' hm' q hq m hm, cgx_eq (by omega)]

theorem red1_x {f : ℝ} {a' a b j' j k : ℕ} (h' : a' ≠ 4) (h : a ≠ 4) (hj : j ≠ 4) (hr : Reduces1 cg f a' a b j' j k) :
    Reduces1 cgx f a' a b j' j k := by
  refine we_x hj ?_
  intro m' hm' q hq m hm
  rw [← hr m' hm' q hq m hm]
  simp only []
  rw [couple_x h' h]
  refine couple_congr fun x' _ y' _ x _ y _ => ?_
  rw [cgx_eq (by omega)]

theorem red2_x {f : ℝ} {a b' b j' j k : ℕ} (h : a ≠ 4) (hb : b ≠ 4) (hj : j ≠ 4) (hr : Reduces2 cg f a b' b j' j k) :
    Reduces2 cgx f a b' b j' j k := by
  refine we_x hj ?_
  intro m' hm' q hq m hm
  rw [← hr m' hm' q hq m hm]
  simp only []
  rw [couple_x h h]
  refine couple_congr fun x' _ y' _ x _ y _ => ?_
  rw [cgx_eq (by omega)]

theorem ortho_x {a b j' j : ℕ} (h : a ≠ 4) (hr : OrthoLaw cg a b j' j) : OrthoLaw cgx a b j' j := by
  intro M' hM' M hM
  rw [← hr M' hM' M hM]
  refine Finset.sum_congr rfl fun x _ => Finset.sum_congr rfl fun y _ => ?_
  rw [cgx_eq (by omega), cgx_eq (by omega)]

theorem halfx : HalfLaws cgx am where
  ortho _ _ h' h := ortho_x (by omega) (half.ortho _ _ h' h)
  total S' S h' h := by
    intro q hq M' hM' M hM
    rw [couple_x (by omega) (by omega)]
    exact half.total S' S h' h q hq M' hM' M hM
  red1 _ _ h' h := red1_x (by omega) (by omega) (by omega) (half.red1 _ _ h' h)
  red2 _ _ h' h := red2_x (by omega) (by omega) (by omega) (half.red2 _ _ h' h)
  half := we_x (by omega) half.half
  vector S h := we_x (by omega) (half.vector S h)
  scalar S h := by
    intro m' hm' m hm
    rw [cgx_eq (by omega)]
    exact half.scalar S h m' hm' m hm
  zero q hq := by
    rw [cgx_eq (by omega)]
    exact half.zero q hq
  jrme := half.jrme

/-- Factors of the vector product of two spins. -/
noncomputable def cross12 (J' J : ℕ) : ℝ := if J' = 0 ∧ J = 2 then √2 / √3 else if J' = 2 ∧ J = 0 then √2 / 3 else 0

theorem product_two (A B : Int → ℝ) :
    product cgx 2 2 2 A B (-2) = 1 / √2 * (A 0 * B (-2) - A (-2) * B 0) ∧
    product cgx 2 2 2 A B 0 = 1 / √2 * (A 2 * B (-2) - A (-2) * B 2) ∧
    product cgx 2 2 2 A B 2 = 1 / √2 * (A 2 * B 0 - A 0 * B 2) := by
  refine ⟨?_, ?_, ?_⟩ <;> norm_num [product, ms2, cgx, cg] <;> ring

set_option maxHeartbeats 4000000 in
theorem half_cross {S' S : ℕ} (h' : S' ≤ 1) (h : S ≤ 1) :
    Reduces12 cgx (cross12 (2 * S') (2 * S)) 1 1 (2 * S') 1 1 (2 * S) 2 2 2 := by
  intro M' hM' q hq M hM
  rw [ms2] at hq
  simp only [Finset.mem_insert, Finset.mem_singleton] at hq
  rcases le_one h' with rfl | rfl <;> rcases le_one h with rfl | rfl <;>
    simp only [mul_zero, mul_one, ms0, ms2, Finset.mem_insert, Finset.mem_singleton] at hM hM' <;>
    rcases hM' with rfl | rfl | rfl <;> rcases hM with rfl | rfl | rfl <;> rcases hq with rfl | rfl | rfl <;>
    simp only [product_two] <;> norm_num [ms1, cgx, cg, couple, cross12] <;> field_simp <;> norm_num [s2', s3']

end Verif.Relative.Ex
