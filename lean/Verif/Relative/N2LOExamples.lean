import Verif.Relative.N2LOContact
import Verif.Relative.N2LOCartesian
import Verif.Relative.N2LOTable
import Verif.Relative.ConstructExamples

/-!
# The theorems on the axial current apply

to the channels `¹S0`, `³S1`, and to `³P0` and `¹P1`, where the tensor parts act.
-/

namespace Verif.Relative.Ex
open Verif Verif.H2 Verif.Osc MeasureTheory Set

/-- The factors that belong to it. -/
noncomputable def am12 : Am12 where
  rose12 _ _ J' a _ J _ _ _ :=
    if a = 1 then cross12 J' J else 1
  jj1 _ _ J' _ _ J := am.rose1 1 1 J' 1 1 J 2 * (√3 / 2)
  jj2 _ _ J' _ _ J := am.rose2 1 1 J' 1 1 J 2 * (√3 / 2)
  cRME _ _ _ := -(√2 / √5)

theorem sqrt_half : √(((1 : ℕ) : ℝ) * (((1 : ℕ) : ℝ) + 2) / 4) = √3 / 2 := by
  rw [Real.sqrt_div' _ (by norm_num), show (4 : ℝ) = 2 ^ 2 by norm_num, Real.sqrt_sq (by norm_num)]
  norm_num

theorem half_mat {q m' m : Int} (hm' : m' ∈ ms 1) (hq : q ∈ ms 2) (hm : m ∈ ms 1) :
    jmat 1 q m' m = cgx 1 m 2 q 1 m' * (√3 / 2) := by
  have := half.half m' hm' q hq m hm
  rw [sqrt_half] at this
  rw [cgx_eq (by omega)]
  exact this

theorem halfx12 : HalfLaws12 cgx am am12 where
  cross _ _ h' h _ := half_cross h' h
  cross0 := ⟨_, half_cross (S' := 0) (S := 0) (by omega) (by omega)⟩
  jj1 S' S h' h _ := by
    intro M' hM' q hq M hM
    have := halfx.red1 S' S h' h M' hM' q hq M hM
    simp only [am12]
    rw [← mul_assoc, ← this, mul_comm _ (√3 / 2)]
    simp only []
    rw [← couple_smul]
    refine couple_congr fun x' hx' y' _ x hx y _ => ?_
    rw [half_mat hx' hq hx]
    push_cast
    ring
  jj2 S' S h' h _ := by
    intro M' hM' q hq M hM
    have := halfx.red2 S' S h' h M' hM' q hq M hM
    simp only [am12]
    rw [← mul_assoc, ← this, mul_comm _ (√3 / 2)]
    simp only []
    rw [← couple_smul]
    refine couple_congr fun x' _ y' hy' x _ y hy => ?_
    rw [half_mat hy' hq hy]
    push_cast
    ring
  half := by
    intro m' hm' q hq m hm
    rw [half_mat hm' hq hm]
    have : am.jRME 1 1 = √3 / 2 := by
      rw [← sqrt_half]
      norm_num [am]
    rw [this]
    rfl

theorem sub_le {s : RelSub} (h : s ∈ [s0, s1, p1]) : s.L ≤ 1 ∧ s.S ≤ 1 ∧ s.J ≤ 1 := by
  simp only [List.mem_cons, List.not_mem_nil, or_false] at h
  rcases h with rfl | rfl | rfl <;> decide

theorem vecx : Axial.VecCg cgx where
  v1 u hu v hv q hq := by
    rw [cgx_eq (by omega)]
    norm_num [cg]
  v2 u hu v hv q hq := by
    rw [cgx, if_pos ⟨rfl, rfl, rfl⟩]

/-- `³P0` -/
def p0 : RelSub := ⟨1, 1, 0, 1, 2, 1⟩

/-- `C_2` between the waves in use. -/
noncomputable def harm2 (L' L : ℕ) (q m' m : Int) : ℝ :=
  if tri L' L 2 then cgx (2 * L : ℕ) m 4 q (2 * L' : ℕ) m' * -(√2 / √5) else 0

theorem p0_ok : SubOK 2 p0 := by constructor <;> decide

theorem s10' : √(10 : ℝ) ^ 2 = 10 := Real.sq_sqrt (by norm_num)
theorem s6' : √(6 : ℝ) ^ 2 = 6 := Real.sq_sqrt (by norm_num)

set_option maxHeartbeats 4000000 in
theorem p_both : Reduces12 cgx 1 2 2 0 2 0 2 4 2 2 := by
  intro M' hM' q hq M hM
  simp only [ms0, ms2, Finset.mem_insert, Finset.mem_singleton] at hM' hq hM
  subst hM'
  rcases hM with rfl | rfl | rfl <;> rcases hq with rfl | rfl | rfl <;>
    norm_num [ms0, ms2, ms4, cgx, cg, couple, product] <;> field_simp <;> norm_num [s2', s3', s10', s6']

theorem p_red2 : Reduces2 cgx 1 2 2 0 0 2 2 := by
  intro M' hM' q hq M hM
  simp only [ms0, ms2, Finset.mem_insert, Finset.mem_singleton] at hM' hq hM
  subst hM'
  rcases hM with rfl | rfl | rfl <;> rcases hq with rfl | rfl | rfl <;>
    norm_num [ms0, ms2, cgx, cg, couple, δ]

/-- The axial current from `¹P1` to `³P0` and between `¹S0` and `³S1`. -/
theorem n2lo_applies : ∀ p ∈ secs [(s0, s1), (s1, s0), (p0, p1)] 1,
    SecOK 2 ⟨1, 0, 1, 1⟩ 1 p.1 p.2 ∧ LSLaws cgx am p.1 p.2 ∧ TensorLaws cgx am am12 harm2 p.1 p.2 := by
  intro p hp
  simp only [secs, List.mem_cons, List.not_mem_nil, or_false] at hp
  have hx : ∀ {s' s : RelSub}, s' ∈ [s0, s1, p1] → s ∈ [s0, s1, p1] → LSLaws cgx am s' s := by
    intro s' s h' h
    have b' := sub_le h'
    have b := sub_le h
    have := ls h' h
    exact ⟨fun e1 e2 => ortho_x (by omega) (this.ortho e1 e2), fun m' hm' m hm => by
      rw [cgx_eq (by omega)]
      exact this.scalar m' hm' m hm, we_x (by omega) this.vector,
      fun e1 e2 e3 => red1_x (by omega) (by omega) (by omega) (this.red1 e1 e2 e3),
      fun e1 e2 e3 => red2_x (by omega) (by omega) (by omega) (this.red2 e1 e2 e3)⟩
  rcases hp with rfl | rfl | rfl
  · exact ⟨sec_ok (by decide) (by decide) (by decide), hx (by decide) (by decide),
      fun h => absurd rfl h, fun h => absurd h (by decide), fun h => absurd h (by decide), fun h q m' m => if_neg h⟩
  · exact ⟨sec_ok (by decide) (by decide) (by decide), hx (by decide) (by decide),
      fun h => absurd rfl h, fun h => absurd h (by decide), fun h => absurd h (by decide), fun h q m' m => if_neg h⟩
  · refine ⟨⟨p0_ok, sub_ok _ (by decide), by decide, by decide, by decide⟩, ?_, ?_⟩
    · have := hx (s' := p1) (s := p1) (by decide) (by decide)
      refine ⟨fun _ h => absurd h (by decide), this.scalar, this.vector, fun h => absurd h (by decide), fun _ _ _ => ?_⟩
      exact p_red2
    · refine ⟨fun h => absurd rfl h, fun _ _ _ => ?_, fun h m' _ q _ m _ => ?_, fun h q m' m => if_neg h⟩
      · exact p_both
      · exact if_pos h

example (cubic : List ℝ → List ℝ → ℝ) : ∃ op,
    constructN2LOGT am am12 cubic ⟨1, 0, 1, 1⟩ 2 (secs [(s0, s1), (s1, s0), (p0, p1)]) 1 1 10 = .ok op ∧
    Stores cgx 1 1 (Axial.current cgx harm2 (radialInt cubic 10 (√2 * 1)) (√2 * 1) 1
      (Axial.contactAll (radialInt cubic 10 (√2 * 1)) (√2 * 1) 1 (Axial.dConst 7.2)))
      (secs [(s0, s1), (s1, s0), (p0, p1)]) op :=
  (n2lo_stored_partial halfx halfx12 n2lo_applies cubic one_pos 10).1 _ (.inr ⟨by norm_num, rfl⟩) (by unfold AxialLabels; decide)

/-- The Cartesian form, with a direction along none of the axes. -/
example (Y T : ℂ) (s : Axial.Vec) {q : Int} (hq : q ∈ ms 2) :
    -Y * Axial.sph s q + (√10 : ℝ) * T * Axial.productC cgx 4 2 2 (Axial.harm ⟨1 / 3, 2 / 3, 2 / 3⟩) (Axial.sph s) q =
      -3 * Axial.sph (Axial.pot Y T ⟨1 / 3, 2 / 3, 2 / 3⟩ s) q :=
  Axial.c3_cartesian vecx Y T _ s (by norm_num) hq

example (Y T : ℂ) (s1 s2 t1 t2 : Axial.Vec) {q p : Int} (hq : q ∈ ms 2) (hp : p ∈ ms 2) :
    (2 * Y * Axial.productC cgx 2 2 2 (Axial.sph s1) (Axial.sph s2) q
        + (√10 : ℝ) * T * Axial.productC cgx 4 2 2 (Axial.harm ⟨1 / 3, 2 / 3, 2 / 3⟩)
          (Axial.productC cgx 2 2 2 (Axial.sph s1) (Axial.sph s2)) q)
      * Axial.productC cgx 2 2 2 (Axial.sph t1) (Axial.sph t2) p =
    -(3 / 2) * Axial.sph (Axial.crossPot Y T ⟨1 / 3, 2 / 3, 2 / 3⟩ s1 s2) q * Axial.sph (Axial.cross t1 t2) p :=
  Axial.c4_cartesian vecx Y T _ s1 s2 t1 t2 (by norm_num) hq hp

/-- The potential at a point along none of the axes. -/
example (i j : Fin 3) : ∃ d, Axial.HasPartial
    (fun x => x i * (-(Axial.yuk 1 (Axial.len x) * (1 + 1 / Axial.len x)) / Axial.len x)) j d ![1, 2, 2] :=
  ⟨_, Axial.yuk_hessian one_pos (fun h => by simpa using congrFun h 0) i j⟩

end Verif.Relative.Ex
