import Verif.Relative.NLOM1Table
import Verif.Relative.NLOM1Cartesian

/-!
# Cases of the magnetic dipole current
-/

namespace Verif.Relative.Relcm.Ex
open Verif Verif.H2 Verif.Osc Verif.Relative Axial Real
open Verif.Mixer.Control Verif.Relative.Gen

/-! ## The laws -/

/-- The reduction factors in use. -/
noncomputable def am12 : Am12 where
  rose12 a _ J' _ b J _ _ k :=
    if a = 1 then
      if J' = 0 ∧ J = 0 then 1/3 * √3
      else if J' = 0 ∧ J = 2 then 1/3 * √2 * √3
      else if J' = 2 ∧ J = 0 then 1/3 * √2
      else if k = 0 then -(1/9 * √3) else if k = 2 then 0 else 2/9 * √3 * √5
    else if b = 2 then 1/3 * √3 else 1
  jj1 _ _ _ _ _ _ := 0
  jj2 _ _ _ _ _ _ := 0
  cRME _ _ _ := -1

noncomputable def am : Am where
  rose1 _ _ _ _ _ _ _ := 0
  rose2 _ _ _ _ _ _ _ := 1
  threeJ _ _ _ := 0
  sixJ _ _ _ _ _ _ := 0
  jRME _ _ := 1/2 * √3

theorem pair_laws : PairLaws racah am am12 where
  pair S' S S0 h' h h0 := by
    rcases (by omega : S' = 0 ∨ S' = 1) with rfl | rfl <;> rcases (by omega : S = 0 ∨ S = 1) with rfl | rfl <;>
      rcases (by omega : S0 = 0 ∨ S0 = 1 ∨ S0 = 2) with rfl | rfl | rfl <;> simp only [tri, am12]
    · exact pair000
    · exact pair001
    · exact pair002
    · exact pair010
    · exact pair011
    · exact pair012
    · exact pair100
    · exact pair101
    · exact pair102
    · exact pair110
    · exact pair111
    · exact pair112
  odd := by norm_num [am12]
  half := by
    have q2 : √2 ^ 2 = 2 := Real.sq_sqrt (by norm_num)
    have q3 : √3 ^ 2 = 3 := Real.sq_sqrt (by norm_num)
    have q4 : √4 = 2 := by rw [show (4 : ℝ) = 2 ^ 2 by norm_num, Real.sqrt_sq (by norm_num)]
    intro m' hm' q hq m hm
    rw [m1] at hm hm'
    rw [m2] at hq
    simp only [Finset.mem_insert, Finset.mem_singleton] at hm hm' hq
    have z1 : ∀ u v q : Int, u + v ≠ q → racah 1 u 2 v 1 q = 0 := fun u v q h => racah_zero h
    rcases hm' with rfl | rfl <;> rcases hq with rfl | rfl | rfl <;> rcases hm with rfl | rfl <;>
      norm_num [jmat, am, z1, d121_m1_0, d121_m1_2, d121_1_m2, d121_1_0, q4] <;> field_simp <;> norm_num [q2, q3]

/-- `C_k` between the waves in use. -/
noncomputable def harms (k l' l : ℕ) (q m' m : Int) : ℝ :=
  if tri l' l k then racah (2 * l : ℕ) m (2 * k : ℕ) q (2 * l' : ℕ) m' * -1 else 0

/-- `¹S0` -/
def sB : Sub := ⟨0, 0, 0, 1, 0, [⟨0, 0, 0, 0⟩]⟩
/-- `³S1` -/
def sA : Sub := ⟨0, 1, 1, 0, 0, [⟨0, 0, 0, 0⟩]⟩
/-- `¹P1` with the centre of mass in a P wave, coupled to `L = 1` -/
def sC : Sub := ⟨1, 0, 1, 0, 0, [⟨1, 1, 1, 1⟩]⟩

theorem harms_we (k l' l : ℕ) : WE racah (2 * l') (2 * k) (2 * l) (harms k l' l) (if tri l' l k then am12.cRME (2 * l') (2 * l) (2 * k) else 0) := by
  intro m' _ q _ m _
  rw [harms]
  split_ifs
  · rfl
  · ring

theorem laws_BA : Laws racah am am12 harms sB sA ⟨0, 0, 0, 0⟩ ⟨0, 0, 0, 0⟩ where
  both k1 k h := by
    simp only [List.mem_cons, Prod.mk.injEq, List.not_mem_nil, or_false] at h
    rw [if_neg (by simp only [tri, Bool.and_eq_true, decide_eq_true_eq]; omega)]
    exact reduces12_zero1 (by simp only; omega)
  first _ := by
    intro M' _ q _ M _
    rw [if_neg (by decide), mul_zero]
    simp only [mul_zero, couple]
    repeat refine Finset.sum_eq_zero fun _ _ => ?_
    beta_reduce
    rw [racah_tri (a := (0 : ℕ)) (b := (4 : ℕ)) (c := (0 : ℕ)) (by norm_num)]
    ring
  ortho _ _ := by
    intro M' hM' M hM
    rw [show ms (2 * sB.L) = {0} from by decide] at hM'
    rw [show ms (2 * sA.L) = {0} from by decide] at hM
    simp only [Finset.mem_singleton] at hM hM'
    subst hM hM'
    simp [m0, sA, sB, d000_0_0, δ]
  spin kL kS h := by
    simp only [List.mem_cons, Prod.mk.injEq, List.not_mem_nil, or_false] at h
    rcases h with ⟨rfl, rfl⟩ | ⟨rfl, rfl⟩ | ⟨rfl, rfl⟩ | ⟨rfl, rfl⟩ | ⟨rfl, rfl⟩
    all_goals
      rw [if_neg (by decide)]
      exact reduces12_zero1 (by decide)
  second _ := by
    rw [if_pos (by decide)]
    intro M' hM' q hq M hM
    rw [show ms (2 * sB.J) = {0} from by decide] at hM'
    rw [show ms (2 * sA.J) = {-2, 0, 2} from by decide] at hM
    rw [m2] at hq
    have z2 : ∀ u v q : Int, u + v ≠ q → racah 2 u 2 v 0 q = 0 := fun u v q h => racah_zero h
    have z0 : ∀ u v q : Int, u + v ≠ q → racah 0 u 2 v 2 q = 0 := fun u v q h => racah_zero h
    simp only [Finset.mem_insert, Finset.mem_singleton] at hM hM' hq
    subst hM'
    rcases hM with rfl | rfl | rfl <;> rcases hq with rfl | rfl | rfl <;>
      simp [couple, m0, m2, sA, sB, am, d000_0_0, d022_0_m2, d022_0_0, d022_0_2, δ, c110_m1_1, c110_0_0, c110_1_m1, z2, z0]
  harm k _ := harms_we k 0 0
  harmCM := harms_we 1 0 0
  parity _ q m' m := by rw [harms, if_neg (by decide)]

set_option maxHeartbeats 4000000 in
theorem both11 : Reduces12 racah (1/3 * √3) 0 0 0 2 2 2 2 2 2 := by
  have q2 : √2 ^ 2 = 2 := Real.sq_sqrt (by norm_num)
  have q3 : √3 ^ 2 = 3 := Real.sq_sqrt (by norm_num)
  have z0 : ∀ u v q : Int, u + v ≠ q → racah 2 u 2 v 0 q = 0 := fun u v q h => racah_zero h
  have z2 : ∀ u v q : Int, u + v ≠ q → racah 2 u 2 v 2 q = 0 := fun u v q h => racah_zero h
  refine reduces12_of fun M' hM' q hq M hM e => ?_
  simp only [m0, m2, Finset.mem_insert, Finset.mem_singleton] at hM' hq hM
  rw [couple, m0, m2]
  subst hM'
  rcases hM with rfl | rfl | rfl <;> rcases hq with rfl | rfl | rfl <;> simp at e <;>
    simp [r222_m2, r222_0, r222_2, z0, z2, d000_0_0, c110_m1_1, c110_0_0, c110_1_m1, c111_m1_0, c111_0_m1, c111_m1_1,
      c111_0_0, c111_1_m1, c111_0_1, c111_1_0] <;> ring_nf <;> simp only [q2, q3] <;> ring_nf

set_option maxHeartbeats 4000000 in
theorem both12 : Reduces12 racah 0 0 0 0 2 2 2 2 2 4 := by
  have z0 : ∀ u v q : Int, u + v ≠ q → racah 2 u 2 v 0 q = 0 := fun u v q h => racah_zero h
  have z2 : ∀ u v q : Int, u + v ≠ q → racah 2 u 2 v 2 q = 0 := fun u v q h => racah_zero h
  refine reduces12_of fun M' hM' q hq M hM e => ?_
  simp only [m0, m2, m4, Finset.mem_insert, Finset.mem_singleton] at hM' hq hM
  rw [couple, m0, m2]
  subst hM'
  rcases hM with rfl | rfl | rfl <;> rcases hq with rfl | rfl | rfl | rfl | rfl <;> simp at e <;>
    simp [r224_m2, r224_0, r224_2, z0, z2, d000_0_0, c110_m1_1, c110_0_0, c110_1_m1, c111_m1_0, c111_0_m1, c111_m1_1,
      c111_0_0, c111_1_m1, c111_0_1, c111_1_0]

theorem spin10 : Reduces12 racah 1 0 0 0 2 0 2 2 0 2 := by
  have z0 : ∀ u v q : Int, u + v ≠ q → racah 2 u 2 v 0 q = 0 := fun u v q h => racah_zero h
  have z2 : ∀ u v q : Int, u + v ≠ q → racah 2 u 0 v 2 q = 0 := fun u v q h => racah_zero h
  refine reduces12_of fun M' hM' q hq M hM e => ?_
  simp only [m0, m2, Finset.mem_insert, Finset.mem_singleton] at hM' hq hM
  rw [couple, m0, m2]
  subst hM'
  rcases hM with rfl | rfl | rfl <;> rcases hq with rfl | rfl | rfl <;> simp at e <;>
    simp [product, m0, m2, z2, d000_0_0, c101_m1_0, c101_0_0, c101_1_0]

theorem laws_BC : Laws racah am am12 harms sB sC ⟨0, 0, 0, 0⟩ ⟨1, 1, 1, 1⟩ where
  both k1 k h := by
    simp only [List.mem_cons, Prod.mk.injEq, List.not_mem_nil, or_false] at h
    rcases h with ⟨rfl, rfl⟩ | ⟨rfl, rfl⟩ | ⟨rfl, rfl⟩ | ⟨rfl, rfl⟩
    · rw [if_pos (by decide)]
      norm_num [am12, sB, sC]
      exact both11
    · rw [if_neg (by decide)]
      exact both12
    · rw [if_neg (by decide)]
      exact reduces12_zero1 (by decide)
    · rw [if_neg (by decide)]
      exact reduces12_zero1 (by decide)
  first h := absurd h (by decide)
  ortho h := absurd h (by decide)
  spin kL kS h := by
    simp only [List.mem_cons, Prod.mk.injEq, List.not_mem_nil, or_false] at h
    rcases h with ⟨rfl, rfl⟩ | ⟨rfl, rfl⟩ | ⟨rfl, rfl⟩ | ⟨rfl, rfl⟩ | ⟨rfl, rfl⟩
    · rw [if_pos (by decide)]
      norm_num [am12, sB, sC]
      exact spin10
    all_goals
      rw [if_neg (by decide)]
      exact reduces12_zero2 (by decide)
  second h := absurd h (by decide)
  harm k _ := harms_we k 0 1
  harmCM := harms_we 1 0 1
  parity h := absurd h (by decide)

/-! ## A run -/

/-- Numbers of one digit. -/
noncomputable def nm : Numbers where
  num? w := if w = "0" then some 0 else if w = "1" then some 1 else if w = "2" then some 2 else none
  int? w := if w = "0" then some 0 else if w = "1" then some 1 else if w = "2" then some 2 else none

noncomputable def lib : Lib where
  am := am
  am12 := am12
  cubic _ _ := 0
  space _ := [sB, sA, sC]

theorem sub_ok : ∀ s ∈ [sB, sA, sC], SubOK 2 s := by
  intro s hs
  simp only [List.mem_cons, List.not_mem_nil, or_false] at hs
  rcases hs with rfl | rfl | rfl <;> refine ⟨by decide, by decide, fun p hp => ?_⟩ <;>
    simp only [sB, sA, sC, List.mem_singleton] at hp <;> subst hp <;> constructor <;> decide

theorem sectors_eq : sectorsOf ⟨1, 0, 1, 1⟩ [sB, sA, sC] 1 = [(sB, sA), (sB, sC)] := by decide

theorem given : Given racah harms lib ⟨1, 0, 1, 1⟩ 2 where
  pair := pair_laws
  sub := sub_ok
  laws sec hsec p' hp' p hp := by
    rw [show lib.space 2 = [sB, sA, sC] from rfl, sectors_eq] at hsec
    simp only [List.mem_cons, List.not_mem_nil, or_false] at hsec
    rcases hsec with rfl | rfl <;> simp only [sB, sA, sC, List.mem_singleton] at hp hp' <;> subst hp hp'
    · exact laws_BA
    · exact laws_BC

/-- A control file. -/
def file (J0 name : String) : Input := ⟨[[J0, "0", "1", "1"], ["2"], [name, "1", "2", "2"], ["out"]], true⟩

theorem file_ok : ControlFile nm (file "1" "LENPIC-NLOM1") ⟨1, 0, 1, 1, 2, .nlom1 1 2 2, "out"⟩ :=
  ⟨⟨"1", "0", "1", "1", [], rfl, by simp [nm], by simp [nm], by simp [nm], by simp [nm]⟩, ⟨"2", [], rfl, by simp [nm]⟩,
    .nlom1 (by simp [nm]) (by simp [nm]) (by simp [nm]), [], rfl⟩

/-- The laws hold of true coefficients, with the two sectors of the space. -/
example : ∃ out, run nm lib (file "1" "LENPIC-NLOM1") = .ok out ∧ out.file = "out" ∧
    out.sectors 1 = [(sB, sA), (sB, sC)] ∧
    Stores racah 1 1 (Relcm.m1 racah harms (radialInt lib.cubic 3000 (√2 * 2)) 1 2 rootError) out.sectors out.blocks := by
  obtain ⟨out, h1, h2, _, _, h5, h6⟩ := relcm_gen_writes (lib := lib) file_ok rfl
    ⟨by decide, by decide, by decide, by decide, by decide⟩ ⟨by decide, by decide, by decide, by decide⟩ (by norm_num) given
  exact ⟨out, h1, h2, by rw [h5]; exact sectors_eq, h6⟩

example : ∃ op, constructNLOM1 am am12 lib.cubic ⟨1, 0, 0, 2⟩ 2 (fun t => sectorsOf ⟨1, 0, 1, 1⟩ [sB, sA, sC] t) 1 2 10 = .ok op ∧
    Stores racah 1 1 (Relcm.m1 racah harms (radialInt lib.cubic 10 (√2 * 2)) 1 2 rootError)
      (fun t => sectorsOf ⟨1, 0, 1, 1⟩ [sB, sA, sC] t) op := by
  refine (nlom1_stored pair_laws (fun sec hsec => ?_) lib.cubic 1 (by norm_num) 10).1
    ⟨by decide, by decide, by decide, by decide⟩
  obtain ⟨s', s⟩ := sec
  obtain ⟨_, i, j, _, hi, hj, _⟩ := mem_sectorsOf.mp hsec
  exact ⟨sub_ok _ (List.mem_of_getElem? hi), sub_ok _ (List.mem_of_getElem? hj), given.laws _ hsec⟩

/-- A scalar is refused, and so is another operator. -/
example : run nm lib (file "0" "LENPIC-NLOM1") = .error .exitFailure :=
  relcm_gen_labels_refused (p := ⟨0, 0, 1, 1, 2, .nlom1 1 2 2, "out"⟩) (control_file.mp (by
    simp [readParams, file, Input.line, int, word, num, nm, readChoice, Except.ok_bind'])) rfl
    ⟨by decide, by decide, by decide, by decide, by decide⟩ (by unfold M1Labels; decide)

example : run nm lib (file "1" "LENPIC-N2LOGT") = .error .exitFailure :=
  relcm_gen_unknown_refused (p := ⟨1, 0, 1, 1, 2, .other "LENPIC-N2LOGT", "out"⟩) (control_file.mp (by
    simp [readParams, file, Input.line, int, word, nm, readChoice, Except.ok_bind'])) rfl

/-- One step or two, the result is the same. -/
example : run nm lib (file "1" "LENPIC-NLOM1") =
    run nm lib ⟨[["1", "0", "1", "1"], ["2"], ["LENPIC-NLOM1", "1", "2", "1"], ["out"]], true⟩ :=
  relcm_gen_steps_ignored (p := ⟨1, 0, 1, 1, 2, .other "", "out"⟩) (n' := 1) file_ok (control_file.mp (by
    simp [readParams, Input.line, int, word, num, nm, readChoice, Except.ok_bind']))

/-- Nucleons one fermi apart along the `z` axis, the centre of mass at two along `x`, spins and isospins along axes:
the moment along `z` is the intrinsic one. -/
example : magnetic 1 2 ⟨0, 0, 1⟩ ⟨1, 0, 0⟩ ⟨1, 0, 0⟩ ⟨0, 1, 0⟩ ⟨1, 0, 0⟩ ⟨0, 1, 0⟩ 0 0 =
    -(√(3 / (4 * Real.pi)) * (1.29 ^ 2 * mN * mpi / (16 * Real.pi * fpi ^ 2) * Real.exp (-mpi)) * (1 / mpi) : ℝ) := by
  simp only [magnetic, opePotential, sph, cross, dot, S12, lin, along]
  push_cast
  norm_num
  ring

/-- Its axes meet the hypotheses of the Cartesian form. -/
example := m1_cartesian (ρ := 1) one_pos 2 ⟨0, 0, 1⟩ ⟨1, 0, 0⟩ ⟨1, 0, 0⟩ ⟨0, 1, 0⟩ ⟨1, 0, 0⟩ ⟨0, 1, 0⟩ (by norm_num) (q := 0)
  (p := 0) (by decide) (by decide) (F := fun k => Real.exp (-(mpi * 1)) / 1 ^ k / mpi ^ k) fun _ => rfl

end Verif.Relative.Relcm.Ex
