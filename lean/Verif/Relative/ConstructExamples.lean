import Verif.Relative.ConstructMultipole
import Verif.Relative.ConstructCasimir
import Verif.Relative.ConstructTable

/-!
# The theorems on the constructors apply

to the channels `¹S0`, `³S1` and `¹P1` of a space with two quanta, with the coefficients of `ConstructTable`.
-/

namespace Verif.Relative.Ex
open Verif Verif.H2 Verif.Osc MeasureTheory Set

/-- `¹S0` -/
def s0 : RelSub := ⟨0, 0, 0, 1, 2, 2⟩
/-- `³S1` -/
def s1 : RelSub := ⟨0, 1, 1, 0, 2, 2⟩
/-- `¹P1` -/
def p1 : RelSub := ⟨1, 0, 1, 0, 2, 1⟩

theorem sub_ok : ∀ s ∈ [s0, s1, p1], SubOK 2 s := by
  intro s hs
  simp only [List.mem_cons, List.not_mem_nil, or_false] at hs
  rcases hs with rfl | rfl | rfl <;> constructor <;> decide

theorem sec_ok {o : OpLabels} {T0 : ℕ} {s' s : RelSub} (h' : s' ∈ [s0, s1, p1]) (h : s ∈ [s0, s1, p1])
    (hd : (tri s'.J o.J0 s.J && tri s'.T T0 s.T && decide ((s'.L + s.L + o.g0) % 2 = 0)) = true) : SecOK 2 o T0 s' s := by
  simp only [Bool.and_eq_true, decide_eq_true_eq] at hd
  exact ⟨sub_ok _ h', sub_ok _ h, hd.1.1, hd.1.2, hd.2⟩

theorem cg_right {j m m' : Int} : cg j m 0 0 j m' = δ m' m := by
  by_cases h : m = m'
  · subst h; simp [cg, δ]
  · simp [cg, δ, h, Ne.symm h]

theorem cg_left {j m m' : Int} : cg 0 0 j m j m' = δ m' m := by
  by_cases h : m = m'
  · subst h
    by_cases hj : j = 0 <;> simp [cg, δ, hj]
  · simp [cg, δ, h, Ne.symm h]

theorem delta_comm (x y : Int) : δ x y = δ y x := by
  by_cases h : x = y
  · rw [h]
  · simp [δ, h, Ne.symm h]

/-- Without spin the orbital motion carries everything. -/
theorem red1_zero (a' a k : ℕ) : Reduces1 cg 1 a' a 0 a' a k := by
  intro M' hM' q _ M hM
  simp only [couple, ms0, Finset.sum_singleton, Nat.cast_zero, cg_right, mul_one]
  rw [Finset.sum_eq_single M', Finset.sum_eq_single M]
  · simp [δ]
  · intro x _ hx
    simp [δ, Ne.symm hx]
  · exact fun h => absurd hM h
  · intro x _ hx
    simp [δ, Ne.symm hx]
  · exact fun h => absurd hM' h

/-- Without orbital motion the spin carries everything. -/
theorem red2_zero (b' b k : ℕ) : Reduces2 cg 1 0 b' b b' b k := by
  intro M' hM' q _ M hM
  simp only [couple, ms0, Finset.sum_singleton, Nat.cast_zero, cg_left, mul_one]
  rw [Finset.sum_eq_single M', Finset.sum_eq_single M]
  · simp [δ]
  · intro x _ hx
    simp [δ, Ne.symm hx]
  · exact fun h => absurd hM h
  · intro x _ hx
    simp [δ, Ne.symm hx]
  · exact fun h => absurd hM' h

theorem ortho_right (a : ℕ) : OrthoLaw cg a 0 a a := by
  intro M' hM' M hM
  simp only [ms0, Finset.sum_singleton, Nat.cast_zero, cg_right, if_true]
  rw [Finset.sum_eq_single M']
  · simp [δ, eq_comm]
  · intro x _ hx
    simp [δ, Ne.symm hx]
  · exact fun h => absurd hM' h

theorem ortho_left (a : ℕ) : OrthoLaw cg 0 a a a := by
  intro M' hM' M hM
  simp only [ms0, Finset.sum_singleton, Nat.cast_zero, cg_left, if_true]
  rw [Finset.sum_eq_single M']
  · simp [δ, eq_comm]
  · intro x _ hx
    simp [δ, Ne.symm hx]
  · exact fun h => absurd hM' h

theorem ls {s' s : RelSub} (h' : s' ∈ [s0, s1, p1]) (h : s ∈ [s0, s1, p1]) : LSLaws cg am s' s := by
  simp only [List.mem_cons, List.not_mem_nil, or_false] at h' h
  constructor
  · intro hL hS
    rcases h' with rfl | rfl | rfl <;> rcases h with rfl | rfl | rfl <;>
      first | exact absurd hL (by decide) | exact absurd hS (by decide) | exact ortho_right _ | exact ortho_left _
  · rcases h with rfl | rfl | rfl
    · exact half.scalar 0 (by omega)
    · exact half.scalar 1 (by omega)
    · exact half.scalar 1 (by omega)
  · rcases h with rfl | rfl | rfl
    · exact half.vector 0 (by omega)
    · exact half.vector 0 (by omega)
    · exact half.vector 1 (by omega)
  · intro hS hL hJ
    rcases h' with rfl | rfl | rfl <;> rcases h with rfl | rfl | rfl <;>
      first | exact absurd hL (by decide) | exact absurd hS (by decide) | exact red1_zero _ _ _
  · intro hL hS hJ
    rcases h' with rfl | rfl | rfl <;> rcases h with rfl | rfl | rfl <;>
      first | exact absurd hL (by decide) | exact absurd hS (by decide) | exact red2_zero _ _ _

theorem halfSym : HalfSym cg := by
  intro S hS x hx y hy M hM
  rcases le_one hS with rfl | rfl <;>
    simp only [mul_zero, mul_one, ms0, ms1, ms2, Finset.mem_insert, Finset.mem_singleton] at hM hx hy <;>
    rcases hM with rfl | rfl | rfl <;> rcases hx with rfl | rfl <;> rcases hy with rfl | rfl <;> norm_num [cg] <;>
    try ring

theorem triplet : TripletLaws cg where
  zero P hP := by
    rw [ms2] at hP
    simp only [Finset.mem_insert, Finset.mem_singleton] at hP
    rcases hP with rfl | rfl | rfl <;> norm_num [cg]
  one P hP := by
    rw [ms2] at hP
    simp only [Finset.mem_insert, Finset.mem_singleton] at hP
    rcases hP with rfl | rfl | rfl <;> norm_num [cg] <;> try ring
  two P hP := by
    rw [ms2] at hP
    simp only [Finset.mem_insert, Finset.mem_singleton] at hP
    rcases hP with rfl | rfl | rfl <;> norm_num [cg]

/-- The same sectors in every component. -/
def secs (l : List RSec) : ℕ → List RSec := fun _ => l

theorem secs_ok {l : List RSec} {o : OpLabels} {T0 : ℕ}
    (hd : (l.all fun p => decide (p.1 ∈ [s0, s1, p1] ∧ p.2 ∈ [s0, s1, p1]) &&
      (tri p.1.J o.J0 p.2.J && tri p.1.T T0 p.2.T && decide ((p.1.L + p.2.L + o.g0) % 2 = 0))) = true) :
    ∀ p ∈ secs l T0, SecOK 2 o T0 p.1 p.2 ∧ LSLaws cg am p.1 p.2 := by
  intro p hp
  have := List.all_eq_true.mp hd p hp
  rw [Bool.and_eq_true, decide_eq_true_eq] at this
  exact ⟨sec_ok this.1.1 this.1.2 this.2, ls this.1.1 this.1.2⟩

/-- Squared coordinate and momentum. -/
example : ∃ op, constructCoordinateSqr ⟨0, 0, 0, 0⟩ (secs [(s0, s0), (s1, s1), (p1, p1)]) .r 0 = .ok op ∧
    Stores cg 0 0 (rSqrOp 0) (secs [(s0, s0), (s1, s1), (p1, p1)]) op :=
  (coordinate_sqr_stored half (secs_ok (by decide))).1 (by unfold SqrLabels; decide)

example : ∃ op, constructCoordinateSqr ⟨0, 0, 0, 0⟩ (secs [(s0, s0), (s1, s1), (p1, p1)]) .k 0 = .ok op ∧
    Stores cg 0 0 (negOp (kSqrOp 0)) (secs [(s0, s0), (s1, s1), (p1, p1)]) op :=
  (momentum_sqr_stored_partial half (secs_ok (by decide))).1 (by unfold SqrLabels; decide)

example : ∃ b x, coordinateSqrBlock .k 0 s1 s1 = .ok b ∧ b 1 1 = .ok x ∧ ¬ Reduced cg 0 0 (kSqrOp 0) s1 s1 1 1 x :=
  momentum_sqr_wrong (N := 2) (o := ⟨0, 0, 0, 0⟩) half (sec_ok (by decide) (by decide) (by decide))
    (ls (by decide) (by decide)) rfl (by decide)

/-- Orbital angular momentum and spin, isoscalar. -/
example : ∃ op, constructOrbital am ⟨1, 0, 0, 0⟩ (secs [(s1, s1), (p1, p1)]) 0 = .ok op ∧
    Stores cg 1 0 (orbitalOp 0) (secs [(s1, s1), (p1, p1)]) op :=
  (orbital_stored half (secs_ok (by decide))).1 (by unfold AmLabels; decide)

example : ∃ op, constructSpin am ⟨1, 0, 0, 0⟩ (secs [(s1, s1), (p1, p1)]) 0 = .ok op ∧
    Stores cg 1 0 (spinOp 0) (secs [(s1, s1), (p1, p1)]) op :=
  (spin_stored half (secs_ok (by decide))).1 (by unfold AmLabels; decide)

/-- Gamow-Teller, between `¹S0` and `³S1`. -/
example : ∃ op, constructLOGT am ⟨1, 0, 1, 1⟩ (secs [(s0, s1), (s1, s0)]) = .ok op ∧
    Stores cg 1 1 gamowTellerOp (secs [(s0, s1), (s1, s0)]) op :=
  (gamow_teller_stored half (secs_ok (by decide))).1 (by unfold AmLabels; decide)

/-- Isospin. -/
example : ∃ op, constructIsospin am ⟨0, 0, 1, 1⟩ (secs [(s0, s0)]) = .ok op ∧
    Stores cg 0 1 isospinOp (secs [(s0, s0)]) op :=
  (isospin_stored half (secs_ok (by decide))).1 (by unfold IsospinLabels; decide)

/-- Casimir. -/
example : ∃ op, constructCasimir ⟨0, 0, 0, 0⟩ (secs [(s0, s0), (s1, s1), (p1, p1)]) = .ok op ∧
    Stores cg 0 0 casimirOp (secs [(s0, s0), (s1, s1), (p1, p1)]) op :=
  (casimir_stored half halfSym (secs_ok (by decide))).1 (by decide)

/-- Coulomb: protons in the triplet. -/
example (radial : ℕ → ℕ → ℕ → ℝ) : ∑ T0 ∈ Finset.range 3, cg 2 2 (2 * T0 : ℕ) 0 2 2 *
    coulombValue radial .p T0 s0 s0 1 0 = 1 / √2 * radial 1 0 0 :=
  (coulomb_species triplet radial true (s := s0) 1 0).1 rfl 2 (by decide)

/-- Coulomb: all pairs. -/
example (radial : ℕ → ℕ → ℕ → ℝ) : ∃ op, constructCoulomb radial ⟨0, 0, 0, 0⟩ (secs [(s0, s0)]) .total = .ok op ∧
    List.Forall₂ (Holds cg 0 0 (centralOp (fun n' n L => 1 / √2 * radial n' n L) 0)) [(s0, s0)] (op 0) := by
  have hs : ∀ T0 ≤ 2, ∀ p ∈ secs [(s0, s0)] T0, SecOK 2 ⟨0, 0, 0, 0⟩ T0 p.1 p.2 := by
    intro T0 hT0 p hp
    have : T0 = 0 ∨ T0 = 1 ∨ T0 = 2 := by omega
    rcases this with rfl | rfl | rfl
    · exact (secs_ok (l := [(s0, s0)]) (by decide) p hp).1
    · exact (secs_ok (l := [(s0, s0)]) (by decide) p hp).1
    · exact (secs_ok (l := [(s0, s0)]) (by decide) p hp).1
  obtain ⟨op, h1, h2, _⟩ := coulomb_total_stored half radial hs
    (fun p hp => (secs_ok (o := ⟨0, 0, 0, 0⟩) (T0 := 0) (l := [(s0, s0)]) (by decide) p hp).2) rfl rfl rfl
  exact ⟨op, h1, h2⟩

/-- Dipole, from `¹P1` to `¹S0`. -/
noncomputable def unitVector (L' L : ℕ) (q m' m : Int) : ℝ :=
  cg (2 * L : ℕ) m 2 q (2 * L' : ℕ) m' * unitRME L' L

example : ∃ op, constructDipole am ⟨1, 1, 1, 1⟩ (secs [(s0, p1)]) .r 1 = .ok op ∧
    Stores cg 1 1 (dipoleDefectOp unitVector) (secs [(s0, p1)]) op :=
  (dipole_stored_partial half (fun p hp => ⟨(secs_ok (l := [(s0, p1)]) (by decide) p hp).1,
    (secs_ok (o := ⟨1, 1, 1, 1⟩) (T0 := 1) (l := [(s0, p1)]) (by decide) p hp).2, fun _ _ _ _ _ _ => rfl, by
      simp only [secs, List.mem_singleton] at hp
      subst hp
      exact fun h => absurd (by decide) h⟩) .r).1 (by unfold DipoleLabels; decide)

/-- Quadrupole, in `¹P1`. -/
noncomputable def harmonic (L' L : ℕ) (q m' m : Int) : ℝ :=
  if tri L' 2 L then cg (2 * L : ℕ) m 4 q (2 * L' : ℕ) m' * ((-1) ^ L' * √(2 * L + 1) * √(5 / (4 * Real.pi)) * (√2 / √15)) else 0

example : ∃ op, constructQuadrupole am ⟨2, 0, 0, 0⟩ (secs [(s1, s1), (p1, p1)]) .r 0 = .ok op ∧
    Stores cg 2 0 (quadrupoleOp harmonic 0) (secs [(s1, s1), (p1, p1)]) op :=
  (quadrupole_stored half (fun p hp => ⟨(secs_ok (l := [(s1, s1), (p1, p1)]) (by decide) p hp).1, by
    simp only [secs, List.mem_cons, List.not_mem_nil, or_false] at hp
    rcases hp with rfl | rfl
    · exact ⟨fun _ h => absurd h (by decide), fun h => absurd h (by decide), fun h q m' m => if_neg h, rfl⟩
    · refine ⟨fun _ _ _ => ?_, fun h M' _ q _ M _ => if_pos h, fun h => absurd (by decide) h, rfl⟩
      have e : (-1 : ℝ) ^ (p1.L + p1.S + p1.J) * √(2 * p1.J + 1) * √(2 * p1.L + 1) * (1 / 3) = 1 := by
        have h3 : √(2 * ((1 : ℕ) : ℝ) + 1) = √3 := by norm_num
        simp only [p1, h3]
        have := s3
        linear_combination (1 / 3) * this
      simp only [am, e]
      exact red1_zero _ _ _, by
    simp only [secs, List.mem_cons, List.not_mem_nil, or_false] at hp
    rcases hp with rfl | rfl <;> decide⟩) .r).1 ⟨by unfold QuadLabels; decide, rfl⟩

end Verif.Relative.Ex
