import Verif.Moshinsky.NucleonNorm

/-!
# Coefficients as the program takes them from the `am` library

The conditions `IsNine`, `IsZ` and `IsRose` on the coefficients define them: there are functions that meet them.
-/

namespace Verif.Moshinsky
open Verif MvPolynomial Osc
open Verif.SU2 hiding couple

/-- The recoupling coefficients of two nucleons. -/
noncomputable def nineC : NineJ := fun l1 tj1 l2 tj2 L S J => overlap4 (2 * l1) 1 (2 * l2) 1 tj1 tj2 (2 * L) (2 * S) (2 * J) (2 * J : ℕ)

/-- The recoupling coefficients of relative motion, centre-of-mass motion and spin. -/
noncomputable def zC : Int → Int → Int → Int → Int → Int → ℝ := fun lr lc L J S Jr =>
  overlap3 (2 * lr.toNat) (2 * lc.toNat) (2 * S.toNat) (2 * L.toNat) (2 * Jr.toNat) (2 * J.toNat) (2 * J.toNat : ℕ)

/-- The reduction factor. -/
noncomputable def roseC : Int → Int → Int → Int → Int → Int → Int → ℝ := fun j l J j' _ J' J0 =>
  overlap3 (2 * j'.toNat) (2 * J0.toNat) (2 * l.toNat) (2 * j.toNat) (2 * J'.toNat) (2 * J.toNat) (2 * J.toNat : ℕ)

theorem top_mem (j : ℕ) : (j : ℤ) ∈ projs j := by
  rw [mem_projs]
  omega

theorem nineC_isNine : IsNine nineC := fun l1 tj1 l2 tj2 L S J M hM => by
  rw [nineC, overlap4_eq _ _ _ _ _ _ _ _ _ hM]

theorem zC_isZ : IsZ zC := fun lr lc L J S Jr M hM => by
  simp only [zC, Int.toNat_natCast]
  rw [overlap3_eq _ _ _ _ _ _ hM]

/-- The element between coupled states of an operator on the first of two systems, arguments doubled. -/
theorem reduction (j l J j' J' J0 : ℕ) (M M' M0 : ℤ) :
    (∑ m ∈ projs j, ∑ mc ∈ projs l, ∑ m' ∈ projs j', cgd j m l mc J M * cgd j' m' J0 M0 j m * cgd j' m' l mc J' M') =
      overlap3 j' J0 l j J' J J * cgd J' M' J0 M0 J M := by
  by_cases h0 : M0 ∈ projs J0
  swap
  · rw [cgd_range (j2 := J0) fun h => h0 h.2.1, mul_zero]
    refine Finset.sum_eq_zero fun m _ => Finset.sum_eq_zero fun mc _ => Finset.sum_eq_zero fun m' _ => ?_
    rw [cgd_range (j2 := J0) fun h => h0 h.2.1, mul_zero, zero_mul]
  have e1 : (∑ m ∈ projs j, ∑ mc ∈ projs l, ∑ m' ∈ projs j', cgd j m l mc J M * cgd j' m' J0 M0 j m * cgd j' m' l mc J' M') =
      ∑ m' ∈ projs j', ∑ mc ∈ projs l, amp3 j' J0 l j J M m' M0 mc * cgd j' m' l mc J' M' := by
    rw [Finset.sum_congr rfl fun m _ => Finset.sum_comm, Finset.sum_comm]
    refine Finset.sum_congr rfl fun m' _ => ?_
    rw [Finset.sum_comm]
    refine Finset.sum_congr rfl fun mc _ => ?_
    rw [← Finset.sum_mul, Finset.sum_congr rfl fun m _ => mul_comm _ _, collapse]
    rfl
  rw [e1, Finset.sum_congr rfl fun m' hm' => Finset.sum_congr rfl fun mc hmc => by rw [recouple3 _ _ _ _ _ _ hm' h0 hmc]]
  have e2 : ∀ ac ∈ (sums j' l).filter (fun ac => Coupled ac J0 J), ∑ m' ∈ projs j', ∑ mc ∈ projs l,
      overlap3 j' J0 l j ac J J * amp3 j' l J0 ac J M m' mc M0 * cgd j' m' l mc J' M' =
        if ac = J' then overlap3 j' J0 l j J' J J * cgd J' M' J0 M0 J M else 0 := by
    intro ac hac
    rw [Finset.mem_filter, mem_sums] at hac
    have e3 : ∀ m' mc, overlap3 j' J0 l j ac J J * amp3 j' l J0 ac J M m' mc M0 * cgd j' m' l mc J' M' =
        overlap3 j' J0 l j ac J J * cgd ac M' J0 M0 J M * (cgd j' m' l mc ac M' * cgd j' m' l mc J' M') := by
      intro m' mc
      by_cases h : m' + mc = M'
      · rw [amp3, h]
        ring
      · rw [cgd_of_ne (J := J') h]
        ring
    simp only [e3, ← Finset.mul_sum]
    by_cases hM : M' ∈ projs ac
    · rw [cgd_ortho hac.1 hM]
      simp only [and_true]
      split_ifs with h
      · rw [h, mul_one]
      · rw [mul_zero]
    · rw [cgd_range (j1 := ac) (j2 := J0) fun h => hM h.1, mul_zero, zero_mul]
      split_ifs with h
      · rw [← h, cgd_range (j1 := ac) (j2 := J0) fun h => hM h.1, mul_zero]
      · rfl
  simp only [Finset.sum_mul]
  rw [Finset.sum_congr rfl fun m' _ => Finset.sum_comm, Finset.sum_comm, Finset.sum_congr rfl e2, Finset.sum_ite_eq']
  split_ifs with h
  · rfl
  · rw [Finset.mem_filter, mem_sums] at h
    by_cases h1 : Coupled j' l J'
    · rw [cgd_triangle fun h2 => h ⟨h1, h2⟩, mul_zero]
    · have : overlap3 j' J0 l j J' J J = 0 := by
        refine Finset.sum_eq_zero fun _ _ => Finset.sum_eq_zero fun _ _ => Finset.sum_eq_zero fun _ _ => ?_
        rw [amp3, amp3, cgd_triangle h1]
        ring
      rw [this, zero_mul]

theorem roseC_isRose : IsRose roseC := fun j l J j' J' J0 M M' M0 => by
  simp only [roseC, Int.toNat_natCast, cg_even]
  rw [← reduction (2 * j) (2 * l) (2 * J) (2 * j') (2 * J') (2 * J0) (2 * M) (2 * M') (2 * M0), sum_even]
  simp only [sum_even]

/-- The coefficients of the chain. -/
noncomputable def envC (swap : ℕ → ℕ × ℕ → ℕ × ℕ → ℝ) : ChainEnv := ⟨⟨zC, roseC⟩, angularEnv, nineC, swap⟩

end Verif.Moshinsky
