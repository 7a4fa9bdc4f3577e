import Verif.Moshinsky.SixJ

/-!
# Coupling coefficients of angular momenta, integral or half-integral

All angular momenta and projections are doubled.  The coefficients are those of Condon and Shortley in closed form (van der Waerden).
They belong to the specification: the library `am` (a submodule, absent from the repository) computes the recoupling coefficients that
are made of them.
-/

namespace Verif.SU2
open Verif.Moshinsky Verif.Moshinsky.Osc

/-- The (doubled) projections of the (doubled) angular momentum `j`. -/
noncomputable def projs (j : ℕ) : Finset ℤ := (Finset.Icc (-(j : ℤ)) j).filter fun m => ((j : ℤ) + m) % 2 = 0

theorem mem_projs {j : ℕ} {m : ℤ} : m ∈ projs j ↔ -(j : ℤ) ≤ m ∧ m ≤ j ∧ ((j : ℤ) + m) % 2 = 0 := by
  rw [projs, Finset.mem_filter, Finset.mem_Icc, and_assoc]

/-- The factor of a projection. -/
noncomputable def prd (j m : ℤ) : ℝ := √(ff ((j + m) / 2) * ff ((j - m) / 2))

/-- The factor of three angular momenta. -/
noncomputable def trid (j1 j2 J : ℤ) : ℝ :=
  √(((J : ℝ) + 1) * ff ((j1 + j2 - J) / 2) * ff ((J + j1 - j2) / 2) * ff ((J + j2 - j1) / 2) / ff ((j1 + j2 + J) / 2 + 1))

/-- The coupling coefficient `(j₁ m₁ j₂ m₂ | J M)`, arguments doubled. -/
noncomputable def cgd (j1 : ℕ) (m1 : ℤ) (j2 : ℕ) (m2 : ℤ) (J : ℕ) (M : ℤ) : ℝ :=
  if m1 + m2 = M ∧ ((j1 : ℤ) + m1) % 2 = 0 ∧ ((j2 : ℤ) + m2) % 2 = 0 ∧ ((j1 : ℤ) + j2 + J) % 2 = 0 then
    trid j1 j2 J * prd j1 m1 * prd j2 m2 * prd J M *
      tSum (((j1 : ℤ) + j2 - J) / 2) (((J : ℤ) + j1 - j2) / 2) (((J : ℤ) + j2 - j1) / 2) ((j1 - m1) / 2) ((j2 + m2) / 2)
  else 0

/-- For integral angular momenta these are the coefficients of `Coupling.lean`. -/
theorem cgd_even (l1 : ℕ) (m1 : ℤ) (l2 : ℕ) (m2 : ℤ) (L : ℕ) (M : ℤ) :
    cgd (2 * l1) (2 * m1) (2 * l2) (2 * m2) (2 * L) (2 * M) = Osc.cg l1 m1 l2 m2 L M := by
  unfold cgd Osc.cg
  by_cases h : m1 + m2 = M
  · rw [if_pos (by omega), if_pos h]
    unfold trid tri3 prd pr
    push_cast
    rw [show ((2 : ℤ) * l1 + 2 * l2 - 2 * L) / 2 = l1 + l2 - L by omega, show ((2 : ℤ) * L + 2 * l1 - 2 * l2) / 2 = L + l1 - l2 by omega,
      show ((2 : ℤ) * L + 2 * l2 - 2 * l1) / 2 = L + l2 - l1 by omega, show ((2 : ℤ) * l1 - 2 * m1) / 2 = l1 - m1 by omega,
      show ((2 : ℤ) * l2 + 2 * m2) / 2 = l2 + m2 by omega, show ((2 : ℤ) * l1 + 2 * l2 + 2 * L) / 2 = l1 + l2 + L by omega,
      show ((2 : ℤ) * l1 + 2 * m1) / 2 = l1 + m1 by omega, show ((2 : ℤ) * l2 - 2 * m2) / 2 = l2 - m2 by omega,
      show ((2 : ℤ) * L + 2 * M) / 2 = L + M by omega, show ((2 : ℤ) * L - 2 * M) / 2 = L - M by omega]
  · rw [if_neg (by omega), if_neg h]

theorem cgd_of_ne {j1 j2 J : ℕ} {m1 m2 M : ℤ} (h : m1 + m2 ≠ M) : cgd j1 m1 j2 m2 J M = 0 := if_neg fun h' => h h'.1

/-- Projections are within range, and differ from the angular momentum by an integer. -/
theorem cgd_range {j1 j2 J : ℕ} {m1 m2 M : ℤ} (h : ¬(m1 ∈ projs j1 ∧ m2 ∈ projs j2 ∧ M ∈ projs J)) : cgd j1 m1 j2 m2 J M = 0 := by
  unfold cgd
  split_ifs with hc
  · simp only [mem_projs] at h
    by_cases h1 : m1 ∈ projs j1
    · by_cases h2 : m2 ∈ projs j2
      · rw [mem_projs] at h1 h2
        rw [tSum_zero' (by omega), mul_zero]
      · rw [mem_projs] at h1 h2
        rw [tSum_zero (by omega), mul_zero]
    · rw [mem_projs] at h1
      rw [tSum_zero (by omega), mul_zero]
  · rfl

/-- The triangle rule. -/
def Coupled (j1 j2 J : ℕ) : Prop := |(j1 : ℤ) - j2| ≤ J ∧ J ≤ j1 + j2 ∧ (j1 + j2 + J) % 2 = 0

instance (j1 j2 J : ℕ) : Decidable (Coupled j1 j2 J) := by unfold Coupled; infer_instance

theorem cgd_triangle {j1 j2 J : ℕ} {m1 m2 M : ℤ} (h : ¬Coupled j1 j2 J) : cgd j1 m1 j2 m2 J M = 0 := by
  unfold cgd
  split_ifs
  · rw [tSum_zero, mul_zero]
    rw [Coupled, abs_le] at h
    omega
  · rfl

theorem trid_comm (j1 j2 J : ℤ) : trid j1 j2 J = trid j2 j1 J := by
  unfold trid
  rw [add_comm j1 j2]
  congr 2
  ring

/-- Exchange of the two angular momenta. -/
theorem cgd_exchange (j1 : ℕ) (m1 : ℤ) (j2 : ℕ) (m2 : ℤ) (J : ℕ) (M : ℤ) :
    cgd j1 m1 j2 m2 J M = sgn (((j1 : ℤ) + j2 - J) / 2) * cgd j2 m2 j1 m1 J M := by
  unfold cgd
  by_cases h : m1 + m2 = M ∧ ((j1 : ℤ) + m1) % 2 = 0 ∧ ((j2 : ℤ) + m2) % 2 = 0 ∧ ((j1 : ℤ) + j2 + J) % 2 = 0
  · rw [if_pos h, if_pos (by omega), tSum_exchange, trid_comm, add_comm (j1 : ℤ) j2,
      show ((j2 : ℤ) + j1 - J) / 2 + (J + j2 - j1) / 2 - (j2 + m2) / 2 = (j2 - m2) / 2 by omega,
      show ((j2 : ℤ) + j1 - J) / 2 + (J + j1 - j2) / 2 - (j1 - m1) / 2 = (j1 + m1) / 2 by omega]
    ring
  · rw [if_neg h, if_neg (by omega), mul_zero]

theorem prd_neg (j m : ℤ) : prd j (-m) = prd j m := by
  unfold prd
  rw [sub_neg_eq_add, ← sub_eq_add_neg, mul_comm]

/-- Reversal of all projections. -/
theorem cgd_flip (j1 : ℕ) (m1 : ℤ) (j2 : ℕ) (m2 : ℤ) (J : ℕ) (M : ℤ) :
    cgd j1 m1 j2 m2 J M = sgn (((j1 : ℤ) + j2 - J) / 2) * cgd j1 (-m1) j2 (-m2) J (-M) := by
  unfold cgd
  by_cases h : m1 + m2 = M ∧ ((j1 : ℤ) + m1) % 2 = 0 ∧ ((j2 : ℤ) + m2) % 2 = 0 ∧ ((j1 : ℤ) + j2 + J) % 2 = 0
  · rw [if_pos h, if_pos (by omega), tSum_flip, prd_neg, prd_neg, prd_neg,
      show ((j1 : ℤ) + j2 - J) / 2 + (J + j1 - j2) / 2 - (j1 - m1) / 2 = (j1 - -m1) / 2 by omega,
      show ((j1 : ℤ) + j2 - J) / 2 + (J + j2 - j1) / 2 - (j2 + m2) / 2 = (j2 + -m2) / 2 by omega]
    ring
  · rw [if_neg h, if_neg (by omega), mul_zero]

/-! ## Raising and lowering -/

/-- The element of the raising operator from `m`. -/
noncomputable def up (j m : ℤ) : ℝ := √(((j : ℝ) - m) * (j + m + 2)) / 2
/-- The element of the lowering operator from `m`. -/
noncomputable def dn (j m : ℤ) : ℝ := √(((j : ℝ) + m) * (j - m + 2)) / 2

theorem up_neg (j m : ℤ) : up j (-m) = dn j m := by
  unfold up dn
  push_cast
  rw [sub_neg_eq_add, ← sub_eq_add_neg]

theorem dn_neg (j m : ℤ) : dn j (-m) = up j m := by rw [← up_neg, neg_neg]

theorem dn_up (j m : ℤ) : dn j (m + 2) = up j m := by
  unfold up dn
  push_cast
  congr 2
  ring

theorem up_dn (j m : ℤ) : up j (m - 2) = dn j m := by rw [← dn_up, sub_add_cancel]

theorem prd_dn {j m : ℤ} (hp : (j + m) % 2 = 0) (h1 : -j < m) (h2 : m ≤ j) : dn j m * prd j (m - 2) = (((j - m) / 2 : ℤ) + 1 : ℝ) * prd j m := by
  obtain ⟨x, hx⟩ : ∃ x : ℤ, j + m = 2 * (x + 1) := ⟨(j + m) / 2 - 1, by omega⟩
  obtain ⟨y, hy⟩ : ∃ y : ℤ, j - m = 2 * y := ⟨(j - m) / 2, by omega⟩
  have hxr : (j : ℝ) + m = 2 * (x + 1) := by exact_mod_cast hx
  have hyr : (j : ℝ) - m = 2 * y := by exact_mod_cast hy
  have h3 : (0 : ℝ) ≤ x := by exact_mod_cast (show 0 ≤ x by omega)
  have h4 : (0 : ℝ) ≤ y := by exact_mod_cast (show 0 ≤ y by omega)
  have f1 := ff_pos x
  have f2 := ff_pos y
  unfold dn prd
  rw [hxr, hyr, show (j + (m - 2)) / 2 = x by omega, show (j - (m - 2)) / 2 = y + 1 by omega, show (j + m) / 2 = x + 1 by omega,
    show (j - m) / 2 = y by omega, ff_succ (by omega), ff_succ (by omega),
    show (2 * ((x : ℝ) + 1)) * (2 * y + 2) = (2 : ℝ) ^ 2 * (((x : ℝ) + 1) * (y + 1)) by ring, Real.sqrt_mul (by positivity), Real.sqrt_sq (by norm_num),
    show ∀ a b : ℝ, 2 * a / 2 * b = a * b by intros; ring, ← Real.sqrt_mul (by positivity),
    show ((x : ℝ) + 1) * (y + 1) * (ff x * ((y + 1) * ff y)) = ((y : ℝ) + 1) ^ 2 * ((x + 1) * ff x * ff y) by ring,
    Real.sqrt_mul (by positivity), Real.sqrt_sq (by positivity)]

theorem prd_up {j m : ℤ} (hp : (j + m) % 2 = 0) (h1 : -j ≤ m) (h2 : m < j) : up j m * prd j (m + 2) = (((j + m) / 2 : ℤ) + 1 : ℝ) * prd j m := by
  have := prd_dn (j := j) (m := -m) (by omega) (by omega) (by omega)
  rw [dn_neg, prd_neg, show -m - 2 = -(m + 2) by ring, prd_neg, sub_neg_eq_add] at this
  exact this

/-- Raising of the coupled projection. -/
theorem cgd_raise (j1 : ℕ) (m1 : ℤ) (j2 : ℕ) (m2 : ℤ) (J : ℕ) (M : ℤ) :
    dn j1 m1 * cgd j1 (m1 - 2) j2 m2 J M + dn j2 m2 * cgd j1 m1 j2 (m2 - 2) J M = up J M * cgd j1 m1 j2 m2 J (M + 2) := by
  by_cases h : m1 + m2 = M + 2 ∧ ((j1 : ℤ) + m1) % 2 = 0 ∧ ((j2 : ℤ) + m2) % 2 = 0 ∧ ((j1 : ℤ) + j2 + J) % 2 = 0
  swap
  · unfold cgd
    rw [if_neg (by omega), if_neg (by omega), if_neg (by omega)]
    ring
  obtain ⟨h1, h2, h3, h4⟩ := h
  have t := tSum_raise (((j1 : ℤ) + j2 - J) / 2) (((J : ℤ) + j1 - j2) / 2) (((J : ℤ) + j2 - j1) / 2) ((j1 - m1) / 2) ((j2 + m2) / 2)
  have e1 : dn j1 m1 * cgd j1 (m1 - 2) j2 m2 J M = trid j1 j2 J * prd j1 m1 * prd j2 m2 * prd J M * (((((j1 - m1) / 2 : ℤ) : ℝ) + 1) *
      tSum (((j1 : ℤ) + j2 - J) / 2) (((J : ℤ) + j1 - j2) / 2) (((J : ℤ) + j2 - j1) / 2) ((j1 - m1) / 2 + 1) ((j2 + m2) / 2)) := by
    unfold cgd
    rw [if_pos (by omega), show ((j1 : ℤ) - (m1 - 2)) / 2 = (j1 - m1) / 2 + 1 by omega]
    by_cases hr : -(j1 : ℤ) < m1 ∧ m1 ≤ j1
    · have := prd_dn h2 hr.1 hr.2
      linear_combination (trid j1 j2 J * prd j2 m2 * prd J M *
        tSum (((j1 : ℤ) + j2 - J) / 2) (((J : ℤ) + j1 - j2) / 2) (((J : ℤ) + j2 - j1) / 2) ((j1 - m1) / 2 + 1) ((j2 + m2) / 2)) * this
    · by_cases hr' : m1 = j1 + 2
      · subst hr'
        rw [dn]
        push_cast
        rw [show ((j1 : ℤ) - (j1 + 2)) / 2 = -1 by omega, show (j1 : ℝ) - (j1 + 2) + 2 = 0 by ring]
        simp
      · rw [tSum_zero (by omega)]
        ring
  have e2 : dn j2 m2 * cgd j1 m1 j2 (m2 - 2) J M = trid j1 j2 J * prd j1 m1 * prd j2 m2 * prd J M * (((((j2 - m2) / 2 : ℤ) : ℝ) + 1) *
      tSum (((j1 : ℤ) + j2 - J) / 2) (((J : ℤ) + j1 - j2) / 2) (((J : ℤ) + j2 - j1) / 2) ((j1 - m1) / 2) ((j2 + m2) / 2 - 1)) := by
    unfold cgd
    rw [if_pos (by omega), show ((j2 : ℤ) + (m2 - 2)) / 2 = (j2 + m2) / 2 - 1 by omega]
    by_cases hr : -(j2 : ℤ) < m2 ∧ m2 ≤ j2
    · have := prd_dn h3 hr.1 hr.2
      linear_combination (trid j1 j2 J * prd j1 m1 * prd J M *
        tSum (((j1 : ℤ) + j2 - J) / 2) (((J : ℤ) + j1 - j2) / 2) (((J : ℤ) + j2 - j1) / 2) ((j1 - m1) / 2) ((j2 + m2) / 2 - 1)) * this
    · by_cases hr' : m2 = j2 + 2
      · subst hr'
        rw [dn]
        push_cast
        rw [show ((j2 : ℤ) - (j2 + 2)) / 2 = -1 by omega, show (j2 : ℝ) - (j2 + 2) + 2 = 0 by ring]
        simp
      · rw [tSum_zero (by omega)]
        ring
  have e3 : up J M * cgd j1 m1 j2 m2 J (M + 2) = trid j1 j2 J * prd j1 m1 * prd j2 m2 * prd J M * (((((J + M) / 2 : ℤ) : ℝ) + 1) *
      tSum (((j1 : ℤ) + j2 - J) / 2) (((J : ℤ) + j1 - j2) / 2) (((J : ℤ) + j2 - j1) / 2) ((j1 - m1) / 2) ((j2 + m2) / 2)) := by
    unfold cgd
    rw [if_pos (by omega)]
    by_cases hr : -(J : ℤ) ≤ M ∧ M < J
    · have := prd_up (show ((J : ℤ) + M) % 2 = 0 by omega) hr.1 hr.2
      linear_combination (trid j1 j2 J * prd j1 m1 * prd j2 m2 *
        tSum (((j1 : ℤ) + j2 - J) / 2) (((J : ℤ) + j1 - j2) / 2) (((J : ℤ) + j2 - j1) / 2) ((j1 - m1) / 2) ((j2 + m2) / 2)) * this
    · by_cases hr' : M = -J - 2
      · subst hr'
        rw [up]
        push_cast
        rw [show ((J : ℤ) + (-J - 2)) / 2 = -1 by omega, show (J : ℝ) + (-J - 2) + 2 = 0 by ring]
        simp
      · rw [tSum_zero' (by omega)]
        ring
  rw [e1, e2, e3]
  have c1 : ((((j2 - m2) / 2 : ℤ) : ℝ)) = (((j1 : ℤ) + j2 - J) / 2 : ℤ) + (((J : ℤ) + j2 - j1) / 2 : ℤ) - (((j2 + m2) / 2 : ℤ) : ℝ) := by
    exact_mod_cast (show ((j2 : ℤ) - m2) / 2 = ((j1 : ℤ) + j2 - J) / 2 + ((J : ℤ) + j2 - j1) / 2 - (j2 + m2) / 2 by omega)
  have c2 : ((((J + M) / 2 : ℤ) : ℝ)) + 1 = (((J : ℤ) + j1 - j2) / 2 : ℤ) - (((j1 - m1) / 2 : ℤ) : ℝ) + (((j2 + m2) / 2 : ℤ) : ℝ) := by
    exact_mod_cast (show ((J : ℤ) + M) / 2 + 1 = ((J : ℤ) + j1 - j2) / 2 - (j1 - m1) / 2 + (j2 + m2) / 2 by omega)
  rw [c1, c2]
  linear_combination (trid j1 j2 J * prd j1 m1 * prd j2 m2 * prd J M) * t

/-- Lowering of the coupled projection. -/
theorem cgd_lower (j1 : ℕ) (m1 : ℤ) (j2 : ℕ) (m2 : ℤ) (J : ℕ) (M : ℤ) :
    up j1 m1 * cgd j1 (m1 + 2) j2 m2 J M + up j2 m2 * cgd j1 m1 j2 (m2 + 2) J M = dn J M * cgd j1 m1 j2 m2 J (M - 2) := by
  have := cgd_raise j1 (-m1) j2 (-m2) J (-M)
  rw [dn_neg, dn_neg, up_neg] at this
  rw [cgd_flip j1 (m1 + 2), cgd_flip j1 m1 j2 (m2 + 2), cgd_flip j1 m1 j2 m2, show -(m1 + 2) = -m1 - 2 by ring,
    show -(m2 + 2) = -m2 - 2 by ring, show -(M - 2) = -M + 2 by ring]
  linear_combination (sgn (((j1 : ℤ) + j2 - J) / 2)) * this

/-! ## Normalisation -/

/-- The coefficients are normalised. -/
theorem cgd_norm {j1 j2 J : ℕ} {M : ℤ} (ht : Coupled j1 j2 J) (hM : M ∈ projs J) :
    ∑ m1 ∈ projs j1, ∑ m2 ∈ projs j2, cgd j1 m1 j2 m2 J M ^ 2 = 1 := by
  obtain ⟨t1, t2, t3⟩ := ht
  rw [abs_le] at t1
  have hM' := mem_projs.mp hM
  obtain ⟨a, ha⟩ : ∃ a : ℕ, (a : ℤ) = (j1 + j2 - J) / 2 := ⟨(((j1 : ℤ) + j2 - J) / 2).toNat, by omega⟩
  obtain ⟨b, hb⟩ : ∃ b : ℕ, (b : ℤ) = (J + j1 - j2) / 2 := ⟨(((J : ℤ) + j1 - j2) / 2).toNat, by omega⟩
  obtain ⟨c, hc⟩ : ∃ c : ℕ, (c : ℤ) = (J + j2 - j1) / 2 := ⟨(((J : ℤ) + j2 - j1) / 2).toNat, by omega⟩
  obtain ⟨δ, hδ⟩ : ∃ δ : ℤ, δ = (j2 - j1 + M) / 2 := ⟨_, rfl⟩
  have key := tSum_norm a b c (δ := δ) (by omega) (by omega)
  have e1 : ∀ m1 ∈ projs j1, ∑ m2 ∈ projs j2, cgd j1 m1 j2 m2 J M ^ 2 =
      (trid j1 j2 J * prd J M) ^ 2 * (wt a b c ((j1 - m1) / 2) ((j1 - m1) / 2 + δ) * tSum a b c ((j1 - m1) / 2) ((j1 - m1) / 2 + δ) ^ 2) := by
    intro m1 h1
    rw [mem_projs] at h1
    have hw : ∀ m2 : ℤ, m1 + m2 = M → cgd j1 m1 j2 m2 J M ^ 2 = (trid j1 j2 J * prd J M) ^ 2 *
        (wt a b c ((j1 - m1) / 2) ((j1 - m1) / 2 + δ) * tSum a b c ((j1 - m1) / 2) ((j1 - m1) / 2 + δ) ^ 2) := by
      intro m2 hm
      unfold cgd wt
      rw [if_pos (by omega), ha, hb, hc, show ((j1 : ℤ) - m1) / 2 + δ = (j2 + m2) / 2 by omega,
        show ((j1 : ℤ) + j2 - J) / 2 + (J + j1 - j2) / 2 - (j1 - m1) / 2 = (j1 + m1) / 2 by omega,
        show ((j1 : ℤ) + j2 - J) / 2 + (J + j2 - j1) / 2 - (j2 + m2) / 2 = (j2 - m2) / 2 by omega]
      have p1 : ∀ j m, prd j m * prd j m = ff ((j + m) / 2) * ff ((j - m) / 2) := fun j m => Real.mul_self_sqrt (mul_pos (ff_pos _) (ff_pos _)).le
      rw [show ∀ x y z t s : ℝ, (x * y * z * t * s) ^ 2 = (x * t) ^ 2 * ((y * y) * (z * z) * s ^ 2) from by intros; ring, p1, p1]
      ring
    by_cases hm : M - m1 ∈ projs j2
    · rw [Finset.sum_eq_single (M - m1)]
      · exact hw _ (by ring)
      · intro m2 _ hne
        rw [cgd_of_ne (by omega)]
        ring
      · intro hn
        exact absurd hm hn
    · rw [← hw (M - m1) (by ring), cgd_range (fun h => hm h.2.1), zero_pow two_ne_zero]
      refine Finset.sum_eq_zero fun m2 hm2 => ?_
      rw [cgd_of_ne, zero_pow two_ne_zero]
      intro h
      exact hm (by rw [← h, add_sub_cancel_left]; exact hm2)
  rw [Finset.sum_congr rfl e1, ← Finset.mul_sum]
  have e2 : ∑ m1 ∈ projs j1, wt a b c ((j1 - m1) / 2) ((j1 - m1) / 2 + δ) * tSum a b c ((j1 - m1) / 2) ((j1 - m1) / 2 + δ) ^ 2 =
      ∑ β ∈ Finset.Icc 0 ((a : ℤ) + b), wt a b c β (β + δ) * tSum a b c β (β + δ) ^ 2 := by
    refine Finset.sum_bij (fun m _ => ((j1 : ℤ) - m) / 2) ?_ ?_ ?_ ?_
    · intro m hm
      rw [mem_projs] at hm
      rw [Finset.mem_Icc]
      omega
    · intro m hm m' hm' h
      rw [mem_projs] at hm hm'
      omega
    · intro β hβ
      rw [Finset.mem_Icc] at hβ
      exact ⟨j1 - 2 * β, by rw [mem_projs]; omega, by omega⟩
    · intro m _
      rfl
  have p1 : prd J M ^ 2 = ff ((J + M) / 2) * ff ((J - M) / 2) := by
    rw [sq]
    exact Real.mul_self_sqrt (mul_pos (ff_pos _) (ff_pos _)).le
  rw [e2, key, mul_pow, p1, trid, Real.sq_sqrt, ← ha, ← hb, ← hc, show (b : ℤ) + δ = (J + M) / 2 by omega,
    show (c : ℤ) - δ = (J - M) / 2 by omega, show ((j1 : ℤ) + j2 + J) / 2 + 1 = a + b + c + 1 by omega]
  · have g0 := (ff_pos a).ne'
    have g1 := (ff_pos b).ne'
    have g2 := (ff_pos c).ne'
    have g3 := (ff_pos ((J + M) / 2)).ne'
    have g4 := (ff_pos ((J - M) / 2)).ne'
    have g6 := (ff_pos ((a : ℤ) + b + c + 1)).ne'
    have g7 : (b : ℝ) + c = J := by exact_mod_cast (show (b : ℤ) + c = J by omega)
    have g5 : (J : ℝ) + 1 ≠ 0 := by positivity
    rw [g7]
    push_cast
    field_simp
  · have h1 := ff_pos (((j1 : ℤ) + j2 - J) / 2)
    have h2 := ff_pos (((J : ℤ) + j1 - j2) / 2)
    have h3 := ff_pos (((J : ℤ) + j2 - j1) / 2)
    have h4 := ff_pos (((j1 : ℤ) + j2 + J) / 2 + 1)
    have h5 : (0 : ℝ) ≤ ((J : ℤ) : ℝ) := by exact_mod_cast Int.natCast_nonneg J
    positivity

end Verif.SU2
