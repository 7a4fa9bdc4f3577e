import Verif.Osc.Model
import Verif.Osc.Laguerre

/-! # Oscillator wave functions: the loops and the recurrence -/

namespace Verif.Osc
open Verif

/-- The sequence both functions compute. -/
noncomputable def seq (c : CoordSign) (l : ℕ) (x2 w0 : ℝ) : ℕ → ℝ
  | 0 => w0
  | 1 => recurrence1 c l x2 w0
  | n + 2 => recurrenceN c (n + 2) l x2 (seq c l x2 w0 (n + 1)) (seq c l x2 w0 n)

theorem fillLoop_eq (c : CoordSign) (l : ℕ) (x2 w0 : ℝ) :
    ∀ (k : ℕ) (wf : Array ℝ), 2 ≤ wf.size → (∀ i, i < wf.size → wf[i]? = some (seq c l x2 w0 i)) →
      (fillLoop c l x2 k wf).size = wf.size + k ∧
      ∀ i, i < wf.size + k → (fillLoop c l x2 k wf)[i]? = some (seq c l x2 w0 i)
  | 0, wf, _, h => ⟨rfl, h⟩
  | k + 1, wf, h2, h => by
    obtain ⟨m, hm⟩ := Nat.exists_eq_add_of_le h2
    have g1 : wf.getD (wf.size - 1) 0 = seq c l x2 w0 (m + 1) := by
      have := h (wf.size - 1) (by omega)
      rw [Array.getD_eq_getD_getElem?, this, hm, Option.getD_some]
      congr 1
      omega
    have g2 : wf.getD (wf.size - 2) 0 = seq c l x2 w0 m := by
      have := h (wf.size - 2) (by omega)
      rw [Array.getD_eq_getD_getElem?, this, hm, Option.getD_some]
      congr 1
      omega
    have key := fillLoop_eq c l x2 w0 k
      (wf.push (recurrenceN c wf.size l x2 (wf.getD (wf.size - 1) 0) (wf.getD (wf.size - 2) 0)))
      (by simp; omega) (by
        intro i hi
        rw [Array.size_push] at hi
        by_cases hlt : i < wf.size
        · rw [Array.getElem?_push, if_neg (by omega)]
          exact h i hlt
        · have : i = wf.size := by omega
          subst this
          rw [Array.getElem?_push_size, g1, g2, hm, Nat.add_comm 2 m]
          rfl)
    rw [fillLoop]
    simp only [Array.size_push] at key
    exact ⟨by rw [key.1]; omega, fun i hi => key.2 i (by omega)⟩

/-- The vector version stores the sequence. -/
theorem waveFunctions_eq (c : CoordSign) (nmax l : ℕ) (b x shift : ℝ) :
    (waveFunctions c nmax l b x shift).size = nmax + 1 ∧
    ∀ n, n ≤ nmax → (waveFunctions c nmax l b x shift)[n]?
      = some (seq c l (unitlessCoordSqr c b x) (recurrence0 c l b (unitlessCoordSqr c b x) shift) n) := by
  unfold waveFunctions
  rw [if_neg (by omega)]
  rcases nmax with _ | _ | k
  · refine ⟨by simp, ?_⟩
    intro n hn
    have : n = 0 := by omega
    subst this
    simp [seq]
  · refine ⟨by simp, ?_⟩
    intro n hn
    have : n = 0 ∨ n = 1 := by omega
    rcases this with rfl | rfl <;> simp [seq]
  · have e : ((k + 1 + 1 : ℕ) : Int).toNat - 1 = k + 1 := by omega
    simp only [e]
    rw [if_neg (by omega), if_neg (by omega)]
    have key := fillLoop_eq c l (unitlessCoordSqr c b x)
      (recurrence0 c l b (unitlessCoordSqr c b x) shift) (k + 1)
      (#[recurrence0 c l b (unitlessCoordSqr c b x) shift].push
        (recurrence1 c l (unitlessCoordSqr c b x)
          (#[recurrence0 c l b (unitlessCoordSqr c b x) shift].getD 0 0)))
      (by simp) (by
        intro i hi
        have : i = 0 ∨ i = 1 := by simp at hi; omega
        rcases this with rfl | rfl <;> simp [seq])
    simp only [List.push_toArray, List.size_toArray] at key
    simp only [List.push_toArray]
    refine ⟨by rw [key.1]; simp; omega, fun n hn => key.2 n ?_⟩
    simp; omega

theorem regLoop_eq (c : CoordSign) (l : ℕ) (x2 w0 : ℝ) :
    ∀ (k i : ℕ) (r : Regs), 1 ≤ i → r.wf = seq c l x2 w0 i → r.m1 = seq c l x2 w0 (i - 1) →
      (regLoop c l x2 k (i + 1) r).wf = seq c l x2 w0 (i + k)
  | 0, i, r, _, h, _ => h
  | k + 1, i, r, hi, h, h1 => by
    obtain ⟨m, rfl⟩ := Nat.exists_eq_add_of_le hi
    rw [regLoop, regLoop_eq c l x2 w0 k (1 + m + 1)]
    · congr 1; omega
    · omega
    · simp only [regStep]
      rw [h, h1]
      have e1 : 1 + m + 1 = m + 2 := by omega
      have e2 : 1 + m - 1 = m := by omega
      have e3 : 1 + m = m + 1 := by omega
      rw [e1, e2, e3]
      rfl
    · simp only [regStep]
      rw [h]
      congr 1

/-- The single version computes the sequence, whatever the uninitialised variables hold. -/
theorem waveFunction_eq (c : CoordSign) (n l : ℕ) (b x shift g1 g2 : ℝ) :
    waveFunction c n l b x shift g1 g2
      = seq c l (unitlessCoordSqr c b x) (recurrence0 c l b (unitlessCoordSqr c b x) shift) n := by
  unfold waveFunction
  rw [if_neg (by omega)]
  rcases n with _ | _ | k
  · simp [seq]
  · simp [seq]
  · rw [if_neg (by omega), if_neg (by omega)]
    have e : ((k + 1 + 1 : ℕ) : Int).toNat - 1 = k + 1 := by omega
    rw [e]
    rw [regLoop_eq c l _ (recurrence0 c l b (unitlessCoordSqr c b x) shift) (k + 1) 1 _ (by omega)
      rfl rfl]
    congr 1; omega

/-- Normalisation relative to the ground state. -/
noncomputable def relNorm (l n : ℕ) : ℝ :=
  Real.sqrt (n.factorial * Real.Gamma (l + 3 / 2) / Real.Gamma (n + l + 3 / 2))

theorem relNorm_zero (l : ℕ) : relNorm l 0 = 1 := by
  have : Real.Gamma ((l : ℝ) + 3 / 2) ≠ 0 := (Real.Gamma_pos_of_pos (by positivity)).ne'
  simp [relNorm, this]

theorem relNorm_succ (l n : ℕ) :
    relNorm l (n + 1) * Real.sqrt (n + 1 + (l + 1 / 2)) = relNorm l n * Real.sqrt (n + 1) := by
  have hg : (0 : ℝ) < Real.Gamma (n + l + 3 / 2) := Real.Gamma_pos_of_pos (by positivity)
  have hg0 : (0 : ℝ) < Real.Gamma (l + 3 / 2) := Real.Gamma_pos_of_pos (by positivity)
  have hG : Real.Gamma (((n + 1 : ℕ) : ℝ) + l + 3 / 2) = (n + l + 3 / 2) * Real.Gamma (n + l + 3 / 2) := by
    rw [← Real.Gamma_add_one (by positivity)]
    congr 1; push_cast; ring
  unfold relNorm
  rw [hG, ← Real.sqrt_mul (by positivity), ← Real.sqrt_mul (by positivity), Nat.factorial_succ]
  congr 1
  push_cast
  have : (n : ℝ) + l + 3 / 2 ≠ 0 := by positivity
  field_simp
  ring

/-- The recurrence with the position-space sign generates the Laguerre polynomials. -/
theorem seq_position (l : ℕ) (x2 w0 : ℝ) :
    ∀ n, seq .position l x2 w0 n = w0 * relNorm l n * laguerre n (l + 1 / 2) x2
      ∧ seq .position l x2 w0 (n + 1) = w0 * relNorm l (n + 1) * laguerre (n + 1) (l + 1 / 2) x2 := by
  intro n
  induction n with
  | zero =>
    refine ⟨by simp [seq, relNorm_zero, laguerre_zero], ?_⟩
    have h := relNorm_succ l 0
    rw [relNorm_zero] at h
    simp only [Nat.cast_zero, zero_add, Real.sqrt_one, mul_one] at h
    have hp : Real.sqrt (1 + ((l : ℝ) + 1 / 2)) ≠ 0 := by positivity
    have e : (l : ℝ) + 1.5 = 1 + (l + 1 / 2) := by norm_num; ring
    simp only [seq, recurrence1, CoordSign.val, zero_add, laguerre_one, e]
    have hr : relNorm l 1 = 1 / Real.sqrt (1 + ((l : ℝ) + 1 / 2)) := by
      rw [eq_div_iff hp]; exact h
    rw [hr]
    push_cast
    ring
  | succ n ih =>
    refine ⟨ih.2, ?_⟩
    rw [seq, ih.1, ih.2]
    have h1 := relNorm_succ l n
    have h2 := relNorm_succ l (n + 1)
    have h3 := laguerre_three_term n (l + 1 / 2) x2
    unfold recurrenceN
    simp only [CoordSign.val]
    push_cast at *
    have e1 : ((n : ℝ) + 2 - 1) * (n + 2 + l - 0.5) = (n + 1) * (n + 1 + (l + 1 / 2)) := by
      norm_num; ring
    have e2 : ((n : ℝ) + 2) * (n + 2 + l + 0.5) = (n + 1 + 1) * (n + 1 + 1 + (l + 1 / 2)) := by
      norm_num; ring
    rw [e1, e2, Real.sqrt_mul (by positivity), Real.sqrt_mul (by positivity)]
    set p := Real.sqrt ((n : ℝ) + 1)
    set P := Real.sqrt ((n : ℝ) + 1 + 1) with hP
    set q := Real.sqrt ((n : ℝ) + 1 + (l + 1 / 2)) with hq
    set Q := Real.sqrt ((n : ℝ) + 1 + 1 + (l + 1 / 2)) with hQ
    have hP0 : P ≠ 0 := by rw [hP]; positivity
    have hQ0 : Q ≠ 0 := by rw [hQ]; positivity
    have hPP : P ^ 2 = (n : ℝ) + 2 := by rw [hP, Real.sq_sqrt (by positivity)]; ring
    have hqq : q ^ 2 = (n : ℝ) + 1 + (l + 1 / 2) := by rw [hq, Real.sq_sqrt (by positivity)]
    rw [div_eq_iff (mul_ne_zero hP0 hQ0)]
    norm_num
    set c0 := relNorm l n
    set c1 := relNorm l (n + 1)
    set c2 := relNorm l (n + 1 + 1)
    set L0 := laguerre n ((l : ℝ) + 1 / 2) x2
    set L1 := laguerre (n + 1) ((l : ℝ) + 1 / 2) x2
    set L2 := laguerre (n + 1 + 1) ((l : ℝ) + 1 / 2) x2
    have h3' : ((n : ℝ) + 2) * L2 = (2 * n + 3 + (l + 1 / 2) - x2) * L1 - (n + 1 + (l + 1 / 2)) * L0 := h3
    linear_combination (w0 * q * L0) * h1 - (w0 * P * L2) * h2 - (w0 * c1 * L2) * hPP - (w0 * c1) * h3'
      - (w0 * c1 * L0) * hqq

end Verif.Osc
