import Verif.Script.GenerateInput
import Verif.Mixer.ControlProps
import Mathlib.Data.Complex.Basic
import Mathlib.Algebra.Algebra.Basic
import Mathlib.Algebra.BigOperators.Fin
import Mathlib.Algebra.MvPolynomial.PDeriv
import Mathlib.RingTheory.Derivation.Lie
import Mathlib.Tactic.Module
import Mathlib.Tactic.NoncommRing
import Mathlib.Tactic.FieldSimp
import Mathlib.Tactic.Positivity

/-!
# The operators of the worked example (C157)

The coefficients of `h2mixer_input` against the operators they are meant to give, in an algebra in which positions and
momenta of `A` particles obey the canonical commutation relations.
-/

namespace Verif.Script
open Verif Verif.Mixer.Control
open Verif.H2 (Except.ok_bind' Except.error_bind' Except.pure_ok Except.bind_eq_ok)
open Finset

/-! ## Specification -/

/-- Positions (fm) and momenta times `c` (MeV) of `n` particles. -/
structure Particles (n : ℕ) (E : Type) [Ring E] [Algebra ℂ E] where
  x : Fin n → Fin 3 → E
  p : Fin n → Fin 3 → E
  xx : ∀ i j α β, x i α * x j β = x j β * x i α
  pp : ∀ i j α β, p i α * p j β = p j β * p i α
  xp : ∀ i j α β, x i α * p j β - p j β * x i α = if i = j ∧ α = β then (Complex.I * (hbarc : ℂ)) • 1 else 0

variable {n : ℕ} {E : Type} [Ring E] [Algebra ℂ E]

namespace Particles

/-- The square of a vector. -/
def sq (v : Fin 3 → E) : E := ∑ α, v α * v α

/-- The centre of mass and the total momentum. -/
noncomputable def X (q : Particles n E) (α : Fin 3) : E := (1 / (n : ℂ)) • ∑ i, q.x i α
def P (q : Particles n E) (α : Fin 3) : E := ∑ i, q.p i α

/-- Kinetic energy without that of the centre of mass. -/
noncomputable def Trel (q : Particles n E) : E :=
  (1 / (2 * (mNcsqr : ℂ))) • ∑ i, sq (q.p i) - (1 / (2 * n * (mNcsqr : ℂ))) • sq q.P

/-- Mean square distance from the centre of mass. -/
noncomputable def rrel2 (q : Particles n E) : E := (1 / (n : ℂ)) • ∑ i, sq fun α => q.x i α - q.X α

/-- The oscillator length of the centre of mass: mass `n m`, energy `cm`. -/
noncomputable def cmLength (n : ℕ) (cm : ℝ) : ℝ := hbarc / Real.sqrt (n * mNcsqr * cm)

/-- The ladder operators of the oscillator of the centre of mass. -/
noncomputable def lower (q : Particles n E) (cm : ℝ) (α : Fin 3) : E :=
  ((1 / Real.sqrt 2 : ℝ) : ℂ) • ((1 / (cmLength n cm : ℂ)) • q.X α + (Complex.I * ((cmLength n cm / hbarc : ℝ) : ℂ)) • q.P α)
noncomputable def raise (q : Particles n E) (cm : ℝ) (α : Fin 3) : E :=
  ((1 / Real.sqrt 2 : ℝ) : ℂ) • ((1 / (cmLength n cm : ℂ)) • q.X α - (Complex.I * ((cmLength n cm / hbarc : ℝ) : ℂ)) • q.P α)

/-- The number of quanta of the centre of mass. -/
noncomputable def Ncm (q : Particles n E) (cm : ℝ) : E := ∑ α, q.raise cm α * q.lower cm α

/-- The sources of the example: sums over particles and over pairs, in units of an oscillator length `b`. -/
noncomputable def source (q : Particles n E) (b : ℝ) (VNN VC : E) : String → E
  | "Ursqr" => ∑ i, ∑ α, ((1 / b : ℝ) : ℂ) • q.x i α * ((1 / b : ℝ) : ℂ) • q.x i α
  | "Vr1r2" => ∑ i, ∑ j, if i < j then ∑ α, ((1 / b : ℝ) : ℂ) • q.x i α * ((1 / b : ℝ) : ℂ) • q.x j α else 0
  | "Uksqr" => ∑ i, ∑ α, ((b / hbarc : ℝ) : ℂ) • q.p i α * ((b / hbarc : ℝ) : ℂ) • q.p i α
  | "Vk1k2" => ∑ i, ∑ j, if i < j then ∑ α, ((b / hbarc : ℝ) : ℂ) • q.p i α * ((b / hbarc : ℝ) : ℂ) • q.p j α else 0
  | "identity" => 1
  | "VNN" => VNN
  | "VC" => VC
  | _ => 0

end Particles

/-- A linear combination of sources. -/
noncomputable def combine (O : String → E) (ts : List (String × ℝ)) : E := (ts.map fun t => ((t.2 : ℝ) : ℂ) • O t.1).sum

/-! ## Sums over pairs -/

theorem sum_pairs (f : Fin n → Fin n → E) :
    ∑ i, ∑ j, f i j = ∑ i, f i i + ∑ i, ∑ j, if i < j then f i j + f j i else 0 := by
  have h1 : ∀ i j, f i j = (if i = j then f i j else 0) + ((if i < j then f i j else 0) + if j < i then f i j else 0) := by
    intro i j
    rcases lt_trichotomy i j with h | h | h
    · simp [h, h.ne, h.le, not_lt.mpr h.le]
    · simp [h]
    · simp [h, h.ne', not_lt.mpr h.le]
  have h2 : ∑ i, ∑ j, (if j < i then f i j else 0) = ∑ i, ∑ j, if i < j then f j i else 0 := sum_comm
  calc ∑ i, ∑ j, f i j = ∑ i, ∑ j, ((if i = j then f i j else 0) + ((if i < j then f i j else 0) + if j < i then f i j else 0)) :=
        sum_congr rfl fun i _ => sum_congr rfl fun j _ => h1 i j
    _ = ∑ i, f i i + (∑ i, ∑ j, (if i < j then f i j else 0) + ∑ i, ∑ j, if i < j then f j i else 0) := by
        simp only [sum_add_distrib, h2]
        simp
    _ = _ := by
        rw [← sum_add_distrib]
        congr 1
        apply sum_congr rfl
        intro i _
        rw [← sum_add_distrib]
        apply sum_congr rfl
        intro j _
        split <;> simp

/-- The square of a sum of commuting vectors. -/
theorem sq_sum {u : Fin n → Fin 3 → E} (hu : ∀ i j α, u i α * u j α = u j α * u i α) :
    Particles.sq (fun α => ∑ i, u i α) = ∑ i, Particles.sq (u i) +
      (2 : ℂ) • ∑ i, ∑ j, if i < j then ∑ α, u i α * u j α else 0 := by
  unfold Particles.sq
  have : ∀ α, (∑ i, u i α) * (∑ i, u i α) = ∑ i, u i α * u i α + ∑ i, ∑ j, if i < j then (2 : ℂ) • (u i α * u j α) else 0 := by
    intro α
    rw [sum_mul_sum, sum_pairs]
    congr 1
    apply sum_congr rfl; intro i _
    apply sum_congr rfl; intro j _
    rw [hu j i, two_smul]
  simp only [this, sum_add_distrib]
  congr 1
  · exact sum_comm
  · rw [sum_comm, smul_sum]
    apply sum_congr rfl; intro i _
    rw [sum_comm, smul_sum]
    apply sum_congr rfl; intro j _
    split
    · rw [smul_sum]
    · simp

namespace Particles

/-- Sums over particles and over pairs. -/
def one (u : Fin n → Fin 3 → E) : E := ∑ i, sq (u i)
def two (u : Fin n → Fin 3 → E) : E := ∑ i, ∑ j, if i < j then ∑ α, u i α * u j α else 0

theorem source_r (q : Particles n E) (b : ℝ) (VNN VC : E) :
    q.source b VNN VC "Ursqr" = ((1 / b ^ 2 : ℝ) : ℂ) • one q.x ∧
    q.source b VNN VC "Vr1r2" = ((1 / b ^ 2 : ℝ) : ℂ) • two q.x := by
  constructor
  · show (∑ i, ∑ α, ((1 / b : ℝ) : ℂ) • q.x i α * ((1 / b : ℝ) : ℂ) • q.x i α) = _
    simp only [one, sq, smul_sum, smul_mul_smul_comm]
    apply sum_congr rfl; intro i _
    apply sum_congr rfl; intro α _
    congr 1
    push_cast
    ring
  · show (∑ i, ∑ j, if i < j then ∑ α, ((1 / b : ℝ) : ℂ) • q.x i α * ((1 / b : ℝ) : ℂ) • q.x j α else 0) = _
    simp only [two, smul_sum, smul_ite, smul_zero, smul_mul_smul_comm]
    apply sum_congr rfl; intro i _
    apply sum_congr rfl; intro j _
    split
    · apply sum_congr rfl; intro α _
      congr 1
      push_cast
      ring
    · rfl

theorem source_k (q : Particles n E) (b : ℝ) (VNN VC : E) :
    q.source b VNN VC "Uksqr" = ((b ^ 2 / hbarc ^ 2 : ℝ) : ℂ) • one q.p ∧
    q.source b VNN VC "Vk1k2" = ((b ^ 2 / hbarc ^ 2 : ℝ) : ℂ) • two q.p := by
  constructor
  · show (∑ i, ∑ α, ((b / hbarc : ℝ) : ℂ) • q.p i α * ((b / hbarc : ℝ) : ℂ) • q.p i α) = _
    simp only [one, sq, smul_sum, smul_mul_smul_comm]
    apply sum_congr rfl; intro i _
    apply sum_congr rfl; intro α _
    congr 1
    push_cast
    ring
  · show (∑ i, ∑ j, if i < j then ∑ α, ((b / hbarc : ℝ) : ℂ) • q.p i α * ((b / hbarc : ℝ) : ℂ) • q.p j α else 0) = _
    simp only [two, smul_sum, smul_ite, smul_zero, smul_mul_smul_comm]
    apply sum_congr rfl; intro i _
    apply sum_congr rfl; intro j _
    split
    · apply sum_congr rfl; intro α _
      congr 1
      push_cast
      ring
    · rfl

theorem sq_P (q : Particles n E) : sq q.P = one q.p + (2 : ℂ) • two q.p := sq_sum fun i j α => q.pp i j α α

theorem sq_smul (c : ℂ) (v : Fin 3 → E) : sq (fun α => c • v α) = (c ^ 2) • sq v := by
  simp only [sq, smul_sum, smul_mul_smul_comm, sq]
  apply sum_congr rfl; intro α _
  rw [pow_two]

theorem sq_X (q : Particles n E) : sq q.X = (1 / (n : ℂ)) ^ 2 • (one q.x + (2 : ℂ) • two q.x) := by
  rw [one, two, ← sq_sum fun i j α => q.xx i j α α, ← sq_smul]
  rfl

theorem rrel2_eq (q : Particles n E) (hn : n ≠ 0) :
    q.rrel2 = (((n : ℂ) - 1) / n ^ 2) • one q.x - (2 / (n : ℂ) ^ 2) • two q.x := by
  have hn' : (n : ℂ) ≠ 0 := by exact_mod_cast hn
  have h1 : ∑ i, sq (fun α => q.x i α - q.X α) = one q.x - (n : ℂ) • sq q.X := by
    have h2 : ∀ α, ∑ i, q.x i α = (n : ℂ) • q.X α := by
      intro α
      rw [X, smul_smul, mul_one_div_cancel hn', one_smul]
    have h3 : ∀ α, ∑ i, (q.x i α - q.X α) * (q.x i α - q.X α) = ∑ i, q.x i α * q.x i α - (n : ℂ) • (q.X α * q.X α) := by
      intro α
      have : ∀ i, (q.x i α - q.X α) * (q.x i α - q.X α) =
          q.x i α * q.x i α - q.x i α * q.X α - q.X α * q.x i α + q.X α * q.X α := by
        intro i
        noncomm_ring
      simp only [this, sum_add_distrib, sum_sub_distrib, ← sum_mul, ← mul_sum, h2, sum_const, card_univ, Fintype.card_fin]
      simp only [smul_mul_assoc, mul_smul_comm, ← Nat.cast_smul_eq_nsmul ℂ]
      module
    unfold one sq
    rw [sum_comm, sum_congr rfl fun α _ => h3 α, sum_sub_distrib, sum_comm, smul_sum]
  rw [rrel2, h1, sq_X]
  match_scalars <;> field_simp

/-- The commutator of the centre of mass and the total momentum. -/
theorem comm_XP (q : Particles n E) (hn : n ≠ 0) (α β : Fin 3) :
    q.X α * q.P β - q.P β * q.X α = if α = β then (Complex.I * (hbarc : ℂ)) • (1 : E) else 0 := by
  have hn' : (n : ℂ) ≠ 0 := by exact_mod_cast hn
  unfold X P
  rw [smul_mul_assoc, mul_smul_comm, ← smul_sub, sum_mul_sum, sum_mul_sum, sum_comm (s := univ) (t := univ)
    (f := fun i j => q.p i β * q.x j α), ← sum_sub_distrib]
  simp only [← sum_sub_distrib, q.xp]
  by_cases h : α = β
  · simp only [h, and_true, sum_ite_eq, mem_univ, if_true, sum_const, card_univ, Fintype.card_fin]
    rw [← Nat.cast_smul_eq_nsmul ℂ, smul_smul, smul_smul]
    congr 1
    field_simp
  · simp [h]

theorem Ncm_eq (q : Particles n E) (hn : n ≠ 0) {cm : ℝ} (hcm : 0 < cm) :
    q.Ncm cm = ((cm * n * mNcsqr / (2 * hbarc ^ 2) : ℝ) : ℂ) • sq q.X + ((1 / (2 * n * mNcsqr * cm) : ℝ) : ℂ) • sq q.P -
      (3 / 2 : ℂ) • 1 := by
  have hn' : (0 : ℝ) < n := by exact_mod_cast Nat.pos_of_ne_zero hn
  have hm : 0 < mNcsqr := by norm_num [mNcsqr]
  have hh : 0 < hbarc := by norm_num [hbarc]
  have hB : cmLength n cm ^ 2 = hbarc ^ 2 / (n * mNcsqr * cm) := by
    rw [cmLength, div_pow, Real.sq_sqrt (by positivity)]
  have hB0 : cmLength n cm ≠ 0 := by
    intro h
    rw [h] at hB
    have : 0 < hbarc ^ 2 / (n * mNcsqr * cm) := by positivity
    rw [← hB] at this
    norm_num at this
  have hs : ((1 / Real.sqrt 2 : ℝ) : ℂ) * ((1 / Real.sqrt 2 : ℝ) : ℂ) = 1 / 2 := by
    rw [← Complex.ofReal_mul, div_mul_div_comm, Real.mul_self_sqrt (by norm_num)]
    push_cast
    ring
  have hterm : ∀ α, q.raise cm α * q.lower cm α = ((cm * n * mNcsqr / (2 * hbarc ^ 2) : ℝ) : ℂ) • (q.X α * q.X α) +
      ((1 / (2 * n * mNcsqr * cm) : ℝ) : ℂ) • (q.P α * q.P α) - (1 / 2 : ℂ) • 1 := by
    intro α
    have hc := q.comm_XP hn α α
    rw [if_pos rfl] at hc
    have hu : (1 / (cmLength n cm : ℂ)) * (1 / (cmLength n cm : ℂ)) = ((cm * n * mNcsqr / hbarc ^ 2 : ℝ) : ℂ) := by
      rw [div_mul_div_comm, ← pow_two (cmLength n cm : ℂ), ← Complex.ofReal_pow, hB]
      have h1 : (hbarc : ℂ) ≠ 0 := by exact_mod_cast hh.ne'
      have h2 : (mNcsqr : ℂ) ≠ 0 := by exact_mod_cast hm.ne'
      have h3 : (n : ℂ) ≠ 0 := by exact_mod_cast hn
      have h4 : (cm : ℂ) ≠ 0 := by exact_mod_cast hcm.ne'
      push_cast
      field_simp
    have hv : (Complex.I * ((cmLength n cm / hbarc : ℝ) : ℂ)) * (Complex.I * ((cmLength n cm / hbarc : ℝ) : ℂ)) =
        -((1 / (n * mNcsqr * cm) : ℝ) : ℂ) := by
      rw [mul_mul_mul_comm, Complex.I_mul_I, ← Complex.ofReal_mul, div_mul_div_comm, ← pow_two, hB, ← pow_two]
      have : hbarc ^ 2 / (n * mNcsqr * cm) / hbarc ^ 2 = 1 / (n * mNcsqr * cm) := by
        have := hh.ne'
        field_simp
      rw [this]
      ring
    have huv : (1 / (cmLength n cm : ℂ)) * (Complex.I * ((cmLength n cm / hbarc : ℝ) : ℂ)) * (Complex.I * (hbarc : ℂ)) = -1 := by
      have h1 : (cmLength n cm : ℂ) ≠ 0 := by exact_mod_cast hB0
      have h2 : (hbarc : ℂ) ≠ 0 := by exact_mod_cast hh.ne'
      push_cast
      field_simp
      exact Complex.I_sq
    unfold raise lower
    rw [smul_mul_smul_comm, hs]
    generalize (1 / (cmLength n cm : ℂ)) = u at *
    generalize (Complex.I * ((cmLength n cm / hbarc : ℝ) : ℂ)) = v at *
    have expand : (u • q.X α - v • q.P α) * (u • q.X α + v • q.P α) =
        (u * u) • (q.X α * q.X α) + (u * v) • (q.X α * q.P α - q.P α * q.X α) - (v * v) • (q.P α * q.P α) := by
      simp only [sub_mul, mul_add, smul_mul_smul_comm]
      module
    rw [expand, hc, smul_smul, hu, hv, huv]
    push_cast
    match_scalars <;> ring
  rw [Ncm, sum_congr rfl fun α _ => hterm α]
  simp only [sum_add_distrib, sum_sub_distrib, ← smul_sum, sq, sum_const, card_univ, Fintype.card_fin]
  congr 1
  rw [← Nat.cast_smul_eq_nsmul ℂ, smul_smul]
  congr 1
  norm_num

/-- The ladder operators are those of an oscillator. -/
theorem ladder (q : Particles n E) (hn : n ≠ 0) {cm : ℝ} (hcm : 0 < cm) (α β : Fin 3) :
    q.lower cm α * q.raise cm β - q.raise cm β * q.lower cm α = if α = β then 1 else 0 := by
  have hn' : (0 : ℝ) < n := by exact_mod_cast Nat.pos_of_ne_zero hn
  have hm : 0 < mNcsqr := by norm_num [mNcsqr]
  have hh : 0 < hbarc := by norm_num [hbarc]
  have hB : 0 < cmLength n cm := by
    unfold cmLength
    positivity
  have hX : q.X α * q.X β = q.X β * q.X α := by
    simp only [X, smul_mul_smul_comm, sum_mul_sum]
    rw [sum_comm]
    congr 1
    exact sum_congr rfl fun i _ => sum_congr rfl fun j _ => q.xx ..
  have hP : q.P α * q.P β = q.P β * q.P α := by
    simp only [P, sum_mul_sum]
    rw [sum_comm]
    exact sum_congr rfl fun i _ => sum_congr rfl fun j _ => q.pp ..
  have hs : ((1 / Real.sqrt 2 : ℝ) : ℂ) * ((1 / Real.sqrt 2 : ℝ) : ℂ) = 1 / 2 := by
    rw [← Complex.ofReal_mul, div_mul_div_comm, Real.mul_self_sqrt (by norm_num)]
    push_cast
    ring
  have huv : (1 / (cmLength n cm : ℂ)) * (Complex.I * ((cmLength n cm / hbarc : ℝ) : ℂ)) * (Complex.I * (hbarc : ℂ)) = -1 := by
    have h1 : (cmLength n cm : ℂ) ≠ 0 := by exact_mod_cast hB.ne'
    have h2 : (hbarc : ℂ) ≠ 0 := by exact_mod_cast hh.ne'
    push_cast
    field_simp
    exact Complex.I_sq
  have h1 := q.comm_XP hn α β
  have h2 := q.comm_XP hn β α
  unfold raise lower
  rw [smul_mul_smul_comm, smul_mul_smul_comm, hs]
  generalize (1 / (cmLength n cm : ℂ)) = u at *
  generalize (Complex.I * ((cmLength n cm / hbarc : ℝ) : ℂ)) = v at *
  have expand : ((u • q.X α + v • q.P α) * (u • q.X β - v • q.P β)) - (u • q.X β - v • q.P β) * (u • q.X α + v • q.P α) =
      -((u * v) • ((q.X α * q.P β - q.P β * q.X α) + (q.X β * q.P α - q.P α * q.X β))) := by
    simp only [sub_mul, mul_add, add_mul, mul_sub, smul_mul_smul_comm, hX, hP]
    module
  rw [← smul_sub, expand, h1, h2]
  by_cases h : α = β
  · rw [if_pos h, if_pos h.symm, if_pos h]
    rw [← two_smul ℂ, smul_comm, smul_smul (u * v), huv]
    module
  · rw [if_neg h, if_neg (Ne.symm h), if_neg h]
    simp

end Particles

/-! ## Properties -/

/-- The coefficients of a target. -/
def Target (p : Params) (file : String) (ts : List (String × ℝ)) : Prop := (file, ts) ∈ targets p

open Particles

variable {p : Params}

theorem length_sq {hw : ℝ} (h : 0 < hw) : oscillatorLength hw ^ 2 = hbarc ^ 2 / (mNcsqr * hw) := by
  have hm : 0 < mNcsqr := by norm_num [mNcsqr]
  rw [oscillatorLength, div_pow, Real.sq_sqrt (by positivity)]

/-- **C157, kinetic energy.** The target `tbme-Trel.bin` is the kinetic energy of relative motion. -/
theorem example_Trel (q : Particles n E) (hA : p.A = n) (hn : n ≠ 0) (hw : 0 < p.hw) (VNN VC : E) {ts : List (String × ℝ)}
    (ht : Target p "tbme-Trel.bin" ts) : combine (q.source (oscillatorLength p.hw) VNN VC) ts = q.Trel := by
  simp only [Target, targets, List.mem_cons, Prod.mk.injEq, String.reduceEq, false_and, or_false, true_and, false_or,
    List.not_mem_nil] at ht
  subst ht
  have hm : mNcsqr ≠ 0 := by norm_num [mNcsqr]
  have hh : hbarc ≠ 0 := by norm_num [hbarc]
  have hT : q.Trel = (1 / (2 * (mNcsqr : ℂ))) • one q.p - (1 / (2 * n * (mNcsqr : ℂ))) • Particles.sq q.P := rfl
  simp only [combine, List.map_cons, List.map_nil, List.sum_cons, List.sum_nil, (q.source_k _ _ _).1, (q.source_k _ _ _).2,
    hT, sq_P, length_sq hw, add_zero]
  have h1 : (hbarc : ℂ) ≠ 0 := by exact_mod_cast hh
  have h2 : (mNcsqr : ℂ) ≠ 0 := by exact_mod_cast hm
  have h3 : (n : ℂ) ≠ 0 := by exact_mod_cast hn
  have h4 : (p.hw : ℂ) ≠ 0 := by exact_mod_cast hw.ne'
  have h5 : ((p.A : ℤ) : ℂ) = n := by rw [hA]; rfl
  push_cast
  rw [h5]
  match_scalars <;> field_simp <;> ring

/-- **C157, radius.** The target `tbme-rrel2.bin` is the mean square distance from the centre of mass. -/
theorem example_rrel2 (q : Particles n E) (hA : p.A = n) (hn : n ≠ 0) (hw : 0 < p.hw) (VNN VC : E) {ts : List (String × ℝ)}
    (ht : Target p "tbme-rrel2.bin" ts) : combine (q.source (oscillatorLength p.hw) VNN VC) ts = q.rrel2 := by
  simp only [Target, targets, List.mem_cons, Prod.mk.injEq, String.reduceEq, false_and, or_false, true_and, false_or,
    List.not_mem_nil] at ht
  subst ht
  have hm : mNcsqr ≠ 0 := by norm_num [mNcsqr]
  have hh : hbarc ≠ 0 := by norm_num [hbarc]
  simp only [combine, List.map_cons, List.map_nil, List.sum_cons, List.sum_nil, (q.source_r _ _ _).1, (q.source_r _ _ _).2,
    q.rrel2_eq hn, length_sq hw, div_pow, add_zero]
  have h1 : (hbarc : ℂ) ≠ 0 := by exact_mod_cast hh
  have h2 : (mNcsqr : ℂ) ≠ 0 := by exact_mod_cast hm
  have h3 : (n : ℂ) ≠ 0 := by exact_mod_cast hn
  have h4 : (p.hw : ℂ) ≠ 0 := by exact_mod_cast hw.ne'
  have h5 : ((p.A : ℤ) : ℂ) = n := by rw [hA]; rfl
  push_cast
  rw [h5]
  match_scalars <;> field_simp

/-- The oscillator energy `w` of the centre of mass: the one given, or that of the basis. -/
def CmEnergy (p : Params) (w : ℝ) : Prop := p.hwCm = some w ∨ p.hwCm = none ∧ w = p.hw

theorem CmEnergy.eq {w : ℝ} (h : CmEnergy p w) : p.cm = w := by
  rcases h with h | ⟨h, rfl⟩ <;> simp [Params.cm, h]

/-- **C157, centre of mass.** The target `tbme-Ncm.bin` counts the quanta of the centre of mass. -/
theorem example_Ncm (q : Particles n E) (hA : p.A = n) (hn : n ≠ 0) (hw : 0 < p.hw) {w : ℝ} (he : CmEnergy p w) (hcm : 0 < w)
    (VNN VC : E) {ts : List (String × ℝ)} (ht : Target p "tbme-Ncm.bin" ts) :
    combine (q.source (oscillatorLength p.hw) VNN VC) ts = q.Ncm w := by
  rw [← he.eq] at hcm ⊢
  simp only [Target, targets, List.mem_cons, Prod.mk.injEq, String.reduceEq, false_and, or_false, true_and, false_or,
    List.not_mem_nil] at ht
  subst ht
  have hm : mNcsqr ≠ 0 := by norm_num [mNcsqr]
  have hh : hbarc ≠ 0 := by norm_num [hbarc]
  have hi : q.source (oscillatorLength p.hw) VNN VC "identity" = 1 := rfl
  simp only [combine, List.map_cons, List.map_nil, List.sum_cons, List.sum_nil, (q.source_r _ _ _).1, (q.source_r _ _ _).2,
    (q.source_k _ _ _).1, (q.source_k _ _ _).2, q.Ncm_eq hn hcm, sq_P, sq_X, hi, length_sq hw, add_zero]
  have h1 : (hbarc : ℂ) ≠ 0 := by exact_mod_cast hh
  have h2 : (mNcsqr : ℂ) ≠ 0 := by exact_mod_cast hm
  have h3 : (n : ℂ) ≠ 0 := by exact_mod_cast hn
  have h4 : (p.hw : ℂ) ≠ 0 := by exact_mod_cast hw.ne'
  have h6 : (p.cm : ℂ) ≠ 0 := by exact_mod_cast hcm.ne'
  have h5 : ((p.A : ℤ) : ℂ) = n := by rw [hA]; rfl
  push_cast
  rw [h5]
  match_scalars <;> field_simp

/-- **C157, Hamiltonian.** The target `tbme-H.bin` is the kinetic energy of relative motion, the interaction, `a` times the
number of quanta of the centre of mass and, if asked for, the Coulomb interaction scaled to the length of the basis. -/
theorem example_H (q : Particles n E) (hA : p.A = n) (hn : n ≠ 0) (hw : 0 < p.hw) {w : ℝ} (he : CmEnergy p w) (hcm : 0 < w)
    (hc : 0 < p.hwC) (VNN VC : E) {ts : List (String × ℝ)} (ht : Target p "tbme-H.bin" ts) :
    combine (q.source (oscillatorLength p.hw) VNN VC) ts = q.Trel + VNN + (p.a : ℂ) • q.Ncm w +
      if p.coulomb then ((oscillatorLength p.hwC / oscillatorLength p.hw : ℝ) : ℂ) • VC else 0 := by
  have e1 := example_Trel q hA hn hw VNN VC (p := p) (ts := _) (by
    simp only [Target, targets, List.mem_cons, Prod.mk.injEq, String.reduceEq, false_and, or_false, true_and, false_or,
      List.not_mem_nil]
    rfl)
  have e2 := example_Ncm q hA hn hw he hcm VNN VC (p := p) (ts := _) (by
    simp only [Target, targets, List.mem_cons, Prod.mk.injEq, String.reduceEq, false_and, or_false, true_and, false_or,
      List.not_mem_nil]
    rfl)
  have hm : 0 < mNcsqr := by norm_num [mNcsqr]
  have hh : 0 < hbarc := by norm_num [hbarc]
  have hvc : coefVC p = oscillatorLength p.hwC / oscillatorLength p.hw := by
    unfold coefVC oscillatorLength
    rw [div_div_div_cancel_left' _ _ hh.ne', ← Real.sqrt_div (by positivity)]
    congr 1
    field_simp
  simp only [Target, targets, List.mem_cons, Prod.mk.injEq, String.reduceEq, false_and, or_false, true_and,
    List.not_mem_nil] at ht
  subst ht
  rw [← e1, ← e2]
  have hv : q.source (oscillatorLength p.hw) VNN VC "VC" = VC := rfl
  have hv' : q.source (oscillatorLength p.hw) VNN VC "VNN" = VNN := rfl
  simp only [combine, List.map_cons, List.map_nil, List.map_append, List.sum_append, List.sum_cons, List.sum_nil, hv', add_zero]
  cases p.coulomb with
  | true =>
    simp only [if_true, List.map_cons, List.map_nil, List.sum_cons, List.sum_nil, hv, hvc]
    push_cast
    module
  | false =>
    simp only [Bool.false_eq_true, if_false, List.map_nil, List.sum_nil]
    push_cast
    module

/-! ## Reading the targets -/

/-- How the reader takes the numbers: `{}` writes the constant 1 exactly, `{:e}` rounds to seven digits. -/
structure Reads (nm : Numbers) (pr : Printing) (rnd : ℝ → ℝ) : Prop where
  plain : nm.num? (pr.plain 1) = some 1
  e : ∀ x, nm.num? (pr.e x) = some (rnd x)

theorem add_terms {nm : Numbers} {pr : Printing} {r : String × ℝ → ℝ} : ∀ (ts done : List (String × ℝ)) (cfg : Config) (f : String),
    (∀ t ∈ ts, nm.num? (coefText pr t) = some (r t)) →
    (ts.map fun c => (⟨["add-source", c.1, coefText pr c], false⟩ : CLine)).foldlM (step nm)
      { cfg with targets := cfg.targets ++ [(f, done)] } =
    .ok { cfg with targets := cfg.targets ++ [(f, done ++ ts.map fun t => (t.1, r t))] } := by
  intro ts
  induction ts with
  | nil => simp
  | cons t ts ih =>
    intro done cfg f h
    rw [List.map_cons, List.foldlM_cons]
    have h1 : step nm { cfg with targets := cfg.targets ++ [(f, done)] } ⟨["add-source", t.1, coefText pr t], false⟩ =
        .ok { cfg with targets := cfg.targets ++ [(f, done ++ [(t.1, r t)])] } := by
      simp [step, parse, parseTerm, word, num, h t (List.mem_cons_self ..), exec, addTerm]
    rw [h1, Except.ok_bind', ih _ _ _ fun t ht => h t (List.mem_cons_of_mem _ ht)]
    simp

/-- **C157, reading.** The lines of the targets, in any state of the reader, give `h2mixer` the targets of the example, with
every coefficient rounded as `{:e}` rounds it, except the coefficient 1 of the interaction. -/
theorem example_targets_read {nm : Numbers} {pr : Printing} {rnd : ℝ → ℝ} (hr : Reads nm pr rnd) (p : Params) (cfg : Config) :
    (asControl (targetLines pr p)).foldlM (step nm) cfg =
      .ok { cfg with targets := cfg.targets ++
        (targets p).map fun t => (t.1, t.2.map fun c => (c.1, if c.1 = "VNN" then c.2 else rnd c.2)) } := by
  have hv : ∀ t ∈ targets p, ∀ c ∈ t.2, c.1 = "VNN" → c.2 = 1 := by
    intro t ht c hc e
    simp only [targets, List.mem_cons, List.not_mem_nil, or_false] at ht
    rcases ht with rfl | rfl | rfl | rfl | rfl | rfl
    · simp only [List.cons_append, List.nil_append, List.mem_cons] at hc
      rcases hc with rfl | rfl | rfl | rfl | rfl | rfl | hc
      · simp at e
      · simp at e
      · simp at e
      · simp at e
      · simp at e
      · rfl
      · split at hc
        · simp only [List.mem_cons, List.not_mem_nil, or_false] at hc
          subst hc
          simp at e
        · exact absurd hc List.not_mem_nil
    · simp only [List.mem_cons, List.not_mem_nil, or_false] at hc
      rcases hc with rfl | rfl <;> simp at e
    · simp only [List.mem_cons, List.not_mem_nil, or_false] at hc
      rcases hc with rfl | rfl | rfl | rfl | rfl <;> simp at e
    · simp only [List.mem_cons, List.not_mem_nil, or_false] at hc
      rcases hc with rfl | rfl <;> simp at e
    · simp only [List.mem_cons, List.not_mem_nil, or_false] at hc
      rw [hc]
    · simp only [List.mem_cons, List.not_mem_nil, or_false] at hc
      rw [hc] at e
      simp at e
  unfold targetLines asControl
  generalize targets p = tg at hv
  induction tg generalizing cfg with
  | nil => simp
  | cons t tg ih =>
    rw [List.flatMap_cons, List.map_append, List.foldlM_append, List.map_cons, List.foldlM_cons, List.map_map]
    have h1 : step nm cfg ⟨["define-target", t.1], false⟩ = .ok { cfg with targets := cfg.targets ++ [(t.1, [])] } := by
      simp [step, parse, word, exec]
    have h2 := add_terms (nm := nm) (pr := pr) (r := fun c => if c.1 = "VNN" then c.2 else rnd c.2) t.2 [] cfg t.1 (by
      intro c hc
      unfold coefText
      split
      · rename_i e
        rw [hv t (List.mem_cons_self ..) c hc e, hr.plain]
      · exact hr.e _)
    rw [h1, Except.ok_bind']
    have h3 := ih (cfg := { cfg with targets := cfg.targets ++ [(t.1, t.2.map fun c => (c.1, if c.1 = "VNN" then c.2 else rnd c.2))] })
      fun t' ht => hv t' (List.mem_cons_of_mem _ ht)
    refine (congrArg (· >>= _) h2).trans ?_
    rw [Except.ok_bind']
    refine h3.trans ?_
    simp

/-! ## A realisation -/

theorem pderiv_comm {σ : Type} [DecidableEq σ] (a b : σ) (f : MvPolynomial σ ℂ) :
    MvPolynomial.pderiv a (MvPolynomial.pderiv b f) = MvPolynomial.pderiv b (MvPolynomial.pderiv a f) := by
  have h : ⁅MvPolynomial.pderiv (R := ℂ) a, MvPolynomial.pderiv (R := ℂ) b⁆ = 0 := by
    apply MvPolynomial.derivation_ext
    intro k
    rw [Derivation.commutator_apply, MvPolynomial.pderiv_X, MvPolynomial.pderiv_X]
    simp only [Pi.single_apply]
    split <;> split <;> simp
  have h' := DFunLike.congr_fun h f
  rwa [Derivation.commutator_apply, Derivation.zero_apply, sub_eq_zero] at h'

/-- Positions and momenta as multiplication and differentiation of polynomials: for every number of particles. -/
noncomputable def polynomials (n : ℕ) : Particles n (Module.End ℂ (MvPolynomial (Fin n × Fin 3) ℂ)) where
  x i α := LinearMap.mulLeft ℂ (MvPolynomial.X (i, α))
  p i α := (-(Complex.I * (hbarc : ℂ))) • (MvPolynomial.pderiv (i, α)).toLinearMap
  xx i j α β := by
    apply LinearMap.ext
    intro f
    show MvPolynomial.X (i, α) * (MvPolynomial.X (j, β) * f) = MvPolynomial.X (j, β) * (MvPolynomial.X (i, α) * f)
    ring
  pp i j α β := by
    apply LinearMap.ext
    intro f
    show (-(Complex.I * (hbarc : ℂ))) • MvPolynomial.pderiv (i, α) ((-(Complex.I * (hbarc : ℂ))) • MvPolynomial.pderiv (j, β) f) =
      (-(Complex.I * (hbarc : ℂ))) • MvPolynomial.pderiv (j, β) ((-(Complex.I * (hbarc : ℂ))) • MvPolynomial.pderiv (i, α) f)
    rw [Derivation.map_smul, Derivation.map_smul, pderiv_comm]
  xp i j α β := by
    apply LinearMap.ext
    intro f
    simp only [mul_smul_comm, smul_mul_assoc, ← smul_sub, LinearMap.smul_apply, LinearMap.sub_apply, Module.End.mul_apply,
      LinearMap.mulLeft_apply]
    show -(Complex.I * (hbarc : ℂ)) • (MvPolynomial.X (i, α) * MvPolynomial.pderiv (j, β) f -
      MvPolynomial.pderiv (j, β) (MvPolynomial.X (i, α) * f)) = _
    rw [MvPolynomial.pderiv_mul, MvPolynomial.pderiv_X]
    by_cases h : i = j ∧ α = β
    · obtain ⟨rfl, rfl⟩ := h
      simp
    · rw [if_neg h, Pi.single_apply, if_neg (by
        intro e
        rw [Prod.mk.injEq] at e
        exact h ⟨e.1, e.2⟩)]
      simp

end Verif.Script
