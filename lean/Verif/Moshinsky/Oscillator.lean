import Verif.Moshinsky.Solid
import Mathlib.Tactic.Positivity
import Mathlib.Tactic.Module

/-!
# States of the three-dimensional oscillator

The state with `n` nodes, orbital angular momentum `l` and projection `m` as a normalised polynomial in the spherical
components of the creation operator, and the action of the annihilation operators on it.
-/

namespace Verif.Moshinsky.Osc

/-- The coupling coefficient `(l m 1 μ | l' m+μ)` for `l' = l ± 1`. -/
noncomputable def cg1 (l : ℕ) (m μ : ℤ) (l' : ℕ) : ℝ :=
  if (l : ℤ) < |m| ∨ (l' : ℤ) < |m + μ| then 0
  else if l' = l + 1 then
    (if μ = 1 then √(((l : ℝ) + m + 1) * (l + m + 2) / ((2 * l + 1) * (2 * l + 2)))
      else if μ = 0 then √(((l : ℝ) - m + 1) * (l + m + 1) / ((2 * l + 1) * (l + 1)))
      else if μ = -1 then √(((l : ℝ) - m + 1) * (l - m + 2) / ((2 * l + 1) * (2 * l + 2))) else 0)
  else if l = l' + 1 then
    (if μ = 1 then √(((l : ℝ) - m) * (l - m - 1) / (2 * l * (2 * l + 1)))
      else if μ = 0 then -√(((l : ℝ) - m) * (l + m) / (l * (2 * l + 1)))
      else if μ = -1 then √(((l : ℝ) + m) * (l + m - 1) / (2 * l * (2 * l + 1))) else 0)
  else 0

/-- The square of the normalisation of `(x·x)^n` times the harmonic polynomial. -/
noncomputable def rho (n l : ℕ) (m : ℤ) : ℝ :=
  (2 * (l : ℝ) + 1) * ff (l + m) * ff (l - m) / ((2 : ℝ) ^ m * (2 * n).doubleFactorial * (2 * n + 2 * l + 1).doubleFactorial)

section
variable {R : Type*} [CommRing R] [Algebra ℝ R]

/-- The state with `n` nodes, angular momentum `l` and projection `m`, positive at the origin. -/
noncomputable def osc (n l : ℕ) (m : ℤ) (p z q : R) : R := ((-1) ^ n * √(rho n l m)) • (rr p z q ^ n * solid l m p z q)

theorem osc_out {n l : ℕ} {m : ℤ} (h : (l : ℤ) < |m|) (p z q : R) : osc n l m p z q = 0 := by
  rw [osc, solid_out h, mul_zero, smul_zero]

theorem rho_pos (n l : ℕ) (m : ℤ) : 0 < rho n l m := by
  unfold rho
  have h1 := ff_pos (l + m)
  have h2 := ff_pos (l - m)
  have h3 : (0 : ℝ) < (2 * n).doubleFactorial := by exact_mod_cast Nat.doubleFactorial_pos _
  have h4 : (0 : ℝ) < (2 * n + 2 * l + 1).doubleFactorial := by exact_mod_cast Nat.doubleFactorial_pos _
  have h5 : (0 : ℝ) < (2 : ℝ) ^ m := zpow_pos (by norm_num) _
  positivity

/-- The reduced amplitude for raising the angular momentum with the number of nodes kept. -/
noncomputable def upR (n l : ℕ) : ℝ := √((2 * (n : ℝ) + 2 * l + 3) * (l + 1) / (2 * l + 3))
/-- The reduced amplitude from `(n, l)` to `(n+1, l-1)`. -/
noncomputable def dnR (n l : ℕ) : ℝ := √(2 * ((n : ℝ) + 1) * l / (2 * l - 1))

theorem sqrt_id {a c f b : ℝ} (ha : 0 ≤ a) (hc : 0 ≤ c) (hf : 0 ≤ f) (h : a * c ^ 2 = f * b) : √a * c = √f * √b := by
  rw [← Real.sqrt_mul hf, ← h, Real.sqrt_mul ha, Real.sqrt_sq hc]

theorem ff_add_two {i : ℤ} (h : 0 ≤ i) : ff (i + 2) = (i + 2) * ((i + 1) * ff i) := by
  rw [show i + 2 = i + 1 + 1 by ring, ff_succ (by omega), ff_succ h]
  push_cast
  ring

theorem df_odd (n l : ℕ) : ((2 * n + 2 * (l + 1) + 1).doubleFactorial : ℝ) =
    (2 * n + 2 * l + 3) * ((2 * n + 2 * l + 1).doubleFactorial : ℝ) := by
  rw [show 2 * n + 2 * (l + 1) + 1 = (2 * n + 2 * l + 1) + 2 by ring, Nat.doubleFactorial_add_two]
  push_cast
  ring

theorem df_even (n : ℕ) : ((2 * (n + 1)).doubleFactorial : ℝ) = (2 * n + 2) * ((2 * n).doubleFactorial : ℝ) := by
  rw [show 2 * (n + 1) = 2 * n + 2 by ring, Nat.doubleFactorial_add_two]
  push_cast
  ring

/-! ### Ratios of the normalisations -/

theorem in_range {l : ℕ} {m : ℤ} (h : ¬(l : ℤ) < |m|) : 0 ≤ (l : ℤ) + m ∧ 0 ≤ (l : ℤ) - m := by
  have := abs_le.mp (not_lt.mp h)
  omega

section
variable {n l : ℕ} {m : ℤ}

theorem rho_up_p (h1 : 0 ≤ (l : ℤ) + m) : rho n (l + 1) (m + 1) * ((2 * (n : ℝ) + 2 * l + 3) / (2 * l + 3)) ^ 2 =
    ((2 * (n : ℝ) + 2 * l + 3) * (l + 1) / (2 * l + 3) * (((l : ℝ) + m + 1) * (l + m + 2) / ((2 * l + 1) * (2 * l + 2)))) * rho n l m := by
  have h4 : ((2 * n + 2 * l + 1).doubleFactorial : ℝ) ≠ 0 := by exact_mod_cast (Nat.doubleFactorial_pos _).ne'
  have h3 : ((2 * n).doubleFactorial : ℝ) ≠ 0 := by exact_mod_cast (Nat.doubleFactorial_pos _).ne'
  have h5 : (2 : ℝ) ^ m ≠ 0 := (zpow_pos (by norm_num) _).ne'
  unfold rho
  rw [df_odd, show ((l + 1 : ℕ) : ℤ) + (m + 1) = (l : ℤ) + m + 2 by push_cast; ring,
    show ((l + 1 : ℕ) : ℤ) - (m + 1) = (l : ℤ) - m by push_cast; ring, ff_add_two h1, zpow_add₀ (by norm_num), zpow_one]
  have hn : (0 : ℝ) ≤ n := Nat.cast_nonneg n
  have hl : (0 : ℝ) ≤ l := Nat.cast_nonneg l
  have h6 : 2 * (l : ℝ) + 3 ≠ 0 := by positivity
  have h7 : 2 * (n : ℝ) + 2 * l + 3 ≠ 0 := by positivity
  have h8 : 2 * (l : ℝ) + 1 ≠ 0 := by positivity
  have h9 : (l : ℝ) + 1 ≠ 0 := by positivity
  have h10 : (n : ℝ) + 1 ≠ 0 := by positivity
  push_cast
  rw [show 2 * ((l : ℝ) + 1) + 1 = 2 * l + 3 by ring]
  try rw [show 2 * (l : ℝ) + 2 = 2 * (l + 1) by ring]
  try rw [show 2 * (n : ℝ) + 2 = 2 * (n + 1) by ring]
  field_simp
  try ring

theorem rho_up_z (h1 : 0 ≤ (l : ℤ) + m) (h2 : 0 ≤ (l : ℤ) - m) : rho n (l + 1) (m) * ((2 * (n : ℝ) + 2 * l + 3) / (2 * l + 3)) ^ 2 =
    ((2 * (n : ℝ) + 2 * l + 3) * (l + 1) / (2 * l + 3) * (((l : ℝ) - m + 1) * (l + m + 1) / ((2 * l + 1) * (l + 1)))) * rho n l m := by
  have h4 : ((2 * n + 2 * l + 1).doubleFactorial : ℝ) ≠ 0 := by exact_mod_cast (Nat.doubleFactorial_pos _).ne'
  have h3 : ((2 * n).doubleFactorial : ℝ) ≠ 0 := by exact_mod_cast (Nat.doubleFactorial_pos _).ne'
  have h5 : (2 : ℝ) ^ m ≠ 0 := (zpow_pos (by norm_num) _).ne'
  unfold rho
  rw [df_odd, show ((l + 1 : ℕ) : ℤ) + m = (l : ℤ) + m + 1 by push_cast; ring,
    show ((l + 1 : ℕ) : ℤ) - m = (l : ℤ) - m + 1 by push_cast; ring, ff_succ h1, ff_succ h2]
  have hn : (0 : ℝ) ≤ n := Nat.cast_nonneg n
  have hl : (0 : ℝ) ≤ l := Nat.cast_nonneg l
  have h6 : 2 * (l : ℝ) + 3 ≠ 0 := by positivity
  have h7 : 2 * (n : ℝ) + 2 * l + 3 ≠ 0 := by positivity
  have h8 : 2 * (l : ℝ) + 1 ≠ 0 := by positivity
  have h9 : (l : ℝ) + 1 ≠ 0 := by positivity
  have h10 : (n : ℝ) + 1 ≠ 0 := by positivity
  push_cast
  rw [show 2 * ((l : ℝ) + 1) + 1 = 2 * l + 3 by ring]
  try rw [show 2 * (l : ℝ) + 2 = 2 * (l + 1) by ring]
  try rw [show 2 * (n : ℝ) + 2 = 2 * (n + 1) by ring]
  field_simp
  try ring

theorem rho_up_q (h2 : 0 ≤ (l : ℤ) - m) : rho n (l + 1) (m - 1) * (1 / 2 * ((2 * (n : ℝ) + 2 * l + 3) / (2 * l + 3))) ^ 2 =
    ((2 * (n : ℝ) + 2 * l + 3) * (l + 1) / (2 * l + 3) * (((l : ℝ) - m + 1) * (l - m + 2) / ((2 * l + 1) * (2 * l + 2)))) * rho n l m := by
  have h4 : ((2 * n + 2 * l + 1).doubleFactorial : ℝ) ≠ 0 := by exact_mod_cast (Nat.doubleFactorial_pos _).ne'
  have h3 : ((2 * n).doubleFactorial : ℝ) ≠ 0 := by exact_mod_cast (Nat.doubleFactorial_pos _).ne'
  have h5 : (2 : ℝ) ^ m ≠ 0 := (zpow_pos (by norm_num) _).ne'
  unfold rho
  rw [df_odd, show ((l + 1 : ℕ) : ℤ) + (m - 1) = (l : ℤ) + m by push_cast; ring,
    show ((l + 1 : ℕ) : ℤ) - (m - 1) = (l : ℤ) - m + 2 by push_cast; ring, ff_add_two h2, zpow_sub₀ (by norm_num), zpow_one]
  have hn : (0 : ℝ) ≤ n := Nat.cast_nonneg n
  have hl : (0 : ℝ) ≤ l := Nat.cast_nonneg l
  have h6 : 2 * (l : ℝ) + 3 ≠ 0 := by positivity
  have h7 : 2 * (n : ℝ) + 2 * l + 3 ≠ 0 := by positivity
  have h8 : 2 * (l : ℝ) + 1 ≠ 0 := by positivity
  have h9 : (l : ℝ) + 1 ≠ 0 := by positivity
  have h10 : (n : ℝ) + 1 ≠ 0 := by positivity
  push_cast
  rw [show 2 * ((l : ℝ) + 1) + 1 = 2 * l + 3 by ring]
  try rw [show 2 * (l : ℝ) + 2 = 2 * (l + 1) by ring]
  try rw [show 2 * (n : ℝ) + 2 = 2 * (n + 1) by ring]
  field_simp
  try ring

theorem rho_dn_p (h2 : 0 ≤ (l : ℤ) - m) : rho (n + 1) l m * (2 * ((n : ℝ) + 1) * (((l : ℝ) - m + 1) * (l - m + 2) / (2 * l + 1))) ^ 2 =
    (2 * ((n : ℝ) + 1) * (l + 1) / (2 * l + 1) * (((l : ℝ) - m + 2) * (l - m + 1) / (2 * (l + 1) * (2 * l + 3)))) * rho n (l + 1) (m - 1) := by
  have h4 : ((2 * n + 2 * l + 1).doubleFactorial : ℝ) ≠ 0 := by exact_mod_cast (Nat.doubleFactorial_pos _).ne'
  have h3 : ((2 * n).doubleFactorial : ℝ) ≠ 0 := by exact_mod_cast (Nat.doubleFactorial_pos _).ne'
  have h5 : (2 : ℝ) ^ m ≠ 0 := (zpow_pos (by norm_num) _).ne'
  unfold rho
  rw [show 2 * (n + 1) + 2 * l + 1 = 2 * n + 2 * (l + 1) + 1 by ring, df_odd, df_even, show ((l + 1 : ℕ) : ℤ) + (m - 1) = (l : ℤ) + m by push_cast; ring,
    show ((l + 1 : ℕ) : ℤ) - (m - 1) = (l : ℤ) - m + 2 by push_cast; ring, ff_add_two h2, zpow_sub₀ (by norm_num), zpow_one]
  have hn : (0 : ℝ) ≤ n := Nat.cast_nonneg n
  have hl : (0 : ℝ) ≤ l := Nat.cast_nonneg l
  have h6 : 2 * (l : ℝ) + 3 ≠ 0 := by positivity
  have h7 : 2 * (n : ℝ) + 2 * l + 3 ≠ 0 := by positivity
  have h8 : 2 * (l : ℝ) + 1 ≠ 0 := by positivity
  have h9 : (l : ℝ) + 1 ≠ 0 := by positivity
  have h10 : (n : ℝ) + 1 ≠ 0 := by positivity
  push_cast
  rw [show 2 * ((l : ℝ) + 1) + 1 = 2 * l + 3 by ring]
  try rw [show 2 * (l : ℝ) + 2 = 2 * (l + 1) by ring]
  try rw [show 2 * (n : ℝ) + 2 = 2 * (n + 1) by ring]
  field_simp
  try ring

theorem rho_dn_z (h1 : 0 ≤ (l : ℤ) + m) (h2 : 0 ≤ (l : ℤ) - m) : rho (n + 1) l m * (2 * ((n : ℝ) + 1) * (((l : ℝ) - m + 1) * (l + m + 1) / (2 * l + 1))) ^ 2 =
    (2 * ((n : ℝ) + 1) * (l + 1) / (2 * l + 1) * (((l : ℝ) - m + 1) * (l + m + 1) / ((l + 1) * (2 * l + 3)))) * rho n (l + 1) (m) := by
  have h4 : ((2 * n + 2 * l + 1).doubleFactorial : ℝ) ≠ 0 := by exact_mod_cast (Nat.doubleFactorial_pos _).ne'
  have h3 : ((2 * n).doubleFactorial : ℝ) ≠ 0 := by exact_mod_cast (Nat.doubleFactorial_pos _).ne'
  have h5 : (2 : ℝ) ^ m ≠ 0 := (zpow_pos (by norm_num) _).ne'
  unfold rho
  rw [show 2 * (n + 1) + 2 * l + 1 = 2 * n + 2 * (l + 1) + 1 by ring, df_odd, df_even, show ((l + 1 : ℕ) : ℤ) + m = (l : ℤ) + m + 1 by push_cast; ring,
    show ((l + 1 : ℕ) : ℤ) - m = (l : ℤ) - m + 1 by push_cast; ring, ff_succ h1, ff_succ h2]
  have hn : (0 : ℝ) ≤ n := Nat.cast_nonneg n
  have hl : (0 : ℝ) ≤ l := Nat.cast_nonneg l
  have h6 : 2 * (l : ℝ) + 3 ≠ 0 := by positivity
  have h7 : 2 * (n : ℝ) + 2 * l + 3 ≠ 0 := by positivity
  have h8 : 2 * (l : ℝ) + 1 ≠ 0 := by positivity
  have h9 : (l : ℝ) + 1 ≠ 0 := by positivity
  have h10 : (n : ℝ) + 1 ≠ 0 := by positivity
  push_cast
  rw [show 2 * ((l : ℝ) + 1) + 1 = 2 * l + 3 by ring]
  try rw [show 2 * (l : ℝ) + 2 = 2 * (l + 1) by ring]
  try rw [show 2 * (n : ℝ) + 2 = 2 * (n + 1) by ring]
  field_simp
  try ring

theorem rho_dn_q (h1 : 0 ≤ (l : ℤ) + m) : rho (n + 1) l m * (2 * ((n : ℝ) + 1) * (((l : ℝ) + m + 1) * (l + m + 2) / (2 * (2 * l + 1)))) ^ 2 =
    (2 * ((n : ℝ) + 1) * (l + 1) / (2 * l + 1) * (((l : ℝ) + m + 2) * (l + m + 1) / (2 * (l + 1) * (2 * l + 3)))) * rho n (l + 1) (m + 1) := by
  have h4 : ((2 * n + 2 * l + 1).doubleFactorial : ℝ) ≠ 0 := by exact_mod_cast (Nat.doubleFactorial_pos _).ne'
  have h3 : ((2 * n).doubleFactorial : ℝ) ≠ 0 := by exact_mod_cast (Nat.doubleFactorial_pos _).ne'
  have h5 : (2 : ℝ) ^ m ≠ 0 := (zpow_pos (by norm_num) _).ne'
  unfold rho
  rw [show 2 * (n + 1) + 2 * l + 1 = 2 * n + 2 * (l + 1) + 1 by ring, df_odd, df_even, show ((l + 1 : ℕ) : ℤ) + (m + 1) = (l : ℤ) + m + 2 by push_cast; ring,
    show ((l + 1 : ℕ) : ℤ) - (m + 1) = (l : ℤ) - m by push_cast; ring, ff_add_two h1, zpow_add₀ (by norm_num), zpow_one]
  have hn : (0 : ℝ) ≤ n := Nat.cast_nonneg n
  have hl : (0 : ℝ) ≤ l := Nat.cast_nonneg l
  have h6 : 2 * (l : ℝ) + 3 ≠ 0 := by positivity
  have h7 : 2 * (n : ℝ) + 2 * l + 3 ≠ 0 := by positivity
  have h8 : 2 * (l : ℝ) + 1 ≠ 0 := by positivity
  have h9 : (l : ℝ) + 1 ≠ 0 := by positivity
  have h10 : (n : ℝ) + 1 ≠ 0 := by positivity
  push_cast
  rw [show 2 * ((l : ℝ) + 1) + 1 = 2 * l + 3 by ring]
  try rw [show 2 * (l : ℝ) + 2 = 2 * (l + 1) by ring]
  try rw [show 2 * (n : ℝ) + 2 = 2 * (n + 1) by ring]
  field_simp
  try ring

end

/-! ### Derivatives before normalisation -/

section
variable {D : Derivation ℝ R R} {p z q : R}

theorem D_pow (n : ℕ) (x : R) : D (x ^ n) = (n : ℝ) • (x ^ (n - 1) * D x) := by
  rw [D.leibniz_pow, smul_eq_mul, Nat.cast_smul_eq_nsmul]

theorem D_rr : D (rr p z q) = 2 * z * D z - 2 * (p * D q) - 2 * (q * D p) := by
  unfold rr
  rw [map_sub, D.leibniz, D.leibniz, D.leibniz, show D (2 : R) = 0 from D.map_natCast 2]
  simp only [smul_eq_mul]
  ring

theorem odd_ne (l : ℕ) : (2 * ((l : ℤ) : ℝ) + 1) ≠ 0 := by
  have : (0 : ℝ) ≤ ((l : ℤ) : ℝ) := by exact_mod_cast Int.natCast_nonneg l
  positivity

theorem D_raw (n : ℕ) {H X A B : R} {a b d : ℝ} {t : ℝ} (hr : D (rr p z q) = t • X) (hX : X * H = a • A + b • (rr p z q * B))
    (hH : D H = d • B) : D (rr p z q ^ n * H) = (n * t * a) • (rr p z q ^ (n - 1) * A) + (n * t * b + d) • (rr p z q ^ n * B) := by
  rw [D.leibniz, D_pow, hr, hH]
  simp only [smul_eq_mul]
  rcases n with - | n
  · simp
  · rw [Nat.add_sub_cancel, pow_succ]
    rw [show H * (((n + 1 : ℕ) : ℝ) • (rr p z q ^ n * t • X)) = (((n + 1 : ℕ) : ℝ) * t) • (rr p z q ^ n * (X * H)) by
      rw [mul_smul_comm, mul_smul_comm, mul_smul_comm, smul_smul]
      congr 1
      ring, hX, mul_add, mul_smul_comm, mul_smul_comm, mul_smul_comm]
    rw [← mul_assoc (rr p z q ^ n)]
    module

theorem solid_pred (l : ℕ) (m : ℤ) (hl : l = 0) : solid ((l : ℤ) - 1) m p z q = 0 :=
  solid_out (by have := abs_nonneg m; omega) p z q

/-- Annihilation of a quantum. -/
noncomputable def lower {V : Type*} [AddCommGroup V] [Module ℝ V] (w : ℕ → ℕ → ℤ → V) (n l : ℕ) (m μ : ℤ) : V :=
  (if l = 0 then 0 else (upR n (l - 1) * cg1 (l - 1) (m - μ) μ l) • w n (l - 1) (m - μ)) +
    (if n = 0 then 0 else (dnR (n - 1) (l + 1) * cg1 (l + 1) (m - μ) μ l) • w (n - 1) (l + 1) (m - μ))

theorem lower_out {V : Type*} [AddCommGroup V] [Module ℝ V] (w : ℕ → ℕ → ℤ → V) {n l : ℕ} {m : ℤ} (h : (l : ℤ) < |m|) (μ : ℤ) :
    lower w n l m μ = 0 := by
  have : ∀ l', cg1 l' (m - μ) μ l = 0 := fun l' => if_pos (Or.inr (by rw [sub_add_cancel]; exact h))
  simp [lower, this]

/-- The part of a derivative that keeps the number of nodes. -/
theorem up_part {n l : ℕ} {m μ : ℤ} {c g : ℝ} (hc : 0 ≤ c)
    (h : ∀ k : ℕ, l = k + 1 → ¬(k : ℤ) < |m - μ| → cg1 k (m - μ) μ l = √g ∧
      rho n l m * c ^ 2 = ((2 * (n : ℝ) + 2 * k + 3) * (k + 1) / (2 * k + 3) * g) * rho n k (m - μ)) :
    ((-1) ^ n * √(rho n l m)) • (c • (rr p z q ^ n * solid ((l : ℤ) - 1) (m - μ) p z q)) =
      if l = 0 then 0 else (upR n (l - 1) * cg1 (l - 1) (m - μ) μ l) • osc n (l - 1) (m - μ) p z q := by
  rcases l with - | k
  · rw [solid_pred 0 _ rfl]
    simp
  · rw [if_neg (Nat.succ_ne_zero k), Nat.add_sub_cancel, osc, show ((k + 1 : ℕ) : ℤ) - 1 = k by push_cast; ring]
    by_cases hr : (k : ℤ) < |m - μ|
    · rw [solid_out hr]
      simp
    · obtain ⟨h1, h2⟩ := h k rfl hr
      have hk : (0 : ℝ) ≤ (2 * (n : ℝ) + 2 * k + 3) * (k + 1) / (2 * k + 3) := by positivity
      have h3 : √(rho n (k + 1) m) * c = upR n k * √g * √(rho n k (m - μ)) := by
        rw [upR, ← Real.sqrt_mul hk]
        refine sqrt_id (rho_pos _ _ _).le hc ?_ h2
        have h4 : 0 ≤ rho n (k + 1) m * c ^ 2 := mul_nonneg (rho_pos _ _ _).le (sq_nonneg c)
        rw [h2] at h4
        exact nonneg_of_mul_nonneg_left h4 (rho_pos _ _ _)
      rw [smul_smul, smul_smul, h1, mul_assoc, h3]
      congr 1
      ring

/-- The part of a derivative that removes a node. -/
theorem dn_part {n l : ℕ} {m μ : ℤ} {c g s : ℝ} (hc : 0 ≤ c)
    (h : ∀ k : ℕ, n = k + 1 → cg1 (l + 1) (m - μ) μ l = -s * √g ∧
      rho n l m * c ^ 2 = (2 * ((k : ℝ) + 1) * (l + 1) / (2 * l + 1) * g) * rho k (l + 1) (m - μ)) (h0 : n = 0 → c = 0) :
    ((-1) ^ n * √(rho n l m)) • ((s * c) • (rr p z q ^ (n - 1) * solid ((l : ℤ) + 1) (m - μ) p z q)) =
      if n = 0 then 0 else (dnR (n - 1) (l + 1) * cg1 (l + 1) (m - μ) μ l) • osc (n - 1) (l + 1) (m - μ) p z q := by
  rcases n with - | k
  · rw [h0 rfl]
    simp
  · rw [if_neg (Nat.succ_ne_zero k), Nat.add_sub_cancel, osc, show ((l + 1 : ℕ) : ℤ) = (l : ℤ) + 1 by push_cast; ring]
    obtain ⟨h1, h2⟩ := h k rfl
    have hk : (0 : ℝ) ≤ 2 * ((k : ℝ) + 1) * (l + 1) / (2 * l + 1) := by positivity
    have h3 : √(rho (k + 1) l m) * c = dnR k (l + 1) * √g * √(rho k (l + 1) (m - μ)) := by
      rw [dnR, show 2 * ((k : ℝ) + 1) * ((l + 1 : ℕ) : ℝ) / (2 * ((l + 1 : ℕ) : ℝ) - 1) =
        2 * ((k : ℝ) + 1) * (l + 1) / (2 * l + 1) by push_cast; ring_nf, ← Real.sqrt_mul hk]
      refine sqrt_id (rho_pos _ _ _).le hc ?_ h2
      have h4 : 0 ≤ rho (k + 1) l m * c ^ 2 := mul_nonneg (rho_pos _ _ _).le (sq_nonneg c)
      rw [h2] at h4
      exact nonneg_of_mul_nonneg_left h4 (rho_pos _ _ _)
    rw [smul_smul, smul_smul, h1, pow_succ, show (-1 : ℝ) ^ k * -1 * √(rho (k + 1) l m) * (s * c) =
      (-1) ^ k * (-s) * (√(rho (k + 1) l m) * c) by ring, h3]
    congr 1
    ring

/-- A derivative with respect to a spherical component. -/
structure IsPartial (D : Derivation ℝ R R) (μ : ℤ) (p z q : R) : Prop where
  p : D p = if μ = 1 then 1 else 0
  z : D z = if μ = 0 then 1 else 0
  q : D q = if μ = -1 then 1 else 0

theorem D_osc_p (hD : IsPartial D (1) p z q) (n l : ℕ) (m : ℤ) :
    D (osc n l m p z q) = lower (fun n l m => osc n l m p z q) n l m (1) := by
  by_cases hm : (l : ℤ) < |m|
  · rw [lower_out _ hm, osc_out hm, map_zero]
  obtain ⟨i1, i2⟩ := in_range hm
  have hp := hD.p
  have hz := hD.z
  have hq := hD.q
  norm_num at hp hz hq
  have hr : D (rr p z q) = (-2 : ℝ) • q := by
    rw [D_rr, hp, hz, hq]
    simp only [mul_zero, mul_one, sub_zero, zero_sub, neg_smul, two_smul]
    ring
  have hX : q * solid l m p z q = (((l : ℝ) - m + 1) * (l - m + 2) / (2 * l + 1)) • solid ((l : ℤ) + 1) (m - (1)) p z q +
      (-(1 / (2 * (l : ℝ) + 1))) • (rr p z q * solid ((l : ℤ) - 1) (m - (1)) p z q) := by
    rw [q_solid _ _ (odd_ne l)]
    push_cast
    rw [neg_smul, sub_eq_add_neg]
  have hH : D (solid l m p z q) = (1 : ℝ) • solid ((l : ℤ) - 1) (m - (1)) p z q := by
    rw [D_solid_p hp hz hq]
    rw [one_smul]
  rw [osc, D.map_smul, D_raw n hr hX hH, smul_add, lower, add_comm]
  have hl : (0 : ℝ) ≤ l := Nat.cast_nonneg l
  have hi1 : (0 : ℝ) ≤ (l : ℝ) + m := by exact_mod_cast i1
  have hi2 : (0 : ℝ) ≤ (l : ℝ) - m := by exact_mod_cast i2
  congr 1
  · rw [show ((n : ℝ) * -2 * (-(1 / (2 * (l : ℝ) + 1))) + 1) = (2 * (n : ℝ) + 2 * l + 1) / (2 * l + 1) by
      have : 2 * (l : ℝ) + 1 ≠ 0 := by positivity
      push_cast
      field_simp
      try ring]
    refine up_part (g := ((l : ℝ) + m - 1) * (l + m) / ((2 * l - 1) * (2 * l))) (by positivity) ?_
    rintro k rfl hk
    obtain ⟨j1, j2⟩ := in_range hk
    constructor
    · rw [cg1, if_neg (by rw [sub_add_cancel]; exact not_or.mpr ⟨hk, hm⟩), if_pos rfl]
      norm_num
      try (congr 1; push_cast; ring_nf)
    · have h := rho_up_p (n := n) (l := k) (m := m - 1) (by omega)
      rw [sub_add_cancel] at h
      push_cast at h ⊢
      rw [show 2 * ((k : ℝ) + 1) + 1 = 2 * k + 3 by ring, show 2 * (n : ℝ) + 2 * (k + 1) + 1 = 2 * n + 2 * k + 3 by ring, h]
      ring_nf
  · rw [show (n : ℝ) * -2 * (((l : ℝ) - m + 1) * (l - m + 2) / (2 * l + 1)) = -1 * (2 * (n : ℝ) * (((l : ℝ) - m + 1) * (l - m + 2) / (2 * l + 1))) by push_cast; ring]
    refine dn_part (g := ((l : ℝ) - m + 2) * (l - m + 1) / (2 * (l + 1) * (2 * l + 3))) (by positivity) ?_ ?_
    · rintro k rfl
      constructor
      · rw [cg1, if_neg (by
          rw [sub_add_cancel, not_or]
          refine ⟨?_, hm⟩
          rw [not_lt, abs_le]
          push_cast
          omega), if_neg (by omega), if_pos rfl]
        norm_num
        try (congr 1; push_cast; ring_nf)
      · have h := rho_dn_p (n := k) (l := l) (m := m) i2
        push_cast at h ⊢
        rw [h]
        
    · rintro rfl
      simp

theorem D_osc_z (hD : IsPartial D (0) p z q) (n l : ℕ) (m : ℤ) :
    D (osc n l m p z q) = lower (fun n l m => osc n l m p z q) n l m (0) := by
  by_cases hm : (l : ℤ) < |m|
  · rw [lower_out _ hm, osc_out hm, map_zero]
  obtain ⟨i1, i2⟩ := in_range hm
  have hp := hD.p
  have hz := hD.z
  have hq := hD.q
  norm_num at hp hz hq
  have hr : D (rr p z q) = (2 : ℝ) • z := by
    rw [D_rr, hp, hz, hq]
    simp only [mul_zero, mul_one, sub_zero, zero_sub, neg_smul, two_smul]
    ring
  have hX : z * solid l m p z q = (((l : ℝ) - m + 1) * (l + m + 1) / (2 * l + 1)) • solid ((l : ℤ) + 1) (m - (0)) p z q +
      (1 / (2 * (l : ℝ) + 1)) • (rr p z q * solid ((l : ℤ) - 1) (m - (0)) p z q) := by
    rw [z_solid _ _ (odd_ne l)]
    push_cast
    rw [sub_zero]
  have hH : D (solid l m p z q) = (1 : ℝ) • solid ((l : ℤ) - 1) (m - (0)) p z q := by
    rw [D_solid_z hp hz hq]
    rw [one_smul, sub_zero]
  rw [osc, D.map_smul, D_raw n hr hX hH, smul_add, lower, add_comm]
  have hl : (0 : ℝ) ≤ l := Nat.cast_nonneg l
  have hi1 : (0 : ℝ) ≤ (l : ℝ) + m := by exact_mod_cast i1
  have hi2 : (0 : ℝ) ≤ (l : ℝ) - m := by exact_mod_cast i2
  congr 1
  · rw [show ((n : ℝ) * 2 * (1 / (2 * (l : ℝ) + 1)) + 1) = (2 * (n : ℝ) + 2 * l + 1) / (2 * l + 1) by
      have : 2 * (l : ℝ) + 1 ≠ 0 := by positivity
      push_cast
      field_simp
      try ring]
    refine up_part (g := ((l : ℝ) - m) * (l + m) / ((2 * l - 1) * l)) (by positivity) ?_
    rintro k rfl hk
    obtain ⟨j1, j2⟩ := in_range hk
    constructor
    · rw [cg1, if_neg (by rw [sub_add_cancel]; exact not_or.mpr ⟨hk, hm⟩), if_pos rfl]
      norm_num
      try (congr 1; push_cast; ring_nf)
    · have h := rho_up_z (n := n) (l := k) (m := m - 0) (by omega) (by omega)
      rw [sub_zero] at h ⊢
      push_cast at h ⊢
      rw [show 2 * ((k : ℝ) + 1) + 1 = 2 * k + 3 by ring, show 2 * (n : ℝ) + 2 * (k + 1) + 1 = 2 * n + 2 * k + 3 by ring, h]
      ring_nf
  · rw [show (n : ℝ) * 2 * (((l : ℝ) - m + 1) * (l + m + 1) / (2 * l + 1)) = 1 * (2 * (n : ℝ) * (((l : ℝ) - m + 1) * (l + m + 1) / (2 * l + 1))) by push_cast; ring]
    refine dn_part (g := ((l : ℝ) - m + 1) * (l + m + 1) / ((l + 1) * (2 * l + 3))) (by positivity) ?_ ?_
    · rintro k rfl
      constructor
      · rw [cg1, if_neg (by
          rw [sub_add_cancel, not_or]
          refine ⟨?_, hm⟩
          rw [not_lt, abs_le]
          push_cast
          omega), if_neg (by omega), if_pos rfl]
        norm_num
        try (congr 1; push_cast; ring_nf)
      · have h := rho_dn_z (n := k) (l := l) (m := m) i1 i2
        push_cast at h ⊢
        rw [h]
        rw [sub_zero]
    · rintro rfl
      simp

theorem D_osc_q (hD : IsPartial D (-1) p z q) (n l : ℕ) (m : ℤ) :
    D (osc n l m p z q) = lower (fun n l m => osc n l m p z q) n l m (-1) := by
  by_cases hm : (l : ℤ) < |m|
  · rw [lower_out _ hm, osc_out hm, map_zero]
  obtain ⟨i1, i2⟩ := in_range hm
  have hp := hD.p
  have hz := hD.z
  have hq := hD.q
  norm_num at hp hz hq
  have hr : D (rr p z q) = (-2 : ℝ) • p := by
    rw [D_rr, hp, hz, hq]
    simp only [mul_zero, mul_one, sub_zero, zero_sub, neg_smul, two_smul]
    ring
  have hX : p * solid l m p z q = (((l : ℝ) + m + 1) * (l + m + 2) / (2 * (2 * l + 1))) • solid ((l : ℤ) + 1) (m - (-1)) p z q +
      (-(1 / (2 * (2 * (l : ℝ) + 1)))) • (rr p z q * solid ((l : ℤ) - 1) (m - (-1)) p z q) := by
    rw [p_solid _ _ (odd_ne l)]
    push_cast
    rw [neg_smul, sub_eq_add_neg, sub_neg_eq_add]
  have hH : D (solid l m p z q) = ((1 / 2) : ℝ) • solid ((l : ℤ) - 1) (m - (-1)) p z q := by
    rw [D_solid_q hp hz hq]
    rw [sub_neg_eq_add]
  rw [osc, D.map_smul, D_raw n hr hX hH, smul_add, lower, add_comm]
  have hl : (0 : ℝ) ≤ l := Nat.cast_nonneg l
  have hi1 : (0 : ℝ) ≤ (l : ℝ) + m := by exact_mod_cast i1
  have hi2 : (0 : ℝ) ≤ (l : ℝ) - m := by exact_mod_cast i2
  congr 1
  · rw [show ((n : ℝ) * -2 * (-(1 / (2 * (2 * (l : ℝ) + 1)))) + (1 / 2)) = 1 / 2 * ((2 * (n : ℝ) + 2 * l + 1) / (2 * l + 1)) by
      have : 2 * (l : ℝ) + 1 ≠ 0 := by positivity
      push_cast
      field_simp
      try ring]
    refine up_part (g := ((l : ℝ) - m - 1) * (l - m) / ((2 * l - 1) * (2 * l))) (by positivity) ?_
    rintro k rfl hk
    obtain ⟨j1, j2⟩ := in_range hk
    constructor
    · rw [cg1, if_neg (by rw [sub_add_cancel]; exact not_or.mpr ⟨hk, hm⟩), if_pos rfl]
      norm_num
      try (congr 1; push_cast; ring_nf)
    · have h := rho_up_q (n := n) (l := k) (m := m - -1) (by omega)
      rw [sub_neg_eq_add, add_sub_cancel_right] at h
      rw [sub_neg_eq_add]
      push_cast at h ⊢
      rw [show 2 * ((k : ℝ) + 1) + 1 = 2 * k + 3 by ring, show 2 * (n : ℝ) + 2 * (k + 1) + 1 = 2 * n + 2 * k + 3 by ring, h]
      ring_nf
  · rw [show (n : ℝ) * -2 * (((l : ℝ) + m + 1) * (l + m + 2) / (2 * (2 * l + 1))) = -1 * (2 * (n : ℝ) * (((l : ℝ) + m + 1) * (l + m + 2) / (2 * (2 * l + 1)))) by push_cast; ring]
    refine dn_part (g := ((l : ℝ) + m + 2) * (l + m + 1) / (2 * (l + 1) * (2 * l + 3))) (by positivity) ?_ ?_
    · rintro k rfl
      constructor
      · rw [cg1, if_neg (by
          rw [sub_add_cancel, not_or]
          refine ⟨?_, hm⟩
          rw [not_lt, abs_le]
          push_cast
          omega), if_neg (by omega), if_pos rfl]
        norm_num
        try (congr 1; push_cast; ring_nf)
      · have h := rho_dn_q (n := k) (l := l) (m := m) i1
        push_cast at h ⊢
        rw [h]
        rw [sub_neg_eq_add]
    · rintro rfl
      simp

/-- Annihilating a quantum of a state. -/
theorem D_osc {μ : ℤ} (hμ : μ = 1 ∨ μ = 0 ∨ μ = -1) (hD : IsPartial D μ p z q) (n l : ℕ) (m : ℤ) :
    D (osc n l m p z q) = lower (fun n l m => osc n l m p z q) n l m μ := by
  rcases hμ with rfl | rfl | rfl
  · exact D_osc_p hD n l m
  · exact D_osc_z hD n l m
  · exact D_osc_q hD n l m

end

/-! ### The scalar product of two annihilation operators -/

section
variable {p z q : R}

theorem odd_ne' (l : ℤ) : (2 * (l : ℝ) + 1) ≠ 0 := by
  have : (2 * l + 1) ≠ 0 := by omega
  exact_mod_cast this

theorem raw_p {D : Derivation ℝ R R} (hD : IsPartial D 1 p z q) (n : ℕ) (l m : ℤ) : D (rr p z q ^ n * solid l m p z q) =
    (-2 * n * (((l : ℝ) - m + 1) * (l - m + 2) / (2 * l + 1))) • (rr p z q ^ (n - 1) * solid (l + 1) (m - 1) p z q) +
      ((2 * n + 2 * l + 1) / (2 * (l : ℝ) + 1)) • (rr p z q ^ n * solid (l - 1) (m - 1) p z q) := by
  have hp := hD.p
  have hz := hD.z
  have hq := hD.q
  norm_num at hp hz hq
  have hr : D (rr p z q) = (-2 : ℝ) • q := by
    rw [D_rr, hp, hz, hq]
    simp only [mul_zero, mul_one, zero_sub, neg_smul, two_smul, sub_self]
    ring
  have hX : q * solid l m p z q = (((l : ℝ) - m + 1) * (l - m + 2) / (2 * l + 1)) • solid (l + 1) (m - 1) p z q +
      (-(1 / (2 * (l : ℝ) + 1))) • (rr p z q * solid (l - 1) (m - 1) p z q) := by
    rw [q_solid _ _ (odd_ne' l), neg_smul, sub_eq_add_neg]
  have hH : D (solid l m p z q) = (1 : ℝ) • solid (l - 1) (m - 1) p z q := by
    rw [D_solid_p hp hz hq, one_smul]
  have hl := odd_ne' l
  rw [D_raw n hr hX hH]
  congr 2
  · ring
  · field_simp
    ring

theorem raw_z {D : Derivation ℝ R R} (hD : IsPartial D 0 p z q) (n : ℕ) (l m : ℤ) : D (rr p z q ^ n * solid l m p z q) =
    (2 * n * (((l : ℝ) - m + 1) * (l + m + 1) / (2 * l + 1))) • (rr p z q ^ (n - 1) * solid (l + 1) m p z q) +
      ((2 * n + 2 * l + 1) / (2 * (l : ℝ) + 1)) • (rr p z q ^ n * solid (l - 1) m p z q) := by
  have hp := hD.p
  have hz := hD.z
  have hq := hD.q
  norm_num at hp hz hq
  have hr : D (rr p z q) = (2 : ℝ) • z := by
    rw [D_rr, hp, hz, hq]
    simp only [mul_zero, mul_one, sub_zero, two_smul]
    ring
  have hH : D (solid l m p z q) = (1 : ℝ) • solid (l - 1) m p z q := by
    rw [D_solid_z hp hz hq, one_smul]
  have hl := odd_ne' l
  rw [D_raw n hr (z_solid _ _ hl p z q) hH]
  congr 2
  · ring
  · field_simp
    ring

theorem raw_q {D : Derivation ℝ R R} (hD : IsPartial D (-1) p z q) (n : ℕ) (l m : ℤ) : D (rr p z q ^ n * solid l m p z q) =
    (-2 * n * (((l : ℝ) + m + 1) * (l + m + 2) / (2 * (2 * l + 1)))) • (rr p z q ^ (n - 1) * solid (l + 1) (m + 1) p z q) +
      (1 / 2 * ((2 * n + 2 * l + 1) / (2 * (l : ℝ) + 1))) • (rr p z q ^ n * solid (l - 1) (m + 1) p z q) := by
  have hp := hD.p
  have hz := hD.z
  have hq := hD.q
  norm_num at hp hz hq
  have hr : D (rr p z q) = (-2 : ℝ) • p := by
    rw [D_rr, hp, hz, hq]
    simp only [mul_zero, mul_one, sub_zero, zero_sub, neg_smul, two_smul]
    ring
  have hX : p * solid l m p z q = (((l : ℝ) + m + 1) * (l + m + 2) / (2 * (2 * l + 1))) • solid (l + 1) (m + 1) p z q +
      (-(1 / (2 * (2 * (l : ℝ) + 1)))) • (rr p z q * solid (l - 1) (m + 1) p z q) := by
    rw [p_solid _ _ (odd_ne' l), neg_smul, sub_eq_add_neg]
  have hl := odd_ne' l
  rw [D_raw n hr hX (D_solid_q hp hz hq l m)]
  congr 2
  · ring
  · field_simp
    ring

theorem laplace_raw {Dp Dz Dq : Derivation ℝ R R} (hp : IsPartial Dp 1 p z q) (hz : IsPartial Dz 0 p z q)
    (hq : IsPartial Dq (-1) p z q) (n : ℕ) (l m : ℤ) :
    Dz (Dz (rr p z q ^ n * solid l m p z q)) - (2 : ℝ) • Dp (Dq (rr p z q ^ n * solid l m p z q)) =
      (2 * n * (2 * n + 2 * l + 1) : ℝ) • (rr p z q ^ (n - 1) * solid l m p z q) := by
  rw [raw_z hz, raw_q hq, map_add, map_add, Dz.map_smul, Dz.map_smul, Dp.map_smul, Dp.map_smul, raw_z hz, raw_z hz, raw_p hp, raw_p hp]
  have h1 := odd_ne' l
  have h2 := odd_ne' (l + 1)
  have h3 := odd_ne' (l - 1)
  push_cast at h2 h3 ⊢
  rcases n with - | n
  · simp only [Nat.cast_zero, mul_zero, zero_mul, zero_smul, zero_add, zero_div, smul_zero, add_sub_cancel_right, sub_add_cancel]
    rw [smul_smul, smul_smul, smul_smul, ← sub_smul]
    rw [show ∀ a b : ℝ, a * b - 2 * (1 / 2 * a) * b = 0 from fun a b => by ring, zero_smul]
  · simp only [Nat.add_sub_cancel, add_sub_cancel_right, sub_add_cancel]
    generalize rr p z q ^ (n - 1) * solid (l + 1 + 1) m p z q = A
    generalize rr p z q ^ n * solid l m p z q = B
    generalize rr p z q ^ (n + 1) * solid (l - 1 - 1) m p z q = C
    generalize (l : ℝ) = L at h1 h2 h3 ⊢
    have h2' : 2 * L + 3 ≠ 0 := by convert h2 using 1; ring
    have h3' : 2 * L - 1 ≠ 0 := by convert h3 using 1; ring
    rw [show 2 * (L + 1) + 1 = 2 * L + 3 by ring, show 2 * (L - 1) + 1 = 2 * L - 1 by ring]
    push_cast
    match_scalars <;> field_simp <;> ring

theorem rho_step (n l : ℕ) (m : ℤ) : ((2 * (n : ℝ) + 2) * (2 * n + 2 * l + 3)) * rho (n + 1) l m = rho n l m := by
  have h4 : ((2 * n + 2 * l + 1).doubleFactorial : ℝ) ≠ 0 := by exact_mod_cast (Nat.doubleFactorial_pos _).ne'
  have h3 : ((2 * n).doubleFactorial : ℝ) ≠ 0 := by exact_mod_cast (Nat.doubleFactorial_pos _).ne'
  have h5 : (2 : ℝ) ^ m ≠ 0 := (zpow_pos (by norm_num) _).ne'
  have h7 : 2 * (n : ℝ) + 2 * l + 3 ≠ 0 := by positivity
  have h10 : 2 * (n : ℝ) + 2 ≠ 0 := by positivity
  unfold rho
  rw [show 2 * (n + 1) + 2 * l + 1 = 2 * n + 2 * (l + 1) + 1 by ring, df_odd, df_even]
  field_simp

/-- The amplitude for raising the number of nodes by two quanta. -/
noncomputable def nodeR (n l : ℕ) : ℝ := √((2 * (n : ℝ) + 2) * (2 * n + 2 * l + 3))

theorem nodeR_rho (n l : ℕ) (m : ℤ) : nodeR n l * √(rho (n + 1) l m) = √(rho n l m) := by
  rw [nodeR, ← Real.sqrt_mul (by positivity), rho_step]

/-- Adding two quanta coupled to zero adds a node. -/
theorem rr_osc (n l : ℕ) (m : ℤ) : rr p z q * osc n l m p z q = (-nodeR n l) • osc (n + 1) l m p z q := by
  rw [osc, osc, mul_smul_comm, smul_smul, ← nodeR_rho n l m, show rr p z q * (rr p z q ^ n * solid l m p z q) =
    rr p z q ^ (n + 1) * solid l m p z q by ring]
  congr 1
  ring

/-- Annihilating two quanta coupled to zero removes a node. -/
theorem laplace_osc {Dp Dz Dq : Derivation ℝ R R} (hp : IsPartial Dp 1 p z q) (hz : IsPartial Dz 0 p z q)
    (hq : IsPartial Dq (-1) p z q) (n l : ℕ) (m : ℤ) :
    Dz (Dz (osc n l m p z q)) - (2 : ℝ) • Dp (Dq (osc n l m p z q)) =
      if n = 0 then 0 else (-nodeR (n - 1) l) • osc (n - 1) l m p z q := by
  rw [osc, Dz.map_smul, Dz.map_smul, Dq.map_smul, Dp.map_smul, smul_comm (2 : ℝ), ← smul_sub, laplace_raw hp hz hq]
  rcases n with - | n
  · simp
  · rw [if_neg (Nat.succ_ne_zero n), Nat.add_sub_cancel, osc, ← nodeR_rho n l m, smul_smul, smul_smul]
    have h : nodeR n l * nodeR n l = (2 * (n : ℝ) + 2) * (2 * n + 2 * l + 3) := Real.mul_self_sqrt (by positivity)
    congr 1
    push_cast
    rw [pow_succ]
    linear_combination ((-1) ^ n * √(rho (n + 1) l m)) * h

end

end

end Verif.Moshinsky.Osc
