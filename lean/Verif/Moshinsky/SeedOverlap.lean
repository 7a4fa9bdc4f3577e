import Verif.Moshinsky.SeedNorm

/-!
# The seed formula is the overlap with a nodeless state
-/

namespace Verif.Moshinsky.Osc

theorem eq_sqrt {x y : ℝ} (hx : 0 ≤ x) (h : x ^ 2 = y) : x = √y := by
  rw [← h, Real.sqrt_sq hx]

theorem ff_nat (n : ℕ) : ff n = (n.factorial : ℝ) := by
  rw [ff, Int.toNat_natCast]

theorem nu_sq (n l : ℕ) : nu n l ^ 2 = (2 * (l : ℝ) + 1) * 2 ^ l * ff (n + l) / (ff n * ff (2 * n + 2 * l + 1)) := by
  rw [nu, Real.sq_sqrt (by positivity)]
  have h1 : ff n = (n.factorial : ℝ) := ff_nat n
  have h2 : ff (n + l) = ((n + l).factorial : ℝ) := by rw [← ff_nat]; push_cast; rfl
  have h3 : ff (2 * n + 2 * l + 1) = ((2 * (n + l) + 1).factorial : ℝ) := by rw [← ff_nat]; congr 1; push_cast; ring
  rw [h1, h2, h3, Nat.factorial_eq_mul_doubleFactorial, Nat.doubleFactorial_two_mul, Nat.doubleFactorial_two_mul,
    show 2 * n + 2 * l + 1 = 2 * (n + l) + 1 by ring]
  have p1 := Nat.factorial_pos n
  have p2 := Nat.factorial_pos (n + l)
  have p3 := Nat.doubleFactorial_pos (2 * (n + l) + 1)
  push_cast
  rw [pow_add]
  field_simp

theorem nu_nonneg (n l : ℕ) : 0 ≤ nu n l := Real.sqrt_nonneg _

theorem nu_zero_sq (l : ℕ) : nu 0 l ^ 2 = 2 ^ l * ff l / ff (2 * l) := by
  rw [nu_sq]
  have h : ff (2 * l + 1) = (2 * l + 1) * ff (2 * l) := by
    have := ff_succ (i := 2 * l) (by omega)
    push_cast at this
    exact this
  have p := ff_pos (2 * l)
  have h0 : ff 0 = 1 := by simp [ff]
  simp only [Nat.cast_zero, zero_add, mul_zero]
  rw [h, h0]
  field_simp

/-- The normalisation of the states. -/
theorem norm_seed {n1d l1d n2d l2d l1 l2 : ℕ} (h : l1 + l2 = l1d + l2d + 2 * (n1d + n2d)) :
    nu n1d l1d * nu n2d l2d * nu 0 l1 * nu 0 l2 * ((1 / 2) ^ n1d * (1 / 2) ^ n2d * ((1 / (2 * √2)) ^ l1d * (1 / (2 * √2)) ^ l2d)) =
      √(ff l1 * ff l2 / (ff (2 * l1) * ff (2 * l2))
        * ((2 * (l1d : ℤ) + 1) * (2 * (l2d : ℤ) + 1)) / (2 : ℝ) ^ ((l1d : ℤ) + l2d)
        * ff (n1d + l1d) / (ff n1d * ff (2 * n1d + 2 * l1d + 1))
        * ff (n2d + l2d) / (ff n2d * ff (2 * n2d + 2 * l2d + 1))) := by
  have n1 := nu_nonneg n1d l1d
  have n2 := nu_nonneg n2d l2d
  have n3 := nu_nonneg 0 l1
  have n4 := nu_nonneg 0 l2
  refine eq_sqrt (by positivity) ?_
  simp only [mul_pow, nu_sq n1d, nu_sq n2d, nu_zero_sq, ← pow_mul]
  rw [mul_comm n1d, mul_comm n2d, mul_comm l1d, mul_comm l2d, pow_mul, pow_mul, pow_mul, pow_mul, div_pow 1 (2 * √2), mul_pow 2 (√2),
    Real.sq_sqrt (by norm_num)]
  have h2 : (2 : ℝ) ^ l1 * 2 ^ l2 = 2 ^ l1d * 2 ^ l2d * (4 ^ n1d * 4 ^ n2d) := by
    rw [← pow_add, h, show (4 : ℝ) = 2 ^ 2 by norm_num, ← pow_mul, ← pow_mul, ← pow_add, ← pow_add, ← pow_add]
    congr 1
    ring
  have h3 : (2 : ℝ) ^ ((l1d : ℤ) + l2d) = 2 ^ l1d * 2 ^ l2d := by
    rw [zpow_add₀ (by norm_num), zpow_natCast, zpow_natCast]
  have h8 : ∀ l : ℕ, (1 ^ 2 / (2 ^ 2 * 2) : ℝ) ^ l * (2 ^ l * 2 ^ l * 2 ^ l) = 1 := by
    intro l
    rw [← mul_pow, ← mul_pow, ← mul_pow]
    norm_num
  have h4 : ∀ n : ℕ, ((1 / 2 : ℝ) ^ 2) ^ n * 4 ^ n = 1 := by
    intro n
    rw [← mul_pow]
    norm_num
  have q1 := ff_pos l1
  have q2 := ff_pos l2
  have q3 := ff_pos (2 * l1)
  have q4 := ff_pos (2 * l2)
  have q5 := ff_pos (n1d + l1d)
  have q6 := ff_pos (n2d + l2d)
  have q7 := ff_pos n1d
  have q8 := ff_pos n2d
  have q9 := ff_pos (2 * n1d + 2 * l1d + 1)
  have q10 := ff_pos (2 * n2d + 2 * l2d + 1)
  rw [h3]
  push_cast
  have key : (2 : ℝ) ^ l1d * 2 ^ l2d * (2 ^ l1 * 2 ^ l2) * (((1 / 2 : ℝ) ^ 2) ^ n1d * ((1 / 2 : ℝ) ^ 2) ^ n2d *
      ((1 ^ 2 / (2 ^ 2 * 2) : ℝ) ^ l1d * (1 ^ 2 / (2 ^ 2 * 2) : ℝ) ^ l2d)) * (2 ^ l1d * 2 ^ l2d) = 1 := by
    rw [h2]
    have := h8 l1d
    have := h8 l2d
    have := h4 n1d
    have := h4 n2d
    calc _ = ((1 ^ 2 / (2 ^ 2 * 2) : ℝ) ^ l1d * (2 ^ l1d * 2 ^ l1d * 2 ^ l1d)) * ((1 ^ 2 / (2 ^ 2 * 2) : ℝ) ^ l2d * (2 ^ l2d * 2 ^ l2d * 2 ^ l2d)) *
        ((((1 / 2 : ℝ) ^ 2) ^ n1d * 4 ^ n1d) * (((1 / 2 : ℝ) ^ 2) ^ n2d * 4 ^ n2d)) := by ring
      _ = 1 := by rw [h8, h8, h4, h4]; norm_num
  generalize (((1 / 2 : ℝ) ^ 2) ^ n1d * ((1 / 2 : ℝ) ^ 2) ^ n2d *
      ((1 ^ 2 / (2 ^ 2 * 2) : ℝ) ^ l1d * (1 ^ 2 / (2 ^ 2 * 2) : ℝ) ^ l2d)) = Z at *
  have hk : (2 : ℝ) ^ l1d * 2 ^ l2d * (2 ^ l1 * 2 ^ l2) * Z = 1 / (2 ^ l1d * 2 ^ l2d) := by
    rw [eq_div_iff (by positivity), key]
  calc _ = ((2 : ℝ) ^ l1d * 2 ^ l2d * (2 ^ l1 * 2 ^ l2) * Z) * (ff l1 * ff l2 / (ff (2 * l1) * ff (2 * l2)) * ((2 * l1d + 1) * (2 * l2d + 1)) *
        ff (n1d + l1d) / (ff n1d * ff (2 * n1d + 2 * l1d + 1)) * ff (n2d + l2d) / (ff n2d * ff (2 * n2d + 2 * l2d + 1))) := by
        field_simp
    _ = _ := by
        rw [hk]
        field_simp

/-- The normalisation of the coupling coefficients. -/
theorem root_seed {κ l1d l2d l1 l2 : ℤ} (h1 : 0 ≤ l1) (h2 : 0 ≤ l2) :
    ff (l1 + l1d - κ) * ff (l1 - l1d + κ) * (ff (l2 + l2d - κ) * ff (l2 - l2d + κ)) * √((2 * l1 + 1) * (2 * l2 + 1)) / (tri3 l1d κ l1 * tri3 l2d κ l2) =
      √(ff (l1 + l1d + κ + 1) * ff (l1 + l1d - κ) * ff (l1 - l1d + κ) / ff (l1d - l1 + κ)
      * (ff (l2 + l2d + κ + 1) * ff (l2 + l2d - κ) * ff (l2 - l2d + κ)) / ff (l2d - l2 + κ)) := by
  have t1 := tri3_pos l1d κ h1
  have t2 := tri3_pos l2d κ h2
  have a1 := ff_pos (l1 + l1d - κ)
  have a2 := ff_pos (l1 - l1d + κ)
  have a3 := ff_pos (l2 + l2d - κ)
  have a4 := ff_pos (l2 - l2d + κ)
  have a5 := ff_pos (l1 + l1d + κ + 1)
  have a6 := ff_pos (l2 + l2d + κ + 1)
  have a7 := ff_pos (l1d - l1 + κ)
  have a8 := ff_pos (l2d - l2 + κ)
  have p1 : (0 : ℝ) < 2 * l1 + 1 := by have : (0 : ℝ) ≤ l1 := by exact_mod_cast h1
                                       linarith
  have p2 : (0 : ℝ) < 2 * l2 + 1 := by have : (0 : ℝ) ≤ l2 := by exact_mod_cast h2
                                       linarith
  have s1 : tri3 l1d κ l1 ^ 2 = (2 * l1 + 1) * ff (l1d - l1 + κ) * ff (l1 + l1d - κ) * ff (l1 - l1d + κ) / ff (l1 + l1d + κ + 1) := by
    rw [tri3, Real.sq_sqrt]
    · rw [show l1d + κ - l1 = l1d - l1 + κ by ring, show l1 + κ - l1d = l1 - l1d + κ by ring, show l1d + κ + l1 + 1 = l1 + l1d + κ + 1 by ring]
    · have b1 := ff_pos (l1d + κ - l1)
      have b2 := ff_pos (l1 + κ - l1d)
      have b3 := ff_pos (l1d + κ + l1 + 1)
      positivity
  have s2 : tri3 l2d κ l2 ^ 2 = (2 * l2 + 1) * ff (l2d - l2 + κ) * ff (l2 + l2d - κ) * ff (l2 - l2d + κ) / ff (l2 + l2d + κ + 1) := by
    rw [tri3, Real.sq_sqrt]
    · rw [show l2d + κ - l2 = l2d - l2 + κ by ring, show l2 + κ - l2d = l2 - l2d + κ by ring, show l2d + κ + l2 + 1 = l2 + l2d + κ + 1 by ring]
    · have b1 := ff_pos (l2d + κ - l2)
      have b2 := ff_pos (l2 + κ - l2d)
      have b3 := ff_pos (l2d + κ + l2 + 1)
      positivity
  refine eq_sqrt (by positivity) ?_
  have s3 := Real.sq_sqrt (mul_pos p1 p2).le
  rw [div_pow, mul_pow _ (√_), mul_pow (tri3 _ _ _), s1, s2, s3]
  field_simp

/-- The angular part of one term of the seed formula. -/
noncomputable def qTerm (l1 l1d l2 l2d κ q : ℤ) : ℝ :=
  sgn ((l1d - l1 + q) / 2) / (ff (q - κ) * ff (q + κ + 1))
        * ff (l1d - l1 + q) / (ff ((l1d - l1 + q) / 2) * ff ((l1d + l1 - q) / 2))
        * ff (l2d - l2 + q) / (ff ((l2d - l2 + q) / 2) * ff ((l2d + l2 - q) / 2))

/-- The root of one term of the seed formula. -/
noncomputable def aRoot (l1 l1d l2 l2d κ : ℤ) : ℝ :=
  √(ff (l1 + l1d + κ + 1) * ff (l1 + l1d - κ) * ff (l1 - l1d + κ) / ff (l1d - l1 + κ)
      * (ff (l2 + l2d + κ + 1) * ff (l2 + l2d - κ) * ff (l2 - l2d + κ)) / ff (l2d - l2 + κ))

theorem coefT_eq (sixj : Int → Int → Int → Int → Int → Int → ℝ) {i i' j j' N : ℕ} {n κ q l1d l2d l1 l2 Λ : ℤ} (hn : 0 ≤ n)
    (h1d : l1d = i + i') (h2d : l2d = j + j') (h1 : l1 = i + j + N) (h2 : l2 = i' + j' + N) (hq : q = i' + j + N) (hκ : κ = q - n) :
    coefT i i' j j' N n * spreadVal sixj κ l1d l2d l1 l2 Λ =
      sgn (q + l1d + l2 + Λ) * ((2 * κ + 1) * aRoot l1 l1d l2 l2d κ * qTerm l1 l1d l2 l2d κ q * sixj l1 l1d κ l2d l2 Λ) := by
  have hr := root_seed (κ := κ) (l1d := l1d) (l2d := l2d) (l1 := l1) (l2 := l2) (by omega) (by omega)
  have e1 : (l1d - l1 + q) / 2 = i' := by omega
  have e2 : (l1d + l1 - q) / 2 = i := by omega
  have e3 : (l2d - l2 + q) / 2 = j := by omega
  have e4 : (l2d + l2 - q) / 2 = j' := by omega
  have hc : (2 * (i' : ℝ) + 2 * j + 2 * N - 2 * n + 1) = 2 * κ + 1 := by
    rw [hκ, hq]
    push_cast
    ring
  have hs : sgn (q + l1d + l2 + Λ) = sgn n * sgn κ * sgn (l1d + l2 + Λ) := by
    rw [sgn_mul_sgn, sgn_mul_sgn]
    exact sgn_parity (by omega)
  rw [coefT, spreadVal, aRoot, ← hr, qTerm, e1, e2, e3, e4, hc, gc, hs, rf_of_nonneg (i := i) (by omega), rf_of_nonneg (i := i') (by omega),
    rf_of_nonneg (i := j) (by omega), rf_of_nonneg (i := j') (by omega), rf_of_nonneg hn]
  rw [show 2 * (N : ℤ) + 2 * i' - n = l2 - l2d + κ by omega, show 2 * (N : ℤ) + 2 * j - n = l1 - l1d + κ by omega,
    show 2 * (i' : ℤ) + 2 * j + 2 * N - n + 1 = q + κ + 1 by omega, show 2 * (i : ℤ) + n = l1 + l1d - κ by omega,
    show 2 * (j' : ℤ) + n = l2 + l2d - κ by omega, show q - κ = n by omega, show l1d - l1 + q = 2 * i' by omega,
    show l2d - l2 + q = 2 * j by omega]
  have t1 := tri3_pos l1d κ (Λ := l1) (by omega)
  have t2 := tri3_pos l2d κ (Λ := l2) (by omega)
  have a1 := ff_pos i
  have a2 := ff_pos i'
  have a3 := ff_pos j
  have a4 := ff_pos j'
  have a5 := ff_pos n
  have a6 := ff_pos (q + κ + 1)
  clear hr hc hs e1 e2 e3 e4
  generalize tri3 l1d κ l1 = T1 at *
  generalize tri3 l2d κ l2 = T2 at *
  generalize √((2 * (l1 : ℝ) + 1) * (2 * l2 + 1)) = S
  generalize sixj l1 l1d κ l2d l2 Λ = X
  generalize ff i = b1 at *
  generalize ff i' = b2 at *
  generalize ff j = b3 at *
  generalize ff j' = b4 at *
  generalize ff n = b5 at *
  generalize ff (q + κ + 1) = b6 at *
  generalize ff (l2 - l2d + κ) = b7
  generalize ff (l1 - l1d + κ) = b8
  generalize ff (l1 + l1d - κ) = b9
  generalize ff (l2 + l2d - κ) = b10
  generalize ff (2 * i') = b11
  generalize ff (2 * j) = b12
  generalize 2 * (κ : ℝ) + 1 = K
  simp only [one_div, div_eq_mul_inv, mul_inv]
  ring

/-- The indices of the generating function and those of the seed formula. -/
theorem reindex (f : ℤ → ℤ → ℝ) {l1d l2d l1 l2 N : ℕ} (hN : l1 + l2 = l1d + l2d + 2 * N) :
    ∑ κ ∈ (Finset.Icc 0 ((l1 : ℤ) + l1d)).filter (fun κ => tri l1 l1d κ ∧ tri l2 l2d κ),
      ∑ q ∈ (Finset.Icc κ (min ((l1 : ℤ) + l1d) (l2 + l2d))).filter (fun q : ℤ => (q + l1 + l1d) % 2 = 0), f κ q =
    ∑ p ∈ Finset.antidiagonal l1d, ∑ r ∈ Finset.antidiagonal l2d, ∑ n ∈ Finset.Icc 0 (2 * (p.2 : ℤ)),
      if (p.1 + r.1 + N = l1 ∧ p.2 + r.2 + N = l2) ∧ n ≤ 2 * r.1 then f (p.2 + r.1 + N - n) (p.2 + r.1 + N) else 0 := by
  have e : ∀ p ∈ Finset.antidiagonal l1d, ∑ r ∈ Finset.antidiagonal l2d, ∑ n ∈ Finset.Icc 0 (2 * (p.2 : ℤ)),
      (if (p.1 + r.1 + N = l1 ∧ p.2 + r.2 + N = l2) ∧ n ≤ 2 * r.1 then f (p.2 + r.1 + N - n) (p.2 + r.1 + N) else 0) =
      ∑ x ∈ Finset.antidiagonal l2d ×ˢ Finset.Icc 0 (2 * (p.2 : ℤ)),
      (if (p.1 + x.1.1 + N = l1 ∧ p.2 + x.1.2 + N = l2) ∧ x.2 ≤ 2 * x.1.1 then f (p.2 + x.1.1 + N - x.2) (p.2 + x.1.1 + N) else 0) :=
    fun p _ => by rw [Finset.sum_product]
  rw [Finset.sum_congr rfl e, Finset.sum_sigma', Finset.sum_sigma', ← Finset.sum_filter]
  refine Finset.sum_bij'
    (fun x _ => ⟨(((l1d + l1 - x.2) / 2).toNat, ((l1d - l1 + x.2) / 2).toNat),
      ((((l2d - l2 + x.2) / 2).toNat, ((l2d + l2 - x.2) / 2).toNat), x.2 - x.1)⟩)
    (fun y _ => ⟨y.1.2 + y.2.1.1 + N - y.2.2, y.1.2 + y.2.1.1 + N⟩) ?_ ?_ ?_ ?_ ?_
  · rintro ⟨κ, q⟩ hx
    simp only [Finset.mem_sigma, Finset.mem_filter, Finset.mem_Icc, Finset.mem_product, Finset.mem_antidiagonal, tri, decide_eq_true_eq, abs_le, le_min_iff] at hx ⊢
    omega
  · rintro ⟨⟨i, i'⟩, ⟨j, j'⟩, n⟩ hy
    simp only [Finset.mem_sigma, Finset.mem_filter, Finset.mem_Icc, Finset.mem_product, Finset.mem_antidiagonal, tri, decide_eq_true_eq, abs_le, le_min_iff] at hy ⊢
    omega
  · rintro ⟨κ, q⟩ hx
    simp only [Finset.mem_sigma, Finset.mem_filter, Finset.mem_Icc, tri, decide_eq_true_eq, abs_le, le_min_iff] at hx
    simp only [Sigma.mk.injEq, heq_eq_eq]
    omega
  · rintro ⟨⟨i, i'⟩, ⟨j, j'⟩, n⟩ hy
    simp only [Finset.mem_sigma, Finset.mem_filter, Finset.mem_Icc, Finset.mem_product, Finset.mem_antidiagonal] at hy
    simp only [Sigma.mk.injEq, heq_eq_eq, Prod.mk.injEq]
    omega
  · rintro ⟨κ, q⟩ hx
    simp only [Finset.mem_sigma, Finset.mem_filter, Finset.mem_Icc, tri, decide_eq_true_eq, abs_le, le_min_iff] at hx
    simp only
    congr 1 <;> omega

/-- What the seed formula asks of the two angular-momentum functions: the first is a six-j symbol, in the sense of `SixJ`, and the
second is the unitary recoupling coefficient made of it (`am::Unitary6J`). -/
structure Angular (env : Env) : Prop where
  sixj : SixJ env.sixj
  unitary : ∀ l1d l2d Λ l2 l1 κ : ℕ, env.unitary l1d l2d Λ l2 l1 κ =
    sgn (l1d + l2d + l2 + l1) * √((2 * Λ + 1) * (2 * κ + 1)) * env.sixj l1 l1d κ l2d l2 Λ

/-- The seed formula is the overlap with the nodeless state. -/
theorem seed_overlap {env : Env} (ha : Angular env) {n1d l1d n2d l2d l1 l2 Λ : ℕ} {M : ℤ}
    (hk : Key.Allowed ⟨n1d, l1d, n2d, l2d, 0, l1, 0, l2, Λ⟩) (hM : |M| ≤ Λ) :
    seedFormula env n1d l1d n2d l2d l1 l2 Λ = overlap cg n1d l1d n2d l2d 0 l1 0 l2 Λ M := by
  obtain ⟨_, hcons, ht1, ht2⟩ := hk
  simp only [Key.Conserves] at hcons
  have hN : l1 + l2 = l1d + l2d + 2 * (n1d + n2d) := by omega
  rw [overlap_sum ha.sixj _ _ _ _ _ _ _ ht1 hM]
  have hpre : (-1 : ℝ) ^ (n1d + n2d) * (nu n1d l1d * nu n2d l2d * nu 0 l1 * nu 0 l2) * prefF n1d l1d n2d l2d =
      sgn n1d * √(ff l1 * ff l2 / (ff (2 * l1) * ff (2 * l2))
        * ((2 * (l1d : ℤ) + 1) * (2 * (l2d : ℤ) + 1)) / (2 : ℝ) ^ ((l1d : ℤ) + l2d)
        * ff (n1d + l1d) / (ff n1d * ff (2 * n1d + 2 * l1d + 1))
        * ff (n2d + l2d) / (ff n2d * ff (2 * n2d + 2 * l2d + 1))) := by
    rw [← norm_seed hN, prefF, ← neg_one_pow_sgn, neg_pow (1 / 2 : ℝ) n2d, pow_add]
    have : (-1 : ℝ) ^ n2d * (-1) ^ n2d = 1 := by rw [← mul_pow]; norm_num
    linear_combination ((-1 : ℝ) ^ n1d * (nu n1d l1d * nu n2d l2d * nu 0 l1 * nu 0 l2) * ((1 / 2) ^ n1d * (1 / 2) ^ n2d * ((1 / (2 * √2)) ^ l1d * (1 / (2 * √2)) ^ l2d))) * this
  obtain ⟨g, hg⟩ : ∃ g : ℤ → ℤ → ℝ, g = fun κ q => sgn (l1 + l2 + Λ) *
      ((2 * κ + 1) * aRoot l1 l1d l2 l2d κ * qTerm l1 l1d l2 l2d κ q * env.sixj l1 l1d κ l2d l2 Λ) := ⟨_, rfl⟩
  have hsum : ∀ p ∈ Finset.antidiagonal l1d, ∀ r ∈ Finset.antidiagonal l2d, ∀ n ∈ Finset.Icc 0 (2 * (p.2 : ℤ)),
      (if (p.1 + r.1 + (n1d + n2d) = l1 ∧ p.2 + r.2 + (n1d + n2d) = l2) ∧ n ≤ 2 * r.1 then
        coefT p.1 p.2 r.1 r.2 (n1d + n2d) n * spreadVal env.sixj (p.2 + r.1 + (n1d + n2d) - n) l1d l2d l1 l2 Λ else 0) =
      if (p.1 + r.1 + (n1d + n2d) = l1 ∧ p.2 + r.2 + (n1d + n2d) = l2) ∧ n ≤ 2 * r.1 then
        g (p.2 + r.1 + (n1d + n2d : ℕ) - n) (p.2 + r.1 + (n1d + n2d : ℕ)) else 0 := by
    intro p hp r hr n hn
    rw [Finset.mem_antidiagonal] at hp hr
    rw [Finset.mem_Icc] at hn
    split_ifs with h
    · have := coefT_eq env.sixj (i := p.1) (i' := p.2) (j := r.1) (j' := r.2) (N := n1d + n2d) (n := n) (κ := p.2 + r.1 + (n1d + n2d : ℕ) - n)
        (q := p.2 + r.1 + (n1d + n2d : ℕ)) (l1d := l1d) (l2d := l2d) (l1 := l1) (l2 := l2) (Λ := Λ) hn.1 (by omega) (by omega) (by omega) (by omega) rfl rfl
      rw [hg]
      simp only
      rw [sgn_parity (a := (l1 : ℤ) + l2 + Λ) (b := p.2 + r.1 + (n1d + n2d : ℕ) + l1d + l2 + Λ) (by omega), ← this]
      push_cast
      rfl
    · rfl
  rw [hpre, Finset.sum_congr rfl fun p hp => Finset.sum_congr rfl fun r hr => Finset.sum_congr rfl fun n hn => hsum p hp r hr n hn,
    ← reindex g hN, seedFormula, hg]
  generalize √(ff l1 * ff l2 / (ff (2 * l1) * ff (2 * l2))
        * ((2 * (l1d : ℤ) + 1) * (2 * (l2d : ℤ) + 1)) / (2 : ℝ) ^ ((l1d : ℤ) + l2d)
        * ff (n1d + l1d) / (ff n1d * ff (2 * n1d + 2 * l1d + 1))
        * ff (n2d + l2d) / (ff n2d * ff (2 * n2d + 2 * l2d + 1))) = R
  rw [Finset.mul_sum, Finset.mul_sum]
  refine Finset.sum_congr rfl fun κ hκ => ?_
  rw [Finset.mem_filter, Finset.mem_Icc] at hκ
  obtain ⟨κ, rfl⟩ := Int.eq_ofNat_of_zero_le hκ.1.1
  have hu := ha.unitary l1d l2d Λ l2 l1 κ
  have hq : aFormula l1 l1d l2 l2d κ = aRoot l1 l1d l2 l2d κ *
      ∑ q ∈ (Finset.Icc (κ : ℤ) (min ((l1 : ℤ) + l1d) (l2 + l2d))).filter (fun q : ℤ => (q + l1 + l1d) % 2 = 0), qTerm l1 l1d l2 l2d κ q := rfl
  have hsg : sgn ((n1d : ℤ) + l1d + l2d - Λ) * sgn ((l1d : ℤ) + l2d + l2 + l1) = sgn n1d * sgn ((l1 : ℤ) + l2 + Λ) := by
    rw [sgn_mul_sgn, sgn_mul_sgn]
    exact sgn_parity (by omega)
  rw [hu, hq, Real.sqrt_mul (by positivity)]
  simp only
  rw [← Finset.mul_sum]
  have hs : ∑ q ∈ (Finset.Icc (κ : ℤ) (min ((l1 : ℤ) + l1d) (l2 + l2d))).filter (fun q : ℤ => (q + l1 + l1d) % 2 = 0),
      (2 * ((κ : ℤ) : ℝ) + 1) * aRoot l1 l1d l2 l2d κ * qTerm l1 l1d l2 l2d κ q * env.sixj l1 l1d κ l2d l2 Λ =
      (2 * ((κ : ℤ) : ℝ) + 1) * aRoot l1 l1d l2 l2d κ * (∑ q ∈ (Finset.Icc (κ : ℤ) (min ((l1 : ℤ) + l1d) (l2 + l2d))).filter
        (fun q : ℤ => (q + l1 + l1d) % 2 = 0), qTerm l1 l1d l2 l2d κ q) * env.sixj l1 l1d κ l2d l2 Λ := by
    rw [Finset.mul_sum, Finset.sum_mul]
  rw [hs]
  have p1 : √(2 * (Λ : ℝ) + 1) ≠ 0 := by positivity
  have p2 : √(2 * (κ : ℝ) + 1) ≠ 0 := by positivity
  generalize ∑ q ∈ (Finset.Icc (κ : ℤ) (min ((l1 : ℤ) + l1d) (l2 + l2d))).filter (fun q : ℤ => (q + l1 + l1d) % 2 = 0), qTerm l1 l1d l2 l2d κ q = Y
  simp only [Int.cast_natCast]
  trans (sgn ((n1d : ℤ) + l1d + l2d - Λ) * sgn ((l1d : ℤ) + l2d + l2 + l1)) * R *
    ((2 * (κ : ℝ) + 1) * aRoot l1 l1d l2 l2d κ * Y * env.sixj l1 l1d κ l2d l2 Λ)
  · field_simp
  · rw [hsg]
    ring

/-- **The bracket is the overlap.**  For angular-momentum functions with the defining property of six-j symbols the value the
program computes for non-negative arguments is the overlap of the coupled state of relative and centre-of-mass motion with the
coupled state of the two particles. -/
theorem bracket_overlap {env : Env} (ha : Angular env) {Λ : ℕ} {M : ℤ} (hM : |M| ≤ Λ) (n1d l1d n2d l2d n1 l1 n2 l2 : ℕ) :
    bracket env ⟨n1d, l1d, n2d, l2d, n1, l1, n2, l2, Λ⟩ = overlap cg n1d l1d n2d l2d n1 l1 n2 l2 Λ M :=
  bracket_overlap_partial (cg_recouples ha.sixj Λ M) (fun _ _ _ _ _ _ hk => seed_overlap ha hk hM) n1d l1d n2d l2d n1 l1 n2 l2

end Verif.Moshinsky.Osc
