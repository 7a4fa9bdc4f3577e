import Verif.Moshinsky.OverlapLower

/-!
# The Moshinsky bracket is the overlap of the coupled states
-/

namespace Verif.Moshinsky.Osc
open MvPolynomial

/-! ## Homomorphisms and reflection -/

section
variable {R S : Type*} [CommRing R] [Algebra ℝ R] [CommRing S] [Algebra ℝ S]

theorem map_dp (f : R →ₐ[ℝ] S) (x : R) (i : ℤ) : f (dp x i) = dp (f x) i := by
  unfold dp
  split_ifs
  · exact map_zero f
  · rw [map_smul, map_pow]

theorem map_osc (f : R →ₐ[ℝ] S) (n l : ℕ) (m : ℤ) (p z q : R) : f (osc n l m p z q) = osc n l m (f p) (f z) (f q) := by
  simp only [osc, solid, solidTerm, rr, map_smul, map_mul, map_pow, map_sub, map_sum, map_dp, map_ofNat]

theorem dp_neg_arg (x : R) (i : ℤ) : dp (-x) i = ((-1 : ℝ) ^ i.toNat) • dp x i := by
  unfold dp
  split_ifs
  · rw [smul_zero]
  · rw [neg_pow, smul_comm, show ((-1 : R) ^ i.toNat * x ^ i.toNat) = ((-1 : ℝ) ^ i.toNat) • x ^ i.toNat by
      rw [Algebra.smul_def, map_pow, map_neg, map_one]]

theorem osc_neg (n l : ℕ) (m : ℤ) (p z q : R) : osc n l m (-p) (-z) (-q) = ((-1 : ℝ) ^ l) • osc n l m p z q := by
  have hr : rr (-p) (-z) (-q) = rr p z q := by
    unfold rr
    ring
  have hs : solid l m (-p) (-z) (-q) = ((-1 : ℝ) ^ l) • solid l m p z q := by
    rw [solid, solid, Finset.smul_sum]
    refine Finset.sum_congr rfl fun k hk => ?_
    rw [Finset.mem_Icc] at hk
    unfold solidTerm
    by_cases h1 : k + m < 0
    · simp [dp_neg h1]
    by_cases h2 : (l : ℤ) - m - 2 * k < 0
    · simp [dp_neg h2]
    rw [dp_neg_arg, dp_neg_arg, dp_neg_arg, smul_mul_smul_comm, smul_mul_smul_comm, ← pow_add, ← pow_add, smul_comm]
    congr 2
    congr 1
    omega
  rw [osc, osc, hr, hs, mul_smul_comm, smul_comm]

end

/-- Exchange of the particles. -/
def swapE : Fin 2 × Fin 3 ≃ Fin 2 × Fin 3 := Equiv.prodCongr (Equiv.swap 0 1) (Equiv.refl _)

theorem swap_first (i : Fin 3) : rename swapE (first i) = second i := by
  rw [first, rename_X]
  rfl

theorem swap_second (i : Fin 3) : rename swapE (second i) = first i := by
  rw [second, rename_X]
  rfl

theorem swap_relative (i : Fin 3) : rename swapE (relative i) = -relative i := by
  rw [relative, map_smul, map_sub, swap_first, swap_second, ← smul_neg, neg_sub]

theorem swap_centre (i : Fin 3) : rename swapE (centre i) = centre i := by
  rw [centre, map_smul, map_add, swap_first, swap_second, add_comm]

theorem swap_dotted (C : Coupling) (n1 l1 n2 l2 Λ : ℕ) (M : ℤ) :
    rename swapE (coupledState C relative centre n1 l1 n2 l2 Λ M) =
      ((-1 : ℝ) ^ l1) • coupledState C relative centre n1 l1 n2 l2 Λ M := by
  rw [coupledState, ← couple_smul]
  have := couple_map (rename (R := ℝ) swapE).toLinearMap C l1 l2 Λ M fun m1 m2 => single relative n1 l1 m1 * single centre n2 l2 m2
  rw [AlgHom.toLinearMap_apply] at this
  rw [this]
  congr 1
  funext m1 m2
  rw [AlgHom.toLinearMap_apply, map_mul, single, single, map_osc, map_osc, swap_relative, swap_relative, swap_relative, swap_centre,
    swap_centre, swap_centre, osc_neg, smul_mul_assoc]

theorem swap_ket {C : Coupling} {sixj : Int → Int → Int → Int → Int → Int → ℝ} {Λ : ℕ} {M : ℤ} (hC : Recouples C sixj Λ M)
    (n1 l1 n2 l2 : ℕ) : rename swapE (coupledState C first second n1 l1 n2 l2 Λ M) =
      sgn (l1 + l2 - Λ) • coupledState C first second n2 l2 n1 l1 Λ M := by
  have := couple_map (rename (R := ℝ) swapE).toLinearMap C l1 l2 Λ M fun m1 m2 => single first n1 l1 m1 * single second n2 l2 m2
  rw [AlgHom.toLinearMap_apply] at this
  rw [coupledState, this, coupledState, ← couple_smul]
  unfold couple
  rw [Finset.sum_comm]
  refine Finset.sum_congr rfl fun m2 _ => Finset.sum_congr rfl fun m1 _ => ?_
  dsimp only
  rw [AlgHom.toLinearMap_apply, map_mul, single, single, map_osc, map_osc, hC.exchange, smul_smul, mul_comm (C _ _ _ _ _ _)]
  simp only [swap_first, swap_second]
  rw [mul_comm (osc n1 l1 m1 _ _ _)]
  rfl

/-- Exchanging the particles. -/
theorem overlap_exchange {C : Coupling} {sixj : Int → Int → Int → Int → Int → Int → ℝ} {Λ : ℕ} {M : ℤ} (hC : Recouples C sixj Λ M)
    (n1d l1d n2d l2d n1 l1 n2 l2 : ℕ) : overlap C n1d l1d n2d l2d n1 l1 n2 l2 Λ M =
      (-1) ^ l1d * (sgn (l1 + l2 - Λ) * overlap C n1d l1d n2d l2d n2 l2 n1 l1 Λ M) := by
  rw [overlap, ← fock_rename swapE, swap_dotted, swap_ket hC, fock_smul_left, fock_smul_right]
  rfl

/-! ## Number of quanta -/

theorem homogeneous_dp {σ : Type*} {x : MvPolynomial σ ℝ} (hx : x.IsHomogeneous 1) (i : ℤ) : (dp x i).IsHomogeneous i.toNat := by
  unfold dp
  split_ifs
  · exact isHomogeneous_zero _ _ _
  · have := hx.pow i.toNat
    rw [one_mul] at this
    rw [smul_eq_C_mul]
    simpa using (isHomogeneous_C σ (1 / ff i)).mul this

theorem homogeneous_smul {σ : Type*} {x : MvPolynomial σ ℝ} {n : ℕ} (hx : x.IsHomogeneous n) (c : ℝ) : (c • x).IsHomogeneous n := by
  rw [smul_eq_C_mul]
  simpa using (isHomogeneous_C σ c).mul hx

theorem homogeneous_osc {σ : Type*} {p z q : MvPolynomial σ ℝ} (hp : p.IsHomogeneous 1) (hz : z.IsHomogeneous 1)
    (hq : q.IsHomogeneous 1) (n l : ℕ) (m : ℤ) : (osc n l m p z q).IsHomogeneous (2 * n + l) := by
  refine homogeneous_smul (IsHomogeneous.mul ?_ ?_) _
  · refine IsHomogeneous.pow (IsHomogeneous.sub (hz.mul hz) ?_) n
    have := homogeneous_smul (hp.mul hq) 2
    rwa [smul_eq_C_mul, show (C (2 : ℝ) : MvPolynomial σ ℝ) = 2 from map_ofNat C 2] at this
  · refine IsHomogeneous.sum _ _ _ fun k hk => homogeneous_smul ?_ _
    rw [Finset.mem_Icc] at hk
    by_cases h1 : k + m < 0
    · rw [dp_neg h1, zero_mul, zero_mul]
      exact isHomogeneous_zero _ _ _
    by_cases h2 : (l : ℤ) - m - 2 * k < 0
    · rw [dp_neg h2, mul_zero, zero_mul]
      exact isHomogeneous_zero _ _ _
    have := ((homogeneous_dp hp (k + m)).mul (homogeneous_dp hz (l - m - 2 * k))).mul (homogeneous_dp hq k)
    rwa [show (k + m).toNat + ((l : ℤ) - m - 2 * k).toNat + k.toNat = l by omega] at this

theorem homogeneous_coupled (C : Coupling) {a b : Fin 3 → Two} (ha : ∀ i, (a i).IsHomogeneous 1) (hb : ∀ i, (b i).IsHomogeneous 1)
    (n1 l1 n2 l2 Λ : ℕ) (M : ℤ) : (coupledState C a b n1 l1 n2 l2 Λ M).IsHomogeneous (2 * n1 + l1 + (2 * n2 + l2)) := by
  refine IsHomogeneous.sum _ _ _ fun m1 _ => IsHomogeneous.sum _ _ _ fun m2 _ => homogeneous_smul ?_ _
  exact (homogeneous_osc (ha 0) (ha 1) (ha 2) n1 l1 m1).mul (homogeneous_osc (hb 0) (hb 1) (hb 2) n2 l2 m2)

/-- Overlaps of states with different numbers of quanta vanish. -/
theorem overlap_quanta (C : Coupling) {n1d l1d n2d l2d n1 l1 n2 l2 : ℕ} (Λ : ℕ) (M : ℤ)
    (h : 2 * n1d + l1d + (2 * n2d + l2d) ≠ 2 * n1 + l1 + (2 * n2 + l2)) : overlap C n1d l1d n2d l2d n1 l1 n2 l2 Λ M = 0 := by
  have hf : ∀ i, (first i).IsHomogeneous 1 := fun i => isHomogeneous_X _ _
  have hs : ∀ i, (second i).IsHomogeneous 1 := fun i => isHomogeneous_X _ _
  exact fock_homogeneous (homogeneous_coupled C (fun i => homogeneous_smul ((hf i).sub (hs i)) _)
    (fun i => homogeneous_smul ((hf i).add (hs i)) _) _ _ _ _ _ _) (homogeneous_coupled C hf hs _ _ _ _ _ _) h

/-- Overlaps of states that break the triangle rule vanish. -/
theorem overlap_triangle {C : Coupling} {sixj : Int → Int → Int → Int → Int → Int → ℝ} {Λ : ℕ} {M : ℤ} (hC : Recouples C sixj Λ M)
    {n1d l1d n2d l2d n1 l1 n2 l2 : ℕ} (h : ¬((|(l1d : ℤ) - l2d| ≤ Λ ∧ (Λ : ℤ) ≤ l1d + l2d) ∧ (|(l1 : ℤ) - l2| ≤ Λ ∧ (Λ : ℤ) ≤ l1 + l2))) :
    overlap C n1d l1d n2d l2d n1 l1 n2 l2 Λ M = 0 := by
  have hz : ∀ (a b : Fin 3 → Two) (n1 l1 n2 l2 : ℕ), ¬(|(l1 : ℤ) - l2| ≤ Λ ∧ (Λ : ℤ) ≤ l1 + l2) →
      coupledState C a b n1 l1 n2 l2 Λ M = 0 := by
    intro a b n1 l1 n2 l2 h
    unfold coupledState couple
    exact Finset.sum_eq_zero fun m1 _ => Finset.sum_eq_zero fun m2 _ => by rw [hC.triangle _ _ _ _ h, zero_smul]
  rw [overlap]
  by_cases h1 : |(l1d : ℤ) - l2d| ≤ Λ ∧ (Λ : ℤ) ≤ l1d + l2d
  · rw [hz first second n1 l1 n2 l2 fun h2 => h ⟨h1, h2⟩]
    simp [fock]
  · rw [hz relative centre n1d l1d n2d l2d h1]
    simp [fock]

/-! ## The recursion in the program's variables -/

/-- The overlap for the arguments of a bracket. -/
noncomputable def overlapOf (C : Coupling) (M : ℤ) (k : Key) : ℝ :=
  overlap C k.n1d.toNat k.l1d.toNat k.n2d.toNat k.l2d.toNat k.n1.toNat k.l1.toNat k.n2.toNat k.l2.toNat k.Λ.toNat M

/-- Twice this is the amplitude squared times `2l+1`. -/
noncomputable def amp (s : Bool) (n l : ℕ) : ℝ := if s then (n : ℝ) * (l + 1) else ((n : ℝ) + l + 1 / 2) * l
/-- Change of the angular momentum. -/
def dL (s : Bool) : ℤ := if s then 1 else -1
/-- Change of the number of nodes. -/
def dN (s : Bool) : ℤ := if s then 1 else 0

theorem lowF_amp (s : Bool) (n l : ℕ) : lowF s n l * √(2 * l + 1) = √(2 * amp s n l) := by
  cases s
  · rcases l with - | l
    · simp [lowF, amp]
    · simp only [lowF, amp, upR, Bool.false_eq_true, if_false, Nat.succ_ne_zero, Nat.add_sub_cancel]
      rw [← Real.sqrt_mul (by positivity)]
      congr 1
      push_cast
      have : 2 * (l : ℝ) + 3 ≠ 0 := by positivity
      rw [show 2 * ((l : ℝ) + 1) + 1 = 2 * l + 3 by ring]
      field_simp
      ring
  · rcases n with - | n
    · simp [lowF, amp]
    · simp only [lowF, amp, dnR, if_true, Nat.succ_ne_zero, if_false, Nat.add_sub_cancel]
      have : 2 * (l : ℝ) + 1 ≠ 0 := by positivity
      rw [← Real.sqrt_mul]
      · congr 1
        push_cast
        rw [show 2 * ((l : ℝ) + 1) - 1 = 2 * l + 1 by ring]
        field_simp
      · push_cast
        rw [show 2 * ((l : ℝ) + 1) - 1 = 2 * l + 1 by ring]
        positivity

theorem amp_nonneg (s : Bool) (n l : ℕ) : 0 ≤ amp s n l := by
  unfold amp
  split_ifs <;> positivity

theorem amp_ne {s : Bool} {n l : ℕ} (h : amp s n l ≠ 0) : (n : ℤ) - dN s = lowN s n ∧ (l : ℤ) + dL s = lowL s l := by
  cases s
  · have : l ≠ 0 := fun h0 => h (by simp [amp, h0])
    simp only [dN, dL, lowN, lowL, Bool.false_eq_true, if_false]
    omega
  · have : n ≠ 0 := fun h0 => h (by simp [amp, h0])
    simp only [dN, dL, lowN, lowL, if_true]
    omega

theorem sgn_add_one (n : ℤ) : sgn (n + 1) = -sgn n := by
  unfold sgn
  split_ifs <;> first | omega | norm_num

theorem sgn_parity {a b : ℤ} (h : a % 2 = b % 2) : sgn a = sgn b := by
  unfold sgn
  rw [h]

theorem sgn_mul_sgn (a b : ℤ) : sgn a * sgn b = sgn (a + b) := by
  unfold sgn
  split_ifs <;> first | omega | norm_num

theorem neg_one_pow_sgn (n : ℕ) : (-1 : ℝ) ^ n = sgn n := by
  induction n with
  | zero => simp [sgn]
  | succ n ih =>
    rw [pow_succ, ih, Nat.cast_succ, sgn_add_one]
    ring

theorem sgn_shift (a b c : ℤ) (s : Bool) : sgn (a + dL s + b + c) = -sgn (a + b + c) := by
  cases s
  · have := sgn_add_one (a + -1 + b + c)
    rw [show a + -1 + b + c + 1 = a + b + c by ring] at this
    simp only [dL, Bool.false_eq_true, if_false]
    rw [this, neg_neg]
  · rw [← sgn_add_one]
    congr 1
    simp only [dL, if_true]
    ring

/-- One of the four terms with recoupling. -/
theorem cross_term (C : Coupling) (sixj : Int → Int → Int → Int → Int → Int → ℝ) (M : ℤ) (n1d l1d n2d l2d n1 l1 n2 l2 Λ : ℕ)
    (s1 s2 : Bool) (f : Key → ℝ) (hf : ∀ n1d l1d n2d l2d : ℕ, f ⟨n1d, l1d, n2d, l2d, n1, l1, n2, l2, Λ⟩ =
      overlap C n1d l1d n2d l2d n1 l1 n2 l2 Λ M) :
    (lowF s1 n1d l1d * lowF s2 n2d l2d * (sgn (lowL s1 l1d + l2d + Λ) *
        √((2 * l1d + 1) * (2 * l2d + 1)) * sixj l1d (lowL s1 l1d) 1 (lowL s2 l2d) l2d Λ)) *
        overlap C (lowN s1 n1d) (lowL s1 l1d) (lowN s2 n2d) (lowL s2 l2d) n1 l1 n2 l2 Λ M =
    -2 * (sgn (l1d + l2d + Λ) * (√(amp s1 n1d l1d * amp s2 n2d l2d) * sixj l1d (l1d + dL s1) 1 (l2d + dL s2) l2d Λ *
        f ⟨n1d - dN s1, l1d + dL s1, n2d - dN s2, l2d + dL s2, n1, l1, n2, l2, Λ⟩)) := by
  have h : lowF s1 n1d l1d * lowF s2 n2d l2d * √((2 * l1d + 1) * (2 * l2d + 1)) = 2 * √(amp s1 n1d l1d * amp s2 n2d l2d) := by
    rw [Real.sqrt_mul (by positivity), show lowF s1 n1d l1d * lowF s2 n2d l2d * (√(2 * l1d + 1) * √(2 * l2d + 1)) =
      (lowF s1 n1d l1d * √(2 * l1d + 1)) * (lowF s2 n2d l2d * √(2 * l2d + 1)) by ring, lowF_amp, lowF_amp,
      ← Real.sqrt_mul (mul_nonneg (by norm_num) (amp_nonneg _ _ _)),
      show 2 * amp s1 n1d l1d * (2 * amp s2 n2d l2d) = 2 ^ 2 * (amp s1 n1d l1d * amp s2 n2d l2d) by ring,
      Real.sqrt_mul (by norm_num), Real.sqrt_sq (by norm_num)]
  rw [show (lowF s1 n1d l1d * lowF s2 n2d l2d * (sgn (lowL s1 l1d + l2d + Λ) *
        √((2 * l1d + 1) * (2 * l2d + 1)) * sixj l1d (lowL s1 l1d) 1 (lowL s2 l2d) l2d Λ)) =
      (lowF s1 n1d l1d * lowF s2 n2d l2d * √((2 * l1d + 1) * (2 * l2d + 1))) * (sgn (lowL s1 l1d + l2d + Λ) *
        sixj l1d (lowL s1 l1d) 1 (lowL s2 l2d) l2d Λ) by ring, h]
  by_cases h0 : amp s1 n1d l1d * amp s2 n2d l2d = 0
  · rw [h0, Real.sqrt_zero]
    ring
  · obtain ⟨a1, a2⟩ := amp_ne (left_ne_zero_of_mul h0)
    obtain ⟨b1, b2⟩ := amp_ne (right_ne_zero_of_mul h0)
    rw [a1, a2, b1, b2, hf, ← a2, sgn_shift]
    ring

theorem nodeR_eq (n l : ℕ) : nodeR n l = 2 * √((n + 1 : ℕ) * ((n + 1 : ℕ) + l + 1 / 2)) := by
  rw [nodeR, show (2 * (n : ℝ) + 2) * (2 * n + 2 * l + 3) = 2 ^ 2 * ((n + 1 : ℕ) * ((n + 1 : ℕ) + l + 1 / 2)) by push_cast; ring,
    Real.sqrt_mul (by norm_num), Real.sqrt_sq (by norm_num)]

/-- **The bracket is the overlap.**  For coupling coefficients that obey the laws the recursion rests on, the value the program
computes for non-negative arguments is the overlap of the coupled state of relative and centre-of-mass motion with the coupled
state of the two particles, provided this holds of the seeds, the brackets without nodes in the two-particle state. -/
theorem bracket_overlap_partial {env : Env} {C : Coupling} {Λ : ℕ} {M : ℤ} (hC : Recouples C env.sixj Λ M)
    (seeds : ∀ n1d l1d n2d l2d l1 l2 : ℕ, Key.Allowed ⟨n1d, l1d, n2d, l2d, 0, l1, 0, l2, Λ⟩ →
      seedFormula env n1d l1d n2d l2d l1 l2 Λ = overlap C n1d l1d n2d l2d 0 l1 0 l2 Λ M)
    (n1d l1d n2d l2d n1 l1 n2 l2 : ℕ) :
    bracket env ⟨n1d, l1d, n2d, l2d, n1, l1, n2, l2, Λ⟩ = overlap C n1d l1d n2d l2d n1 l1 n2 l2 Λ M := by
  classical
  let f : Key → ℝ := fun k => if k.Nonneg ∧ k.Λ = Λ then overlapOf C M k else bracket env k
  have hnat : ∀ n1d l1d n2d l2d n1 l1 n2 l2 : ℕ, f ⟨n1d, l1d, n2d, l2d, n1, l1, n2, l2, Λ⟩ =
      overlap C n1d l1d n2d l2d n1 l1 n2 l2 Λ M := by
    intro n1d l1d n2d l2d n1 l1 n2 l2
    have : Key.Nonneg ⟨n1d, l1d, n2d, l2d, n1, l1, n2, l2, Λ⟩ := by
      simp only [Key.Nonneg]
      omega
    simp only [f, this, overlapOf, true_and, if_true, Int.toNat_natCast]
  have hother : ∀ k : Key, k.Λ ≠ Λ → f k = bracket env k := fun k hk => if_neg fun h => hk h.2
  have hb := bracket_brackets env
  suffices hf : Brackets env f by
    rw [← brackets_unique env f hf, hnat]
  constructor
  · intro k hk
    by_cases h : k.Nonneg ∧ k.Λ = Λ
    · obtain ⟨a, b, c, d, e, g, i, j, L⟩ := k
      obtain ⟨⟨h1, h2, h3, h4, h5, h6, h7, h8⟩, h9⟩ := h
      dsimp only at h1 h2 h3 h4 h5 h6 h7 h8 h9
      lift a to ℕ using h1
      lift b to ℕ using h2
      lift c to ℕ using h3
      lift d to ℕ using h4
      lift e to ℕ using h5
      lift g to ℕ using h6
      lift i to ℕ using h7
      lift j to ℕ using h8
      subst h9
      rw [hnat]
      by_cases hq : 2 * a + b + (2 * c + d) = 2 * e + g + (2 * i + j)
      · refine overlap_triangle hC fun ht => hk ⟨?_, ?_, ht⟩
        · simp only [Key.Nonneg]
          omega
        · simp only [Key.Conserves]
          omega
      · exact overlap_quanta C Λ M hq
    · simp only [f]
      rw [if_neg h]
      exact hb.selection k hk
  · intro a b c d g j L hk
    by_cases hL : L = Λ
    · subst hL
      obtain ⟨h1, h2, h3, h4, h5, h6, h7, h8⟩ := hk.1
      dsimp only at h1 h2 h3 h4 h5 h6 h7 h8
      lift a to ℕ using h1
      lift b to ℕ using h2
      lift c to ℕ using h3
      lift d to ℕ using h4
      lift g to ℕ using h6
      lift j to ℕ using h8
      rw [seeds a b c d g j hk]
      exact_mod_cast hnat a b c d 0 g 0 j
    · rw [hother _ hL]
      exact hb.seeds a b c d g j L hk
  · intro a b c d g i j L hk hi
    by_cases hL : L = Λ
    · subst hL
      obtain ⟨h1, h2, h3, h4, h5, h6, h7, h8⟩ := hk.1
      have hq := hk.2.1
      simp only [Key.Conserves] at hq
      dsimp only at h1 h2 h3 h4 h5 h6 h7 h8
      lift a to ℕ using h1
      lift b to ℕ using h2
      lift c to ℕ using h3
      lift d to ℕ using h4
      lift g to ℕ using h6
      lift i to ℕ using h7
      lift j to ℕ using h8
      have e1 := hnat a b c d 0 g i j
      have e2 := hnat a b c d i j 0 g
      rw [Nat.cast_zero] at e1 e2
      rw [e1, e2, overlap_exchange hC, ← mul_assoc]
      congr 1
      rw [neg_one_pow_sgn, sgn_mul_sgn]
      exact sgn_parity (by omega)
    · rw [hother _ hL, hother _ hL]
      exact hb.exchange a b c d g i j L hk hi
  · intro a b c d e g i j L hk he
    by_cases hL : L = Λ
    · subst hL
      obtain ⟨h1, h2, h3, h4, h5, h6, h7, h8⟩ := hk.1
      dsimp only at h1 h2 h3 h4 h5 h6 h7 h8
      lift a to ℕ using h1
      lift b to ℕ using h2
      lift c to ℕ using h3
      lift d to ℕ using h4
      lift e to ℕ using h5
      lift g to ℕ using h6
      lift i to ℕ using h7
      lift j to ℕ using h8
      obtain ⟨n, rfl⟩ : ∃ n, e = n + 1 := ⟨e - 1, by omega⟩
      have hl := overlap_lower hC a b c d n g i j
      simp only [cross_term C env.sixj M a b c d n g i j Λ _ _ f (fun a b c d => hnat a b c d n g i j), Fintype.sum_bool] at hl
      have hn : (((n + 1 : ℕ) : ℤ) - 1) = n := by push_cast; ring
      rw [hn, hnat]
      have t1 : (if a = 0 then 0 else -nodeR (a - 1) b * overlap C (a - 1) b c d n g i j Λ M) =
          -2 * (√((a : ℝ) * (a + b + 1 / 2)) * f ⟨(a : ℤ) - 1, b, c, d, n, g, i, j, Λ⟩) := by
        rcases a with - | a
        · simp
        · rw [if_neg (Nat.succ_ne_zero a), Nat.add_sub_cancel, nodeR_eq, show (((a + 1 : ℕ) : ℤ) - 1) = a by push_cast; ring, hnat]
          ring
      have t2 : (if c = 0 then 0 else -nodeR (c - 1) d * overlap C a b (c - 1) d n g i j Λ M) =
          -2 * (√((c : ℝ) * (c + d + 1 / 2)) * f ⟨a, b, (c : ℤ) - 1, d, n, g, i, j, Λ⟩) := by
        rcases c with - | c
        · simp
        · rw [if_neg (Nat.succ_ne_zero c), Nat.add_sub_cancel, nodeR_eq, show (((c + 1 : ℕ) : ℤ) - 1) = c by push_cast; ring, hnat]
          ring
      rw [t1, t2, nodeR_eq] at hl
      simp only [amp, dL, dN, if_true, Bool.false_eq_true, if_false, sub_zero, ← sub_eq_add_neg] at hl
      simp only [Int.cast_natCast]
      rw [show (a : ℝ) * (b + 1) * (c * (d + 1)) = a * c * (b + 1) * (d + 1) by ring,
        show (a : ℝ) * (b + 1) * ((c + d + 1 / 2) * d) = a * (c + d + 1 / 2) * (b + 1) * d by ring,
        show ((a : ℝ) + b + 1 / 2) * b * (c * (d + 1)) = (a + b + 1 / 2) * c * b * (d + 1) by ring,
        show ((a : ℝ) + b + 1 / 2) * b * ((c + d + 1 / 2) * d) = (a + b + 1 / 2) * (c + d + 1 / 2) * b * d by ring] at hl
      linear_combination (-1 / 4) * hl
    · rw [hother _ hL, hother _ hL, hother _ hL, hother _ hL, hother _ hL, hother _ hL, hother _ hL]
      exact hb.lowering a b c d e g i j L hk he

end Verif.Moshinsky.Osc
