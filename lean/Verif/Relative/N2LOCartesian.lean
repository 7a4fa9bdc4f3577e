import Verif.Relative.N2LOSpec
import Mathlib.Analysis.Complex.Basic
import Mathlib.Analysis.SpecialFunctions.ExpDeriv
import Mathlib.Analysis.SpecialFunctions.Sqrt
import Mathlib.Tactic.FieldSimp
import Mathlib.Tactic.LinearCombination

/-!
# The axial current in Cartesian form

The products of spherical tensors in the specification of the current are vector products and contractions with the
traceless tensor `3 r̂ r̂ - 1`; the current is `-3` times the strength times

  `c3 (V σ1 τ1 + V σ2 τ2) + c4/2 (σ1 × V σ2 + V σ1 × σ2) (τ1 × τ2)`

where `V` is (up to the regulator) the matrix of second derivatives of the Yukawa function.
-/

namespace Verif.Relative.Axial
open Complex

/-- Cartesian vectors. -/
structure Vec where
  x : ℂ
  y : ℂ
  z : ℂ

/-- Spherical components `v_0 = v_z`, `v_{±1} = ∓(v_x ± i v_y)/√2`. -/
noncomputable def sph (v : Vec) (q : Int) : ℂ :=
  if q = 2 then -((v.x + I * v.y) / (√2 : ℝ)) else if q = -2 then (v.x - I * v.y) / (√2 : ℝ) else v.z

/-- `C_2` of the direction of a vector of length one. -/
noncomputable def harm (r : Vec) (q : Int) : ℂ :=
  if q = 4 then (√3 : ℝ) / (√2 : ℝ) / 2 * (r.x + I * r.y) ^ 2
  else if q = -4 then (√3 : ℝ) / (√2 : ℝ) / 2 * (r.x - I * r.y) ^ 2
  else if q = 2 then -((√3 : ℝ) / (√2 : ℝ) * (r.z * (r.x + I * r.y)))
  else if q = -2 then (√3 : ℝ) / (√2 : ℝ) * (r.z * (r.x - I * r.y))
  else (2 * r.z ^ 2 - r.x ^ 2 - r.y ^ 2) / 2

/-- Product of components. -/
noncomputable def productC (cg : Cg) (k1 k2 k : ℕ) (A B : Int → ℂ) (q : Int) : ℂ :=
  ∑ u ∈ ms k1, ∑ v ∈ ms k2, (cg k1 u k2 v k q : ℂ) * (A u * B v)

/-- Vector product. -/
def cross (a b : Vec) : Vec := ⟨a.y * b.z - a.z * b.y, a.z * b.x - a.x * b.z, a.x * b.y - a.y * b.x⟩

/-- `r̂ (r̂ · v)`. -/
def along (r v : Vec) : Vec :=
  let d := r.x * v.x + r.y * v.y + r.z * v.z
  ⟨r.x * d, r.y * d, r.z * d⟩

/-- Linear combination. -/
def lin (a : ℂ) (u : Vec) (b : ℂ) (v : Vec) : Vec := ⟨a * u.x + b * v.x, a * u.y + b * v.y, a * u.z + b * v.z⟩

/-- `V v = Y v/3 + T (r̂ (r̂ · v) - v/3)`. -/
noncomputable def pot (Y T : ℂ) (r v : Vec) : Vec := lin T (along r v) (Y / 3 - T / 3) v

/-- The coefficients `(1u 1v|1q)` and `(2u 1v|1q)`. -/
structure VecCg (cg : Cg) : Prop where
  v1 : ∀ u ∈ ms 2, ∀ v ∈ ms 2, ∀ q ∈ ms 2, cg 2 u 2 v 2 q =
    if u + v ≠ q then 0 else if v < u then 1 / √2 else if u < v then -(1 / √2) else 0
  v2 : ∀ u ∈ ms 4, ∀ v ∈ ms 2, ∀ q ∈ ms 2, cg 4 u 2 v 2 q =
    if u + v ≠ q then 0
    else if u = 0 then (if v = 0 then -(2 / √10) else 1 / √10)
    else if u = 4 ∨ u = -4 then √6 / √10
    else if v = 0 then -(√3 / √10) else √3 / √10

theorem ms_two : ms 2 = {-2, 0, 2} := by decide
theorem ms_four : ms 4 = {-4, -2, 0, 2, 4} := by decide

theorem sq2 : ((√2 : ℝ) : ℂ) * (√2 : ℝ) = 2 := by
  rw [← ofReal_mul, Real.mul_self_sqrt (by norm_num)]
  norm_num

theorem sq2_ne : ((√2 : ℝ) : ℂ) ≠ 0 := by
  rw [ofReal_ne_zero]
  positivity

/-- The product of rank 1 of two vectors is `i/√2` times the vector product. -/
theorem product_cross {cg : Cg} (h : VecCg cg) (a b : Vec) {q : Int} (hq : q ∈ ms 2) :
    productC cg 2 2 2 (sph a) (sph b) q = I / (√2 : ℝ) * sph (cross a b) q := by
  have hs := sq2_ne
  have e : ∀ u ∈ ms 2, ∀ v ∈ ms 2, (cg 2 u 2 v 2 q : ℂ) * (sph a u * sph b v) =
      ((if u + v ≠ q then 0 else if v < u then 1 / √2 else if u < v then -(1 / √2) else 0 : ℝ) : ℂ)
        * (sph a u * sph b v) := by
    intro u hu v hv
    rw [h.v1 u hu v hv q hq]
  have e2 := sq2
  have ei := I_mul_I
  have : productC cg 2 2 2 (sph a) (sph b) q = ∑ u ∈ ms 2, ∑ v ∈ ms 2,
      ((if u + v ≠ q then 0 else if v < u then 1 / √2 else if u < v then -(1 / √2) else 0 : ℝ) : ℂ)
        * (sph a u * sph b v) :=
    Finset.sum_congr rfl fun u hu => Finset.sum_congr rfl fun v hv => e u hu v hv
  rw [this]
  rw [ms_two] at hq ⊢
  simp only [Finset.mem_insert, Finset.mem_singleton] at hq
  rcases hq with rfl | rfl | rfl <;>
    simp [sph, cross] <;> field_simp
  · linear_combination (a.z * b.x - a.x * b.z) * ei
  · linear_combination (-(a.x * b.y - a.y * b.x) * I) * e2
  · linear_combination (a.z * b.x - a.x * b.z) * ei

theorem sq3 : ((√3 : ℝ) : ℂ) * (√3 : ℝ) = 3 := by
  rw [← ofReal_mul, Real.mul_self_sqrt (by norm_num)]
  norm_num

theorem sq10_ne : ((√10 : ℝ) : ℂ) ≠ 0 := by
  rw [ofReal_ne_zero]
  positivity

theorem sq6 : ((√6 : ℝ) : ℂ) = (√2 : ℝ) * (√3 : ℝ) := by
  rw [← ofReal_mul, ← Real.sqrt_mul (by norm_num)]
  norm_num

/-- The product of rank 1 of `C_2(r̂)` and a vector is `-1/√10` times the contraction with `3 r̂ r̂ - 1`. -/
theorem product_tensor {cg : Cg} (h : VecCg cg) (r v : Vec) (hr : r.x ^ 2 + r.y ^ 2 + r.z ^ 2 = 1) {q : Int}
    (hq : q ∈ ms 2) :
    productC cg 4 2 2 (harm r) (sph v) q = -(1 / (√10 : ℝ)) * sph (lin 3 (along r v) (-1) v) q := by
  have hs := sq2_ne
  have ht := sq10_ne
  have e2 := sq2
  have e3 := sq3
  have e3' : ((√3 : ℝ) : ℂ) ^ 2 = 3 := by rw [pow_two, e3]
  have e2' : ((√2 : ℝ) : ℂ) ^ 2 = 2 := by rw [pow_two, e2]
  have ei' : I ^ 2 = -1 := I_sq
  have ei3 : I ^ 3 = -I := by rw [pow_succ, I_sq]; ring
  have : productC cg 4 2 2 (harm r) (sph v) q = ∑ u ∈ ms 4, ∑ w ∈ ms 2,
      ((if u + w ≠ q then 0
        else if u = 0 then (if w = 0 then -(2 / √10) else 1 / √10)
        else if u = 4 ∨ u = -4 then √6 / √10
        else if w = 0 then -(√3 / √10) else √3 / √10 : ℝ) : ℂ) * (harm r u * sph v w) :=
    Finset.sum_congr rfl fun u hu => Finset.sum_congr rfl fun w hw => by
      have := h.v2 u hu w hw q hq
      push_cast at this ⊢
      rw [this]
  rw [this]
  rw [ms_two] at hq
  rw [ms_two, ms_four]
  simp only [Finset.mem_insert, Finset.mem_singleton] at hq
  rcases hq with rfl | rfl | rfl <;>
    simp [sph, harm, along, lin, sq6] <;> field_simp
  · ring_nf
    simp only [e3', ei', ei3]
    linear_combination (2 * (v.x - I * v.y)) * hr
  · ring_nf
    simp only [e3', ei', e2']
    linear_combination (2 * v.z) * hr
  · ring_nf
    simp only [e3', ei', ei3]
    linear_combination (-2 * (v.x + I * v.y)) * hr

theorem sph_lin (a b : ℂ) (u v : Vec) (q : Int) : sph (lin a u b v) q = a * sph u q + b * sph v q := by
  simp only [sph, lin]
  split
  · ring
  · split <;> ring

/-- **C115, Cartesian form, `c3`.** The central and tensor parts that multiply `c3` make up `-3 V σ`. -/
theorem c3_cartesian {cg : Cg} (h : VecCg cg) (Y T : ℂ) (r s : Vec) (hr : r.x ^ 2 + r.y ^ 2 + r.z ^ 2 = 1) {q : Int}
    (hq : q ∈ ms 2) :
    -Y * sph s q + (√10 : ℝ) * T * productC cg 4 2 2 (harm r) (sph s) q = -3 * sph (pot Y T r s) q := by
  have ht := sq10_ne
  rw [product_tensor h r s hr hq, pot, sph_lin, sph_lin]
  field_simp
  ring

/-- `s1 × V s2 + V s1 × s2`. -/
noncomputable def crossPot (Y T : ℂ) (r s1 s2 : Vec) : Vec :=
  lin 1 (cross s1 (pot Y T r s2)) 1 (cross (pot Y T r s1) s2)

/-- For a symmetric matrix, `a × V b + V a × b = (tr V - V) (a × b)`. -/
theorem crossPot_eq (Y T : ℂ) (r s1 s2 : Vec) (hr : r.x ^ 2 + r.y ^ 2 + r.z ^ 2 = 1) :
    crossPot Y T r s1 s2 = lin (-T) (along r (cross s1 s2)) ((2 * Y + T) / 3) (cross s1 s2) := by
  simp only [crossPot, pot, lin, along, cross, Vec.mk.injEq]
  refine ⟨?_, ?_, ?_⟩
  · linear_combination (T * (s1.y * s2.z - s1.z * s2.y)) * hr
  · linear_combination (T * (s1.z * s2.x - s1.x * s2.z)) * hr
  · linear_combination (T * (s1.x * s2.y - s1.y * s2.x)) * hr

/-- **C115, Cartesian form, `c4`.** The parts that multiply `c4` make up `-(3/2) (σ1 × V σ2 + V σ1 × σ2) (τ1 × τ2)`. -/
theorem c4_cartesian {cg : Cg} (h : VecCg cg) (Y T : ℂ) (r s1 s2 t1 t2 : Vec)
    (hr : r.x ^ 2 + r.y ^ 2 + r.z ^ 2 = 1) {q p : Int} (hq : q ∈ ms 2) (hp : p ∈ ms 2) :
    (2 * Y * productC cg 2 2 2 (sph s1) (sph s2) q
        + (√10 : ℝ) * T * productC cg 4 2 2 (harm r) (productC cg 2 2 2 (sph s1) (sph s2)) q)
      * productC cg 2 2 2 (sph t1) (sph t2) p =
    -(3 / 2) * sph (crossPot Y T r s1 s2) q * sph (cross t1 t2) p := by
  have hs := sq2_ne
  have ht := sq10_ne
  have e2 : ((√2 : ℝ) : ℂ) ^ 2 = 2 := by rw [pow_two, sq2]
  have h1 : productC cg 4 2 2 (harm r) (productC cg 2 2 2 (sph s1) (sph s2)) q =
      I / (√2 : ℝ) * productC cg 4 2 2 (harm r) (sph (cross s1 s2)) q := by
    rw [productC, productC, Finset.mul_sum]
    refine Finset.sum_congr rfl fun u hu => ?_
    rw [Finset.mul_sum]
    refine Finset.sum_congr rfl fun v hv => ?_
    rw [product_cross h s1 s2 hv]
    ring
  rw [h1, product_tensor h r _ hr hq, product_cross h s1 s2 hq, product_cross h t1 t2 hp, crossPot_eq Y T r s1 s2 hr,
    sph_lin, sph_lin]
  generalize sph (along r (cross s1 s2)) q = a
  generalize sph (cross s1 s2) q = b
  generalize sph (cross t1 t2) p = c
  field_simp
  rw [e2, I_sq]
  ring

/-! ## `V` is the matrix of second derivatives of the Yukawa function -/

/-- `exp(-m r)/(m r)`. -/
noncomputable def yuk (m r : ℝ) : ℝ := Real.exp (-(m * r)) / (m * r)

/-- The length of a vector. -/
noncomputable def len (x : Fin 3 → ℝ) : ℝ := √(∑ k, x k ^ 2)

/-- Partial derivative with respect to the `i`-th coordinate: `f` has the derivative `d` along it at `x`. -/
def HasPartial (f : (Fin 3 → ℝ) → ℝ) (i : Fin 3) (d : ℝ) (x : Fin 3 → ℝ) : Prop :=
  HasDerivAt (fun t => f (Function.update x i t)) d (x i)

theorem yuk_deriv {m r : ℝ} (hm : 0 < m) (hr : 0 < r) :
    HasDerivAt (yuk m) (-(yuk m r * (m + 1 / r))) r := by
  have h1 : HasDerivAt (fun r : ℝ => Real.exp (-(m * r))) (Real.exp (-(m * r)) * (-(m * 1))) r :=
    (((hasDerivAt_id r).const_mul m).neg).exp
  have h2 : HasDerivAt (fun r : ℝ => m * r) (m * 1) r := (hasDerivAt_id r).const_mul m
  refine (h1.div h2 (by positivity)).congr_deriv ?_
  rw [yuk]
  field_simp
  ring

theorem len_pos {x : Fin 3 → ℝ} (hx : x ≠ 0) : 0 < len x := by
  obtain ⟨k, hk⟩ := Function.ne_iff.mp hx
  refine Real.sqrt_pos.mpr ?_
  refine Finset.sum_pos' (fun _ _ => sq_nonneg _) ⟨k, Finset.mem_univ _, ?_⟩
  have hk' : x k ≠ 0 := hk
  positivity

theorem coord_partial (x : Fin 3 → ℝ) (i j : Fin 3) :
    HasPartial (fun x => x i) j (if i = j then 1 else 0) x := by
  rw [HasPartial]
  by_cases h : i = j
  · subst h
    simp only [Function.update_self, if_true]
    exact hasDerivAt_id (x i)
  · simpa [h, Function.update_of_ne h] using hasDerivAt_const (x j) (x i)

theorem len_partial {x : Fin 3 → ℝ} (hx : x ≠ 0) (i : Fin 3) : HasPartial len i (x i / len x) x := by
  have h1 : HasDerivAt (fun t => ∑ k, Function.update x i t k ^ 2) (∑ k, 2 * x k * (if k = i then 1 else 0)) (x i) := by
    refine HasDerivAt.fun_sum fun k _ => ?_
    have := HasDerivAt.fun_pow (coord_partial x k i) 2
    simpa using this
  have hp : ∑ k, Function.update x i (x i) k ^ 2 ≠ 0 := by
    rw [Function.update_eq_self]
    exact (Real.sqrt_pos.mp (len_pos hx)).ne'
  refine (h1.sqrt hp).congr_deriv ?_
  rw [Function.update_eq_self]
  simp only [mul_ite, mul_one, mul_zero, Finset.sum_ite_eq', Finset.mem_univ, if_true]
  rw [← len]
  have := (len_pos hx).ne'
  field_simp

/-- The function whose gradient is taken, and its first partial derivatives. -/
theorem yuk_gradient {m : ℝ} (hm : 0 < m) {x : Fin 3 → ℝ} (hx : x ≠ 0) (i : Fin 3) :
    HasPartial (fun x => yuk m (len x)) i (x i * (-(yuk m (len x) * (m + 1 / len x)) / len x)) x := by
  have h1 := len_partial hx i
  have h2 : HasDerivAt (yuk m) (-(yuk m (len x) * (m + 1 / len x))) (len (Function.update x i (x i))) := by
    rw [Function.update_eq_self]
    exact yuk_deriv hm (len_pos hx)
  refine (h2.comp (x i) h1).congr_deriv ?_
  ring

/-- **C115, the potential.** `V` is the matrix of second derivatives of the Yukawa function over `m²`: away from the
origin `∂_j ∂_i e^{-mr}/(mr) = m² (Y δ_ij/3 + T (r̂_i r̂_j - δ_ij/3))`, `T = Y (1 + 3/(mr) + 3/(mr)²)`. -/
theorem yuk_hessian {m : ℝ} (hm : 0 < m) {x : Fin 3 → ℝ} (hx : x ≠ 0) (i j : Fin 3) :
    let Y := yuk m (len x)
    let T := Y * (1 + 3 / (m * len x) + 3 / (m * len x) ^ 2)
    HasPartial (fun x => x i * (-(yuk m (len x) * (m + 1 / len x)) / len x)) j
      (m ^ 2 * (T * (x i / len x * (x j / len x)) + (Y / 3 - T / 3) * (if i = j then 1 else 0))) x := by
  intro Y T
  have hl := len_pos hx
  have hd : HasDerivAt (fun r => -(yuk m r * (m + 1 / r)) / r) (m ^ 2 * T / len x) (len x) := by
    have h1 := yuk_deriv hm hl
    have h2 : HasDerivAt (fun r : ℝ => m + 1 / r) (-(1 / len x ^ 2)) (len x) := by
      have := (hasDerivAt_inv hl.ne').const_add m
      simp only [one_div]
      exact this
    refine (((h1.mul h2).neg).div (hasDerivAt_id (len x)) hl.ne').congr_deriv ?_
    simp only [Pi.neg_apply, Pi.mul_apply, id, T, Y]
    field_simp
    ring
  have h1 := len_partial hx j
  have hd' : HasDerivAt (fun r => -(yuk m r * (m + 1 / r)) / r) (m ^ 2 * T / len x)
      (len (Function.update x j (x j))) := by
    rw [Function.update_eq_self]
    exact hd
  have h3 := (coord_partial x i j).mul (hd'.comp (x j) h1)
  refine h3.congr_deriv ?_
  simp only [Function.comp, Function.update_eq_self]
  split
  · simp only [T, Y]
    field_simp
    ring
  · simp only [T, Y]
    field_simp
    ring

/-- The radial functions of the current are those of the potential, with the regulator. -/
theorem yukawa_is_yuk (R r : ℝ) : yukawa R r = yuk mpi r * (1 - Real.exp (-((r / R) ^ 2))) ^ 6 := by
  simp only [yukawa, yuk]

end Verif.Relative.Axial
