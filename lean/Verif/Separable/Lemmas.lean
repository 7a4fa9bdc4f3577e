import Verif.Separable.Spec
import Verif.Obme.Lemmas
import Verif.H2.Lemmas
import Mathlib.Tactic.LinearCombination

/-!
# Lemmas on separable two-body operators
-/

namespace Verif.Separable
open Verif Verif.Mapping Verif.Xform Verif.Obme
open Verif.H2 hiding Mat

theorem sectorAllowed_iff (q : QN) (x y : SpOrb) : sectorAllowed q x y = true ↔ Allowed q x.labels y.labels := by
  have hx : x.labels.tj = x.tj := rfl
  have hy : y.labels.tj = y.tj := rfl
  have hlx : x.labels.l = x.l := rfl
  have hly : y.labels.l = y.l := rfl
  unfold sectorAllowed Allowed
  rw [hx, hy, hlx, hly, Bool.and_eq_true, Bool.and_eq_true, decide_eq_true_iff, decide_eq_true_iff,
    decide_eq_true_iff, abs_le, abs_le]
  have ht : ∀ z : Int, z.tmod 2 = 0 ↔ z % 2 = 0 := by
    intro z
    rw [← Int.dvd_iff_tmod_eq_zero, Int.dvd_iff_emod_eq_zero]
  rw [ht]
  constructor
  · rintro ⟨⟨⟨⟨h1, h2⟩, h3⟩, h4⟩, h5⟩
    refine ⟨⟨⟨by omega, by omega⟩, by omega⟩, by omega, by omega⟩
  · rintro ⟨⟨⟨h1, h2⟩, h3⟩, h4, h5⟩
    refine ⟨⟨⟨⟨by omega, by omega⟩, by omega⟩, by omega⟩, by omega⟩

theorem found_ok {o : Option ℕ} {i : ℕ} (h : o = some i) : found o = .ok i := by rw [h]; rfl

theorem idxOf?_nodup {l : List ℕ} (h : l.Nodup) {p a : ℕ} (hp : l[p]? = some a) : l.idxOf? a = some p := by
  obtain ⟨x, hx⟩ := idxOf?_mem (List.mem_of_getElem? hp)
  have hx' := idxOf?_getElem? hx
  obtain ⟨hlt, _⟩ := List.getElem?_eq_some_iff.mp hx'
  rw [hx, (List.getElem?_inj hlt h).mp (hx'.trans hp.symm)]

/-- The fetched element is the element of the operator. -/
theorem matel_ok {space : Space} {secs : Sectors} {mats : List Mat} {u : SpOrb → SpOrb → ℝ}
    (hg : GoodSpace space) (hs : SectorsOf secs space space) (hf : Fits secs mats space space)
    (hu : Describes space secs mats u) {x y : SpOrb} (hx : InSpace space x) (hy : InSpace space y) :
    matel space secs mats x y = .ok (u x y) := by
  unfold matel
  by_cases ha : sectorAllowed secs.qn x y = true
  · rw [if_pos ha]
    have ha' := (sectorAllowed_iff _ _ _).mp ha
    obtain ⟨i, p, b, hb, hbl, hbn⟩ := hx
    obtain ⟨k, q, c, hc, hcl, hcn⟩ := hy
    have hik : (i, k) ∈ secs.pairs := (hs.mem i k).mpr ⟨b, c, hb, hc, by rw [hbl, hcl]; exact ha'⟩
    obtain ⟨s, hsx⟩ := idxOf?_mem hik
    obtain ⟨m, hm, hr, hcl', hv⟩ := fits_block hf hsx
    have h1 : lookUpSub space x.labels = some i := by rw [← hbl]; exact lookUpSub_some hg hb
    have h2 : lookUpSub space y.labels = some k := by rw [← hcl]; exact lookUpSub_some hg hc
    have h3 := idxOf?_nodup (hg.ns b (List.mem_of_getElem? hb)) hbn
    have h4 := idxOf?_nodup (hg.ns c (List.mem_of_getElem? hc)) hcn
    have hp : p < dim space i := by
      rw [dim_some hb]; exact (List.getElem?_eq_some_iff.mp hbn).1
    have hq : q < dim space k := by
      rw [dim_some hc]; exact (List.getElem?_eq_some_iff.mp hcn).1
    have hval := hu.val i p k q x y ⟨b, hb, hbl, hbn⟩ ⟨c, hc, hcl, hcn⟩ ha'
    simp only [matrixElementLJPN, found_ok h1, found_ok h2, getE_ok hb, getE_ok hc, found_ok hsx, getE_ok hm,
      found_ok h3, found_ok h4, Except.ok_bind', Except.pure_ok]
    rw [hv p q hp hq, hval]
  · rw [if_neg ha]
    rw [hu.zero x y fun h => ha ((sectorAllowed_iff _ _ _).mpr h)]

/-- Filling a matrix. -/
theorem fill_ok {bra ket : PairSub} {f : SpOrb × SpOrb → SpOrb × SpOrb → Except Err ℝ}
    (v : SpOrb × SpOrb → SpOrb × SpOrb → ℝ)
    (h : ∀ x ∈ bra.states, ∀ y ∈ ket.states, f x y = .ok (v x y)) :
    ∃ m, fill bra ket f = .ok m ∧ m.rows = bra.states.length ∧ m.cols = ket.states.length ∧
      ∀ (i j : ℕ) (x y), bra.states[i]? = some x → ket.states[j]? = some y → m.val i j = v x y := by
  have hrow : ∀ x ∈ bra.states, ∃ r, ket.states.mapM (fun y => f x y) = .ok r ∧ r = ket.states.map (v x) := by
    intro x hx
    obtain ⟨r, hr, h2⟩ := mapM_forall₂ (f := fun y => f x y) (P := fun y r => r = v x y) (l := ket.states)
      fun y hy => ⟨_, h x hx y hy, rfl⟩
    refine ⟨r, hr, ?_⟩
    have := List.forall₂_map_left_iff (R := fun a b : ℝ => b = a) (f := v x) (l := ket.states) (u := r)
    exact (List.forall₂_eq_eq_eq ▸ (this.mpr h2).imp fun _ _ e => e.symm : ket.states.map (v x) = r).symm
  obtain ⟨rows, hrows, h2⟩ := mapM_forall₂ (P := fun x r => r = ket.states.map (v x)) hrow
  refine ⟨⟨bra.states.length, ket.states.length, fun i j => (rows.getD i []).getD j 0⟩, ?_, rfl, rfl, ?_⟩
  · simp only [fill, hrows, Except.ok_bind', Except.pure_ok]
  · intro i j x y hx hy
    obtain ⟨r, hr, rfl⟩ := forall₂_getElem? h2 hx
    simp only [List.getD_eq_getElem?_getD, hr, Option.getD_some, List.getElem?_map, hy, Option.map_some]

theorem psign_eq {z : Int} {k : ℕ} (h : (z / 2 - k) % 2 = 0) : ((psign z : Int) : ℝ) = (-1) ^ k := by
  unfold psign powNegOne
  rcases Nat.even_or_odd k with ⟨m, hm⟩ | ⟨m, hm⟩
  · rw [if_pos (by omega), hm, ← two_mul, pow_mul]; simp
  · rw [if_neg (by omega), hm, pow_succ, pow_mul]; simp

theorem psign_ex {J : ℕ} {a b : SpOrb} (ha : a.HalfOdd) (hb : b.HalfOdd) :
    ((psign (2 * J - a.tj - b.tj) : Int) : ℝ) = exSign J a b := by
  unfold SpOrb.HalfOdd at ha hb
  exact psign_eq (by omega)

theorem psign_ex2 {J' J : ℕ} {a b c d : SpOrb} (ha : a.HalfOdd) (hb : b.HalfOdd) (hc : c.HalfOdd)
    (hd : d.HalfOdd) :
    ((psign (2 * J' - c.tj - d.tj + 2 * J - a.tj - b.tj) : Int) : ℝ) = exSign J' c d * exSign J a b := by
  unfold SpOrb.HalfOdd at ha hb hc hd
  unfold exSign
  rw [← pow_add]
  exact psign_eq (by omega)

theorem sqrt2_half : (1 / Real.sqrt 2 : ℝ) * (1 / Real.sqrt 2) = 1 / 2 := by
  rw [div_mul_div_comm, one_mul, Real.mul_self_sqrt (by norm_num)]

theorem ite_add_zero' (p : Prop) [Decidable p] (x y : ℝ) : (if p then x + y else x) = x + if p then y else 0 := by
  split <;> simp

theorem ite_mul_one' (p : Prop) [Decidable p] (x y : ℝ) : (if p then x * y else x) = x * if p then y else 1 := by
  split <;> simp

/-- The upgrade formula is the element of `u(1)+u(2)` between normalised antisymmetric states. -/
theorem upgradeFormula_eq {V : Type} [AddCommGroup V] [Module ℝ V] {am : Am} {J0 : Int} {u : SpOrb → SpOrb → ℝ}
    {pk : SpOrb → SpOrb → ℕ → V} {B : V →ₗ[ℝ] V →ₗ[ℝ] ℝ} {J' J : ℕ} (hB : OneBodySum am J0 u pk B J' J)
    {c d a b : SpOrb} (hc : c.HalfOdd) (hd : d.HalfOdd) (ha : a.HalfOdd) (hb : b.HalfOdd) :
    upgradeFormula am J0 J' J c d a b (u c a) (u c b) (u d a) (u d b) = B (nas pk J' (c, d)) (nas pk J (a, b)) := by
  have hp1 := psign_ex (J := J) ha hb
  have hp2 := psign_ex (J := J') hc hd
  have hp3 := psign_ex2 (J' := J') (J := J) ha hb hc hd
  simp only [upgradeFormula, nas, map_smul, map_sub, LinearMap.smul_apply, LinearMap.sub_apply, smul_eq_mul,
    hB c d a b, hB c d b a, hB d c a b, hB d c b a, Int.cast_neg, hp1, hp2, hp3, ite_add_zero', ite_mul_one',
    zero_add]
  generalize (if a = b then 1 / Real.sqrt 2 else 1 : ℝ) = na
  generalize (if c = d then 1 / Real.sqrt 2 else 1 : ℝ) = nc
  have h2 := sqrt2_half
  generalize (1 / Real.sqrt 2 : ℝ) = r at h2 ⊢
  have e : ∀ (p : Prop) [Decidable p] (s f x : ℝ), (if p then s * f * x else 0) = s * (if p then f * x else 0) := by
    intro p _ s f x
    split <;> ring
  simp only [e]
  generalize (if d = b then am.f1 c.tj d.tj J' a.tj b.tj J J0 * u c a else 0) = t1
  generalize (if c = a then am.f2 c.tj d.tj J' a.tj b.tj J J0 * u d b else 0) = t2
  generalize (if d = a then am.f1 c.tj d.tj J' b.tj a.tj J J0 * u c b else 0) = t3
  generalize (if c = b then am.f2 c.tj d.tj J' b.tj a.tj J J0 * u d a else 0) = t4
  generalize (if c = b then am.f1 d.tj c.tj J' a.tj b.tj J J0 * u d a else 0) = t5
  generalize (if d = a then am.f2 d.tj c.tj J' a.tj b.tj J J0 * u c b else 0) = t6
  generalize (if c = a then am.f1 d.tj c.tj J' b.tj a.tj J J0 * u d b else 0) = t7
  generalize (if d = b then am.f2 d.tj c.tj J' b.tj a.tj J J0 * u c a else 0) = t8
  linear_combination (-(na * nc) * (t1 + t2 - exSign J a b * (t3 + t4) - exSign J' c d * (t5 + t6) +
    exSign J' c d * exSign J a b * (t7 + t8))) * h2

/-- The product formula is the element of `[x(1) y(2)]` between normalised antisymmetric states. -/
theorem racahFormula_eq {V : Type} [AddCommGroup V] [Module ℝ V] {am : Am} (hL : ExchangeLaw am) {J1 J2 J0 : ℕ}
    {x y : SpOrb → SpOrb → ℝ} {pk : SpOrb → SpOrb → ℕ → V} {B : V →ₗ[ℝ] V →ₗ[ℝ] ℝ} {J' J : ℕ}
    (hB : ProductOperator am J1 J2 J0 x y pk B J' J)
    {c d a b : SpOrb} (hc : c.HalfOdd) (hd : d.HalfOdd) (ha : a.HalfOdd) (hb : b.HalfOdd) :
    racahFormula am J1 J2 J0 J' J c d a b (x c a) (x c b) (x d a) (x d b) (y c a) (y c b) (y d a) (y d b) =
      B (nas pk J' (c, d)) (nas pk J (a, b)) := by
  have hp1 := psign_ex (J := J) ha hb
  have hp2 := psign_ex (J := J') hc hd
  have hp3 := psign_ex2 (J' := J') (J := J) ha hb hc hd
  have hcd : (c.tj + d.tj) % 2 = 0 := by unfold SpOrb.HalfOdd at hc hd; omega
  have hab : (a.tj + b.tj) % 2 = 0 := by unfold SpOrb.HalfOdd at ha hb; omega
  have hsw : ((psign (2 * J' + c.tj + d.tj + 2 * J + a.tj + b.tj + 2 * J1 + 2 * J2 + 2 * J0) : Int) : ℝ) =
      (-1) ^ (J' + J + (c.tj + d.tj) / 2 + (a.tj + b.tj) / 2 + J1 + J2 + J0) := psign_eq (by omega)
  have hA : (if (J1 : Int) = J2 then
      ((psign (2 * J' + c.tj + d.tj + 2 * J + a.tj + b.tj + 2 * J1 + 2 * J2 + 2 * J0) : Int) : ℝ) *
        am.f12 c.tj d.tj J' a.tj b.tj J J1 J2 J0 else am.f12 d.tj c.tj J' b.tj a.tj J J1 J2 J0) =
      am.f12 d.tj c.tj J' b.tj a.tj J J1 J2 J0 := by
    split
    · rename_i h
      have h' : J1 = J2 := by exact_mod_cast h
      subst h'
      rw [hsw, hL c.tj d.tj J' a.tj b.tj J J1 J1 J0 hcd hab]
    · rfl
  have hA' : (if (J1 : Int) = J2 then
      ((psign (2 * J' + c.tj + d.tj + 2 * J + a.tj + b.tj + 2 * J1 + 2 * J2 + 2 * J0) : Int) : ℝ) *
        am.f12 c.tj d.tj J' b.tj a.tj J J1 J2 J0 else am.f12 d.tj c.tj J' a.tj b.tj J J1 J2 J0) =
      am.f12 d.tj c.tj J' a.tj b.tj J J1 J2 J0 := by
    split
    · rename_i h
      have h' : J1 = J2 := by exact_mod_cast h
      subst h'
      rw [hsw, hL c.tj d.tj J' b.tj a.tj J J1 J1 J0 hcd (by omega), add_comm b.tj a.tj]
    · rfl
  simp only [racahFormula, nas, map_smul, map_sub, LinearMap.smul_apply, LinearMap.sub_apply, smul_eq_mul,
    hB c d a b, hB c d b a, hB d c a b, hB d c b a, hp1, hp2, hp3, hA, hA', ite_mul_one', zero_add]
  generalize (if a = b then 1 / Real.sqrt 2 else 1 : ℝ) = na
  generalize (if c = d then 1 / Real.sqrt 2 else 1 : ℝ) = nc
  have h2 := sqrt2_half
  generalize (1 / Real.sqrt 2 : ℝ) = r at h2 ⊢
  generalize am.f12 c.tj d.tj J' a.tj b.tj J J1 J2 J0 = t1
  generalize am.f12 c.tj d.tj J' b.tj a.tj J J1 J2 J0 = t2
  generalize am.f12 d.tj c.tj J' a.tj b.tj J J1 J2 J0 = t3
  generalize am.f12 d.tj c.tj J' b.tj a.tj J J1 J2 J0 = t4
  linear_combination (-(na * nc) * (t1 * (x c a * y d b) - exSign J a b * (t2 * (x c b * y d a)) -
    exSign J' c d * (t3 * (x d a * y c b)) + exSign J' c d * exSign J a b * (t4 * (x d b * y c a)))) * h2

end Verif.Separable
