import Verif.Separable.Lemmas
import Mathlib.LinearAlgebra.Finsupp.LSum
import Mathlib.Tactic.IntervalCases

/-!
# Properties of separable two-body operators
-/

namespace Verif.Separable
open Verif Verif.Mapping Verif.Xform Verif.Obme
open Verif.H2 hiding Mat

theorem tri_iff {a b c : Int} : tri a b c = true ↔ |a - b| ≤ c ∧ c ≤ a + b := by simp [tri]

/-- A stored one-body operator and the elements it stands for. -/
structure Operator (space : Space) (secs : Sectors) (mats : List Mat) (u : SpOrb → SpOrb → ℝ) : Prop where
  sectors : SectorsOf secs space space
  fits : Fits secs mats space space
  elements : Describes space secs mats u

/-- The two-body subspace uses orbitals of the space, with half-odd angular momenta. -/
def Uses (space : Space) (s : PairSub) : Prop :=
  ∀ x ∈ s.states, (InSpace space x.1 ∧ x.1.HalfOdd) ∧ InSpace space x.2 ∧ x.2.HalfOdd

/-- For any elements there are two-particle states and an operator with these elements between products. -/
theorem form_exists (f : SpOrb → SpOrb → ℕ → SpOrb → SpOrb → ℕ → ℝ) :
    ∃ (V : Type) (_ : AddCommGroup V) (_ : Module ℝ V) (pk : SpOrb → SpOrb → ℕ → V) (B : V →ₗ[ℝ] V →ₗ[ℝ] ℝ),
      ∀ c d J' a b J, B (pk c d J') (pk a b J) = f c d J' a b J := by
  refine ⟨SpOrb × SpOrb × ℕ →₀ ℝ, inferInstance, inferInstance, fun a b J => Finsupp.single (a, b, J) 1,
    Finsupp.lsum ℝ fun x => (LinearMap.toSpanSingleton ℝ _ (Finsupp.lsum ℝ fun y =>
      LinearMap.toSpanSingleton ℝ ℝ (f x.1 x.2.1 x.2.2 y.1 y.2.1 y.2.2))), ?_⟩
  intro c d J' a b J
  simp

/-- **Upgrade.**  Every element of the upgraded operator is the element of `u(1)+u(2)` between the normalised
antisymmetric states, divided by `A-1`. -/
theorem upgrade_element {am : Am} {space : Space} {secs : Sectors} {mats : List Mat} {u : SpOrb → SpOrb → ℝ}
    (hg : GoodSpace space) (ho : Operator space secs mats u) {bra ket : PairSub} (hb : Uses space bra)
    (hk : Uses space ket) {A : Int} (hA : -(2 ^ 31) ≤ A - 1 ∧ A - 1 < 2 ^ 31) (hA1 : A ≠ 1)
    (htri : |(bra.J : Int) - ket.J| ≤ secs.qn.J0 ∧ secs.qn.J0 ≤ bra.J + ket.J) :
    ∃ m, upgrade am space secs mats bra ket A = .ok m ∧ m.rows = bra.states.length ∧
      m.cols = ket.states.length ∧
      ∀ (V : Type) [AddCommGroup V] [Module ℝ V] (pk : SpOrb → SpOrb → ℕ → V) (B : V →ₗ[ℝ] V →ₗ[ℝ] ℝ),
        OneBodySum am secs.qn.J0 u pk B bra.J ket.J →
        ∀ (i j : ℕ) (x y), bra.states[i]? = some x → ket.states[j]? = some y →
          m.val i j = 1 / ((A : ℝ) - 1) * B (nas pk bra.J x) (nas pk ket.J y) := by
  have hel : ∀ x ∈ bra.states, ∀ y ∈ ket.states, upgradeElement am space secs mats bra.J ket.J x y =
      .ok (upgradeFormula am secs.qn.J0 bra.J ket.J x.1 x.2 y.1 y.2 (u x.1 y.1) (u x.1 y.2) (u x.2 y.1)
        (u x.2 y.2)) := by
    intro x hx y hy
    obtain ⟨⟨x1, _⟩, x2, _⟩ := hb x hx
    obtain ⟨⟨y1, _⟩, y2, _⟩ := hk y hy
    simp only [upgradeElement, matel_ok hg ho.sectors ho.fits ho.elements x1 y1,
      matel_ok hg ho.sectors ho.fits ho.elements x1 y2, matel_ok hg ho.sectors ho.fits ho.elements x2 y1,
      matel_ok hg ho.sectors ho.fits ho.elements x2 y2, Except.ok_bind', Except.pure_ok]
  obtain ⟨m, hm, hr, hc, hv⟩ := fill_ok _ hel
  refine ⟨scale (1 / ((A - 1 : Int) : ℝ)) m, ?_, hr, hc, ?_⟩
  · unfold upgrade
    rw [if_neg (not_not.mpr (tri_iff.mpr htri))]
    simp only [hm, Except.ok_bind']
    rw [if_neg (by simpa using hA), if_neg hA1]
    rfl
  · intro V _ _ pk B hB i j x y hx hy
    obtain ⟨⟨_, x1⟩, _, x2⟩ := hb x (List.mem_of_getElem? hx)
    obtain ⟨⟨_, y1⟩, _, y2⟩ := hk y (List.mem_of_getElem? hy)
    have e := upgradeFormula_eq hB x1 x2 y1 y2
    rw [show scale (1 / ((A - 1 : Int) : ℝ)) m = ⟨m.rows, m.cols, fun i j => 1 / ((A - 1 : Int) : ℝ) * m.val i j⟩
      from rfl]
    simp only [hv i j x y hx hy, e]
    push_cast
    rfl

/-- Outside the triangle the sector is zero. -/
theorem upgrade_triangle (am : Am) (space : Space) (secs : Sectors) (mats : List Mat) (bra ket : PairSub) (A : Int)
    (htri : ¬ (|(bra.J : Int) - ket.J| ≤ secs.qn.J0 ∧ secs.qn.J0 ≤ bra.J + ket.J)) :
    ∃ m, upgrade am space secs mats bra ket A = .ok m ∧ m.rows = bra.states.length ∧
      m.cols = ket.states.length ∧ ∀ i j, m.val i j = 0 := by
  refine ⟨⟨bra.states.length, ket.states.length, fun _ _ => 0⟩, ?_, rfl, rfl, fun _ _ => rfl⟩
  unfold upgrade
  rw [if_pos (fun h => htri (tri_iff.mp h))]

/-- The upgrade needs a mass number other than one. -/
theorem upgrade_rejects {am : Am} {space : Space} {secs : Sectors} {mats : List Mat} {bra ket : PairSub} {A : Int}
    {m : Mat} (h : upgrade am space secs mats bra ket A = .ok m)
    (htri : |(bra.J : Int) - ket.J| ≤ secs.qn.J0 ∧ secs.qn.J0 ≤ bra.J + ket.J) : A ≠ 1 := by
  rintro rfl
  unfold upgrade at h
  rw [if_neg (not_not.mpr (tri_iff.mpr htri)), Except.bind_eq_ok] at h
  obtain ⟨a, _, h⟩ := h
  norm_num at h
  cases h

/-- **Product.**  Every element of the two-body operator of two factors is the element of `[x(1) y(2)]`
between the normalised antisymmetric states, also when the shortcut for equal ranks is taken. -/
theorem racahReduce_element {am : Am} (hL : ExchangeLaw am) {space : Space} {secs1 secs2 : Sectors}
    {mats1 mats2 : List Mat} {x y : SpOrb → SpOrb → ℝ} (hg : GoodSpace space) (h1 : Operator space secs1 mats1 x)
    (h2 : Operator space secs2 mats2 y) {bra ket : PairSub} (hb : Uses space bra) (hk : Uses space ket)
    {J1 J2 J0 : ℕ} (q1 : secs1.qn.J0 = J1) (q2 : secs2.qn.J0 = J2)
    (hq : |(J1 : Int) - J2| ≤ J0 ∧ (J0 : Int) ≤ J1 + J2)
    (htri : |(bra.J : Int) - ket.J| ≤ J0 ∧ (J0 : Int) ≤ bra.J + ket.J) :
    ∃ m, racahReduce am space secs1 mats1 secs2 mats2 false bra ket J0 = .ok m ∧ m.rows = bra.states.length ∧
      m.cols = ket.states.length ∧
      ∀ (V : Type) [AddCommGroup V] [Module ℝ V] (pk : SpOrb → SpOrb → ℕ → V) (B : V →ₗ[ℝ] V →ₗ[ℝ] ℝ),
        ProductOperator am J1 J2 J0 x y pk B bra.J ket.J →
        ∀ (i j : ℕ) (s t), bra.states[i]? = some s → ket.states[j]? = some t →
          m.val i j = B (nas pk bra.J s) (nas pk ket.J t) := by
  have hel : ∀ s ∈ bra.states, ∀ t ∈ ket.states,
      racahElement am space secs1 mats1 secs2 mats2 false J0 bra.J ket.J s t =
      .ok (racahFormula am J1 J2 J0 bra.J ket.J s.1 s.2 t.1 t.2 (x s.1 t.1) (x s.1 t.2) (x s.2 t.1)
        (x s.2 t.2) (y s.1 t.1) (y s.1 t.2) (y s.2 t.1) (y s.2 t.2)) := by
    intro s hs t ht
    obtain ⟨⟨s1, _⟩, s2, _⟩ := hb s hs
    obtain ⟨⟨t1, _⟩, t2, _⟩ := hk t ht
    simp only [racahElement, matel_ok hg h1.sectors h1.fits h1.elements s1 t1,
      matel_ok hg h1.sectors h1.fits h1.elements s1 t2, matel_ok hg h1.sectors h1.fits h1.elements s2 t1,
      matel_ok hg h1.sectors h1.fits h1.elements s2 t2, matel_ok hg h2.sectors h2.fits h2.elements s1 t1,
      matel_ok hg h2.sectors h2.fits h2.elements s1 t2, matel_ok hg h2.sectors h2.fits h2.elements s2 t1,
      matel_ok hg h2.sectors h2.fits h2.elements s2 t2, Except.ok_bind', Except.pure_ok, q1, q2,
      Bool.false_eq_true, if_false]
  obtain ⟨m, hm, hr, hc, hv⟩ := fill_ok _ hel
  refine ⟨m, ?_, hr, hc, ?_⟩
  · unfold racahReduce
    rw [q1, q2, show assertE (tri J1 J2 J0) = .ok () from assertE_ok.mpr (tri_iff.mpr hq), Except.ok_bind',
      if_neg (not_not.mpr (tri_iff.mpr htri))]
    exact hm
  · intro V _ _ pk B hB i j s t hs ht
    obtain ⟨⟨_, s1⟩, _, s2⟩ := hb s (List.mem_of_getElem? hs)
    obtain ⟨⟨_, t1⟩, _, t2⟩ := hk t (List.mem_of_getElem? ht)
    rw [hv i j s t hs ht]
    exact racahFormula_eq hL hB s1 s2 t1 t2

/-- Outside the triangle the sector is zero. -/
theorem racahReduce_triangle (am : Am) (space : Space) (secs1 secs2 : Sectors) (mats1 mats2 : List Mat)
    (same : Bool) (bra ket : PairSub) (J0 : Int)
    (hq : |secs1.qn.J0 - secs2.qn.J0| ≤ J0 ∧ J0 ≤ secs1.qn.J0 + secs2.qn.J0)
    (htri : ¬ (|(bra.J : Int) - ket.J| ≤ J0 ∧ J0 ≤ bra.J + ket.J)) :
    ∃ m, racahReduce am space secs1 mats1 secs2 mats2 same bra ket J0 = .ok m ∧ m.rows = bra.states.length ∧
      m.cols = ket.states.length ∧ ∀ i j, m.val i j = 0 := by
  refine ⟨⟨bra.states.length, ket.states.length, fun _ _ => 0⟩, ?_, rfl, rfl, fun _ _ => rfl⟩
  unfold racahReduce
  rw [show assertE (tri secs1.qn.J0 secs2.qn.J0 J0) = .ok () from assertE_ok.mpr (tri_iff.mpr hq), Except.ok_bind', if_pos (fun h => htri (tri_iff.mp h))]
  rfl

/-- The product is refused unless the three ranks form a triangle. -/
theorem racahReduce_rejects {am : Am} {space : Space} {secs1 secs2 : Sectors} {mats1 mats2 : List Mat}
    {same : Bool} {bra ket : PairSub} {J0 : Int} {m : Mat}
    (h : racahReduce am space secs1 mats1 secs2 mats2 same bra ket J0 = .ok m) :
    |secs1.qn.J0 - secs2.qn.J0| ≤ J0 ∧ J0 ≤ secs1.qn.J0 + secs2.qn.J0 := by
  unfold racahReduce at h
  rw [Except.bind_eq_ok] at h
  obtain ⟨_, h, _⟩ := h
  exact tri_iff.mp (assertE_ok.mp h)

/-- Copying the elements when both factors are the same object changes nothing. -/
theorem racahReduce_same (am : Am) (space : Space) (secs : Sectors) (mats : List Mat) (bra ket : PairSub)
    (J0 : Int) : racahReduce am space secs mats secs mats true bra ket J0 =
      racahReduce am space secs mats secs mats false bra ket J0 := by
  have : ∀ J' J s t, racahElement am space secs mats secs mats true J0 J' J s t =
      racahElement am space secs mats secs mats false J0 J' J s t := by
    intro J' J s t
    rcases h1 : matel space secs mats s.1 t.1 with e | c1a
    · simp only [racahElement, h1, Except.error_bind']
    rcases h2 : matel space secs mats s.1 t.2 with e | c1b
    · simp only [racahElement, h1, h2, Except.error_bind', Except.ok_bind']
    rcases h3 : matel space secs mats s.2 t.1 with e | d1a
    · simp only [racahElement, h1, h2, h3, Except.error_bind', Except.ok_bind']
    rcases h4 : matel space secs mats s.2 t.2 with e | d1b
    · simp only [racahElement, h1, h2, h3, h4, Except.error_bind', Except.ok_bind']
    simp only [racahElement, h1, h2, h3, h4, Except.ok_bind', Except.pure_ok, if_true, Bool.false_eq_true,
      if_false]
  unfold racahReduce
  have e : racahElement am space secs mats secs mats true J0 bra.J ket.J =
      racahElement am space secs mats secs mats false J0 bra.J ket.J := by
    funext s t; exact this _ _ _ _
  rw [e]

/-- **Exchange of the factors.**  Exchanging the two factors of a product multiplies the operator by
`(-)^(J1+J2-J0)`. -/
theorem racahReduce_exchange {am : Am} (hL : ExchangeLaw am) {space : Space} {secs1 secs2 : Sectors}
    {mats1 mats2 : List Mat} {x y : SpOrb → SpOrb → ℝ} (hg : GoodSpace space) (h1 : Operator space secs1 mats1 x)
    (h2 : Operator space secs2 mats2 y) {bra ket : PairSub} (hb : Uses space bra) (hk : Uses space ket)
    {J1 J2 J0 : ℕ} (q1 : secs1.qn.J0 = J1) (q2 : secs2.qn.J0 = J2)
    (hq : |(J1 : Int) - J2| ≤ J0 ∧ (J0 : Int) ≤ J1 + J2)
    (htri : |(bra.J : Int) - ket.J| ≤ J0 ∧ (J0 : Int) ≤ bra.J + ket.J) :
    ∃ m m', racahReduce am space secs1 mats1 secs2 mats2 false bra ket J0 = .ok m ∧
      racahReduce am space secs2 mats2 secs1 mats1 false bra ket J0 = .ok m' ∧
      ∀ i j, i < bra.states.length → j < ket.states.length →
        m.val i j = (-1) ^ (J1 + J2 + J0) * m'.val i j := by
  have hq' : |(J2 : Int) - J1| ≤ J0 ∧ (J0 : Int) ≤ J2 + J1 := by
    rw [abs_sub_comm, add_comm]; exact hq
  obtain ⟨m, hm, _, _, hv⟩ := racahReduce_element hL hg h1 h2 hb hk q1 q2 hq htri
  obtain ⟨m', hm', _, _, hv'⟩ := racahReduce_element hL hg h2 h1 hb hk q2 q1 hq' htri
  refine ⟨m, m', hm, hm', ?_⟩
  intro i j hi hj
  obtain ⟨V, _, _, pk, B, hB⟩ := form_exists fun c d J' a b J =>
    am.f12 c.tj d.tj J' a.tj b.tj J J1 J2 J0 * (x c a * y d b)
  obtain ⟨V', _, _, pk', B', hB'⟩ := form_exists fun c d J' a b J =>
    am.f12 c.tj d.tj J' a.tj b.tj J J2 J1 J0 * (y c a * x d b)
  have hs := List.getElem?_eq_getElem hi
  have ht := List.getElem?_eq_getElem hj
  obtain ⟨⟨_, s1⟩, _, s2⟩ := hb _ (List.mem_of_getElem? hs)
  obtain ⟨⟨_, t1⟩, _, t2⟩ := hk _ (List.mem_of_getElem? ht)
  rw [hv V pk B (fun c d a b => hB c d bra.J a b ket.J) i j _ _ hs ht,
    hv' V' pk' B' (fun c d a b => hB' c d bra.J a b ket.J) i j _ _ hs ht]
  generalize bra.states[i] = s at *
  generalize ket.states[j] = t at *
  obtain ⟨c, d⟩ := s
  obtain ⟨a, b⟩ := t
  unfold SpOrb.HalfOdd at s1 s2 t1 t2
  dsimp only at s1 s2 t1 t2
  have hcd : (c.tj + d.tj) % 2 = 0 := by omega
  have hab : (a.tj + b.tj) % 2 = 0 := by omega
  simp only [nas, map_smul, map_sub, LinearMap.smul_apply, LinearMap.sub_apply, smul_eq_mul, hB, hB']
  have e1 := hL c.tj d.tj bra.J a.tj b.tj ket.J J1 J2 J0 hcd hab
  have e2 := hL c.tj d.tj bra.J b.tj a.tj ket.J J1 J2 J0 hcd (by omega)
  have e3 := hL d.tj c.tj bra.J a.tj b.tj ket.J J1 J2 J0 (by omega) hab
  have e4 := hL d.tj c.tj bra.J b.tj a.tj ket.J J1 J2 J0 (by omega) (by omega)
  rw [e1, e2, e3, e4]
  unfold exSign
  rw [add_comm b.tj a.tj, add_comm d.tj c.tj]
  have sq : ∀ n : ℕ, ((-1 : ℝ) ^ n) * (-1) ^ n = 1 := by
    intro n; rw [← pow_add, ← two_mul, pow_mul]; simp
  have hsplit : ((-1 : ℝ) ^ (bra.J + ket.J + (c.tj + d.tj) / 2 + (a.tj + b.tj) / 2 + J1 + J2 + J0)) =
      (-1) ^ (bra.J + (c.tj + d.tj) / 2) * (-1) ^ (ket.J + (a.tj + b.tj) / 2) * (-1) ^ (J1 + J2 + J0) := by
    rw [← pow_add, ← pow_add]; congr 1; ring
  rw [hsplit]
  have s1' := sq (bra.J + (c.tj + d.tj) / 2)
  have s2' := sq (ket.J + (a.tj + b.tj) / 2)
  have s3' := sq (J1 + J2 + J0)
  generalize ((-1 : ℝ) ^ (bra.J + (c.tj + d.tj) / 2)) = A at *
  generalize ((-1 : ℝ) ^ (ket.J + (a.tj + b.tj) / 2)) = C at *
  generalize ((-1 : ℝ) ^ (J1 + J2 + J0)) = D at *
  generalize (if c = d then 1 / Real.sqrt 2 else 1 : ℝ) = nc at *
  generalize (if a = b then 1 / Real.sqrt 2 else 1 : ℝ) = na at *
  generalize am.f12 c.tj d.tj bra.J a.tj b.tj ket.J J1 J2 J0 = f1 at *
  generalize am.f12 c.tj d.tj bra.J b.tj a.tj ket.J J1 J2 J0 = f2 at *
  generalize am.f12 d.tj c.tj bra.J a.tj b.tj ket.J J1 J2 J0 = f3 at *
  generalize am.f12 d.tj c.tj bra.J b.tj a.tj ket.J J1 J2 J0 = f4 at *
  rcases mul_self_eq_one_iff.mp s1' with rfl | rfl <;> rcases mul_self_eq_one_iff.mp s2' with rfl | rfl <;>
    rcases mul_self_eq_one_iff.mp s3' with rfl | rfl <;> ring

end Verif.Separable
