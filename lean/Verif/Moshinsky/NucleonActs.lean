import Verif.Moshinsky.NucleonPhys
import Verif.Moshinsky.NucleonQuad

/-!
# The named operators on two nucleons

The operators of `NucleonPhys.lean` have the elements that `relative-gen` is asked for, and `moshinsky` writes their elements between states of
two nucleons.
-/

namespace Verif.Moshinsky
open Verif MvPolynomial Osc Program
open Verif.SU2 hiding couple
open Verif.Relative (Cfg jmat δ idPair sumPair isoPair same rSqr dotPair OpLabels)

/-! ## Specification -/

/-- Component `q` of the spin of a nucleon. -/
noncomputable abbrev spin (k : Fin 2) (q : ℤ) : Nucl →ₗ[ℝ] Nucl := onSpin k (jmat 1 (2 * q))

/-- Component `p` of the isospin of a nucleon. -/
noncomputable abbrev isospin (k : Fin 2) (p : ℤ) : Nucl →ₗ[ℝ] Nucl := onIsospin k (jmat 1 (2 * p))

/-- Nothing for an isoscalar operator, `τ1 + τ2` for an isovector operator. -/
noncomputable def tau (T0 : ℕ) (p : ℤ) : Nucl →ₗ[ℝ] Nucl := if T0 = 0 then LinearMap.id else (2 : ℝ) • (isospin 0 p + isospin 1 p)

/-- The generators `Σ σ τ / 2` of SU(4). -/
noncomputable def spinIsospin (q p : ℤ) : Nucl →ₗ[ℝ] Nucl := (2 : ℝ) • (spin 0 q ∘ₗ isospin 0 p + spin 1 q ∘ₗ isospin 1 p)

/-- The sign in the scalar product of spherical components. -/
def sg (q : ℤ) : ℝ := if q = 0 then 1 else -1

/-- The sum of the squares of the generators of SU(4). -/
noncomputable def casimirSum : Nucl →ₗ[ℝ] Nucl :=
  ∑ q ∈ ({1, 0, -1} : Finset ℤ), sg q • ((spin 0 q + spin 1 q) ∘ₗ (spin 0 (-q) + spin 1 (-q)) + (isospin 0 q + isospin 1 q) ∘ₗ (isospin 0 (-q) + isospin 1 (-q))) +
  ∑ q ∈ ({1, 0, -1} : Finset ℤ), ∑ p ∈ ({1, 0, -1} : Finset ℤ), (sg q * sg p) • (spinIsospin q p ∘ₗ spinIsospin (-q) (-p))

/-- The operators by their names, with the labels that belong to them and their components. -/
inductive Physical : Relative.Gen.Choice → (OpLabels → Prop) → ℕ → ℕ → (ℤ → ℤ → Nucl →ₗ[ℝ] Nucl) → Prop
  | distance (T0 : ℕ) : Physical (.coordinateSqr .r T0) (Relative.SqrLabels · T0) 0 T0 fun _ p => tau T0 p ∘ₗ onMotion distanceSq
  | rsqr : Physical (.plain "rsqr") (Relative.SqrLabels · 0) 0 0 fun _ _ => onMotion distanceSq
  | quadrupole (T0 : ℕ) : Physical (.quadrupole .r T0) (Relative.QuadLabels · T0) 2 T0 fun q p => (1 / 2 : ℝ) • (tau T0 p ∘ₗ onMotion (harmonic2 q))
  | orbital (T0 : ℕ) : Physical (.orbital T0) (Relative.AmLabels · T0) 1 T0 fun q p => tau T0 p ∘ₗ onMotion (angular q)
  | spin : Physical (.spin 0) (Relative.AmLabels · 0) 1 0 fun q _ => spin 0 q + spin 1 q
  | spinIsovector : Physical (.spin 1) (Relative.AmLabels · 1) 1 1 spinIsospin
  | isospin : Physical (.plain "isospin") Relative.IsospinLabels 0 1 fun _ p => isospin 0 p + isospin 1 p
  | casimir : Physical (.plain "su4casimir") (fun o => o.J0 = 0 ∧ o.g0 = 0 ∧ o.T0min = 0) 0 0 fun _ _ => casimirSum
  | gamowTeller : Physical (.plain "LENPIC-LOGT") (Relative.AmLabels · 1) 1 1 fun q p => (-(129 / 100) : ℝ) • spinIsospin q p

/-! ## Products -/

/-- The operator of a nucleon on amplitudes of spins. -/
def pairAct (k : Fin 2) (K : ℤ → ℤ → ℝ) (x : Fin 2 → Fin 2 → ℝ) : Fin 2 → Fin 2 → ℝ :=
  fun σ σ' => if k = 0 then ∑ a, K (proj σ) (proj a) * x a σ' else ∑ a, K (proj σ') (proj a) * x σ a

theorem onMotion_ten (F : Two →ₗ[ℝ] Two) (u : Two) (x y : Fin 2 → Fin 2 → ℝ) : onMotion F (ten u x y) = ten (F u) x y := by
  funext σ σ' τ τ'
  show F ((x σ σ' * y τ τ') • u) = _
  rw [map_smul]
  rfl

theorem onSpin_ten (k : Fin 2) (K : ℤ → ℤ → ℝ) (u : Two) (x y : Fin 2 → Fin 2 → ℝ) : onSpin k K (ten u x y) = ten u (pairAct k K x) y := by
  funext σ σ' τ τ'
  show (if k = 0 then ∑ a, K (proj σ) (proj a) • ((x a σ' * y τ τ') • u) else ∑ a, K (proj σ') (proj a) • ((x σ a * y τ τ') • u)) =
    ((if k = 0 then ∑ a, K (proj σ) (proj a) * x a σ' else ∑ a, K (proj σ') (proj a) * x σ a) * y τ τ') • u
  split_ifs <;> simp only [Fin.sum_univ_two, smul_smul, ← add_smul] <;> congr 1 <;> ring

theorem onIsospin_ten (k : Fin 2) (K : ℤ → ℤ → ℝ) (u : Two) (x y : Fin 2 → Fin 2 → ℝ) : onIsospin k K (ten u x y) = ten u x (pairAct k K y) := by
  funext σ σ' τ τ'
  show (if k = 0 then ∑ a, K (proj τ) (proj a) • ((x σ σ' * y a τ') • u) else ∑ a, K (proj τ') (proj a) • ((x σ σ' * y τ a) • u)) =
    (x σ σ' * (if k = 0 then ∑ a, K (proj τ) (proj a) * y a τ' else ∑ a, K (proj τ') (proj a) * y τ a)) • u
  split_ifs <;> simp only [Fin.sum_univ_two, smul_smul, ← add_smul] <;> congr 1 <;> ring

theorem spins_dot (s s' : Fin 2) (x : Fin 2 → Fin 2 → ℝ) : ∑ σ, ∑ σ', spins s s' σ σ' * x σ σ' = x s s' := by
  rw [Finset.sum_eq_single_of_mem s (Finset.mem_univ _), Finset.sum_eq_single_of_mem s' (Finset.mem_univ _)]
  · simp [spins]
  · intro b _ hb
    simp [spins, hb]
  · intro b _ hb
    simp [spins, hb]

/-- Elements between products. -/
theorem prod_element {F : Two →ₗ[ℝ] Two} {a : ℕ → ℕ → ℤ → ℕ → ℕ → ℤ → ℝ} (hF : MotionActs F a) {r r' : LSPair} {m mc m' mc' : ℤ} {σ σ' τ τ' : Fin 2}
    {x y : Fin 2 → Fin 2 → ℝ} (h1 : Moshinsky.Osc r.1 r.2.1) (h2 : Moshinsky.Osc r.2.2.1 r.2.2.2) (h4 : Moshinsky.Osc r'.2.2.1 r'.2.2.2)
    (k1 : |m| ≤ r.2.1) (k2 : |mc| ≤ r.2.2.2) (k3 : |m'| ≤ r'.2.1) (k4 : |mc'| ≤ r'.2.2.2) :
    inner (prodState r m mc σ σ' τ τ') (ten (F (single relative ((r'.1 - r'.2.1) / 2) r'.2.1 m' * single centre ((r'.2.2.1 - r'.2.2.2) / 2) r'.2.2.2 mc')) x y) =
      if (r.2.2, mc) = (r'.2.2, mc') then a ((r.1 - r.2.1) / 2) r.2.1 m ((r'.1 - r'.2.1) / 2) r'.2.1 m' * (x σ σ' * y τ τ') else 0 := by
  rw [prodState, inner_ten, spins_dot, spins_dot, hF _ _ _ _ _ _ _ _ _ _ _ _ k1 k2 k3 k4]
  have e : ((r.2.2.1 - r.2.2.2) / 2, r.2.2.2, mc) = ((r'.2.2.1 - r'.2.2.2) / 2, r'.2.2.2, mc') ↔ (r.2.2, mc) = (r'.2.2, mc') := by
    obtain ⟨N, l, Nc, lc⟩ := r
    obtain ⟨N', l', Nc', lc'⟩ := r'
    obtain ⟨q1, q2⟩ := h2
    obtain ⟨q3, q4⟩ := h4
    simp only [Prod.mk.injEq] at *
    omega
  rw [if_congr e rfl rfl, mul_ite, mul_zero]
  split_ifs
  · ring
  · rfl

theorem delta_proj (a b : Fin 2) : δ (proj a) (proj b) = if a = b then 1 else 0 := by
  fin_cases a <;> fin_cases b <;> simp [δ, proj]

theorem spins_apply (a a' σ σ' : Fin 2) : spins a a' σ σ' = idPair (proj σ) (proj σ') (proj a) (proj a') := by
  rw [spins, idPair, delta_proj, delta_proj, delta_mul]

theorem pairAct_first (K : ℤ → ℤ → ℝ) (a a' σ σ' : Fin 2) : pairAct 0 K (spins a a') σ σ' = K (proj σ) (proj a) * δ (proj σ') (proj a') := by
  rw [pairAct, if_pos rfl, delta_proj, Finset.sum_eq_single_of_mem a (Finset.mem_univ _)]
  · simp [spins]
  · intro b _ hb
    simp [spins, hb]

theorem pairAct_second (K : ℤ → ℤ → ℝ) (a a' σ σ' : Fin 2) : pairAct 1 K (spins a a') σ σ' = δ (proj σ) (proj a) * K (proj σ') (proj a') := by
  rw [pairAct, if_neg (by decide), delta_proj, Finset.sum_eq_single_of_mem a' (Finset.mem_univ _)]
  · simp [spins, mul_comm]
  · intro b _ hb
    simp [spins, hb]

theorem same_id (n l n' l' : ℕ) (m m' : ℤ) : (if (n, l, m) = (n', l', m') then (1 : ℝ) else 0) = if l = l' then same n n' * δ (2 * m) (2 * m') else 0 := by
  simp only [same, δ, Prod.mk.injEq, delta_mul]
  by_cases hl : l = l'
  · rw [if_pos hl]
    refine if_congr ?_ rfl rfl
    omega
  · rw [if_neg hl, if_neg (by tauto)]

/-- Sums of operators. -/
theorem acts_add {O O' : Nucl →ₗ[ℝ] Nucl} {Nmax : ℕ} {A A' : Cfg → Cfg → ℝ} (h : ActsAs O Nmax A) (h' : ActsAs O' Nmax A') :
    ActsAs (O + O') Nmax fun c' c => A c' c + A' c' c := by
  intro r r' m mc m' mc' σ σ' τ τ' a a' b b' h1 h2 h3 h4 h5 h6 h7 h8 h9 h10
  rw [LinearMap.add_apply, ← innerL_apply, map_add, innerL_apply, innerL_apply, h r r' m mc m' mc' σ σ' τ τ' a a' b b' h1 h2 h3 h4 h5 h6 h7 h8 h9 h10,
    h' r r' m mc m' mc' σ σ' τ τ' a a' b b' h1 h2 h3 h4 h5 h6 h7 h8 h9 h10]
  split_ifs
  · rfl
  · rw [add_zero]

theorem acts_smul {O : Nucl →ₗ[ℝ] Nucl} {Nmax : ℕ} {A : Cfg → Cfg → ℝ} (k : ℝ) (h : ActsAs O Nmax A) : ActsAs (k • O) Nmax fun c' c => k * A c' c := by
  intro r r' m mc m' mc' σ σ' τ τ' a a' b b' h1 h2 h3 h4 h5 h6 h7 h8 h9 h10
  rw [LinearMap.smul_apply, ← innerL_apply, map_smul, innerL_apply, h r r' m mc m' mc' σ σ' τ τ' a a' b b' h1 h2 h3 h4 h5 h6 h7 h8 h9 h10, smul_eq_mul, mul_ite, mul_zero]

/-- Products of operators on the motion, on the spins and on the isospins. -/
theorem acts_prod {O : Nucl →ₗ[ℝ] Nucl} {F : Two →ₗ[ℝ] Two} {f : ℕ → ℕ → ℤ → ℕ → ℕ → ℤ → ℝ} (hF : MotionActs F f)
    {X Y : (Fin 2 → Fin 2 → ℝ) → Fin 2 → Fin 2 → ℝ} (hO : ∀ u x y, O (ten u x y) = ten (F u) (X x) (Y y)) (Nmax : ℕ) {A : Cfg → Cfg → ℝ}
    (hA : ∀ (n l n' l' : ℕ) (m m' : ℤ) (σ σ' τ τ' a a' b b' : Fin 2), f n l m n' l' m' * (X (spins a a') σ σ' * Y (spins b b') τ τ') =
      A ⟨n, l, 2 * m, proj σ, proj σ', proj τ, proj τ'⟩ ⟨n', l', 2 * m', proj a, proj a', proj b, proj b'⟩) : ActsAs O Nmax A := by
  intro r r' m mc m' mc' σ σ' τ τ' a a' b b' h1 h2 h3 h4 h5 h6 h7 h8 h9 h10
  rw [show O (prodState r' m' mc' a a' b b') = _ from hO _ _ _, prod_element hF h1 h2 h4 h7 h8 h9 h10, hA]
  rfl

theorem acts_congr {O O' : Nucl →ₗ[ℝ] Nucl} {Nmax : ℕ} {A A' : Cfg → Cfg → ℝ} (h : ActsAs O Nmax A) (hO : O' = O) (hA : ∀ c' c, A c' c = A' c' c) :
    ActsAs O' Nmax A' := by
  have : A = A' := funext fun c' => funext fun c => hA c' c
  rw [hO, ← this]
  exact h

/-- An operator on the motion, times nothing or `τ1 + τ2`. -/
theorem acts_tau {F : Two →ₗ[ℝ] Two} {f : ℕ → ℕ → ℤ → ℕ → ℕ → ℤ → ℝ} (hF : MotionActs F f) (T0 : ℕ) (p : ℤ) (Nmax : ℕ) {A : Cfg → Cfg → ℝ}
    (hA : ∀ (n l n' l' : ℕ) (m m' s s' t t' a a' b b' : ℤ), f n l m n' l' m' * (idPair s s' a a' * isoPair T0 (2 * p) t t' b b') =
      A ⟨n, l, 2 * m, s, s', t, t'⟩ ⟨n', l', 2 * m', a, a', b, b'⟩) : ActsAs (tau T0 p ∘ₗ onMotion F) Nmax A := by
  by_cases h : T0 = 0
  · refine acts_prod (X := id) (Y := id) hF (fun u x y => ?_) Nmax fun n l n' l' m m' σ σ' τ τ' a a' b b' => ?_
    · rw [tau, if_pos h, LinearMap.id_comp, onMotion_ten]
      rfl
    · rw [id, id, spins_apply, spins_apply, ← hA, isoPair, if_pos h]
  · have e : tau T0 p ∘ₗ onMotion F = (2 : ℝ) • (isospin 0 p ∘ₗ onMotion F + isospin 1 p ∘ₗ onMotion F) := by
      rw [tau, if_neg h, LinearMap.smul_comp, LinearMap.add_comp]
    have a1 : ActsAs (isospin 0 p ∘ₗ onMotion F) Nmax fun c' c => f c'.n c'.L (c'.mL / 2) c.n c.L (c.mL / 2) * (idPair c'.m1 c'.m2 c.m1 c.m2 * (jmat 1 (2 * p) c'.t1 c.t1 * δ c'.t2 c.t2)) := by
      refine acts_prod (X := id) (Y := pairAct 0 (jmat 1 (2 * p))) hF (fun u x y => ?_) Nmax fun n l n' l' m m' σ σ' τ τ' a a' b b' => ?_
      · rw [LinearMap.comp_apply, onMotion_ten, onIsospin_ten]
        rfl
      · rw [id, spins_apply, pairAct_first]
        simp only [Int.mul_ediv_cancel_left _ (two_ne_zero : (2 : ℤ) ≠ 0)]
    have a2 : ActsAs (isospin 1 p ∘ₗ onMotion F) Nmax fun c' c => f c'.n c'.L (c'.mL / 2) c.n c.L (c.mL / 2) * (idPair c'.m1 c'.m2 c.m1 c.m2 * (δ c'.t1 c.t1 * jmat 1 (2 * p) c'.t2 c.t2)) := by
      refine acts_prod (X := id) (Y := pairAct 1 (jmat 1 (2 * p))) hF (fun u x y => ?_) Nmax fun n l n' l' m m' σ σ' τ τ' a a' b b' => ?_
      · rw [LinearMap.comp_apply, onMotion_ten, onIsospin_ten]
        rfl
      · rw [id, spins_apply, pairAct_second]
        simp only [Int.mul_ediv_cancel_left _ (two_ne_zero : (2 : ℤ) ≠ 0)]
    rw [e]
    intro r r' m mc m' mc' σ σ' τ τ' a a' b b' h1 h2 h3 h4 h5 h6 h7 h8 h9 h10
    rw [acts_smul 2 (acts_add a1 a2) r r' m mc m' mc' σ σ' τ τ' a a' b b' h1 h2 h3 h4 h5 h6 h7 h8 h9 h10, cfg, cfg, ← hA, isoPair, if_neg h, sumPair]
    simp only [Int.mul_ediv_cancel_left _ (two_ne_zero : (2 : ℤ) ≠ 0)]
    refine if_congr Iff.rfl ?_ rfl
    ring

theorem distance_acts (T0 : ℕ) (q p : ℤ) (Nmax : ℕ) : ActsAs (tau T0 p ∘ₗ onMotion distanceSq) Nmax (Relative.rSqrOp T0 (2 * q) (2 * p)) := by
  refine acts_tau motion_distance T0 p Nmax fun n l n' l' m m' s s' t t' a a' b b' => ?_
  simp only [Relative.rSqrOp, Relative.centralOp, δ]
  by_cases hl : l = l'
  · subst hl
    rw [if_pos rfl]
    by_cases hm : m = m'
    · rw [if_pos ⟨rfl, hm⟩, if_pos (by omega)]
      ring
    · rw [if_neg (by tauto), if_neg (by omega)]
      ring
  · rw [if_neg (by tauto), if_neg hl, zero_mul]

theorem orbital_acts (T0 : ℕ) {q : ℤ} (hq : |q| ≤ 1) (p : ℤ) (Nmax : ℕ) : ActsAs (tau T0 p ∘ₗ onMotion (angular q)) Nmax (Relative.orbitalOp T0 (2 * q) (2 * p)) := by
  refine acts_tau (motion_angular hq) T0 p Nmax fun n l n' l' m m' s s' t t' a a' b b' => ?_
  simp only [Relative.orbitalOp, same]
  by_cases hl : l = l'
  · subst hl
    rw [if_pos rfl]
    by_cases hn : n = n'
    · rw [if_pos ⟨hn, rfl⟩, if_pos hn]
      ring
    · rw [if_neg (by tauto), if_neg hn]
      ring
  · rw [if_neg (by tauto), if_neg hl, zero_mul]

theorem quadrupole_acts (T0 : ℕ) {q : ℤ} (hq : |q| ≤ 2) (p : ℤ) (Nmax : ℕ) :
    ActsAs ((1 / 2 : ℝ) • (tau T0 p ∘ₗ onMotion (harmonic2 q))) Nmax (Relative.quadrupoleOp Relative.harmD T0 (2 * q) (2 * p)) := by
  refine acts_congr (acts_smul (1 / 2) (acts_tau (A := fun c' c => 2 * Relative.quadrupoleOp Relative.harmD T0 (2 * q) (2 * p) c' c)
    (motion_harmonic hq) T0 p Nmax fun n l n' l' m m' s s' t t' a a' b b' => ?_)) rfl fun c' c => ?_
  · simp only [Relative.quadrupoleOp]
    ring
  · ring

/-- Operators on the spins and on the isospins. -/
theorem acts_id {O : Nucl →ₗ[ℝ] Nucl} {X Y : (Fin 2 → Fin 2 → ℝ) → Fin 2 → Fin 2 → ℝ} (hO : ∀ u x y, O (ten u x y) = ten u (X x) (Y y)) (Nmax : ℕ)
    {P Q : ℤ → ℤ → ℤ → ℤ → ℝ} (hX : ∀ a a' σ σ' : Fin 2, X (spins a a') σ σ' = P (proj σ) (proj σ') (proj a) (proj a'))
    (hY : ∀ a a' σ σ' : Fin 2, Y (spins a a') σ σ' = Q (proj σ) (proj σ') (proj a) (proj a')) :
    ActsAs O Nmax fun c' c => if c'.L = c.L then same c'.n c.n * δ c'.mL c.mL * (P c'.m1 c'.m2 c.m1 c.m2 * Q c'.t1 c'.t2 c.t1 c.t2) else 0 := by
  refine acts_prod motion_id (fun u x y => hO u x y) Nmax fun n l n' l' m m' σ σ' τ τ' a a' b b' => ?_
  rw [same_id, hX, hY, ite_mul, zero_mul]

theorem spin_first (q : ℤ) (Nmax : ℕ) : ActsAs (spin 0 q) Nmax fun c' c => if c'.L = c.L then same c'.n c.n * δ c'.mL c.mL *
    (jmat 1 (2 * q) c'.m1 c.m1 * δ c'.m2 c.m2 * idPair c'.t1 c'.t2 c.t1 c.t2) else 0 :=
  acts_id (Y := id) (P := fun a' b' a b => jmat 1 (2 * q) a' a * δ b' b) (fun u x y => onSpin_ten 0 _ u x y) Nmax (pairAct_first _) fun _ _ _ _ => spins_apply ..

theorem spin_second (q : ℤ) (Nmax : ℕ) : ActsAs (spin 1 q) Nmax fun c' c => if c'.L = c.L then same c'.n c.n * δ c'.mL c.mL *
    (δ c'.m1 c.m1 * jmat 1 (2 * q) c'.m2 c.m2 * idPair c'.t1 c'.t2 c.t1 c.t2) else 0 :=
  acts_id (Y := id) (P := fun a' b' a b => δ a' a * jmat 1 (2 * q) b' b) (fun u x y => onSpin_ten 1 _ u x y) Nmax (pairAct_second _) fun _ _ _ _ => spins_apply ..

theorem isospin_first (q : ℤ) (Nmax : ℕ) : ActsAs (isospin 0 q) Nmax fun c' c => if c'.L = c.L then same c'.n c.n * δ c'.mL c.mL *
    (idPair c'.m1 c'.m2 c.m1 c.m2 * (jmat 1 (2 * q) c'.t1 c.t1 * δ c'.t2 c.t2)) else 0 :=
  acts_id (X := id) (Q := fun a' b' a b => jmat 1 (2 * q) a' a * δ b' b) (fun u x y => onIsospin_ten 0 _ u x y) Nmax (fun _ _ _ _ => spins_apply ..) (pairAct_first _)

theorem isospin_second (q : ℤ) (Nmax : ℕ) : ActsAs (isospin 1 q) Nmax fun c' c => if c'.L = c.L then same c'.n c.n * δ c'.mL c.mL *
    (idPair c'.m1 c'.m2 c.m1 c.m2 * (δ c'.t1 c.t1 * jmat 1 (2 * q) c'.t2 c.t2)) else 0 :=
  acts_id (X := id) (Q := fun a' b' a b => δ a' a * jmat 1 (2 * q) b' b) (fun u x y => onIsospin_ten 1 _ u x y) Nmax (fun _ _ _ _ => spins_apply ..) (pairAct_second _)

theorem spin_acts (q p : ℤ) (Nmax : ℕ) : ActsAs (spin 0 q + spin 1 q) Nmax (Relative.spinOp 0 (2 * q) (2 * p)) := by
  refine acts_congr (acts_add (spin_first q Nmax) (spin_second q Nmax)) rfl fun c' c => ?_
  simp only [Relative.spinOp, sumPair, if_true]
  split_ifs
  · ring
  · rw [add_zero]

theorem isospin_acts (q p : ℤ) (Nmax : ℕ) : ActsAs (isospin 0 p + isospin 1 p) Nmax (Relative.isospinOp (2 * q) (2 * p)) := by
  refine acts_congr (acts_add (isospin_first p Nmax) (isospin_second p Nmax)) rfl fun c' c => ?_
  simp only [Relative.isospinOp, sumPair]
  split_ifs
  · ring
  · rw [add_zero]

theorem spinIsospin_acts (q p : ℤ) (Nmax : ℕ) : ActsAs (spinIsospin q p) Nmax (Relative.spinOp 1 (2 * q) (2 * p)) := by
  have a1 := acts_id (O := spin 0 q ∘ₗ isospin 0 p) (X := pairAct 0 (jmat 1 (2 * q))) (Y := pairAct 0 (jmat 1 (2 * p)))
    (P := fun a' b' a b => jmat 1 (2 * q) a' a * δ b' b) (Q := fun a' b' a b => jmat 1 (2 * p) a' a * δ b' b)
    (fun u x y => by rw [LinearMap.comp_apply, onIsospin_ten, onSpin_ten]) Nmax (pairAct_first _) (pairAct_first _)
  have a2 := acts_id (O := spin 1 q ∘ₗ isospin 1 p) (X := pairAct 1 (jmat 1 (2 * q))) (Y := pairAct 1 (jmat 1 (2 * p)))
    (P := fun a' b' a b => δ a' a * jmat 1 (2 * q) b' b) (Q := fun a' b' a b => δ a' a * jmat 1 (2 * p) b' b)
    (fun u x y => by rw [LinearMap.comp_apply, onIsospin_ten, onSpin_ten]) Nmax (pairAct_second _) (pairAct_second _)
  refine acts_congr (acts_smul 2 (acts_add a1 a2)) rfl fun c' c => ?_
  simp only [Relative.spinOp, one_ne_zero, if_false]
  split_ifs
  · ring
  · rw [add_zero, mul_zero]

/-! ## The Casimir operator -/

theorem acts_ten {O O' : Nucl →ₗ[ℝ] Nucl} {Nmax : ℕ} {A : Cfg → Cfg → ℝ} (h : ActsAs O Nmax A) (hO : ∀ u x y, O' (ten u x y) = O (ten u x y)) :
    ActsAs O' Nmax A := by
  intro r r' m mc m' mc' σ σ' τ τ' a a' b b' h1 h2 h3 h4 h5 h6 h7 h8 h9 h10
  rw [← h r r' m mc m' mc' σ σ' τ τ' a a' b b' h1 h2 h3 h4 h5 h6 h7 h8 h9 h10]
  unfold prodState
  rw [hO]

/-- The scalar product of the spins of two nucleons on amplitudes. -/
noncomputable def dotAct (k k' : Fin 2) (x : Fin 2 → Fin 2 → ℝ) : Fin 2 → Fin 2 → ℝ := fun σ σ' =>
  ∑ q ∈ ({1, 0, -1} : Finset ℤ), sg q * pairAct k (jmat 1 (2 * q)) (pairAct k' (jmat 1 (2 * -q)) x) σ σ'

theorem sum_three {V : Type*} [AddCommMonoid V] (f : ℤ → V) : ∑ q ∈ ({1, 0, -1} : Finset ℤ), f q = f 1 + (f 0 + f (-1)) := by
  rw [Finset.sum_insert (by decide), Finset.sum_insert (by decide), Finset.sum_singleton]

/-- The components of a spin one-half. -/
theorem half_up (σ a : Fin 2) : jmat 1 2 (proj σ) (proj a) = if σ = 0 ∧ a = 1 then -(√2)⁻¹ else 0 := by
  have h4 : √4 = (2 : ℝ) := by rw [show (4 : ℝ) = 2 ^ 2 by norm_num, Real.sqrt_sq (by norm_num)]
  fin_cases σ <;> fin_cases a <;> norm_num [jmat, proj, h4, div_eq_mul_inv]

theorem half_down (σ a : Fin 2) : jmat 1 (-2) (proj σ) (proj a) = if σ = 1 ∧ a = 0 then (√2)⁻¹ else 0 := by
  have h4 : √4 = (2 : ℝ) := by rw [show (4 : ℝ) = 2 ^ 2 by norm_num, Real.sqrt_sq (by norm_num)]
  fin_cases σ <;> fin_cases a <;> norm_num [jmat, proj, h4, div_eq_mul_inv]

theorem half_zero (σ a : Fin 2) : jmat 1 0 (proj σ) (proj a) = if σ = a then (if a = 0 then 1 / 2 else -(1 / 2)) else 0 := by
  fin_cases σ <;> fin_cases a <;> norm_num [jmat, proj, div_eq_mul_inv]

theorem half_sq : (√2)⁻¹ * (√2)⁻¹ = (1 / 2 : ℝ) := by
  rw [← mul_inv, Real.mul_self_sqrt (by norm_num)]
  norm_num

theorem dotAct_apply (k k' : Fin 2) (x : Fin 2 → Fin 2 → ℝ) (σ σ' : Fin 2) : dotAct k k' x σ σ' =
    -pairAct k (jmat 1 2) (pairAct k' (jmat 1 (-2)) x) σ σ' + (pairAct k (jmat 1 0) (pairAct k' (jmat 1 0) x) σ σ'
      - pairAct k (jmat 1 (-2)) (pairAct k' (jmat 1 2) x) σ σ') := by
  rw [dotAct, sum_three, neg_zero, neg_neg, mul_zero, mul_neg, mul_one]
  norm_num [sg]
  ring

theorem dotAct_same (k : Fin 2) (x : Fin 2 → Fin 2 → ℝ) : dotAct k k x = fun σ σ' => 3 / 4 * x σ σ' := by
  have q := half_sq
  funext σ σ'
  rw [dotAct_apply]
  fin_cases k <;> fin_cases σ <;> fin_cases σ' <;> simp [pairAct, half_up, half_down, half_zero, Fin.sum_univ_two] <;>
  · first | linear_combination (x 0 0) * q | linear_combination (x 0 1) * q | linear_combination (x 1 0) * q | linear_combination (x 1 1) * q

theorem dotAct_comm (x : Fin 2 → Fin 2 → ℝ) : dotAct 1 0 x = dotAct 0 1 x := by
  funext σ σ'
  rw [dotAct_apply, dotAct_apply]
  fin_cases σ <;> fin_cases σ' <;> simp [pairAct, half_up, half_down, half_zero, add_comm]

theorem dotAct_spins (a a' σ σ' : Fin 2) : dotAct 0 1 (spins a a') σ σ' = dotPair (proj σ) (proj σ') (proj a) (proj a') := by
  have e (K K' : ℤ → ℤ → ℝ) : pairAct 0 K (pairAct 1 K' (spins a a')) σ σ' = K (proj σ) (proj a) * K' (proj σ') (proj a') := by
    rw [pairAct, if_pos rfl]
    simp only [pairAct_second, delta_proj]
    rw [Finset.sum_eq_single_of_mem a (Finset.mem_univ _), if_pos rfl, one_mul]
    intro b _ hb
    rw [if_neg hb, zero_mul, mul_zero]
  rw [dotAct_apply, e, e, e, dotPair]
  ring

theorem dots_spin (k k' : Fin 2) (u : Two) (x y : Fin 2 → Fin 2 → ℝ) :
    (∑ q ∈ ({1, 0, -1} : Finset ℤ), sg q • (spin k q ∘ₗ spin k' (-q))) (ten u x y) = ten u (dotAct k k' x) y := by
  rw [LinearMap.sum_apply]
  simp only [LinearMap.smul_apply, LinearMap.comp_apply, onSpin_ten]
  funext σ σ' τ τ'
  rw [Finset.sum_apply, Finset.sum_apply, Finset.sum_apply, Finset.sum_apply]
  show ∑ q ∈ _, sg q • ((_ * y τ τ') • u) = (dotAct k k' x σ σ' * y τ τ') • u
  rw [dotAct, Finset.sum_mul, Finset.sum_smul]
  refine Finset.sum_congr rfl fun q _ => ?_
  rw [smul_smul, mul_assoc]

theorem dots_isospin (k k' : Fin 2) (u : Two) (x y : Fin 2 → Fin 2 → ℝ) :
    (∑ q ∈ ({1, 0, -1} : Finset ℤ), sg q • (isospin k q ∘ₗ isospin k' (-q))) (ten u x y) = ten u x (dotAct k k' y) := by
  rw [LinearMap.sum_apply]
  simp only [LinearMap.smul_apply, LinearMap.comp_apply, onIsospin_ten]
  funext σ σ' τ τ'
  rw [Finset.sum_apply, Finset.sum_apply, Finset.sum_apply, Finset.sum_apply]
  show ∑ q ∈ _, sg q • ((x σ σ' * _) • u) = (x σ σ' * dotAct k k' y τ τ') • u
  rw [dotAct, Finset.mul_sum, Finset.sum_smul]
  refine Finset.sum_congr rfl fun q _ => ?_
  rw [smul_smul, mul_left_comm]

theorem dots_both (k k' : Fin 2) (u : Two) (x y : Fin 2 → Fin 2 → ℝ) :
    (∑ q ∈ ({1, 0, -1} : Finset ℤ), ∑ p ∈ ({1, 0, -1} : Finset ℤ), (sg q * sg p) • ((spin k q ∘ₗ isospin k p) ∘ₗ (spin k' (-q) ∘ₗ isospin k' (-p)))) (ten u x y) =
      ten u (dotAct k k' x) (dotAct k k' y) := by
  simp only [LinearMap.sum_apply, LinearMap.smul_apply, LinearMap.comp_apply, onIsospin_ten, onSpin_ten]
  funext σ σ' τ τ'
  simp only [Finset.sum_apply]
  show ∑ q ∈ _, ∑ p ∈ _, (sg q * sg p) • ((_ * _) • u) = (dotAct k k' x σ σ' * dotAct k k' y τ τ') • u
  rw [dotAct, dotAct, Finset.sum_mul_sum, Finset.sum_smul]
  refine Finset.sum_congr rfl fun q _ => ?_
  rw [Finset.sum_smul]
  refine Finset.sum_congr rfl fun p _ => ?_
  rw [smul_smul, mul_mul_mul_comm]

/-- The Casimir operator from the scalar products of spins and of isospins. -/
theorem casimir_ten (u : Two) (x y : Fin 2 → Fin 2 → ℝ) : casimirSum (ten u x y) =
    (15 / 2 : ℝ) • ten u x y + (2 : ℝ) • (ten u (dotAct 0 1 x) y + ten u x (dotAct 0 1 y) + (4 : ℝ) • ten u (dotAct 0 1 x) (dotAct 0 1 y)) := by
  have e : casimirSum = (∑ q ∈ ({1, 0, -1} : Finset ℤ), sg q • (spin 0 q ∘ₗ spin 0 (-q)) + ∑ q ∈ ({1, 0, -1} : Finset ℤ), sg q • (spin 0 q ∘ₗ spin 1 (-q)) +
      ∑ q ∈ ({1, 0, -1} : Finset ℤ), sg q • (spin 1 q ∘ₗ spin 0 (-q)) + ∑ q ∈ ({1, 0, -1} : Finset ℤ), sg q • (spin 1 q ∘ₗ spin 1 (-q))) +
      (∑ q ∈ ({1, 0, -1} : Finset ℤ), sg q • (isospin 0 q ∘ₗ isospin 0 (-q)) + ∑ q ∈ ({1, 0, -1} : Finset ℤ), sg q • (isospin 0 q ∘ₗ isospin 1 (-q)) +
      ∑ q ∈ ({1, 0, -1} : Finset ℤ), sg q • (isospin 1 q ∘ₗ isospin 0 (-q)) + ∑ q ∈ ({1, 0, -1} : Finset ℤ), sg q • (isospin 1 q ∘ₗ isospin 1 (-q))) +
      (4 : ℝ) • (∑ k : Fin 2, ∑ k' : Fin 2,
        ∑ q ∈ ({1, 0, -1} : Finset ℤ), ∑ p ∈ ({1, 0, -1} : Finset ℤ), (sg q * sg p) • ((spin k q ∘ₗ isospin k p) ∘ₗ (spin k' (-q) ∘ₗ isospin k' (-p)))) := by
    rw [casimirSum]
    congr 1
    · simp only [← Finset.sum_add_distrib]
      refine Finset.sum_congr rfl fun q _ => ?_
      simp only [LinearMap.add_comp, LinearMap.comp_add, smul_add]
      abel
    · simp only [Fin.sum_univ_two, ← Finset.sum_add_distrib, Finset.smul_sum]
      refine Finset.sum_congr rfl fun q _ => Finset.sum_congr rfl fun p _ => ?_
      simp only [spinIsospin, LinearMap.smul_comp, LinearMap.comp_smul, LinearMap.add_comp, LinearMap.comp_add, ← smul_add]
      rw [smul_smul, smul_smul, smul_smul]
      congr 1
      · ring
      · abel
  rw [e]
  simp only [LinearMap.add_apply, LinearMap.smul_apply, Fin.sum_univ_two, dots_spin, dots_isospin, dots_both, dotAct_same, dotAct_comm]
  funext σ σ' τ τ'
  simp only [Pi.add_apply, Pi.smul_apply, ten, smul_smul, ← add_smul]
  congr 1
  ring

theorem casimir_acts (q p : ℤ) (Nmax : ℕ) : ActsAs casimirSum Nmax (Relative.casimirOp q p) := by
  have a0 := acts_id (O := LinearMap.id) (X := id) (Y := id) (fun u x y => rfl) Nmax (fun _ _ _ _ => spins_apply ..) (fun _ _ _ _ => spins_apply ..)
  have a1 := acts_id (Y := id) (fun u x y => dots_spin 0 1 u x y) Nmax dotAct_spins (fun _ _ _ _ => spins_apply ..)
  have a2 := acts_id (X := id) (fun u x y => dots_isospin 0 1 u x y) Nmax (fun _ _ _ _ => spins_apply ..) dotAct_spins
  have a3 := acts_id (fun u x y => dots_both 0 1 u x y) Nmax dotAct_spins dotAct_spins
  refine acts_ten (acts_congr (acts_add (acts_smul (15 / 2) a0) (acts_smul 2 (acts_add (acts_add a1 a2) (acts_smul 4 a3)))) rfl fun c' c => ?_) fun u x y => ?_
  · simp only [Relative.casimirOp]
    split_ifs
    · ring
    · simp
  · rw [casimir_ten]
    simp only [LinearMap.add_apply, LinearMap.smul_apply, dots_spin, dots_isospin, dots_both, LinearMap.id_apply]

theorem gamowTeller_acts (q p : ℤ) (Nmax : ℕ) : ActsAs ((-(129 / 100) : ℝ) • spinIsospin q p) Nmax (Relative.gamowTellerOp (2 * q) (2 * p)) :=
  acts_congr (acts_smul _ (spinIsospin_acts q p Nmax)) rfl fun c' c => by rw [Relative.gamowTellerOp]

/-- The operators have the elements that are asked for by their names. -/
theorem physical_acts {c : Relative.Gen.Choice} {Lab : OpLabels → Prop} {J0 T0 : ℕ} {O : ℤ → ℤ → Nucl →ₗ[ℝ] Nucl} (h : Physical c Lab J0 T0 O) :
    ∃ A, Relative.Gen.Named Relative.harmD Relative.unitD c Lab J0 T0 A ∧ ∀ (M0 MT0 : ℤ) (Nmax : ℕ), |M0| ≤ J0 → |MT0| ≤ T0 → ActsAs (O M0 MT0) Nmax (A (2 * M0) (2 * MT0)) := by
  cases h with
  | distance T0 => exact ⟨_, .rSqr T0, fun M0 MT0 Nmax _ _ => distance_acts T0 M0 MT0 Nmax⟩
  | rsqr => exact ⟨_, .rsqr, fun M0 MT0 Nmax _ _ => distance_acts 0 M0 MT0 Nmax⟩
  | quadrupole T0 => exact ⟨_, .quadrupole T0, fun M0 MT0 Nmax h _ => quadrupole_acts T0 h MT0 Nmax⟩
  | orbital T0 => exact ⟨_, .orbital T0, fun M0 MT0 Nmax h _ => orbital_acts T0 h MT0 Nmax⟩
  | spin => exact ⟨_, .spin 0, fun M0 MT0 Nmax _ _ => spin_acts M0 MT0 Nmax⟩
  | spinIsovector => exact ⟨_, .spin 1, fun M0 MT0 Nmax _ _ => spinIsospin_acts M0 MT0 Nmax⟩
  | isospin => exact ⟨_, .isospin, fun M0 MT0 Nmax _ _ => isospin_acts M0 MT0 Nmax⟩
  | casimir => exact ⟨_, .casimir, fun M0 MT0 Nmax _ _ => casimir_acts _ _ Nmax⟩
  | gamowTeller => exact ⟨_, .gamowTeller, fun M0 MT0 Nmax _ _ => gamowTeller_acts M0 MT0 Nmax⟩

theorem acts_zero (Nmax : ℕ) {A : Cfg → Cfg → ℝ} (h : ∀ c' c, A c' c = 0) : ActsAs 0 Nmax A := by
  intro r r' m mc m' mc' σ σ' τ τ' a a' b b' _ _ _ _ _ _ _ _ _ _
  rw [LinearMap.zero_apply, ← innerL_apply, map_zero, h, ite_self]

open Verif.H2 (Format Mode Desc Sector Subspace OrbSpace Species BasisLib WriteCall Stored storedFactor InState openIn readHistory Expressible
  formatOfCode deducedIOMode)
open Verif.Relative (RelFile OpLabels Cfg cgD harmD unitD IsTensor IsHermitian)
open Verif.Relative.Gen (Input)
open Verif.Mixer.Control (Numbers)

variable {w : World} {ctl : Input} {p : Params} {f : RelFile}

/-! ## Property -/

/-- **C173.**  If `relative-gen` is asked by name for one of the operators above, with labels that belong to it, and `moshinsky` is given the
file, the number in the H2 file for every stored pair of states is, but for the rounding to single precision and the values below `10⁻¹⁴`
that are dropped, the reduced element `e` of the operator on the positions, momenta, spins and isospins of the two nucleons, between their
normalised antisymmetrised states. -/
theorem physical_moshinsky {lib : Relative.Gen.Lib} {nm : Numbers} {gctl : Input} {o : OpLabels} {N : ℕ} {c : Relative.Gen.Choice} {gfile : String}
    (hl : Relative.Gen.SpaceLaws cgD lib.am harmD unitD N) (hq : Relative.Gen.Request nm gctl o N c gfile) {Lab : OpLabels → Prop} {J0 T0 : ℕ}
    {O : ℤ → ℤ → Nucl →ₗ[ℝ] Nucl} (hn : Physical c Lab J0 T0 O) (ho : Lab o) :
    ∃ gout, Relative.Gen.run nm lib gctl = .ok gout ∧ gout.file = gfile ∧
    ∀ (_ : Wrote gout f) (_ : Coefficients w.env) (_ : w.env.swap = fun _ => roseSwap) (_ : ∀ T0, SwapLaw w.env o.J0 T0) (_ : Asks w.nm ctl p)
      (_ : 0 ≤ p.cutoff) (_ : p.source = .rel) (_ : p.target = .jjjpn) (_ : w.rel? p.input = some f) (_ : Spaces w (truncOf p) (truncOf p).N2max)
      (_ : (truncOf p).N2max ≤ 84) (_ : (truncOf p).N2max ≤ N)
      (_ : ∀ fmt, formatOfCode p.format = .ok fmt → PnBasis (truncOf p) w.lib (targetDesc w p (truncOf p) o fmt))
      {fmt : Format} {mode : Mode} (_ : formatOfCode p.format = .ok fmt) (_ : deducedIOMode p.output = .ok mode)
      (_ : mode ≠ .matrix) {d : Desc} (_ : d = targetDesc w p (truncOf p) o fmt)
      (_ : Expressible w.lib w.hf mode fmt d) (_ : ∀ s ∈ (d.index w.lib).sectors, s.WF)
      (r : BitVec 32 → BitVec 32) (_ : mode = .text → ∀ x, w.hf.fm.scan (w.hf.fm.fmt x) = some (r x)) (_ : mode = .binary → r = id)
      {out : Output} (_ : Program.run w ctl = .ok out),
    ∃ file, out = .h2 p.output file ∧ ∀ k s, (d.index w.lib).sectors[k]? = some s → ∃ start m st,
      openIn w.lib w.hf mode file = .ok (fmt, d, start) ∧
      readHistory ⟨w.hf.fm, fmt, mode, d.index w.lib⟩ file [k] (InState.init start) = .ok ([m], st) ∧
      m.rows = s.bra.size ∧ m.cols = s.ket.size ∧
      ∀ i j x y, s.bra.states[i]? = some x → s.ket.states[j]? = some y → (s.braIndex = s.ketIndex → i ≤ j) → ∃ e : ℝ,
        m.val i j = w.hf.fm.ofF32 (r (w.hf.fm.toF32
          (if |e| < 1e-14 * (H2.pairNorm s.bra.species x * H2.pairNorm s.ket.species y) then 0 else e))) ∧
        ∀ M0 MT0 : ℤ, |M0| ≤ J0 → MT0 = projection s.bra.species - projection s.ket.species →
        ∀ M M', nasElement (if |MT0| ≤ T0 then O M0 MT0 else 0) d.orbs s x y M M' = Osc.cg s.ket.J M' J0 M0 s.bra.J M * e := by
  obtain ⟨A, hA, hact⟩ := physical_acts hn
  obtain ⟨gout, h1, h2, h3⟩ := gen_moshinsky (w := w) (ctl := ctl) (p := p) (f := f) hl hq hA ho
  refine ⟨gout, h1, h2, ?_⟩
  intro hw hcf hsw hlaw ha hc hs ht hf hsp h84 hN hpn fmt mode hfmt hmode hmat d hd hx hwf r hr hb out h
  obtain ⟨file, hout, hall⟩ := h3 hw hcf hsw hlaw ha hc hs ht hf hsp h84 hN hpn hfmt hmode hmat hd hx hwf r hr hb h
  refine ⟨file, hout, fun k s hk => ?_⟩
  obtain ⟨start, m, st, q1, q2, q3, q4, q5⟩ := hall k s hk
  refine ⟨start, m, st, q1, q2, q3, q4, fun i j x y hxi hyj hij => ?_⟩
  obtain ⟨e, he, hO⟩ := q5 i j x y hxi hyj hij
  refine ⟨e, he, fun M0 MT0 hM0 hMT0 M M' => hO M0 _ ?_ M M'⟩
  subst hMT0
  split_ifs with hT
  · exact acts_congr (hact M0 _ _ hM0 hT) rfl fun c' c => by rw [component, if_pos ⟨hM0, hT⟩]
  · exact acts_zero _ fun c' c => by rw [component, if_neg (by tauto)]

end Verif.Moshinsky
