import Verif.Mixer.Meaning

/-!
# Property C175: the built-in operators on the states of one nucleon
-/

namespace Verif.Mixer
open Verif Verif.Mapping Verif.Xform Verif.Obme Verif.Separable Verif.SU2
open Verif.H2 hiding Mat Subspace
open Verif.Relative (red1D red2D jmat)

/-- The reduced element of `C_λ` between orbitals: the value of `am::LJCoupledSphericalHarmonicCRME`. -/
noncomputable def trueCrme (b k : Obme.Labels) (o : Int) : ℝ :=
  red1D (2 * b.l) 1 b.tj (2 * k.l) k.tj (2 * o.toNat) * (√(2 * k.l + 1) / √(2 * b.l + 1) * cgd (2 * k.l) 0 (2 * o.toNat) 0 (2 * b.l) 0)

/-- The reduced elements of `l`, `s` and `j` between orbitals: the values of `am::jjJCoupledAngularMomentumJ1RME`, `J2RME`, `JRME`. -/
noncomputable def trueRme : AMType → Obme.Labels → Obme.Labels → ℝ
  | .orbital, b, k => if b.l = k.l then red1D (2 * b.l) 1 b.tj (2 * k.l) k.tj 2 * √((k.l : ℝ) * (k.l + 1)) else 0
  | .spin, b, k => if b.l = k.l then red2D (2 * b.l) 1 b.tj 1 k.tj 2 * √(3 / 4) else 0
  | .total, b, k => if b.l = k.l ∧ b.tj = k.tj then √((k.tj : ℝ) / 2 * (k.tj / 2 + 1)) else 0

/-- The raising operator of the isospin, from neutron to proton. -/
def raiseIso (y' y : ℤ) : ℝ := if y' = 1 ∧ y = -1 then 1 else 0

/-- The lowering operator of the isospin, from proton to neutron. -/
def lowerIso (y' y : ℤ) : ℝ := if y' = -1 ∧ y = 1 then 1 else 0

/-- The operators the built-in names stand for; components by `q` (doubled). -/
noncomputable def namedOperator (id : String) (q : ℤ) : Nucleon →ₗ[ℝ] Nucleon :=
  if id = "identity" then LinearMap.id
  else if id = "l" then orbital1 q
  else if id = "s" then spin1 q
  else if id = "j" then total1 q
  else if id = "l2" then square orbital1
  else if id = "s2" then square spin1
  else if id = "j2" then square total1
  else if id = "tz" then onIsospin1 (jmat 1 0)
  else if id = "t+" then onIsospin1 raiseIso
  else if id = "t-" then onIsospin1 lowerIso
  else if id = "c+" then onMotion1 (create (q / 2))
  else if id = "c" then onMotion1 (annihilate (q / 2))
  else 0

section
variable {env : ObEnv} {space : Option Space}

theorem raised_eq (n' l' n l : ℕ) : raised n' l' n l =
    if n' = n ∧ l' = l + 1 then √(2 * n + 2 * l + 3) else if n' = n + 1 ∧ l = l' + 1 then -√(2 * n + 2) else 0 := rfl

theorem crme_one (b k : Obme.Labels) : trueCrme b k 1 = red1D (2 * b.l) 1 b.tj (2 * k.l) k.tj 2 * harmonic1 b.l k.l := rfl

theorem labels_eq {x y : SpOrb} : x.labels = y.labels ↔ x.sp = y.sp ∧ x.l = y.l ∧ x.tj = y.tj := by
  simp only [SpOrb.labels, Obme.Labels.mk.injEq]
  tauto

theorem orb_eq {x y : SpOrb} : (x.labels = y.labels ∧ x.n = y.n) ↔ x = y := by
  rcases x with ⟨s, n, l, t⟩
  rcases y with ⟨s', n', l', t'⟩
  simp only [SpOrb.labels, Obme.Labels.mk.injEq, SpOrb.mk.injEq]
  tauto

theorem labels_half {s : Space} (g : GoodSpace s) {i p : ℕ} {x : SpOrb} (h : IsOrb s i p x) : x.tj = 2 * x.l + 1 ∨ x.tj + 1 = 2 * x.l := by
  obtain ⟨b, hb, hl, -⟩ := h
  have := g.half b (List.mem_of_getElem? hb)
  rwa [hl] at this

theorem tz_eq {x y : SpOrb} : x.labels.tz = y.labels.tz ↔ x.sp = y.sp := by
  rcases x with ⟨s, n, l, t⟩
  rcases y with ⟨s', n', l', t'⟩
  cases s <;> cases s' <;> simp [SpOrb.labels, Obme.Labels.tz]

theorem vector_forbidden {x y : SpOrb} (ht : Coupled y.tj (2 * 1) x.tj) (h : ¬ Allowed ⟨1, 1, 0⟩ x.labels y.labels) (hs : x.sp = y.sp) :
    quantum x.n x.l y.n y.l = 0 ∧ quantum y.n y.l x.n x.l = 0 := by
  have hl : ¬ (x.l = y.l + 1 ∨ y.l = x.l + 1) := by
    intro hl
    apply h
    obtain ⟨h1, h2, h3⟩ := ht
    rw [abs_le] at h1
    refine ⟨⟨?_, ?_⟩, ?_, ?_⟩
    · simp only [SpOrb.labels]
      rw [abs_le]
      push_cast at *
      omega
    · simp only [SpOrb.labels]
      push_cast at *
      omega
    · simp only [SpOrb.labels]
      omega
    · simp only
      rw [tz_eq.mpr hs]
      omega
  constructor <;> rw [quantum, if_neg (by omega), if_neg (by omega)]

/-- **C175.** The built-in names `identity`, `l2`, `s2`, `j2`, `tz`, `c+` and `c` mean the identity, the squares of the angular momenta, the projection of the
isospin and the creation and annihilation of a quantum. -/
theorem builtin_means (hcr : env.crme = trueCrme) (g : GoodSpace (space.getD env.space)) (ge : GoodSpace env.space)
    (gs : ∀ s, space = some s → GoodSpace s) {id : String} (hid : id ∈ ["identity", "l2", "s2", "j2", "tz", "c+", "c"]) :
    ∃ d, builtinOb env id space = .ok d ∧ d.space = space.getD env.space ∧ GoodOb d ∧ d.Means form1 nucleon (namedOperator id) := by
  have hp : ∀ d : ObData, d.space = space.getD env.space → ∀ a, InSpace d.space a → a.Physical := fun d h => by
    rw [h]
    exact physical_of_good g
  have scal : ∀ (d : ObData) (O : Nucleon →ₗ[ℝ] Nucleon) (f : SpOrb → ℝ), d.space = space.getD env.space → d.secs.qn = ⟨0, 0, 0⟩ →
      (∀ a, ∀ m ∈ projs a.tj, O (nucleon a m) = f a • nucleon a m) →
      (∀ i a k c (x y : SpOrb), IsOrb d.space i a x → IsOrb d.space k c y → d.el i a k c = if x.labels = y.labels ∧ x.n = y.n then f x else 0) →
      d.Means form1 nucleon fun _ => O := by
    intro d O f h1 h2 h3 h4
    refine Means.of_components (J0 := 0) (by rw [h2]; rfl) (scalar_components (f := f) (hp d h1) fun a _ m hm => h3 a m hm) ?_
    intro i p k r x y hx hy _
    rw [h4 i p k r x y hx hy]
    simp only [orb_eq]
    split_ifs with e
    · rw [e]
    · rfl
  simp only [List.mem_cons, List.not_mem_nil, or_false] at hid
  rcases hid with rfl | rfl | rfl | rfl | rfl | rfl | rfl
  · obtain ⟨d, h1, h2, h3, h4⟩ := builtin_identity (env := env) g
    exact ⟨d, h1, h2, builtinOb_good ge gs h1, scal d LinearMap.id (fun _ => 1) h2 h3 (fun a m _ => by simp)
      fun i a k c x y hx hy => h4 i a k c _ _ _ _ (orbitalAt_of hx) (orbitalAt_of hy)⟩
  · obtain ⟨d, h1, h2, h3, h4⟩ := builtin_squared (env := env) (id := "l2") (type := .orbital) g (by simp)
    exact ⟨d, h1, h2, builtinOb_good ge gs h1, scal d (square orbital1) (fun a => eigenvalue .orbital a.l a.tj) h2 h3 (fun a m _ => square_orbital1 a m)
      fun i a k c x y hx hy => h4 i a k c _ _ _ _ (orbitalAt_of hx) (orbitalAt_of hy)⟩
  · obtain ⟨d, h1, h2, h3, h4⟩ := builtin_squared (env := env) (id := "s2") (type := .spin) g (by simp)
    exact ⟨d, h1, h2, builtinOb_good ge gs h1, scal d (square spin1) (fun a => eigenvalue .spin a.l a.tj) h2 h3 (fun a m _ => by
        rw [square_spin1]
        norm_num [eigenvalue])
      fun i a k c x y hx hy => h4 i a k c _ _ _ _ (orbitalAt_of hx) (orbitalAt_of hy)⟩
  · obtain ⟨d, h1, h2, h3, h4⟩ := builtin_squared (env := env) (id := "j2") (type := .total) g (by simp)
    exact ⟨d, h1, h2, builtinOb_good ge gs h1, scal d (square total1) (fun a => eigenvalue .total a.l a.tj) h2 h3 (fun a m hm => by
        rw [square_total1 a hm, eigenvalue]
        congr 1
        ring)
      fun i a k c x y hx hy => h4 i a k c _ _ _ _ (orbitalAt_of hx) (orbitalAt_of hy)⟩
  · obtain ⟨d, h1, h2, h3, h4⟩ := builtin_tz (env := env) g
    refine ⟨d, h1, h2, builtinOb_good ge gs h1, Means.of_components (J0 := 0) (by rw [h3]; rfl) (isospin_components (hp d h2) (jmat 1 0)) ?_⟩
    intro i p k r x y hx hy _
    rw [h4 i p k r _ _ _ _ (orbitalAt_of hx) (orbitalAt_of hy)]
    simp only [labels_eq]
    by_cases h : x.n = y.n ∧ x.l = y.l ∧ x.tj = y.tj
    · rw [if_pos h, show jmat 1 0 (speciesProj x.sp) (speciesProj y.sp) = _ from Relative.jmat_axis 1 _ _]
      simp only [kindOf_inj]
      by_cases hs : x.sp = y.sp
      · rw [if_pos hs, if_pos ⟨⟨hs, h.2⟩, h.1⟩, ← hs]
        rcases x with ⟨s, n, l, t⟩
        cases s <;> simp [speciesProj, kindOf, Moshinsky.proj, SpOrb.labels]
      · rw [if_neg hs, if_neg (fun e => hs e.1.1)]
    · rw [if_neg h, if_neg (by tauto)]
  · obtain ⟨d, h1, h2, h3, h4⟩ := builtin_ladder (env := env) (space := space) (id := "c+") (up := true) (by simp)
    refine ⟨d, h1, h2, builtinOb_good ge gs h1, Means.of_components (J0 := 1) (by rw [h3]; rfl) create_components ?_⟩
    intro i p k r x y hx hy ht
    by_cases hal : Allowed ⟨1, 1, 0⟩ x.labels y.labels
    · rw [h4 i p k r _ _ _ _ (orbitalAt_of hx) (orbitalAt_of hy) hal, hcr, crme_one, raised_eq, if_pos rfl]
      have hs : x.sp = y.sp := tz_eq.mp (by have := hal.2.2; simp only at this; omega)
      rw [if_pos hs, quantum_harmonic]
      simp only [SpOrb.labels]
      ring
    · rw [el_forbidden (builtinOb_good ge gs h1) hx hy (by rw [h3]; exact hal)]
      split_ifs with hs
      · rw [(vector_forbidden ht hal hs).1, mul_zero]
      · rfl
  · obtain ⟨d, h1, h2, h3, h4⟩ := builtin_ladder (env := env) (space := space) (id := "c") (up := false) (by simp)
    refine ⟨d, h1, h2, builtinOb_good ge gs h1, Means.of_components (J0 := 1) (by rw [h3]; rfl) annihilate_components ?_⟩
    intro i p k r x y hx hy ht
    by_cases hal : Allowed ⟨1, 1, 0⟩ x.labels y.labels
    · rw [h4 i p k r _ _ _ _ (orbitalAt_of hx) (orbitalAt_of hy) hal, hcr, crme_one, if_neg (show ¬ (false = true) by decide), raised_eq]
      have hs : x.sp = y.sp := tz_eq.mp (by have := hal.2.2; simp only at this; omega)
      rw [if_pos hs, quantum_turn]
      simp only [SpOrb.labels]
      ring
    · rw [el_forbidden (builtinOb_good ge gs h1) hx hy (by rw [h3]; exact hal)]
      split_ifs with hs
      · rw [(vector_forbidden ht hal hs).2, mul_zero, mul_zero]
      · rfl

/-- **C175** (partial: for spaces whose subspaces list `n = 0,1,2,…`, see C67).  The built-in names `l`, `s`, `j`, `t+` and `t-` mean the orbital, spin and
total angular momentum and the ladder operators of the isospin. -/
theorem builtin_means_partial (hr : env.rme = trueRme) (g : GoodSpace (space.getD env.space)) (hc : Complete (space.getD env.space)) (ge : GoodSpace env.space)
    (gs : ∀ s, space = some s → GoodSpace s) {id : String} (hid : id ∈ ["l", "s", "j", "t+", "t-"]) :
    ∃ d, builtinOb env id space = .ok d ∧ d.space = space.getD env.space ∧ GoodOb d ∧ d.Means form1 nucleon (namedOperator id) := by
  have hp : ∀ d : ObData, d.space = space.getD env.space → ∀ a, InSpace d.space a → a.Physical := fun d h => by
    rw [h]
    exact physical_of_good g
  have vec : ∀ (id : String) (type : AMType) (U : ℤ → Nucleon →ₗ[ℝ] Nucleon) (f : SpOrb → SpOrb → ℝ),
      ((id = "l" ∧ type = .orbital) ∨ (id = "s" ∧ type = .spin) ∨ (id = "j" ∧ type = .total)) →
      (∀ d : ObData, d.space = space.getD env.space → Components form1 nucleon d.space 1 U f) →
      (∀ x y : SpOrb, f x y = if x.sp = y.sp ∧ x.n = y.n then trueRme type x.labels y.labels else 0) →
      (∀ x y : SpOrb, x.l ≠ y.l → trueRme type x.labels y.labels = 0) →
      ∃ d, builtinOb env id space = .ok d ∧ d.space = space.getD env.space ∧ GoodOb d ∧ d.Means form1 nucleon U := by
    intro id type U f hid hU hf h0
    obtain ⟨d, h1, h2, h3, h4⟩ := builtin_vector_partial (env := env) hc hid
    refine ⟨d, h1, h2, builtinOb_good ge gs h1, Means.of_components (J0 := 1) (by rw [h3]; rfl) (hU d h2) ?_⟩
    intro i p k r x y hx hy ht
    rw [hf]
    by_cases hal : Allowed ⟨1, 0, 0⟩ x.labels y.labels
    · rw [h4 i p k r _ _ _ _ (orbitalAt_of hx) (orbitalAt_of hy) hal, hr]
      have hs : x.sp = y.sp := tz_eq.mp (by have := hal.2.2; simp only at this; omega)
      simp only [hs, true_and]
    · rw [el_forbidden (builtinOb_good ge gs h1) hx hy (by rw [h3]; exact hal)]
      split_ifs with hs
      · apply h0
        intro hl
        apply hal
        obtain ⟨t1, t2, t3⟩ := ht
        rw [abs_le] at t1
        refine ⟨⟨?_, ?_⟩, ?_, ?_⟩
        · simp only [SpOrb.labels]
          rw [abs_le]
          push_cast at *
          omega
        · simp only [SpOrb.labels]
          push_cast at *
          omega
        · simp only [SpOrb.labels]
          omega
        · simp only
          rw [tz_eq.mpr hs.1]
          omega
      · rfl
  have iso : ∀ (id : String) (t : Int) (I : ℤ → ℤ → ℝ), ((id = "t+" ∧ t = 1) ∨ (id = "t-" ∧ t = -1)) →
      (∀ x y : SpOrb, I (speciesProj x.sp) (speciesProj y.sp) = if x.labels.tz = t ∧ y.labels.tz = -t then 1 else 0) →
      ∃ d, builtinOb env id space = .ok d ∧ d.space = space.getD env.space ∧ GoodOb d ∧ d.Means form1 nucleon fun _ => onIsospin1 I := by
    intro id t I hid hI
    obtain ⟨d, h1, h2, h3, h4⟩ := builtin_isospin_ladder_partial (env := env) g hc hid
    refine ⟨d, h1, h2, builtinOb_good ge gs h1, Means.of_components (J0 := 0) (by rw [h3]; rfl) (isospin_components (hp d h2) I) ?_⟩
    intro i p k r x y hx hy ht
    rw [h4 i p k r _ _ _ _ (orbitalAt_of hx) (orbitalAt_of hy)]
    beta_reduce
    rw [hI]
    by_cases h : x.n = y.n ∧ x.l = y.l ∧ x.tj = y.tj
    · rw [if_pos h]
      by_cases ht : x.labels.tz = t ∧ y.labels.tz = -t
      · rw [if_pos ht, if_pos ⟨h.2.1, h.2.2, ht.1, ht.2, h.1⟩]
      · rw [if_neg ht, if_neg fun e => ht ⟨e.2.2.1, e.2.2.2.1⟩]
    · rw [if_neg h, if_neg fun e => h ⟨e.2.2.2.2, e.1, e.2.1⟩]
  simp only [List.mem_cons, List.not_mem_nil, or_false] at hid
  rcases hid with rfl | rfl | rfl | rfl | rfl
  · refine vec "l" .orbital orbital1 _ (by simp) (fun d _ => orbital_components) (fun x y => ?_) fun x y h => if_neg h
    by_cases h1 : x.sp = y.sp ∧ x.n = y.n
    · rw [if_pos h1]
      by_cases h2 : x.l = y.l
      · exact (if_pos ⟨h1.1, h1.2, h2⟩).trans (if_pos h2).symm
      · exact (if_neg fun e => h2 e.2.2).trans (if_neg h2).symm
    · rw [if_neg h1]
      exact if_neg fun e => h1 ⟨e.1, e.2.1⟩
  · refine vec "s" .spin spin1 _ (by simp) (fun d _ => spin_vector_components) (fun x y => ?_) fun x y h => if_neg h
    by_cases h1 : x.sp = y.sp ∧ x.n = y.n
    · rw [if_pos h1]
      by_cases h2 : x.l = y.l
      · exact (if_pos ⟨h1.1, h1.2, h2⟩).trans (if_pos h2).symm
      · exact (if_neg fun e => h2 e.2.2).trans (if_neg h2).symm
    · rw [if_neg h1]
      exact if_neg fun e => h1 ⟨e.1, e.2.1⟩
  · refine vec "j" .total total1 _ (by simp) (fun d h => total_components (hp d h)) (fun x y => ?_) fun x y h => if_neg fun e => h e.1
    rcases x with ⟨s, n, l, t⟩
    rcases y with ⟨s', n', l', t'⟩
    by_cases h1 : s = s' ∧ n = n'
    · rw [if_pos h1]
      by_cases h2 : l = l' ∧ t = t'
      · exact (if_pos (by rw [h1.1, h1.2, h2.1, h2.2])).trans (if_pos h2).symm
      · refine (if_neg fun e => h2 ?_).trans (if_neg h2).symm
        injection e with e1 e2 e3 e4
        exact ⟨e3, e4⟩
    · rw [if_neg h1]
      refine if_neg fun e => h1 ?_
      injection e with e1 e2 e3 e4
      exact ⟨e1, e2⟩
  · refine iso "t+" 1 raiseIso (by simp) fun x y => ?_
    rcases x with ⟨s, n, l, t⟩
    rcases y with ⟨s', n', l', t'⟩
    cases s <;> cases s' <;> simp [raiseIso, speciesProj, kindOf, Moshinsky.proj, SpOrb.labels, Obme.Labels.tz]
  · refine iso "t-" (-1) lowerIso (by simp) fun x y => ?_
    rcases x with ⟨s, n, l, t⟩
    rcases y with ⟨s', n', l', t'⟩
    cases s <;> cases s' <;> simp [lowerIso, speciesProj, kindOf, Moshinsky.proj, SpOrb.labels, Obme.Labels.tz]

end

end Verif.Mixer
