import Verif.Mixer.OneBodyWitness
import Verif.Mixer.TwoBodyWitness
import Verif.Xform.MatProps

/-!
# Property C88: what the built-in names stand for
-/

namespace Verif.Mixer
open Verif Verif.Mapping Verif.Xform Verif.Obme
open Verif.H2 hiding Mat Subspace

/-- State `a` of subspace `i` of a space: quantum numbers `l`, `2j`, species and `n`. -/
def OrbitalAt (s : Space) (i a : ℕ) (lab : Obme.Labels) (n : ℕ) : Prop :=
  ∃ b, s[i]? = some b ∧ b.labels = lab ∧ b.ns[a]? = some n

/-- Reduced radial element of the raising operator between oscillator orbitals: it raises `2n + l` by one. -/
noncomputable def raised (n' l' n l : ℕ) : ℝ :=
  if n' = n ∧ l' = l + 1 then Real.sqrt (2 * n + 2 * l + 3)
  else if n' = n + 1 ∧ l = l' + 1 then -Real.sqrt (2 * n + 2) else 0

theorem cDagger_raised (n' l' n l : ℕ) :
    Verif.Osc.cDagger (2 * (n' : Int) + l') l' (2 * (n : Int) + l) l = .ok (raised n' l' n l) := by
  unfold Verif.Osc.cDagger raised
  by_cases h1 : n' = n ∧ l' = l + 1
  · obtain ⟨rfl, rfl⟩ := h1
    rw [if_pos (by push_cast; ring), if_pos (by push_cast; ring), if_pos ⟨rfl, rfl⟩]
    unfold Verif.Osc.fsqrt
    have e : (((2 * (n' : Int) + (l : Int) : Int) : ℝ) + ((l : Int) : ℝ) + 3) = 2 * n' + 2 * l + 3 := by
      push_cast
      ring
    rw [e, if_neg (not_lt.mpr (by positivity))]
  · rw [if_neg h1]
    by_cases h2 : n' = n + 1 ∧ l = l' + 1
    · obtain ⟨rfl, rfl⟩ := h2
      rw [if_pos (by push_cast; ring), if_neg (by push_cast; omega), if_pos (by push_cast; ring), if_pos ⟨rfl, rfl⟩]
      unfold Verif.Osc.fsqrt
      have e : (((2 * (n : Int) + ((l' + 1 : ℕ) : Int) : Int) : ℝ) - (((l' + 1 : ℕ) : Int) : ℝ) + 2) = 2 * n + 2 := by
        push_cast
        ring
      rw [e, if_neg (not_lt.mpr (by positivity))]
      rfl
    · rw [if_neg h2]
      dsimp only
      split
      · split
        · exact absurd ⟨by omega, by omega⟩ h1
        · split
          · exact absurd ⟨by omega, by omega⟩ h2
          · rfl
      · rfl

/-- Two positions hold the same quantum numbers exactly if they are the same position. -/
theorem same_orbital {s : Space} (g : GoodSpace s) {i k a c n n' : ℕ} {b b' : Obme.Sub} (hb : s[i]? = some b)
    (hb' : s[k]? = some b') (ha : b.ns[a]? = some n) (hc : b'.ns[c]? = some n') :
    (i = k ∧ a = c) ↔ b.labels = b'.labels ∧ n = n' := by
  constructor
  · rintro ⟨rfl, rfl⟩
    rw [hb] at hb'
    cases hb'
    rw [ha] at hc
    cases hc
    exact ⟨rfl, rfl⟩
  · rintro ⟨e, rfl⟩
    obtain rfl := sub_unique g hb hb' e
    rw [hb] at hb'
    cases hb'
    exact ⟨rfl, (List.getElem?_inj (List.getElem?_eq_some_iff.mp ha).1 (g.ns b (mem_of_getElem? hb))).mp
      (ha.trans hc.symm)⟩

section
variable {env : ObEnv} {space : Option Space}

theorem builtin_step {id : String} {gen : Gen} {qn : QN} {mats : List Mat} (hne : id ≠ "identity")
    (hl : builtinTable.lookup id = some (gen, qn))
    (h : generateOb env .oscillator id gen (space.getD env.space)
      (allSectors qn (space.getD env.space) (space.getD env.space)) = .ok mats) :
    builtinOb env id space = .ok ⟨space.getD env.space,
      allSectors qn (space.getD env.space) (space.getD env.space), mats⟩ := by
  unfold builtinOb
  rw [if_neg hne, hl]
  simp only [h, Except.ok_bind', Except.pure_ok]

/-- **C88.** `l2`, `s2`, `j2`: the eigenvalue `l(l+1)`, `s(s+1)`, `j(j+1)` on every orbital. -/
theorem builtin_squared (g : GoodSpace (space.getD env.space)) {id : String} {type : AMType}
    (hid : (id = "l2" ∧ type = .orbital) ∨ (id = "s2" ∧ type = .spin) ∨ (id = "j2" ∧ type = .total)) :
    ∃ d, builtinOb env id space = .ok d ∧ d.space = space.getD env.space ∧ d.secs.qn = ⟨0, 0, 0⟩ ∧
      ∀ i a k c lab n lab' n', OrbitalAt d.space i a lab n → OrbitalAt d.space k c lab' n' →
        d.el i a k c = if lab = lab' ∧ n = n' then eigenvalue type lab.l lab.tj else 0 := by
  obtain ⟨mats, h1, -, h3⟩ := squared_element (type := type) g
    (allSectors_spec scalarQN (space.getD env.space) (space.getD env.space)) rfl
  refine ⟨⟨space.getD env.space, allSectors scalarQN (space.getD env.space) (space.getD env.space), mats⟩, ?_, rfl, rfl,
    ?_⟩
  · rcases hid with ⟨rfl, rfl⟩ | ⟨rfl, rfl⟩ | ⟨rfl, rfl⟩ <;> exact builtin_step (by decide) rfl h1
  · rintro i a k c lab n lab' n' ⟨b, hb, rfl, ha⟩ ⟨b', hb', rfl, hc⟩
    have la := (List.getElem?_eq_some_iff.mp ha).1
    have lc := (List.getElem?_eq_some_iff.mp hc).1
    rw [ObData.el, h3 i a k c b b' hb hb' la lc]
    simp only [same_orbital g hb hb' ha hc]

/-- **C88.** `tz`: `1/2` on protons and `-1/2` on neutrons. -/
theorem builtin_tz (g : GoodSpace (space.getD env.space)) :
    ∃ d, builtinOb env "tz" space = .ok d ∧ d.space = space.getD env.space ∧ d.secs.qn = ⟨0, 0, 0⟩ ∧
      ∀ i a k c lab n lab' n', OrbitalAt d.space i a lab n → OrbitalAt d.space k c lab' n' →
        d.el i a k c = if lab = lab' ∧ n = n' then (if lab.sp = .p then 1 / 2 else -1 / 2) else 0 := by
  obtain ⟨mats, h1, -, h3⟩ := isospin_projection g
    (allSectors_spec scalarQN (space.getD env.space) (space.getD env.space)) rfl
  refine ⟨⟨space.getD env.space, allSectors scalarQN (space.getD env.space) (space.getD env.space), mats⟩,
    builtin_step (by decide) rfl h1, rfl, rfl, ?_⟩
  rintro i a k c lab n lab' n' ⟨b, hb, rfl, ha⟩ ⟨b', hb', rfl, hc⟩
  have la := (List.getElem?_eq_some_iff.mp ha).1
  have lc := (List.getElem?_eq_some_iff.mp hc).1
  rw [ObData.el, h3 i a k c b b' hb hb' la lc]
  simp only [same_orbital g hb hb' ha hc]

theorem getD_of {l : List ℕ} {a n : ℕ} (h : l[a]? = some n) : l.getD a 0 = n := by
  simp [List.getD_eq_getElem?_getD, h]

/-- **C88** (partial: for spaces whose subspaces list `n = 0,1,2,…`, see C67).  `l`, `s`, `j`: the reduced element of
the angular momentum between orbitals of equal `n`. -/
theorem builtin_vector_partial (hc : Complete (space.getD env.space)) {id : String}
    {type : AMType} (hid : (id = "l" ∧ type = .orbital) ∨ (id = "s" ∧ type = .spin) ∨ (id = "j" ∧ type = .total)) :
    ∃ d, builtinOb env id space = .ok d ∧ d.space = space.getD env.space ∧ d.secs.qn = ⟨1, 0, 0⟩ ∧
      ∀ i a k c lab n lab' n', OrbitalAt d.space i a lab n → OrbitalAt d.space k c lab' n' →
        Allowed ⟨1, 0, 0⟩ lab lab' → d.el i a k c = if n = n' then env.rme type lab lab' else 0 := by
  have hs := allSectors_spec ⟨1, 0, 0⟩ (space.getD env.space) (space.getD env.space)
  obtain ⟨mats, h1, -, h3⟩ := angularMomentum_element_partial (rme := env.rme) (type := type) hc hs rfl
  refine ⟨⟨space.getD env.space, allSectors ⟨1, 0, 0⟩ (space.getD env.space) (space.getD env.space), mats⟩, ?_, rfl, rfl,
    ?_⟩
  · rcases hid with ⟨rfl, rfl⟩ | ⟨rfl, rfl⟩ | ⟨rfl, rfl⟩ <;> exact builtin_step (by decide) rfl h1
  · rintro i a k c lab n lab' n' ⟨b, hb, rfl, ha⟩ ⟨b', hb', rfl, hc'⟩ hal
    rw [ObData.el, h3 i a k c b b' ((hs.mem i k).mpr ⟨b, b', hb, hb', hal⟩) hb hb'
      (List.getElem?_eq_some_iff.mp ha).1 (List.getElem?_eq_some_iff.mp hc').1, getD_of ha, getD_of hc']

/-- **C88** (partial: for spaces whose subspaces list `n = 0,1,2,…`, see C67).  `t+` and `t-`: one between the neutron
and the proton orbital of the same quantum numbers, or the reverse. -/
theorem builtin_isospin_ladder_partial (g : GoodSpace (space.getD env.space)) (hc : Complete (space.getD env.space))
    {id : String} {t : Int} (hid : (id = "t+" ∧ t = 1) ∨ (id = "t-" ∧ t = -1)) :
    ∃ d, builtinOb env id space = .ok d ∧ d.space = space.getD env.space ∧ d.secs.qn = ⟨0, 0, t⟩ ∧
      ∀ i a k c lab n lab' n', OrbitalAt d.space i a lab n → OrbitalAt d.space k c lab' n' →
        d.el i a k c = if lab.l = lab'.l ∧ lab.tj = lab'.tj ∧ lab.tz = t ∧ lab'.tz = -t ∧ n = n' then 1 else 0 := by
  have hs := allSectors_spec ⟨0, 0, t⟩ (space.getD env.space) (space.getD env.space)
  have ht : t = 1 ∨ t = -1 := by rcases hid with ⟨-, h⟩ | ⟨-, h⟩ <;> simp [h]
  obtain ⟨mats, h1, -, h3⟩ := isospin_ladder_partial ht g hc hs rfl
  refine ⟨⟨space.getD env.space, allSectors ⟨0, 0, t⟩ (space.getD env.space) (space.getD env.space), mats⟩, ?_, rfl, rfl,
    ?_⟩
  · rcases hid with ⟨rfl, rfl⟩ | ⟨rfl, rfl⟩ <;> exact builtin_step (by decide) rfl h1
  · rintro i a k c lab n lab' n' ⟨b, hb, rfl, ha⟩ ⟨b', hb', rfl, hc'⟩
    rw [ObData.el, h3 i a k c b b' hb hb' (List.getElem?_eq_some_iff.mp ha).1 (List.getElem?_eq_some_iff.mp hc').1,
      getD_of ha, getD_of hc']

/-- **C88.** `c+` raises and `c` lowers the number of quanta: the reduced element of `C_1` times the amplitude. -/
theorem builtin_ladder {id : String} {up : Bool} (hid : (id = "c+" ∧ up = true) ∨ (id = "c" ∧ up = false)) :
    ∃ d, builtinOb env id space = .ok d ∧ d.space = space.getD env.space ∧ d.secs.qn = ⟨1, 1, 0⟩ ∧
      ∀ i a k c lab n lab' n', OrbitalAt d.space i a lab n → OrbitalAt d.space k c lab' n' →
        Allowed ⟨1, 1, 0⟩ lab lab' →
        d.el i a k c = env.crme lab lab' 1 * if up then raised n lab.l n' lab'.l else raised n' lab'.l n lab.l := by
  have hs := allSectors_spec ⟨1, 1, 0⟩ (space.getD env.space) (space.getD env.space)
  obtain ⟨mats, h1, -, h3⟩ := generateE_element (secs := allSectors ⟨1, 1, 0⟩ (space.getD env.space) (space.getD env.space))
    (bra := space.getD env.space) (ket := space.getD env.space)
    (f := fun b n k n' => do
      let me ← if up then Verif.Osc.cDagger (2 * n + b.l) b.l (2 * n' + k.l) k.l
        else Verif.Osc.cLower (2 * n + b.l) b.l (2 * n' + k.l) k.l
      pure (env.crme b k 1 * me))
    (v := fun b n k n' => env.crme b k 1 * if up then raised n b.l n' k.l else raised n' k.l n b.l) hs (by
      intro b _ k _ _ n _ n' _
      cases up <;> simp [cDagger_raised, Verif.Osc.lowering_is_adjoint, Except.ok_bind', Except.pure_ok])
  refine ⟨⟨space.getD env.space, allSectors ⟨1, 1, 0⟩ (space.getD env.space) (space.getD env.space), mats⟩, ?_, rfl, rfl,
    ?_⟩
  · rcases hid with ⟨rfl, rfl⟩ | ⟨rfl, rfl⟩
    · exact builtin_step (by decide) (gen := .ladder true) rfl h1
    · exact builtin_step (by decide) (gen := .ladder false) rfl h1
  · rintro i a k c lab n lab' n' ⟨b, hb, rfl, ha⟩ ⟨b', hb', rfl, hc'⟩ hal
    rw [ObData.el, h3 i k b b' a c ((hs.mem i k).mpr ⟨b, b', hb, hb', hal⟩) hb hb'
      (List.getElem?_eq_some_iff.mp ha).1 (List.getElem?_eq_some_iff.mp hc').1, getD_of ha, getD_of hc']

/-- **C88.** `identity`: one on every orbital, zero between different ones. -/
theorem builtin_identity (g : GoodSpace (space.getD env.space)) :
    ∃ d, builtinOb env "identity" space = .ok d ∧ d.space = space.getD env.space ∧ d.secs.qn = ⟨0, 0, 0⟩ ∧
      ∀ i a k c lab n lab' n', OrbitalAt d.space i a lab n → OrbitalAt d.space k c lab' n' →
        d.el i a k c = if lab = lab' ∧ n = n' then 1 else 0 := by
  have hs := allSectors_spec scalarQN (space.getD env.space) (space.getD env.space)
  obtain ⟨mats, h1, -, h3⟩ := assemble (s := allSectors scalarQN (space.getD env.space) (space.getD env.space))
    (bra := space.getD env.space) (ket := space.getD env.space) (fun p => do
      let b ← getE (space.getD env.space) p.1
      let k ← getE (space.getD env.space) p.2
      pure (if p.1 = p.2 then eye b.ns.length k.ns.length else ⟨b.ns.length, k.ns.length, fun _ _ => 0⟩))
    (fun i a k c => if i = k ∧ a = c then 1 else 0) (by
      intro p hp
      obtain ⟨b, k, hb, hk, _⟩ := sectors_some hs hp
      refine ⟨if p.1 = p.2 then eye b.ns.length k.ns.length else ⟨b.ns.length, k.ns.length, fun _ _ => 0⟩, ?_, ?_, ?_, ?_⟩
      · simp only [getE_ok hb, getE_ok hk, Except.ok_bind', Except.pure_ok]
      · rw [dim_some hb]; split <;> rfl
      · rw [dim_some hk]; split <;> rfl
      · intro a c _ _
        by_cases e : p.1 = p.2
        · simp [e, eye]
        · simp [e])
  refine ⟨⟨space.getD env.space, allSectors scalarQN (space.getD env.space) (space.getD env.space), mats⟩, ?_, rfl, rfl,
    ?_⟩
  · have h1' : identityBlocks (space.getD env.space)
        (allSectors scalarQN (space.getD env.space) (space.getD env.space)) = .ok mats := h1
    unfold builtinOb
    rw [if_pos rfl]
    simp only [h1', Except.ok_bind', Except.pure_ok]
  · rintro i a k c lab n lab' n' ⟨b, hb, rfl, ha⟩ ⟨b', hb', rfl, hc⟩
    have la := (List.getElem?_eq_some_iff.mp ha).1
    have lc := (List.getElem?_eq_some_iff.mp hc).1
    rw [ObData.el]
    by_cases hik : (i, k) ∈ (allSectors scalarQN (space.getD env.space) (space.getD env.space)).pairs
    · rw [h3 i k hik a c (by rw [dim_some hb]; exact la) (by rw [dim_some hb']; exact lc)]
      simp only [same_orbital g hb hb' ha hc]
    · rw [elem_absent hik, if_neg]
      rintro ⟨e, -⟩
      exact hik ((hs.mem i k).mpr ⟨b, b', hb, hb',
        (scalar_allowed g g (mem_of_getElem? hb) (mem_of_getElem? hb') rfl).mpr e⟩)

end

/-- The hypotheses are met by two subspaces, and the two `s1/2` states are told apart. -/
example (env : ObEnv) : ∃ d, builtinOb env "j2" (some sampleSpace) = .ok d ∧ d.el 0 1 0 1 = eigenvalue .total 0 1 ∧
    d.el 0 0 0 1 = 0 := by
  obtain ⟨d, h, hs, -, he⟩ := builtin_squared (env := env) (space := some sampleSpace) sampleSpace_good
    (Or.inr (Or.inr ⟨rfl, rfl⟩))
  have o0 : OrbitalAt d.space 0 0 ⟨0, 1, .p⟩ 0 := by rw [hs]; exact ⟨_, rfl, rfl, rfl⟩
  have o1 : OrbitalAt d.space 0 1 ⟨0, 1, .p⟩ 1 := by rw [hs]; exact ⟨_, rfl, rfl, rfl⟩
  exact ⟨d, h, by rw [he _ _ _ _ _ _ _ _ o1 o1]; simp, by rw [he _ _ _ _ _ _ _ _ o0 o1]; simp⟩

example (env : ObEnv) : ∃ d, builtinOb env "c+" (some sampleSpace) = .ok d ∧
    d.el 0 1 1 0 = env.crme ⟨0, 1, .p⟩ ⟨1, 1, .p⟩ 1 * -Real.sqrt 2 := by
  obtain ⟨d, h, hs, -, he⟩ := builtin_ladder (env := env) (space := some sampleSpace) (Or.inl ⟨rfl, rfl⟩)
  have o0 : OrbitalAt d.space 0 1 ⟨0, 1, .p⟩ 1 := by rw [hs]; exact ⟨_, rfl, rfl, rfl⟩
  have o1 : OrbitalAt d.space 1 0 ⟨1, 1, .p⟩ 0 := by rw [hs]; exact ⟨_, rfl, rfl, rfl⟩
  refine ⟨d, h, ?_⟩
  rw [he _ _ _ _ _ _ _ _ o0 o1 (by decide)]
  simp [raised]

/-! ### The two-body built-in names -/

theorem xformSector_ok {env : Env} (ht : IndexOK env.target) {i : ℕ} {b : Subspace}
    (hb : env.target.space[i]? = some b) :
    ∃ x, xformSector env.target (i, i) = .ok ⟨i, i, x, x⟩ ∧ x.states.length = b.states.length := by
  obtain ⟨x, h1, -, -, h4⟩ := xformSub_ok ht.space (List.mem_of_getElem? hb)
  exact ⟨x, by simp only [xformSector, getE_ok hb, h1, Except.ok_bind', Except.pure_ok], h4.length_eq.symm⟩

/-- **C88.** The two-body source `identity`: `2/(A(A-1))` on the diagonal, so that the sum over the pairs of `A`
nucleons is one. -/
theorem identity_source {env : Env} (ht : IndexOK env.target) {A : ℕ} (hA : env.A = some (A : Int)) (h2 : 2 ≤ A)
    (hmax : A ≤ 46341) {i : ℕ} {b : Subspace} (hb : env.target.space[i]? = some b) :
    ∃ T, source env ⟨"identity", .builtin⟩ (i, i) = .ok (some T) ∧ SectorSize env (i, i) T ∧
      ∀ x y, (A : ℝ) * (A - 1) / 2 * T.val x y = if x = y then 1 else 0 := by
  obtain ⟨x, hx, hl⟩ := xformSector_ok ht hb
  obtain ⟨M, m1, m2, m3, m4, m5⟩ := (Xform.identity_operator (s := ⟨i, i, x, x⟩) h2 hmax).1 rfl
  refine ⟨M, ?_, ⟨b, b, hb, hb, m2.trans hl, m3.trans hl⟩, ?_⟩
  · simp only [source, initChannel, populate, populateBuiltin, hx, massE, hA, m1, if_true, Except.ok_bind',
      Except.pure_ok]
  · intro r c
    by_cases e : r = c
    · subst e
      rw [m5, if_pos rfl]
    · rw [m4 r c e, if_neg e, mul_zero]

/-- **C88.** The two-body source `loop-test`: `-1` on and above the diagonal, zero below; it exists on diagonal
sectors only. -/
theorem loop_test_source {env : Env} (ht : IndexOK env.target) {i : ℕ} {b : Subspace}
    (hb : env.target.space[i]? = some b) :
    ∃ T, source env ⟨"loop-test", .builtin⟩ (i, i) = .ok (some T) ∧ SectorSize env (i, i) T ∧
      ∀ x y, T.val x y = if x ≤ y then -1 else 0 := by
  obtain ⟨x, hx, hl⟩ := xformSector_ok ht hb
  refine ⟨⟨x.states.length, x.states.length, fun i j => if i ≤ j then -1 else 0⟩, ?_, ⟨b, b, hb, hb, hl, hl⟩,
    fun _ _ => rfl⟩
  simp only [source, initChannel, populate, populateBuiltin, hx, Except.ok_bind', Except.pure_ok]
  simp [assertE, Except.ok_bind']

/-- **C88.** Neither is available for an operator that connects different subspaces. -/
theorem builtin_off_diagonal {env : Env} {id : String} (hid : id = "identity" ∨ id = "loop-test") {p : ℕ × ℕ}
    (hp : p.1 ≠ p.2) (r : Option Mat) : source env ⟨id, .builtin⟩ p ≠ .ok r := by
  intro h
  have key : ∀ {s}, xformSector env.target p = .ok s → s.braIndex = p.1 ∧ s.ketIndex = p.2 := by
    intro s hs
    simp only [xformSector, Except.bind_eq_ok, Except.pure_ok, Except.ok.injEq] at hs
    obtain ⟨_, _, _, _, _, _, _, _, rfl⟩ := hs
    exact ⟨rfl, rfl⟩
  rcases hid with rfl | rfl
  · simp only [source, initChannel, populate, populateBuiltin, if_true, Except.bind_eq_ok] at h
    obtain ⟨_, _, s, hs, A, _, m, hm, _⟩ := h
    unfold identityOperatorMatrix at hm
    rw [if_pos (by rw [(key hs).1, (key hs).2]; exact hp)] at hm
    cases hm
  · simp only [source, initChannel, populate, populateBuiltin, Except.bind_eq_ok] at h
    rw [if_neg (by decide), if_pos trivial] at h
    simp only [Except.bind_eq_ok] at h
    obtain ⟨_, _, s, hs, u, hu, _⟩ := h
    rw [assertE_ok, (key hs).1, (key hs).2] at hu
    exact hp (of_decide_eq_true hu)

example : ∃ T, source Ex.env ⟨"identity", .builtin⟩ (0, 0) = .ok (some T) ∧ T.val 1 1 = 1 / 15 := by
  obtain ⟨T, h, -, hv⟩ := identity_source (env := Ex.env) Ex.target_ok (A := 6) rfl (by omega) (by omega)
    Ex.theSector.bra
  refine ⟨T, h, ?_⟩
  have := hv 1 1
  norm_num at this
  linarith

example : ∃ T, source Ex.env ⟨"loop-test", .builtin⟩ (0, 0) = .ok (some T) ∧ T.val 0 1 = -1 := by
  obtain ⟨T, h, -, hv⟩ := loop_test_source (env := Ex.env) Ex.target_ok Ex.theSector.bra
  exact ⟨T, h, by simp [hv]⟩

end Verif.Mixer
