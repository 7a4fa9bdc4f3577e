import Verif.Mixer.NucleonBuiltin

/-!
# Property C175: the kinematic operators of `obmixer` on the states of one nucleon
-/

namespace Verif.Mixer
open Verif Verif.Mapping Verif.Xform Verif.Obme Verif.Separable Verif.SU2
open Verif.H2 hiding Mat Subspace
open Verif.Relative (red1D)
open Verif.Moshinsky.Osc (One one nodeR)

/-- The operators the kinematic names of `obmixer` stand for, with oscillator functions of length `len`; components by `q` (doubled).  The position and
gradient carry the ratio of the square root of two to the decimal literal of the program. -/
noncomputable def kinematicOperator (len : ℝ) (id : String) (q : ℤ) : Nucleon →ₗ[ℝ] Nucleon :=
  if id = "r" then (√2 / Verif.Osc.kSqrt2) • len • onMotion1 (position1 (q / 2))
  else if id = "ik" then (√2 / Verif.Osc.kSqrt2) • len⁻¹ • onMotion1 (gradient1 (q / 2))
  else if id = "r.r" then square fun q => len • onMotion1 (position1 (q / 2))
  else if id = "ik.ik" then square fun q => len⁻¹ • onMotion1 (gradient1 (q / 2))
  else 0

theorem square_motion (c : ℝ) (F : ℤ → One →ₗ[ℝ] One) : (square fun q => c • onMotion1 (F q)) = onMotion1 (c ^ 2 • square F) := by
  refine LinearMap.ext fun u => ?_
  funext σ τ
  rw [onMotion1_apply]
  simp only [square, LinearMap.sub_apply, LinearMap.comp_apply, LinearMap.smul_apply, Pi.sub_apply, Pi.smul_apply, onMotion1_apply, map_smul, smul_smul, smul_sub,
    ← pow_two]

theorem smul_motion (c : ℝ) (F : One →ₗ[ℝ] One) : c • onMotion1 F = onMotion1 (c • F) := by
  refine LinearMap.ext fun u => ?_
  funext σ τ
  rw [onMotion1_apply, LinearMap.smul_apply, Pi.smul_apply, Pi.smul_apply, onMotion1_apply, LinearMap.smul_apply]

theorem components_smul {V : Type} [AddCommGroup V] [Module ℝ V] {form : V →ₗ[ℝ] V →ₗ[ℝ] ℝ} {st : SpOrb → ℤ → V} {space : Space} {J0 : ℕ} {U : ℤ → V →ₗ[ℝ] V}
    {u : SpOrb → SpOrb → ℝ} (h : Components form st space J0 U u) (c : ℝ) : Components form st space J0 (fun q => c • U q) fun x y => c * u x y := by
  intro x y hx hy m' hm' q hq m hm
  rw [LinearMap.smul_apply, map_smul, h x y hx hy m' hm' q hq m hm, smul_eq_mul]
  ring

/-- The radial element of `r` (`s = 1`) and `ik` (`s = -1`). -/
theorem coordinate_raised {n' l' n l : ℕ} (s : Int) (hl : l' = l + 1 ∨ l = l' + 1) :
    Verif.Osc.coordinate (2 * (n' : Int) + l') l' (2 * (n : Int) + l) l s = .ok ((s * raised n' l' n l + raised n l n' l') / Verif.Osc.kSqrt2) := by
  unfold Verif.Osc.coordinate
  rw [Verif.Osc.lowering_is_adjoint, cDagger_raised, cDagger_raised]
  simp only [assertE, show decide (((l' : Int) - l = -1) ∨ (l' : Int) - l = 1) = true by simp; omega]
  rfl

/-- The radial element of `r.r` (`s = 1`) and `ik.ik` (`s = -1`) between states of the same `l`. -/
theorem coordinateSqr_nodes (s : Int) (n' n l : ℕ) :
    Verif.Osc.coordinateSqr (2 * (n' : Int) + l) l (2 * (n : Int) + l) l s =
      .ok (nodes (fun n l => s * (((2 * n + l : ℕ) : ℝ) + 3 / 2)) (fun n l => nodeR n l / 2) n' n l) := by
  rw [Verif.Osc.sqr_value ⟨by omega, by omega, by omega⟩ ⟨by omega, by omega, by omega⟩, Verif.Osc.sqrR, nodes]
  have hn : ∀ k : ℕ, √(((2 * (k : Int) + (l : Int) : Int) : ℝ) + ((l : ℤ) : ℝ) + 3) * √(((2 * (k : Int) + (l : Int) : Int) : ℝ) - ((l : ℤ) : ℝ) + 2) = nodeR k l := fun k => by
    rw [nodeR, ← Real.sqrt_mul (by push_cast; positivity)]
    push_cast
    congr 1
    ring
  congr 1
  by_cases a1 : n' = n
  · subst a1
    rw [if_neg (by omega), if_pos (by omega), if_neg (by omega), if_pos (by omega), if_pos rfl]
    push_cast
    ring
  · rw [if_neg a1]
    by_cases a2 : n' = n + 1
    · subst a2
      rw [if_pos (by push_cast; omega), if_neg (by omega), if_pos (by omega), if_pos rfl, hn]
      ring
    · rw [if_neg a2, if_neg (by omega), if_neg (by omega)]
      by_cases a3 : n = n' + 1
      · subst a3
        rw [if_pos (by push_cast; omega), if_neg (by omega), if_pos (by omega), if_pos rfl, ← hn,
          show ((2 * ((n' + 1 : ℕ) : Int) + (l : Int) : Int) : ℝ) - ((l : ℤ) : ℝ) = ((2 * (n' : Int) + (l : Int) : Int) : ℝ) - ((l : ℤ) : ℝ) + 2 by push_cast; ring,
          show ((2 * ((n' + 1 : ℕ) : Int) + (l : Int) : Int) : ℝ) + ((l : ℤ) : ℝ) + 1 = ((2 * (n' : Int) + (l : Int) : Int) : ℝ) + ((l : ℤ) : ℝ) + 3 by push_cast; ring]
        ring
      · rw [if_neg a3, if_neg (by omega)]

section
variable {env : ObEnv} {space : Option Space}

theorem crme_zero {x : SpOrb} (h : x.Physical) : trueCrme x.labels x.labels 0 = 1 := by
  have h2 : (0 : ℤ) ∈ projs (2 * x.l) := by
    rw [mem_projs]
    omega
  rw [trueCrme]
  simp only [SpOrb.labels, Int.toNat_zero, mul_zero]
  rw [red1D_zero h, cgd_scalar h2, div_self (by positivity), mul_one, one_mul]

/-- A radial operator of `obmixer` in the oscillator basis, from the values of its radial elements. -/
theorem generated_radial (hb : env.basis = .oscillator) (g : GoodSpace (space.getD env.space)) {id : String} (hid : id ∈ kinematicNames) (hne : id ≠ "identity")
    {ot : RadType} {order : Int} {qn : QN} {v : Obme.Labels → ℕ → Obme.Labels → ℕ → ℝ}
    (hv : ∀ b ∈ space.getD env.space, ∀ k ∈ space.getD env.space, Allowed qn b.labels k.labels → ∀ n n',
      radialElement env.spl .oscillator ot order qn n b.labels.l n' k.labels.l = .ok (v b.labels n k.labels n')) :
    ∃ d, generatedOb env id (.radial ot order) qn space = .ok d ∧ d.space = space.getD env.space ∧ d.secs.qn = qn ∧
      ∀ i p k r x y, IsOrb d.space i p x → IsOrb d.space k r y → Allowed qn x.labels y.labels →
        d.el i p k r = (if ot = .r then env.length ^ order else env.length ^ (-order)) * (env.crme x.labels y.labels qn.J0 * v x.labels x.n y.labels y.n) := by
  have hs := allSectors_spec qn (space.getD env.space) (space.getD env.space)
  obtain ⟨rad, hr, hf, he⟩ := generateE_element (secs := allSectors qn (space.getD env.space) (space.getD env.space)) hs
    (f := fun b n k n' => radialElement env.spl .oscillator ot order qn n b.l n' k.l) (v := v) (fun b mb k mk hal n _ n' _ => hv b mb k mk hal n n')
  obtain ⟨mats, h1, h2⟩ := solidHarmonicSource_element (spl := env.spl) (crme := env.crme) (inv4pi := env.inv4pi) (bt := .oscillator) (ot := ot) (order := order)
    (kin := true) (len := env.length) hs hr hf
  refine ⟨⟨space.getD env.space, allSectors qn (space.getD env.space) (space.getD env.space), mats⟩, ?_, rfl, rfl, ?_⟩
  · unfold generatedOb
    simp only [if_neg hne, generateOb, hb, decide_eq_true hid, h1]
    rfl
  · rintro i p k r x y ⟨b, hb, hl, hn⟩ ⟨b', hb', hl', hn'⟩ hal
    have hm : (i, k) ∈ (allSectors qn (space.getD env.space) (space.getD env.space)).pairs := (hs.mem i k).mpr ⟨b, b', hb, hb', by rw [hl, hl']; exact hal⟩
    have hp := List.getElem?_eq_some_iff.mp hn
    have hr := List.getElem?_eq_some_iff.mp hn'
    have e := h2 i k b b' p r hb hb'
    rw [he i k b b' p r hm hb hb' hp.1 hr.1, hl, hl', List.getD_eq_getElem?_getD, hn, List.getD_eq_getElem?_getD, hn'] at e
    simp only [if_true, mul_one, Option.getD_some] at e
    exact e

theorem generated_vector (hb : env.basis = .oscillator) (hcr : env.crme = trueCrme) (g : GoodSpace (space.getD env.space)) (ge : GoodSpace env.space)
    (gs : ∀ s, space = some s → GoodSpace s) :
    ∀ (id : String) (ot : RadType) (s : Int) (c : ℝ) (G : ℤ → One →ₗ[ℝ] One), id ∈ kinematicNames → id ≠ "identity" →
    (if ot = .k then (-1 : Int) else 1) = s → (if ot = .r then env.length ^ (1 : Int) else env.length ^ (-1 : Int)) = c →
    (∀ sp : Space, Components form1 nucleon sp 1 (fun q => onMotion1 (G q)) fun c a =>
      if c.sp = a.sp then red1D (2 * c.l) 1 c.tj (2 * a.l) a.tj 2 * (1 / √2 * (s * quantum c.n c.l a.n a.l +
        -(√(2 * a.l + 1) / √(2 * c.l + 1)) * quantum a.n a.l c.n c.l)) else 0) →
    ∃ d, generatedOb env id (.radial ot 1) ⟨1, 1, 0⟩ space = .ok d ∧ d.space = space.getD env.space ∧ GoodOb d ∧
      d.Means form1 nucleon fun q => (√2 / Verif.Osc.kSqrt2) • c • onMotion1 (G q) := by
  intro id ot s c G hid hne hos hc hG
  obtain ⟨d, h1, h2, h3, h4⟩ := generated_radial hb g hid hne (ot := ot) (order := 1) (qn := ⟨1, 1, 0⟩)
    (v := fun b n k n' => (s * raised n b.l n' k.l + raised n' k.l n b.l) / Verif.Osc.kSqrt2) (fun b mb k mk hal n n' => by
      rw [← coordinate_raised s (vector_selection g mb mk rfl rfl hal), ← hos]
      rfl)
  have hgd := generatedOb_good ge (by trivial) gs h1
  refine ⟨d, h1, h2, hgd, Means.of_components (J0 := 1) (by rw [h3]; rfl) (components_smul (components_smul (hG d.space) c) (√2 / Verif.Osc.kSqrt2)) ?_⟩
  intro i p k r x y hx hy ht
  beta_reduce
  by_cases hal : Allowed ⟨1, 1, 0⟩ x.labels y.labels
  · rw [h4 i p k r x y hx hy hal, hcr, crme_one, hc]
    have hs : x.sp = y.sp := tz_eq.mp (by have := hal.2.2; simp only at this; omega)
    rw [if_pos hs, quantum_turn, quantum_harmonic, raised_eq, raised_eq]
    simp only [SpOrb.labels]
    have : √2 ≠ 0 := by positivity
    field_simp
  · rw [el_forbidden hgd hx hy (by rw [h3]; exact hal)]
    split_ifs with hs
    · rw [(vector_forbidden ht hal hs).1, (vector_forbidden ht hal hs).2]
      ring
    · ring

theorem generated_square (hb : env.basis = .oscillator) (hcr : env.crme = trueCrme) (g : GoodSpace (space.getD env.space)) (ge : GoodSpace env.space)
    (gs : ∀ s, space = some s → GoodSpace s) :
    ∀ (id : String) (ot : RadType) (s : Int) (c : ℝ) (G : ℤ → One →ₗ[ℝ] One), id ∈ kinematicNames → id ≠ "identity" →
    (if ot = .k then (-1 : Int) else 1) = s → (if ot = .r then env.length ^ (2 : Int) else env.length ^ (-2 : Int)) = c ^ 2 →
    (∀ n l m, square G (one n l m) = ((s : ℝ) * (((2 * n + l : ℕ) : ℝ) + 3 / 2)) • one n l m - (nodeR n l / 2) • one (n + 1) l m -
      if n = 0 then 0 else (nodeR (n - 1) l / 2) • one (n - 1) l m) →
    ∃ d, generatedOb env id (.radial ot 2) ⟨0, 0, 0⟩ space = .ok d ∧ d.space = space.getD env.space ∧ GoodOb d ∧
      d.Means form1 nucleon fun _ => square fun q => c • onMotion1 (G q) := by
  have hp : ∀ d : ObData, d.space = space.getD env.space → ∀ a, InSpace d.space a → a.Physical := fun d h => by
    rw [h]
    exact physical_of_good g
  intro id ot s c G hid hne hos hc hG
  have hsame : ∀ {b k : Obme.Labels}, (b.tj = 2 * b.l + 1 ∨ b.tj + 1 = 2 * b.l) → (k.tj = 2 * k.l + 1 ∨ k.tj + 1 = 2 * k.l) → Allowed ⟨0, 0, 0⟩ b k → b.l = k.l := by
    intro b k h1 h2 hal
    obtain ⟨⟨h3, h4⟩, h5, -⟩ := hal
    rw [abs_le] at h3
    simp only at h3 h4 h5
    omega
  obtain ⟨d, h1, h2, h3, h4⟩ := generated_radial hb g hid hne (ot := ot) (order := 2) (qn := ⟨0, 0, 0⟩)
    (v := fun b n k n' => nodes (fun n l => s * (((2 * n + l : ℕ) : ℝ) + 3 / 2)) (fun n l => nodeR n l / 2) n n' k.l) (fun b mb k mk hal n n' => by
      rw [← coordinateSqr_nodes, ← hos, ← hsame (g.half b mb) (g.half k mk) hal]
      rfl)
  have hgd := generatedOb_good ge (by trivial) gs h1
  have hcomp : Components form1 nucleon d.space 0 (fun _ => square fun q => c • onMotion1 (G q)) fun x y =>
      c ^ 2 * if x.labels = y.labels then nodes (fun n l => s * (((2 * n + l : ℕ) : ℝ) + 3 / 2)) (fun n l => nodeR n l / 2) x.n y.n y.l else 0 := by
    rw [square_motion, ← smul_motion]
    exact components_smul (nodes_components (α := fun n l => s * (((2 * n + l : ℕ) : ℝ) + 3 / 2)) (β := fun n l => nodeR n l / 2) (hp d h2) hG) (c ^ 2)
  refine ⟨d, h1, h2, hgd, Means.of_components (J0 := 0) (by rw [h3]; rfl) hcomp ?_⟩
  intro i p k r x y hx hy ht
  beta_reduce
  have h5 := labels_half (h2 ▸ g) hx
  have h6 := labels_half (h2 ▸ g) hy
  by_cases hal : Allowed ⟨0, 0, 0⟩ x.labels y.labels
  · have hs : x.sp = y.sp := tz_eq.mp (by have := hal.2.2; simp only at this; omega)
    have hl : x.l = y.l := hsame h5 h6 hal
    have htj : x.tj = y.tj := by
      obtain ⟨⟨t1, t2⟩, -, -⟩ := hal
      rw [abs_le] at t1
      simp only [SpOrb.labels] at t1 t2
      omega
    have hlab : x.labels = y.labels := labels_eq.mpr ⟨hs, hl, htj⟩
    rw [h4 i p k r x y hx hy hal, hcr, hc, hlab, if_pos rfl]
    simp only
    rw [crme_zero (hp d h2 y ⟨k, r, hy⟩), one_mul]
    rfl
  · rw [el_forbidden hgd hx hy (by rw [h3]; exact hal), if_neg, mul_zero]
    intro e
    apply hal
    rw [e]
    refine ⟨⟨?_, ?_⟩, ?_, ?_⟩ <;> first | (simp; done) | (simp only; omega)

/-- **C175.** The kinematic names `r`, `ik`, `r.r` and `ik.ik` of `obmixer` mean the position, the gradient and their squares, for oscillator functions. -/
theorem generated_means (hb : env.basis = .oscillator) (hcr : env.crme = trueCrme) (g : GoodSpace (space.getD env.space)) (ge : GoodSpace env.space)
    (gs : ∀ s, space = some s → GoodSpace s) {id : String} {gen : Gen} {qn : QN} (hid : id ∈ ["r", "ik", "r.r", "ik.ik"])
    (hg : generatedTable.lookup id = some (gen, qn)) :
    ∃ d, generatedOb env id gen qn space = .ok d ∧ d.space = space.getD env.space ∧ GoodOb d ∧ d.Means form1 nucleon (kinematicOperator env.length id) := by
  simp only [List.mem_cons, List.not_mem_nil, or_false] at hid
  rcases hid with rfl | rfl | rfl | rfl
  · have e : generatedTable.lookup "r" = some (.radial .r 1, ⟨1, 1, 0⟩) := rfl
    rw [e] at hg
    cases hg
    exact generated_vector hb hcr g ge gs "r" .r 1 env.length (fun q => position1 (q / 2)) (by decide) (by decide) rfl (by simp) fun sp => by
      simpa only [Int.cast_one, one_mul] using position_components
  · have e : generatedTable.lookup "ik" = some (.radial .k 1, ⟨1, 1, 0⟩) := rfl
    rw [e] at hg
    cases hg
    exact generated_vector hb hcr g ge gs "ik" .k (-1) env.length⁻¹ (fun q => gradient1 (q / 2)) (by decide) (by decide) rfl (by simp) fun sp => by
      simpa only [Int.cast_neg, Int.cast_one, neg_one_mul] using gradient_components
  · have e : generatedTable.lookup "r.r" = some (.radial .r 2, ⟨0, 0, 0⟩) := rfl
    rw [e] at hg
    cases hg
    exact generated_square hb hcr g ge gs "r.r" .r 1 env.length (fun q => position1 (q / 2)) (by decide) (by decide) rfl (by simp) fun n l m => by
      rw [square_position, Int.cast_one, one_mul]
  · have e : generatedTable.lookup "ik.ik" = some (.radial .k 2, ⟨0, 0, 0⟩) := rfl
    rw [e] at hg
    cases hg
    exact generated_square hb hcr g ge gs "ik.ik" .k (-1) env.length⁻¹ (fun q => gradient1 (q / 2)) (by decide) (by decide) rfl (by simp) fun n l m => by
      rw [square_gradient, Int.cast_neg, Int.cast_one, neg_one_mul]

/-- **C175.** The other names of `obmixer` give the operators of `h2mixer`. -/
theorem generated_builtin (hb : env.basis = .oscillator) {id : String} {gen : Gen} {qn : QN} (hid : builtinTable.lookup id = some (gen, qn)) :
    generatedOb env id gen qn space = builtinOb env id space := by
  have hne : id ≠ "identity" := by
    rintro rfl
    have : builtinTable.lookup "identity" = none := rfl
    rw [this] at hid
    cases hid
  unfold generatedOb builtinOb
  simp only [if_neg hne, hid, hb]

theorem generated_identity {gen : Gen} : generatedOb env "identity" gen scalarQN space = builtinOb env "identity" space := by
  unfold generatedOb builtinOb
  simp only [if_true]
end

/-! ## The sources of `h2mixer` made from them -/

/-- **C175.** The `U` source of a one-body operator meaning `U` holds the elements of `Σ_i U_i / (A - 1)` between two nucleons. -/
theorem upgrade_source_means {env : Env} {id ob : String} {d : ObData} {U : ℤ → Nucleon →ₗ[ℝ] Nucleon} (ham : env.am = amS) (ht : IndexOK env.target)
    (hd : env.ob ob = some d) (g : GoodOb d) (hm : d.Means form1 nucleon U)
    (hq : d.secs.qn = env.qn) (hav : Available env.target.orbitals d.space) {A : Int} (hA : env.A = some A)
    (hA31 : -(2 ^ 31) ≤ A - 1 ∧ A - 1 < 2 ^ 31) (hA1 : A ≠ 1) {J0 : ℕ} (hJ0 : env.qn.J0 = J0) {p : ℕ × ℕ} {b k : Subspace}
    (hb : env.target.space[p.1]? = some b) (hk : env.target.space[p.2]? = some k)
    (htri : |(b.labels.J : Int) - k.labels.J| ≤ J0 ∧ (J0 : ℤ) ≤ b.labels.J + k.labels.J) :
    ∃ T, source env ⟨id, .opU ob⟩ p = .ok (some T) ∧ SectorSize env p T ∧
      ∀ (i j : ℕ) sti stj a1 a2 c1 c2, b.states[i]? = some sti → k.states[j]? = some stj →
        IsPair env.target.orbitals b.labels.species sti a1 a2 →
        IsPair env.target.orbitals k.labels.species stj c1 c2 →
        ∀ M' ∈ projs (2 * b.labels.J), ∀ q ∈ projs (2 * J0), ∀ M ∈ projs (2 * k.labels.J),
          elem2 form1 (onBoth (U q))
            (nas (pairState nucleon M') b.labels.J (spOrb b.labels.species.first a1, spOrb b.labels.species.second a2))
            (nas (pairState nucleon M) k.labels.J (spOrb k.labels.species.first c1, spOrb k.labels.species.second c2)) =
          cgd (2 * k.labels.J) M (2 * J0) q (2 * b.labels.J) M' * (((A : ℝ) - 1) * T.val i j) := by
  obtain ⟨u, ho, hu⟩ := operator_of_good g
  obtain ⟨T, h1, h2, h3⟩ := upgrade_source_nucleons (id := id) ham ht hd g.space ho hq hav hA hA31 hA1 hJ0 hb hk htri
  exact ⟨T, h1, h2, h3 Nucleon form1 nucleon U (nucleon_orthonormal (physical_of_good g.space)) (hm.components hu (hq ▸ hJ0))⟩

/-- **C175.** The `V` source of one-body operators meaning `X` and `Y` holds the elements of `X` on the first and `Y` on the second
nucleon, coupled to the rank of the target. -/
theorem product_source_means {env : Env} {id oa ob : String} {factor : ℝ} {da db : ObData} {X Y : ℤ → Nucleon →ₗ[ℝ] Nucleon}
    (ham : env.am = amS) (ht : IndexOK env.target)
    (ha : env.ob oa = some da) (hb' : env.ob ob = some db) (hsp : da.space = db.space) (ga : GoodOb da) (gb : GoodOb db)
    (hX : da.Means form1 nucleon X) (hY : db.Means form1 nucleon Y)
    (hav : Available env.target.orbitals da.space) {J1 J2 J0 : ℕ} (q1 : da.secs.qn.J0 = J1)
    (q2 : db.secs.qn.J0 = J2) (q0 : env.qn.J0 = J0) (hq : |(J1 : Int) - J2| ≤ J0 ∧ (J0 : Int) ≤ J1 + J2)
    (hpar : (2 : Int) ∣ da.secs.qn.g0 + db.secs.qn.g0 + env.qn.g0)
    (htz : da.secs.qn.Tz0 + db.secs.qn.Tz0 = env.qn.Tz0) {p : ℕ × ℕ} {b k : Subspace}
    (hb : env.target.space[p.1]? = some b) (hk : env.target.space[p.2]? = some k)
    (htri : |(b.labels.J : Int) - k.labels.J| ≤ J0 ∧ (J0 : Int) ≤ b.labels.J + k.labels.J) :
    ∃ T, source env ⟨id, .opV oa ob factor⟩ p = .ok (some T) ∧ SectorSize env p T ∧
      ∀ (i j : ℕ) sti stj a1 a2 c1 c2, b.states[i]? = some sti → k.states[j]? = some stj →
        IsPair env.target.orbitals b.labels.species sti a1 a2 →
        IsPair env.target.orbitals k.labels.species stj c1 c2 →
        ∀ M' ∈ projs (2 * b.labels.J), ∀ q ∈ projs (2 * J0), ∀ M ∈ projs (2 * k.labels.J),
          factor * elem2 form1 (onEach J1 J2 J0 X Y q)
            (nas (pairState nucleon M') b.labels.J (spOrb b.labels.species.first a1, spOrb b.labels.species.second a2))
            (nas (pairState nucleon M) k.labels.J (spOrb k.labels.species.first c1, spOrb k.labels.species.second c2)) =
          cgd (2 * k.labels.J) M (2 * J0) q (2 * b.labels.J) M' * T.val i j := by
  obtain ⟨x, hx, ux⟩ := operator_of_good ga
  obtain ⟨y, hy, uy⟩ := operator_of_good gb
  obtain ⟨T, h1, h2, h3⟩ := product_source_nucleons (id := id) (factor := factor) ham ht ha hb' hsp ga.space hx hy hav q1 q2 q0 hq hpar htz hb hk htri
  refine ⟨T, h1, h2, h3 Nucleon form1 nucleon X Y (hX.components ux q1) ?_⟩
  rw [hsp]
  exact hY.components uy q2

/-! ### Concrete cases -/

example (env : ObEnv) (hcr : env.crme = trueCrme) (ge : GoodSpace env.space) :
    ∃ d, builtinOb env "j2" (some sampleSpace) = .ok d ∧ d.Means form1 nucleon fun _ => square total1 := by
  obtain ⟨d, h, -, -, hm⟩ := builtin_means (env := env) (space := some sampleSpace) hcr sampleSpace_good ge (by rintro s ⟨⟩; exact sampleSpace_good) (id := "j2") (by simp)
  exact ⟨d, h, hm⟩

example (env : ObEnv) (hr : env.rme = trueRme) (ge : GoodSpace env.space) :
    ∃ d, builtinOb env "l" (some sampleSpace) = .ok d ∧ d.Means form1 nucleon orbital1 := by
  obtain ⟨d, h, -, -, hm⟩ := builtin_means_partial (env := env) (space := some sampleSpace) hr sampleSpace_good sampleSpace_complete ge
    (by rintro s ⟨⟩; exact sampleSpace_good) (id := "l") (by simp)
  exact ⟨d, h, hm⟩

example (env : ObEnv) (hb : env.basis = .oscillator) (hcr : env.crme = trueCrme) (ge : GoodSpace env.space) :
    ∃ d, generatedOb env "ik.ik" (.radial .k 2) ⟨0, 0, 0⟩ (some sampleSpace) = .ok d ∧
      d.Means form1 nucleon fun _ => square fun q => env.length⁻¹ • onMotion1 (gradient1 (q / 2)) := by
  obtain ⟨d, h, -, -, hm⟩ := generated_means (env := env) (space := some sampleSpace) hb hcr sampleSpace_good ge (by rintro s ⟨⟩; exact sampleSpace_good)
    (id := "ik.ik") (by simp) rfl
  exact ⟨d, h, hm⟩

/-- The hypotheses on the sources are met by the identity on a nucleon in `0p3/2` and `0s1/2`. -/
theorem idOb_good : GoodOb Ex.idOb := ⟨Separable.Example.space_good, rfl, Separable.Example.identity_op.fits⟩

theorem idOb_means : Ex.idOb.Means form1 nucleon fun _ => LinearMap.id :=
  Means.of_components (J0 := 0) rfl (identity_components Ex.physical) fun i p k r x y hx hy ht => by
    obtain ⟨-, -, h0, he⟩ := Separable.Example.identity_op
    by_cases hal : Allowed Ex.idOb.secs.qn x.labels y.labels
    · exact he i p k r x y hx hy hal
    · rw [el_forbidden idOb_good hx hy hal]
      exact h0 x y hal

example : ∃ T, source Ex.nenv ⟨"N", .opU "one"⟩ (0, 0) = .ok (some T) ∧
    elem2 form1 (onBoth LinearMap.id) (nas (pairState nucleon 0) 0 (⟨.p, 0, 1, 3⟩, ⟨.p, 0, 1, 3⟩))
      (nas (pairState nucleon 0) 0 (⟨.p, 0, 1, 3⟩, ⟨.p, 0, 1, 3⟩)) = cgd 0 0 0 0 0 0 * ((((6 : ℤ) : ℝ) - 1) * T.val 0 0) := by
  obtain ⟨T, h, -, hv⟩ := upgrade_source_means (env := Ex.nenv) (id := "N") (ob := "one") (d := Ex.idOb) rfl Ex.pTarget_ok rfl idOb_good idOb_means rfl
    Ex.pTarget_available (A := 6) rfl (by decide) (by decide) (J0 := 0) rfl (p := (0, 0)) rfl rfl (by decide)
  exact ⟨T, h, hv 0 0 (0, 0) (0, 0) Mapping.Ex.p3 Mapping.Ex.p3 Mapping.Ex.p3 Mapping.Ex.p3 rfl rfl ⟨rfl, rfl⟩ ⟨rfl, rfl⟩ 0 (by decide) 0 (by decide) 0 (by decide)⟩

end Verif.Mixer
