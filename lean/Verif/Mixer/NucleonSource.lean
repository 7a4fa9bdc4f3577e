import Verif.Mixer.SeparableSource
import Verif.Separable.OneNucleon

/-!
# Property C174: separable sources of `h2mixer` as operators on two nucleons
-/

namespace Verif.Mixer
open Verif Verif.Mapping Verif.Xform Verif.Obme Verif.Separable Verif.SU2
open Verif.H2 hiding Mat Subspace

/-- **C174.** The source made from a one-body operator: `A - 1` times its elements are the reduced elements of `U(1) + U(2)` between the
antisymmetric states of two nucleons of the target. -/
theorem upgrade_source_nucleons {env : Env} {id ob : String} {d : ObData} {u : SpOrb → SpOrb → ℝ} (ham : env.am = amS) (ht : IndexOK env.target)
    (hd : env.ob ob = some d) (hg : GoodSpace d.space) (ho : Operator d.space d.secs d.mats u)
    (hq : d.secs.qn = env.qn) (hav : Available env.target.orbitals d.space) {A : Int} (hA : env.A = some A)
    (hA31 : -(2 ^ 31) ≤ A - 1 ∧ A - 1 < 2 ^ 31) (hA1 : A ≠ 1) {J0 : ℕ} (hJ0 : env.qn.J0 = J0) {p : ℕ × ℕ} {b k : Subspace}
    (hb : env.target.space[p.1]? = some b) (hk : env.target.space[p.2]? = some k)
    (htri : |(b.labels.J : Int) - k.labels.J| ≤ J0 ∧ (J0 : ℤ) ≤ b.labels.J + k.labels.J) :
    ∃ T, source env ⟨id, .opU ob⟩ p = .ok (some T) ∧ SectorSize env p T ∧
      ∀ (V : Type) [AddCommGroup V] [Module ℝ V] (form : V →ₗ[ℝ] V →ₗ[ℝ] ℝ) (st : SpOrb → ℤ → V) (U : ℤ → V →ₗ[ℝ] V),
        Orthonormal form st d.space → Components form st d.space J0 U u →
        ∀ (i j : ℕ) sti stj a1 a2 c1 c2, b.states[i]? = some sti → k.states[j]? = some stj →
          IsPair env.target.orbitals b.labels.species sti a1 a2 →
          IsPair env.target.orbitals k.labels.species stj c1 c2 →
          ∀ M' ∈ projs (2 * b.labels.J), ∀ q ∈ projs (2 * J0), ∀ M ∈ projs (2 * k.labels.J),
            elem2 form (onBoth (U q))
              (nas (pairState st M') b.labels.J (spOrb b.labels.species.first a1, spOrb b.labels.species.second a2))
              (nas (pairState st M) k.labels.J (spOrb k.labels.species.first c1, spOrb k.labels.species.second c2)) =
            cgd (2 * k.labels.J) M (2 * J0) q (2 * b.labels.J) M' * (((A : ℝ) - 1) * T.val i j) := by
  obtain ⟨T, h1, h2, h3⟩ := upgrade_source (id := id) ht hd hg ho hq hav hA hA31 hA1 hb hk (by rw [hJ0]; exact htri)
  refine ⟨T, h1, h2, fun V _ _ form st U hO hU i j sti stj a1 a2 c1 c2 hi hj hp1 hp2 M' hM' q hq' M hM => ?_⟩
  obtain ⟨W, _, _, qk, C, hC⟩ := form_exists fun c d J' a b J => (if d = b then amS.f1 c.tj d.tj J' a.tj b.tj J J0 * u c a else 0) +
    (if c = a then amS.f2 c.tj d.tj J' a.tj b.tj J J0 * u d b else 0)
  have e := h3 W qk C (fun c d a b => by rw [hC, hJ0, ham]) i j sti stj a1 a2 c1 c2 hi hj hp1 hp2
  have hA0 : ((A : ℝ) - 1) ≠ 0 := by
    rw [sub_ne_zero]
    exact_mod_cast hA1
  rw [e, ← mul_assoc ((A : ℝ) - 1), mul_one_div_cancel hA0, one_mul]
  have x1 := hav _ a1 (List.mem_of_getElem? hp1.1)
  have x2 := hav _ a2 (List.mem_of_getElem? hp1.2)
  have y1 := hav _ c1 (List.mem_of_getElem? hp2.1)
  have y2 := hav _ c2 (List.mem_of_getElem? hp2.2)
  refine elem2_nas (onBoth (U q)) qk C _ fun c d a b hc hd ha hb => ?_
  rw [hC]
  exact pair_onBoth hO hU (by rcases hc with rfl | rfl <;> assumption) (by rcases hd with rfl | rfl <;> assumption)
    (by rcases ha with rfl | rfl <;> assumption) (by rcases hb with rfl | rfl <;> assumption) hM' hq' hM

/-- **C174.** The source made from two one-body operators: its elements are the factor times the reduced elements of `[X(1) Y(2)]` between the
antisymmetric states of two nucleons of the target. -/
theorem product_source_nucleons {env : Env} {id oa ob : String} {factor : ℝ} {da db : ObData} {x y : SpOrb → SpOrb → ℝ}
    (ham : env.am = amS) (ht : IndexOK env.target)
    (ha : env.ob oa = some da) (hb' : env.ob ob = some db) (hsp : da.space = db.space) (hg : GoodSpace da.space)
    (h1 : Operator da.space da.secs da.mats x) (h2 : Operator db.space db.secs db.mats y)
    (hav : Available env.target.orbitals da.space) {J1 J2 J0 : ℕ} (q1 : da.secs.qn.J0 = J1)
    (q2 : db.secs.qn.J0 = J2) (q0 : env.qn.J0 = J0) (hq : |(J1 : Int) - J2| ≤ J0 ∧ (J0 : Int) ≤ J1 + J2)
    (hpar : (2 : Int) ∣ da.secs.qn.g0 + db.secs.qn.g0 + env.qn.g0)
    (htz : da.secs.qn.Tz0 + db.secs.qn.Tz0 = env.qn.Tz0) {p : ℕ × ℕ} {b k : Subspace}
    (hb : env.target.space[p.1]? = some b) (hk : env.target.space[p.2]? = some k)
    (htri : |(b.labels.J : Int) - k.labels.J| ≤ J0 ∧ (J0 : Int) ≤ b.labels.J + k.labels.J) :
    ∃ T, source env ⟨id, .opV oa ob factor⟩ p = .ok (some T) ∧ SectorSize env p T ∧
      ∀ (V : Type) [AddCommGroup V] [Module ℝ V] (form : V →ₗ[ℝ] V →ₗ[ℝ] ℝ) (st : SpOrb → ℤ → V) (X Y : ℤ → V →ₗ[ℝ] V),
        Components form st da.space J1 X x → Components form st da.space J2 Y y →
        ∀ (i j : ℕ) sti stj a1 a2 c1 c2, b.states[i]? = some sti → k.states[j]? = some stj →
          IsPair env.target.orbitals b.labels.species sti a1 a2 →
          IsPair env.target.orbitals k.labels.species stj c1 c2 →
          ∀ M' ∈ projs (2 * b.labels.J), ∀ q ∈ projs (2 * J0), ∀ M ∈ projs (2 * k.labels.J),
            factor * elem2 form (onEach J1 J2 J0 X Y q)
              (nas (pairState st M') b.labels.J (spOrb b.labels.species.first a1, spOrb b.labels.species.second a2))
              (nas (pairState st M) k.labels.J (spOrb k.labels.species.first c1, spOrb k.labels.species.second c2)) =
            cgd (2 * k.labels.J) M (2 * J0) q (2 * b.labels.J) M' * T.val i j := by
  obtain ⟨T, r1, r2, r3⟩ := product_source (id := id) (factor := factor) (ham ▸ exchange_law) ht ha hb' hsp hg h1 h2 hav q1 q2 q0 hq hpar htz hb hk htri
  refine ⟨T, r1, r2, fun V _ _ form st X Y hX hY i j sti stj a1 a2 c1 c2 hi hj hp1 hp2 M' hM' q hq' M hM => ?_⟩
  obtain ⟨W, _, _, qk, C, hC⟩ := form_exists fun c d J' a b J => amS.f12 c.tj d.tj J' a.tj b.tj J J1 J2 J0 * (x c a * y d b)
  rw [r3 W qk C (fun c d a b => by rw [hC, ham]) i j sti stj a1 a2 c1 c2 hi hj hp1 hp2, mul_left_comm]
  congr 1
  have x1 := hav _ a1 (List.mem_of_getElem? hp1.1)
  have x2 := hav _ a2 (List.mem_of_getElem? hp1.2)
  have y1 := hav _ c1 (List.mem_of_getElem? hp2.1)
  have y2 := hav _ c2 (List.mem_of_getElem? hp2.2)
  refine elem2_nas (onEach J1 J2 J0 X Y q) qk C _ fun c d a b hc hd ha hb => ?_
  rw [hC]
  exact pair_onEach hX hY (by rcases hc with rfl | rfl <;> assumption) (by rcases hd with rfl | rfl <;> assumption)
    (by rcases ha with rfl | rfl <;> assumption) (by rcases hb with rfl | rfl <;> assumption) hM' hq' hM

/-! ### Concrete case -/

namespace Ex

/-- The sources of `senv` with the recoupling factors of angular momentum. -/
noncomputable def nenv : Env := { senv with am := amS }

theorem physical : ∀ a, InSpace idOb.space a → a.Physical := by
  rintro ⟨s, n, l, t⟩ ⟨i, p, b, hb, hl, hn⟩
  have hm := List.mem_of_getElem? hb
  simp only [idOb, Separable.Example.space, List.mem_cons, List.not_mem_nil, or_false] at hm
  simp only [SpOrb.labels] at hl
  rcases hm with rfl | rfl <;> (cases hl; unfold SpOrb.Physical; dsimp only; exact ⟨by decide, by decide, by decide⟩)

/-- The hypotheses are met by the identity on a nucleon in `0p3/2` and `0s1/2`. -/
example : ∃ T, source nenv ⟨"N", .opU "one"⟩ (0, 0) = .ok (some T) ∧
    elem2 form1 (onBoth LinearMap.id) (nas (pairState nucleon 0) 0 (⟨.p, 0, 1, 3⟩, ⟨.p, 0, 1, 3⟩))
      (nas (pairState nucleon 0) 0 (⟨.p, 0, 1, 3⟩, ⟨.p, 0, 1, 3⟩)) = cgd 0 0 0 0 0 0 * ((((6 : ℤ) : ℝ) - 1) * T.val 0 0) := by
  obtain ⟨T, h, _, hv⟩ := upgrade_source_nucleons (env := nenv) (id := "N") (ob := "one") (d := idOb) rfl pTarget_ok rfl
    Separable.Example.space_good Separable.Example.identity_op rfl pTarget_available (A := 6) rfl (by decide) (by decide) (J0 := 0) rfl
    (p := (0, 0)) rfl rfl (by decide)
  exact ⟨T, h, hv Nucleon form1 nucleon (fun _ => LinearMap.id) (nucleon_orthonormal physical) (identity_components physical) 0 0 (0, 0) (0, 0)
    Mapping.Ex.p3 Mapping.Ex.p3 Mapping.Ex.p3 Mapping.Ex.p3 rfl rfl ⟨rfl, rfl⟩ ⟨rfl, rfl⟩ 0 (by decide) 0 (by decide) 0 (by decide)⟩

example : ∃ T, source nenv ⟨"NN", .opV "one" "one" 3⟩ (0, 0) = .ok (some T) ∧
    3 * elem2 form1 (onEach 0 0 0 (fun _ => LinearMap.id) (fun _ => LinearMap.id) 0) (nas (pairState nucleon 0) 0 (⟨.p, 0, 1, 3⟩, ⟨.p, 0, 1, 3⟩))
      (nas (pairState nucleon 0) 0 (⟨.p, 0, 0, 1⟩, ⟨.p, 0, 0, 1⟩)) = cgd 0 0 0 0 0 0 * T.val 0 1 := by
  obtain ⟨T, h, _, hv⟩ := product_source_nucleons (env := nenv) (id := "NN") (oa := "one") (ob := "one") (factor := 3) (da := idOb)
    (db := idOb) rfl pTarget_ok rfl rfl rfl Separable.Example.space_good
    Separable.Example.identity_op Separable.Example.identity_op pTarget_available (J1 := 0) (J2 := 0) (J0 := 0) rfl rfl rfl
    (by decide) (by decide) (by decide) (p := (0, 0)) rfl rfl (by decide)
  exact ⟨T, h, hv Nucleon form1 nucleon _ _ (identity_components physical) (identity_components physical) 0 1 (0, 0) (1, 1)
    Mapping.Ex.p3 Mapping.Ex.p3 Mapping.Ex.s1 Mapping.Ex.s1 rfl rfl ⟨rfl, rfl⟩ ⟨rfl, rfl⟩ 0 (by decide) 0 (by decide) 0 (by decide)⟩

end Ex

end Verif.Mixer
