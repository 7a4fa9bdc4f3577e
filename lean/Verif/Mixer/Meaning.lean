import Verif.Mixer.NucleonSource
import Verif.Mixer.BuiltinProps
import Verif.Separable.OneNucleonSquare

/-!
# What a stored one-body operator means

A one-body operator of `h2mixer` or `obmixer` holds reduced elements between the orbitals of its space.  It means an operator on the states of one
nucleon if these are the reduced elements of that operator.
-/

namespace Verif.Mixer
open Verif Verif.Mapping Verif.Xform Verif.Obme Verif.Separable Verif.SU2
open Verif.H2 hiding Mat Subspace

variable {V : Type} [AddCommGroup V] [Module ℝ V]

/-- The elements held by `d` are the reduced elements of the operator with components `U` between the states `st`, in Rose's convention. -/
def ObData.Means (form : V →ₗ[ℝ] V →ₗ[ℝ] ℝ) (st : SpOrb → ℤ → V) (d : ObData) (U : ℤ → V →ₗ[ℝ] V) : Prop :=
  ∀ i p k r c a, IsOrb d.space i p c → IsOrb d.space k r a →
    ∀ m' ∈ projs c.tj, ∀ q ∈ projs (2 * d.secs.qn.J0.toNat), ∀ m ∈ projs a.tj,
      form (st c m') (U q (st a m)) = cgd a.tj m (2 * d.secs.qn.J0.toNat) q c.tj m' * d.el i p k r

theorem isOrb_unique {s : Space} (g : GoodSpace s) {i p k r : ℕ} {x : SpOrb} (h : IsOrb s i p x) (h' : IsOrb s k r x) : i = k ∧ p = r := by
  obtain ⟨b, hb, hl, hn⟩ := h
  obtain ⟨b', hb', hl', hn'⟩ := h'
  exact (same_orbital g hb hb' hn hn').mpr ⟨hl.trans hl'.symm, rfl⟩

theorem el_forbidden {d : ObData} (g : GoodOb d) {i p k r : ℕ} {x y : SpOrb} (hx : IsOrb d.space i p x) (hy : IsOrb d.space k r y)
    (h : ¬ Allowed d.secs.qn x.labels y.labels) : d.el i p k r = 0 := by
  refine elem_absent (fun hm => h ?_) _ _
  have hs := allSectors_spec d.secs.qn d.space d.space
  rw [← g.secs] at hs
  obtain ⟨b, k', hb, hk, hal⟩ := (hs.mem i k).mp hm
  obtain ⟨b1, hb1, hl1, -⟩ := hx
  obtain ⟨b2, hb2, hl2, -⟩ := hy
  rw [hb] at hb1
  rw [hk] at hb2
  cases hb1
  cases hb2
  rwa [← hl1, ← hl2]

open Classical in
/-- A good operator with the elements between its orbitals. -/
theorem operator_of_good {d : ObData} (g : GoodOb d) : ∃ u, Operator d.space d.secs d.mats u ∧
    ∀ i p k r x y, IsOrb d.space i p x → IsOrb d.space k r y → u x y = d.el i p k r := by
  have hu : ∀ x y, ∃ v : ℝ, (¬ Allowed d.secs.qn x.labels y.labels → v = 0) ∧
      ∀ i p k r, IsOrb d.space i p x → IsOrb d.space k r y → v = d.el i p k r := by
    intro x y
    by_cases h : InSpace d.space x ∧ InSpace d.space y
    · obtain ⟨⟨i, p, hx⟩, ⟨k, r, hy⟩⟩ := h
      refine ⟨d.el i p k r, fun h => el_forbidden g hx hy h, fun i' p' k' r' hx' hy' => ?_⟩
      obtain ⟨rfl, rfl⟩ := isOrb_unique g.space hx hx'
      obtain ⟨rfl, rfl⟩ := isOrb_unique g.space hy hy'
      rfl
    · exact ⟨0, fun _ => rfl, fun i p k r hx hy => absurd ⟨⟨i, p, hx⟩, ⟨k, r, hy⟩⟩ h⟩
  choose u hu using hu
  refine ⟨u, ⟨?_, g.fits, ⟨fun x y h => (hu x y).1 h, fun i p k r x y hx hy _ => (hu x y).2 i p k r hx hy⟩⟩, fun i p k r x y hx hy => (hu x y).2 i p k r hx hy⟩
  rw [g.secs]
  exact allSectors_spec _ _ _

/-- Reduced elements, for the sources made from one-body operators. -/
theorem ObData.Means.components {form : V →ₗ[ℝ] V →ₗ[ℝ] ℝ} {st : SpOrb → ℤ → V} {d : ObData} {U : ℤ → V →ₗ[ℝ] V} (h : d.Means form st U)
    {u : SpOrb → SpOrb → ℝ} (hu : ∀ i p k r x y, IsOrb d.space i p x → IsOrb d.space k r y → u x y = d.el i p k r) {J0 : ℕ} (hJ : d.secs.qn.J0 = J0) :
    Components form st d.space J0 U u := by
  rintro c a ⟨i, p, hc⟩ ⟨k, r, ha⟩ m' hm' q hq m hm
  have e : d.secs.qn.J0.toNat = J0 := by rw [hJ, Int.toNat_natCast]
  have := h i p k r c a hc ha m' hm' q (by rwa [e]) m hm
  rw [this, e, hu i p k r c a hc ha]

theorem Means.of_components {form : V →ₗ[ℝ] V →ₗ[ℝ] ℝ} {st : SpOrb → ℤ → V} {d : ObData} {U : ℤ → V →ₗ[ℝ] V} {u : SpOrb → SpOrb → ℝ} {J0 : ℕ}
    (hJ : d.secs.qn.J0 = J0) (h : Components form st d.space J0 U u)
    (hu : ∀ i p k r x y, IsOrb d.space i p x → IsOrb d.space k r y → Coupled y.tj (2 * J0) x.tj → u x y = d.el i p k r) : d.Means form st U := by
  intro i p k r c a hc ha m' hm' q hq m hm
  have e : d.secs.qn.J0.toNat = J0 := by rw [hJ, Int.toNat_natCast]
  rw [e] at hq ⊢
  rw [h c a ⟨i, p, hc⟩ ⟨k, r, ha⟩ m' hm' q hq m hm]
  by_cases ht : Coupled a.tj (2 * J0) c.tj
  · rw [hu i p k r c a hc ha ht]
  · rw [cgd_triangle ht, zero_mul, zero_mul]

theorem physical_of_good {s : Space} (g : GoodSpace s) : ∀ a, InSpace s a → a.Physical := by
  rintro a ⟨i, p, b, hb, hl, -⟩
  have h := g.half b (List.mem_of_getElem? hb)
  rw [hl] at h
  simp only [SpOrb.labels] at h
  unfold SpOrb.Physical Coupled
  rw [abs_le]
  push_cast
  omega

theorem orbitalAt_of {s : Space} {i p : ℕ} {x : SpOrb} (h : IsOrb s i p x) : OrbitalAt s i p x.labels x.n := h

end Verif.Mixer
