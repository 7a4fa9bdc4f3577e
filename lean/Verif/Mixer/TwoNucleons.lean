import Verif.Mixer.Denote
import Verif.Mixer.XformProps

/-!
# Reduced elements of operators on two nucleons
-/

namespace Verif.Mixer
open Verif Verif.Mapping Verif.Xform Verif.Obme Verif.Separable Verif.SU2
open scoped TensorProduct

section
variable {V : Type} [AddCommGroup V] [Module ℝ V]

/-- `v` is the reduced element, in Rose's convention, of the tensor operator of rank `J0` with components `O` between two multiplets `x` and `y`; projections
are doubled. -/
def Reduced (form : V →ₗ[ℝ] V →ₗ[ℝ] ℝ) (J0 : ℕ) (O : ℤ → V ⊗[ℝ] V →ₗ[ℝ] V ⊗[ℝ] V) (J' J : ℕ) (x y : ℤ → V ⊗[ℝ] V) (v : ℝ) : Prop :=
  ∀ M' ∈ projs (2 * J'), ∀ q ∈ projs (2 * J0), ∀ M ∈ projs (2 * J), elem2 form (O q) (x M') (y M) = cgd (2 * J) M (2 * J0) q (2 * J') M' * v

/-- The normalised antisymmetrised states of two nucleons in the orbitals `a` and `b`. -/
noncomputable def pairOf (st : SpOrb → ℤ → V) (sp : Species2) (J : ℕ) (a b : Orb) (M : ℤ) : V ⊗[ℝ] V :=
  nas (pairState st M) J (spOrb sp.first a, spOrb sp.second b)

/-! ## The form with these elements -/

/-- The sum over projections that gives the reduced element. -/
noncomputable def redForm (form : V →ₗ[ℝ] V →ₗ[ℝ] ℝ) (J0 : ℕ) (O : ℤ → V ⊗[ℝ] V →ₗ[ℝ] V ⊗[ℝ] V) (J' J : ℕ) : (ℤ → V ⊗[ℝ] V) →ₗ[ℝ] (ℤ → V ⊗[ℝ] V) →ₗ[ℝ] ℝ :=
  ∑ M' ∈ projs (2 * J'), ∑ q ∈ projs (2 * J0), ∑ M ∈ projs (2 * J),
    (cgd (2 * J) M (2 * J0) q (2 * J') M' / (2 * J' + 1)) • (elemForm form (O q)).compl₁₂ (LinearMap.proj M') (LinearMap.proj M)

theorem redForm_apply (form : V →ₗ[ℝ] V →ₗ[ℝ] ℝ) (J0 : ℕ) (O : ℤ → V ⊗[ℝ] V →ₗ[ℝ] V ⊗[ℝ] V) (J' J : ℕ) (x y : ℤ → V ⊗[ℝ] V) :
    redForm form J0 O J' J x y = ∑ M' ∈ projs (2 * J'), ∑ q ∈ projs (2 * J0), ∑ M ∈ projs (2 * J),
      cgd (2 * J) M (2 * J0) q (2 * J') M' / (2 * J' + 1) * elem2 form (O q) (x M') (y M) := by
  simp only [redForm, LinearMap.sum_apply, LinearMap.smul_apply, LinearMap.compl₁₂_apply, LinearMap.proj_apply, elemForm_apply, smul_eq_mul]

theorem Reduced.redForm_eq {form : V →ₗ[ℝ] V →ₗ[ℝ] ℝ} {J0 : ℕ} {O : ℤ → V ⊗[ℝ] V →ₗ[ℝ] V ⊗[ℝ] V} {J' J : ℕ} {x y : ℤ → V ⊗[ℝ] V} {v : ℝ}
    (h : Reduced form J0 O J' J x y v) (ht : |(J' : ℤ) - J| ≤ J0 ∧ (J0 : ℤ) ≤ J' + J) : redForm form J0 O J' J x y = v := by
  have hc : Coupled (2 * J) (2 * J0) (2 * J') := by
    obtain ⟨h1, h2⟩ := ht
    rw [abs_le] at h1
    refine ⟨?_, by omega, by omega⟩
    rw [abs_le]
    push_cast
    omega
  rw [redForm_apply]
  have step : ∀ M' ∈ projs (2 * J'), ∑ q ∈ projs (2 * J0), ∑ M ∈ projs (2 * J),
      cgd (2 * J) M (2 * J0) q (2 * J') M' / (2 * J' + 1) * elem2 form (O q) (x M') (y M) = v / (2 * J' + 1) := by
    intro M' hM'
    rw [Finset.sum_comm]
    have := cgd_norm hc hM'
    rw [show v / (2 * (J' : ℝ) + 1) = v / (2 * J' + 1) * 1 by ring, ← this, Finset.mul_sum]
    refine Finset.sum_congr rfl fun M hM => ?_
    rw [Finset.mul_sum]
    refine Finset.sum_congr rfl fun q hq => ?_
    rw [h M' hM' q hq M hM]
    ring
  rw [Finset.sum_congr rfl step, Finset.sum_const, Relative.card_projs, nsmul_eq_mul]
  push_cast
  field_simp

/-- A pair of multiplets between which the operator obeys the theorem of Wigner and Eckart. -/
def Tensorial (form : V →ₗ[ℝ] V →ₗ[ℝ] ℝ) (J0 : ℕ) (O : ℤ → V ⊗[ℝ] V →ₗ[ℝ] V ⊗[ℝ] V) (J' J : ℕ) (x y : ℤ → V ⊗[ℝ] V) : Prop :=
  Reduced form J0 O J' J x y (redForm form J0 O J' J x y)

variable {form : V →ₗ[ℝ] V →ₗ[ℝ] ℝ} {J0 : ℕ} {O : ℤ → V ⊗[ℝ] V →ₗ[ℝ] V ⊗[ℝ] V} {J' J : ℕ}

theorem elem2_linear (A : V ⊗[ℝ] V →ₗ[ℝ] V ⊗[ℝ] V) (x y : V ⊗[ℝ] V) : elem2 form A x y = elemForm form A x y := (elemForm_apply _ _ _ _).symm

theorem Tensorial.smul_left {x y : ℤ → V ⊗[ℝ] V} (h : Tensorial form J0 O J' J x y) (r : ℝ) : Tensorial form J0 O J' J (r • x) y := by
  intro M' hM' q hq M hM
  have := h M' hM' q hq M hM
  rw [elem2_linear] at this ⊢
  rw [Pi.smul_apply, map_smul, LinearMap.smul_apply, this, map_smul, LinearMap.smul_apply]
  simp only [smul_eq_mul]
  ring

theorem Tensorial.smul_right {x y : ℤ → V ⊗[ℝ] V} (h : Tensorial form J0 O J' J x y) (r : ℝ) : Tensorial form J0 O J' J x (r • y) := by
  intro M' hM' q hq M hM
  have := h M' hM' q hq M hM
  rw [elem2_linear] at this ⊢
  rw [Pi.smul_apply, map_smul, this, map_smul]
  simp only [smul_eq_mul]
  ring

theorem Tensorial.sum_left {ι : Type} (s : Finset ι) (x : ι → ℤ → V ⊗[ℝ] V) {y : ℤ → V ⊗[ℝ] V} (h : ∀ i ∈ s, Tensorial form J0 O J' J (x i) y) :
    Tensorial form J0 O J' J (∑ i ∈ s, x i) y := by
  intro M' hM' q hq M hM
  rw [elem2_linear, Finset.sum_apply, map_sum, LinearMap.sum_apply, map_sum, LinearMap.sum_apply, Finset.mul_sum]
  refine Finset.sum_congr rfl fun i hi => ?_
  rw [← elem2_linear]
  exact h i hi M' hM' q hq M hM

theorem Tensorial.sum_right {ι : Type} (s : Finset ι) {x : ℤ → V ⊗[ℝ] V} (y : ι → ℤ → V ⊗[ℝ] V) (h : ∀ i ∈ s, Tensorial form J0 O J' J x (y i)) :
    Tensorial form J0 O J' J x (∑ i ∈ s, y i) := by
  intro M' hM' q hq M hM
  rw [elem2_linear, Finset.sum_apply, map_sum, map_sum, Finset.mul_sum]
  refine Finset.sum_congr rfl fun i hi => ?_
  rw [← elem2_linear]
  exact h i hi M' hM' q hq M hM

/-! ## All angular momenta together -/

/-- Multiplets of all angular momenta. -/
abbrev Multi (V : Type) [AddCommGroup V] [Module ℝ V] : Type := ℕ →₀ (ℤ → V ⊗[ℝ] V)

noncomputable def multiForm (form : V →ₗ[ℝ] V →ₗ[ℝ] ℝ) (J0 : ℕ) (O : ℤ → V ⊗[ℝ] V →ₗ[ℝ] V ⊗[ℝ] V) : Multi V →ₗ[ℝ] Multi V →ₗ[ℝ] ℝ :=
  Finsupp.lsum ℝ fun J' => (Finsupp.lsum ℝ).toLinearMap ∘ₗ LinearMap.pi fun J => redForm form J0 O J' J

theorem multiForm_single (x y : ℤ → V ⊗[ℝ] V) :
    multiForm form J0 O (Finsupp.single J' x) (Finsupp.single J y) = redForm form J0 O J' J x y := by
  simp [multiForm]

theorem pairOf_exchange (st : SpOrb → ℤ → V) {sp : Species2} (J : ℕ) {a b : Orb} (hsp : sp ≠ .pn) (ha : a.twiceJ % 2 = 1) (hb : b.twiceJ % 2 = 1) :
    pairOf st sp J b a = ((-1 : ℝ) ^ ((a.twiceJ + b.twiceJ) / 2 + J + 1)) • pairOf st sp J a b := by
  funext M
  have hf : sp.first = sp.second := first_eq_second.2 hsp
  simp only [pairOf, nas, Pi.smul_apply, hf]
  have e1 : exSign J (spOrb sp.second b) (spOrb sp.second a) = exSign J (spOrb sp.second a) (spOrb sp.second b) := exSign_comm _ _ _
  have e2 : (-1 : ℝ) ^ ((a.twiceJ + b.twiceJ) / 2 + J + 1) = -exSign J (spOrb sp.second a) (spOrb sp.second b) := by
    simp only [exSign, spOrb]
    rw [pow_succ, add_comm J]
    ring
  have e3 := exSign_sq J (spOrb sp.second a) (spOrb sp.second b)
  rw [e1, e2]
  generalize exSign J (spOrb sp.second a) (spOrb sp.second b) = e at e3
  have e4 : (if spOrb sp.second b = spOrb sp.second a then 1 / Real.sqrt 2 else 1 : ℝ) = if spOrb sp.second a = spOrb sp.second b then 1 / Real.sqrt 2 else 1 :=
    if_congr eq_comm rfl rfl
  rw [e4]
  simp only [smul_sub, smul_smul]
  rw [sub_eq_add_neg, sub_eq_add_neg, add_comm]
  congr 1
  · rw [← neg_smul]
    congr 1
    ring
  · rw [← neg_smul]
    congr 1
    linear_combination (-(if spOrb sp.second a = spOrb sp.second b then 1 / Real.sqrt 2 else 1 : ℝ) * (1 / Real.sqrt 2)) * e3

/-- The kets of the two-body basis. -/
noncomputable def pairKets (st : SpOrb → ℤ → V) : PairKets (Multi V) where
  ket sp J a b := Finsupp.single J (pairOf st sp J a b)
  exchange sp J a b hsp ha hb := by rw [pairOf_exchange st J hsp ha hb, Finsupp.smul_single]

theorem pairKets_state {st : SpOrb → ℤ → V} {o : Orbitals} {lab : Mapping.Labels} {s : ℕ × ℕ} {a b : Orb} (h : IsPair o lab.species s a b) :
    (pairKets st).state o lab s = Finsupp.single lab.J (pairOf st lab.species lab.J a b) := by
  unfold PairKets.state
  rw [h.1, h.2]
  rfl

/-! ## Files -/

/-- The file holds the reduced elements of `O` between the pairs of its orbitals, in a diagonal sector at least those with the bra not after the ket, and there
they do not change when bra and ket are exchanged. -/
def Stored (form : V →ₗ[ℝ] V →ₗ[ℝ] ℝ) (st : SpOrb → ℤ → V) (J0 : ℕ) (O : ℤ → V ⊗[ℝ] V →ₗ[ℝ] V ⊗[ℝ] V) (file : H2In) : Prop :=
  ∀ n p b k, IsSector file.ix n p b k → ∃ A, file.read n = .ok A ∧ A.rows = b.states.length ∧ A.cols = k.states.length ∧
    ∀ (i j : ℕ) sti stj a1 a2 c1 c2, b.states[i]? = some sti → k.states[j]? = some stj →
      IsPair file.ix.orbitals b.labels.species sti a1 a2 → IsPair file.ix.orbitals k.labels.species stj c1 c2 → (p.1 = p.2 → i ≤ j) →
      Reduced form J0 O b.labels.J k.labels.J (pairOf st b.labels.species b.labels.J a1 a2) (pairOf st k.labels.species k.labels.J c1 c2) (A.val i j) ∧
      (p.1 = p.2 → Reduced form J0 O k.labels.J b.labels.J (pairOf st k.labels.species k.labels.J c1 c2) (pairOf st b.labels.species b.labels.J a1 a2) (A.val i j))

/-- The sectors obey the triangle rule. -/
def Triangles (ix : TBIndexing) (J0 : ℕ) : Prop :=
  ∀ n p b k, IsSector ix n p b k → |(b.labels.J : ℤ) - k.labels.J| ≤ J0 ∧ (J0 : ℤ) ≤ b.labels.J + k.labels.J

variable {st : SpOrb → ℤ → V} {file : H2In}

theorem state_pair (ix : TBIndexing) (h : IndexOK ix) {b : Subspace} (hb : b ∈ ix.space) {s : ℕ × ℕ} (hs : s ∈ b.states) :
    ∃ a1 a2, IsPair ix.orbitals b.labels.species s a1 a2 := by
  obtain ⟨h1, h2⟩ := h.space.inRange b hb s hs
  exact ⟨_, _, List.getElem?_eq_getElem h1, List.getElem?_eq_getElem h2⟩

theorem Stored.holds (hf : IndexOK file.ix) (h : Stored form st J0 O file) (ht : Triangles file.ix J0) :
    Holds (pairKets st) (multiForm form J0 O) file := by
  intro n p b k hs
  obtain ⟨A, h1, h2, h3, h4⟩ := h n p b k hs
  refine ⟨A, h1, h2, h3, ?_⟩
  intro i j sti stj hi hj hle
  obtain ⟨a1, a2, ha⟩ := state_pair _ hf (List.mem_of_getElem? hs.bra) (List.mem_of_getElem? hi)
  obtain ⟨c1, c2, hc⟩ := state_pair _ hf (List.mem_of_getElem? hs.ket) (List.mem_of_getElem? hj)
  rw [pairKets_state ha, pairKets_state hc, multiForm_single]
  exact ((h4 i j sti stj a1 a2 c1 c2 hi hj ha hc hle).1.redForm_eq (ht n p b k hs)).symm

/-- Between states of a sector the operator obeys the theorem of Wigner and Eckart. -/
theorem Stored.tensorial (h : Stored form st J0 O file) (ht : Triangles file.ix J0) {n : ℕ} {p : ℕ × ℕ} {b k : Subspace}
    (hs : IsSector file.ix n p b k) {sti stj : ℕ × ℕ} {a1 a2 c1 c2 : Orb} (hi : sti ∈ b.states) (hj : stj ∈ k.states)
    (ha : IsPair file.ix.orbitals b.labels.species sti a1 a2) (hc : IsPair file.ix.orbitals k.labels.species stj c1 c2) :
    Tensorial form J0 O b.labels.J k.labels.J (pairOf st b.labels.species b.labels.J a1 a2) (pairOf st k.labels.species k.labels.J c1 c2) := by
  obtain ⟨A, h1, h2, h3, h4⟩ := h n p b k hs
  obtain ⟨i, hi⟩ := List.mem_iff_getElem?.mp hi
  obtain ⟨j, hj⟩ := List.mem_iff_getElem?.mp hj
  have key : ∀ {v}, Reduced form J0 O b.labels.J k.labels.J (pairOf st b.labels.species b.labels.J a1 a2) (pairOf st k.labels.species k.labels.J c1 c2) v →
      Tensorial form J0 O b.labels.J k.labels.J (pairOf st b.labels.species b.labels.J a1 a2) (pairOf st k.labels.species k.labels.J c1 c2) := by
    intro v hv
    unfold Tensorial
    rw [hv.redForm_eq (ht n p b k hs)]
    exact hv
  by_cases hle : p.1 = p.2 → i ≤ j
  · exact key (h4 i j sti stj a1 a2 c1 c2 hi hj ha hc hle).1
  · push Not at hle
    obtain ⟨hd, hlt⟩ := hle
    have hbk : b = k := by
      have h5 := hs.bra
      rw [hd, hs.ket] at h5
      exact (Option.some.inj h5).symm
    subst hbk
    exact key ((h4 j i stj sti c1 c2 a1 a2 hj hi hc ha fun _ => hlt.le).2 hd)

theorem Stored.symWithin (hf : IndexOK file.ix) (h : Stored form st J0 O file) (ht : Triangles file.ix J0) :
    SymWithin (pairKets st) (multiForm form J0 O) file.ix := by
  intro n p s hs hd st1 h1 st2 h2
  obtain ⟨A, -, -, -, h4⟩ := h n p s s hs
  obtain ⟨i, hi⟩ := List.mem_iff_getElem?.mp h1
  obtain ⟨j, hj⟩ := List.mem_iff_getElem?.mp h2
  obtain ⟨a1, a2, ha⟩ := state_pair _ hf (List.mem_of_getElem? hs.bra) h1
  obtain ⟨c1, c2, hc⟩ := state_pair _ hf (List.mem_of_getElem? hs.ket) h2
  rw [pairKets_state ha, pairKets_state hc, multiForm_single, multiForm_single]
  rcases le_total i j with hle | hle
  · obtain ⟨r1, r2⟩ := h4 i j st1 st2 a1 a2 c1 c2 hi hj ha hc fun _ => hle
    rw [r1.redForm_eq (ht n p s s hs), (r2 hd).redForm_eq (ht n p s s hs)]
  · obtain ⟨r1, r2⟩ := h4 j i st2 st1 c1 c2 a1 a2 hj hi hc ha fun _ => hle
    rw [r1.redForm_eq (ht n p s s hs), (r2 hd).redForm_eq (ht n p s s hs)]

theorem pairOf_same {o o' : Orbitals} (ho : o.HalfOdd) {sp : Species2} {s s' : ℕ × ℕ} (h : SameOrbitals o o' sp s s') {a1 a2 : Orb} (ha : IsPair o' sp s' a1 a2)
    (J : ℕ) : ∃ e1 e2, IsPair o sp s e1 e2 ∧ ∃ r : ℝ, pairOf st sp J a1 a2 = r • pairOf st sp J e1 e2 := by
  obtain ⟨e1, e2, he, h | ⟨hsp, h⟩⟩ := h
  · have h1 : a1 = e1 := Option.some.inj (ha.1.symm.trans h.1)
    have h2 : a2 = e2 := Option.some.inj (ha.2.symm.trans h.2)
    exact ⟨e1, e2, he, 1, by rw [h1, h2, one_smul]⟩
  · have h1 : a1 = e2 := Option.some.inj (ha.1.symm.trans h.1)
    have h2 : a2 = e1 := Option.some.inj (ha.2.symm.trans h.2)
    exact ⟨e1, e2, he, _, by
      rw [h1, h2]
      exact pairOf_exchange st J hsp (ho _ _ (List.mem_of_getElem? he.1)) (ho _ _ (List.mem_of_getElem? he.2))⟩

/-- What an input file contributes: the reduced elements of its operator between the states it covers. -/
theorem input_reduced {env : Env} {id : String} (hf : IndexOK file.ix) (ht : IndexOK env.target) (h : Stored form st J0 O file) (htf : Triangles file.ix J0)
    {p : ℕ × ℕ} {b k : Subspace} (hb : env.target.space[p.1]? = some b) (hk : env.target.space[p.2]? = some k) :
    ∃ r, source env ⟨id, .input file⟩ p = .ok r ∧ (∀ T, r = some T → SectorSize env p T) ∧
      ∀ (i j : ℕ) sti stj a1 a2 c1 c2, b.states[i]? = some sti → k.states[j]? = some stj →
        IsPair env.target.orbitals b.labels.species sti a1 a2 → IsPair env.target.orbitals k.labels.species stj c1 c2 →
        Covers file env.target.orbitals b k sti stj →
        Reduced form J0 O b.labels.J k.labels.J (pairOf st b.labels.species b.labels.J a1 a2) (pairOf st k.labels.species k.labels.J c1 c2) (elemOf r i j) := by
  obtain ⟨r, h1, h2, h3⟩ := input_source (id := id) hf ht (h.holds hf htf) (h.symWithin hf htf) hb hk
  refine ⟨r, h1, h2, ?_⟩
  intro i j sti stj a1 a2 c1 c2 hi hj ha hc hcov
  rw [(h3 i j sti stj hi hj).1 hcov, pairKets_state ha, pairKets_state hc, multiForm_single]
  obtain ⟨n, q, sb, sk, hs, e1, e2, ⟨s1, m1, o1⟩, s2, m2, o2⟩ := hcov
  obtain ⟨x1, x2, hx, rx, ex⟩ := pairOf_same (st := st) hf.odd o1 ha b.labels.J
  obtain ⟨y1, y2, hy, ry, ey⟩ := pairOf_same (st := st) hf.odd o2 hc k.labels.J
  have ht := h.tensorial htf hs m1 m2 (by rw [e1]; exact hx) (by rw [e2]; exact hy)
  rw [e1, e2] at ht
  rw [ex, ey]
  exact (ht.smul_left rx).smul_right ry

end

end Verif.Mixer
