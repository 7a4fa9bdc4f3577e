import Verif.Moshinsky.Orthogonal
import Verif.Moshinsky.ChainLS
import Verif.Moshinsky.Spaces

/-!
# The Moshinsky transformation of an operator

`lsSpec` (`ChainSpec.lean`), the elements that `TwoBodyMatrixLSJTN` (`libraries/moshinsky/moshinsky_xform.cpp:286-371`) computes, are
the elements of the operator between antisymmetrised states of two nucleons.
-/

namespace Verif.Moshinsky
open Verif MvPolynomial Osc

/-! ## Specification -/

/-- The state of two particles in the orbitals `(N1,l1)`, `(N2,l2)`, coupled to `L M`. -/
noncomputable def orbitals (p : LSPair) (L : ℕ) (M : ℤ) : Two :=
  coupledState Osc.cg first second ((p.1 - p.2.1) / 2) p.2.1 ((p.2.2.1 - p.2.2.2) / 2) p.2.2.2 L M

/-- The state of relative motion `(Nr,lr)` and centre-of-mass motion `(Nc,lc)`, coupled to `L M`. -/
noncomputable def motions (r : LSPair) (L : ℕ) (M : ℤ) : Two :=
  coupledState Osc.cg relative centre ((r.1 - r.2.1) / 2) r.2.1 ((r.2.2.1 - r.2.2.2) / 2) r.2.2.2 L M

/-- Exchange of the two particles. -/
noncomputable def exchanged (u : Two) : Two := rename (Equiv.prodCongr (Equiv.swap 0 1) (Equiv.refl _)) u

/-- The orbital part of the antisymmetrised state `(1 - P)/√2` of two nucleons with spin `S` and isospin `T`: exchange of spins gives
`(-1)^(S+1)`, exchange of isospins `(-1)^(T+1)`.  The norm squared is two if the orbitals are equal. -/
noncomputable def antisym (S T : ℕ) (u : Two) : Two := (1 / √2 : ℝ) • (u - ((-1 : ℝ) ^ (S + 1 + (T + 1))) • exchanged u)

/-- Two oscillator orbitals that couple to `L`. -/
def IsOrb (L : ℕ) (p : LSPair) : Prop := Moshinsky.Osc p.1 p.2.1 ∧ Moshinsky.Osc p.2.2.1 p.2.2.2 ∧ Tri p.2.1 p.2.2.2 L

/-! ## Lemmas -/

/-- All pairs of oscillator states with `N` quanta that couple to `L`. -/
def orbStates (N L : ℕ) : Finset LSPair :=
  (Finset.range (N + 1) ×ˢ Finset.range (N + 1) ×ˢ Finset.range (N + 1) ×ˢ Finset.range (N + 1)).filter fun p =>
    (Moshinsky.Osc p.1 p.2.1 ∧ Moshinsky.Osc p.2.2.1 p.2.2.2 ∧ Tri p.2.1 p.2.2.2 L) ∧ p.1 + p.2.2.1 = N

theorem mem_orbStates {N L : ℕ} {p : LSPair} : p ∈ orbStates N L ↔ IsOrb L p ∧ p.1 + p.2.2.1 = N := by
  unfold orbStates IsOrb Moshinsky.Osc Tri
  simp only [Finset.mem_filter, Finset.mem_product, Finset.mem_range]
  omega

theorem mem_rc_orb {N L S T : ℕ} {p : LSPair} :
    p ∈ rcStates N L S T ↔ p ∈ orbStates N L ∧ (p.2.1 + S + T) % 2 = 1 := by
  rw [mem_orbStates, rcStates, Finset.mem_filter]
  simp only [Finset.mem_product, Finset.mem_range]
  unfold IsOrb IsRC Moshinsky.Osc Tri
  omega

/-- Sums over numbers of nodes as sums over numbers of quanta. -/
theorem sum_states {N L K : ℕ} (hK : N < K) (f : ℕ → ℕ → ℕ → ℕ → ℝ)
    (hf : ∀ n1 l1 n2 l2, ¬(Couples l1 l2 L ∧ quanta n1 l1 n2 l2 = N) → f n1 l1 n2 l2 = 0) :
    (∑ n1 ∈ Finset.range K, ∑ l1 ∈ Finset.range K, ∑ n2 ∈ Finset.range K, ∑ l2 ∈ Finset.range K, f n1 l1 n2 l2) =
      ∑ p ∈ orbStates N L, f ((p.1 - p.2.1) / 2) p.2.1 ((p.2.2.1 - p.2.2.2) / 2) p.2.2.2 := by
  have e : (∑ n1 ∈ Finset.range K, ∑ l1 ∈ Finset.range K, ∑ n2 ∈ Finset.range K, ∑ l2 ∈ Finset.range K, f n1 l1 n2 l2) =
      ∑ x ∈ Finset.range K ×ˢ Finset.range K ×ˢ Finset.range K ×ˢ Finset.range K, f x.1 x.2.1 x.2.2.1 x.2.2.2 := by
    simp only [Finset.sum_product]
  rw [e]
  symm
  refine Finset.sum_bij_ne_zero (fun p _ _ => ((p.1 - p.2.1) / 2, p.2.1, (p.2.2.1 - p.2.2.2) / 2, p.2.2.2)) ?_ ?_ ?_ ?_
  · intro p hp _
    rw [mem_orbStates] at hp
    obtain ⟨⟨⟨h1, h2⟩, ⟨h3, h4⟩, _⟩, h5⟩ := hp
    simp only [Finset.mem_product, Finset.mem_range]
    omega
  · intro p hp _ p' hp' _ h
    rw [mem_orbStates] at hp hp'
    obtain ⟨⟨⟨h1, h2⟩, ⟨h3, h4⟩, _⟩, h5⟩ := hp
    obtain ⟨⟨⟨h1', h2'⟩, ⟨h3', h4'⟩, _⟩, h5'⟩ := hp'
    simp only [Prod.mk.injEq] at h
    ext <;> omega
  · intro x _ hx
    obtain ⟨hc, hq⟩ := not_imp_comm.mp (hf x.1 x.2.1 x.2.2.1 x.2.2.2) hx
    refine ⟨(2 * x.1 + x.2.1, x.2.1, 2 * x.2.2.1 + x.2.2.2, x.2.2.2), ?_, ?_, ?_⟩
    · rw [mem_orbStates]
      unfold IsOrb Moshinsky.Osc Tri
      unfold Couples quanta at *
      rw [abs_le] at hc
      dsimp only
      omega
    · simpa using hx
    · simp
  · intro p _ _
    rfl

theorem quanta_orb {N L : ℕ} {p : LSPair} (h : p ∈ orbStates N L) :
    quanta ((p.1 - p.2.1) / 2) p.2.1 ((p.2.2.1 - p.2.2.2) / 2) p.2.2.2 = N ∧ Couples p.2.1 p.2.2.2 L := by
  rw [mem_orbStates] at h
  obtain ⟨⟨⟨h1, h2⟩, ⟨h3, h4⟩, h6⟩, h5⟩ := h
  unfold Tri at h6
  unfold Couples quanta
  rw [abs_le]
  omega

theorem coupled_zero {l1 l2 Λ : ℕ} (h : ¬Couples l1 l2 Λ) (a b : Fin 3 → Two) (n1 n2 : ℕ) (M : ℤ) :
    coupledState Osc.cg a b n1 l1 n2 l2 Λ M = 0 := by
  unfold coupledState couple
  exact Finset.sum_eq_zero fun m1 _ => Finset.sum_eq_zero fun m2 _ => by
    rw [(cg_recouples angularEnv_angular.sixj Λ M).triangle _ _ _ _ h, zero_smul]

/-- `u` has `N` quanta, orbital angular momentum `L` and projection `M`. -/
structure Shell (N L : ℕ) (M : ℤ) (u : Two) : Prop where
  homogeneous : u.IsHomogeneous N
  ortho : ∀ (n1 l1 n2 l2 Λ' : ℕ) (M' : ℤ), L ≠ Λ' ∨ M ≠ M' → fock u (coupledState Osc.cg first second n1 l1 n2 l2 Λ' M') = 0
  ortho' : ∀ (n1 l1 n2 l2 Λ' : ℕ) (M' : ℤ), L ≠ Λ' ∨ M ≠ M' → fock u (coupledState Osc.cg relative centre n1 l1 n2 l2 Λ' M') = 0

theorem fock_quanta {N L : ℕ} {M : ℤ} {u : Two} (h : Shell N L M u) {a b : Fin 3 → Two} (ha : ∀ i, (a i).IsHomogeneous 1)
    (hb : ∀ i, (b i).IsHomogeneous 1) {n1 l1 n2 l2 : ℕ} (hne : ¬(Couples l1 l2 L ∧ quanta n1 l1 n2 l2 = N)) :
    fock u (coupledState Osc.cg a b n1 l1 n2 l2 L M) = 0 := by
  by_cases hc : Couples l1 l2 L
  · exact fock_homogeneous h.homogeneous (homogeneous_coupled Osc.cg ha hb _ _ _ _ _ _) fun e => hne ⟨hc, e.symm⟩
  · rw [coupled_zero hc]
    simp [fock]

/-- Insertion of the states of two particles. -/
theorem insert_orbitals {N L : ℕ} {M : ℤ} {u : Two} (h : Shell N L M u) (v : Two) :
    fock u v = ∑ p ∈ orbStates N L, fock u (orbitals p L M) * fock v (orbitals p L M) := by
  rw [insert_coupled h.homogeneous (Nat.lt_succ_self N) h.ortho, sum_states (N := N) (L := L) (Nat.lt_succ_self N)]
  · rfl
  · intro n1 l1 n2 l2 hne
    rw [fock_quanta h homogeneous_first homogeneous_second hne, zero_mul]

/-- Insertion of the states of relative and centre-of-mass motion. -/
theorem insert_motions {N L : ℕ} {M : ℤ} {u : Two} (h : Shell N L M u) (v : Two) :
    fock u v = ∑ r ∈ orbStates N L, fock u (motions r L M) * fock v (motions r L M) := by
  have hu : ∀ u v : Two, fock (turn (-1) u) v = fock u (turn 1 v) := fun u v => by
    rw [← fock_turn (ε := 1) (by norm_num) (turn (-1) u), turn_back]
  rw [← fock_turn (ε := -1) (by norm_num), insert_coupled (homogeneous_turn (-1) h.homogeneous) (Nat.lt_succ_self N) (Λ := L) (M := M)
    (fun n1 l1 n2 l2 Λ' M' hne => by rw [hu, turn_coupled]; exact h.ortho' n1 l1 n2 l2 Λ' M' hne),
    sum_states (N := N) (L := L) (Nat.lt_succ_self N)]
  · simp only [hu, turn_coupled]
    rfl
  · intro n1 l1 n2 l2 hne
    rw [hu, turn_coupled, fock_quanta h homogeneous_relative homogeneous_centre hne, zero_mul]

theorem shell_orbitals {N L : ℕ} {p : LSPair} (hp : p ∈ orbStates N L) (M : ℤ) : Shell N L M (orbitals p L M) where
  homogeneous := by
    rw [← (quanta_orb hp).1]
    exact homogeneous_coupled Osc.cg homogeneous_first homogeneous_second _ _ _ _ _ _
  ortho _ _ _ _ _ _ h := coupled_ortho rotates_first rotates_second rotates_first rotates_second h
  ortho' _ _ _ _ _ _ h := coupled_ortho rotates_first rotates_second rotates_relative rotates_centre h

theorem shell_motions {N L : ℕ} {p : LSPair} (hp : p ∈ orbStates N L) (M : ℤ) : Shell N L M (motions p L M) where
  homogeneous := by
    rw [← (quanta_orb hp).1]
    exact homogeneous_coupled Osc.cg homogeneous_relative homogeneous_centre _ _ _ _ _ _
  ortho _ _ _ _ _ _ h := coupled_ortho rotates_relative rotates_centre rotates_first rotates_second h
  ortho' _ _ _ _ _ _ h := coupled_ortho rotates_relative rotates_centre rotates_relative rotates_centre h

/-- The orbitals in the other order. -/
def flip (p : LSPair) : LSPair := (p.2.2.1, p.2.2.2, p.1, p.2.1)

theorem flip_mem {N L : ℕ} {p : LSPair} (hp : p ∈ orbStates N L) : flip p ∈ orbStates N L := by
  rw [mem_orbStates] at *
  obtain ⟨⟨h1, h2, h3⟩, h4⟩ := hp
  refine ⟨⟨h2, h1, ?_⟩, ?_⟩
  · unfold Tri flip at *
    dsimp only
    omega
  · unfold flip
    dsimp only
    omega

theorem isOrb_flip {L : ℕ} {p : LSPair} (hp : IsOrb L p) : IsOrb L (flip p) := (mem_orbStates.mp (flip_mem (mem_orbStates.mpr ⟨hp, rfl⟩))).1

theorem exchanged_orbitals (p : LSPair) (L : ℕ) (M : ℤ) :
    exchanged (orbitals p L M) = sgn (p.2.1 + p.2.2.2 - L) • orbitals (flip p) L M :=
  swap_ket (cg_recouples angularEnv_angular.sixj L M) _ _ _ _

theorem exchanged_motions (r : LSPair) (L : ℕ) (M : ℤ) : exchanged (motions r L M) = ((-1 : ℝ) ^ r.2.1) • motions r L M :=
  swap_dotted Osc.cg _ _ _ _ L M

theorem fock_exchanged (u v : Two) : fock (exchanged u) (exchanged v) = fock u v := fock_rename swapE u v

theorem exchanged_twice (u : Two) : exchanged (exchanged u) = u := by
  unfold exchanged
  rw [rename_rename]
  have : ((Equiv.prodCongr (Equiv.swap 0 1) (Equiv.refl _) : Fin 2 × Fin 3 ≃ Fin 2 × Fin 3) ∘
      (Equiv.prodCongr (Equiv.swap 0 1) (Equiv.refl _) : Fin 2 × Fin 3 ≃ Fin 2 × Fin 3)) = id := by
    funext x
    rw [Function.comp_apply, Equiv.prodCongr_apply, Prod.map_map, ← Equiv.coe_trans, Equiv.swap_swap]
    rfl
  rw [this, rename_id]
  rfl

/-- The amplitude of a state of relative and centre-of-mass motion in an antisymmetrised state. -/
theorem fock_antisym (S T : ℕ) (u : Two) (r : LSPair) (L : ℕ) (M : ℤ) :
    fock (antisym S T u) (motions r L M) = if (r.2.1 + S + T) % 2 = 1 then √2 * fock u (motions r L M) else 0 := by
  have hx : fock (exchanged u) (motions r L M) = (-1 : ℝ) ^ r.2.1 * fock u (motions r L M) := by
    rw [← fock_exchanged, exchanged_twice, exchanged_motions, fock_smul_right]
  unfold antisym
  rw [fock_smul_left, sub_eq_add_neg, ← neg_smul, fock_add_left, fock_smul_left, hx]
  have hs : (1 / √2 : ℝ) * 2 = √2 := by
    rw [div_mul_eq_mul_div, one_mul, div_eq_iff (by positivity), Real.mul_self_sqrt (by norm_num)]
  split_ifs with h
  · have : (-1 : ℝ) ^ (S + 1 + (T + 1)) * (-1) ^ r.2.1 = -1 := by
      rw [← pow_add]
      exact Odd.neg_one_pow (Nat.odd_iff.mpr (by omega))
    generalize (1 / √2 : ℝ) = a at hs
    linear_combination (-a * fock u (motions r L M)) * this + fock u (motions r L M) * hs
  · have : (-1 : ℝ) ^ (S + 1 + (T + 1)) * (-1) ^ r.2.1 = 1 := by
      rw [← pow_add]
      exact Even.neg_one_pow (Nat.even_iff.mpr (by omega))
    generalize (1 / √2 : ℝ) = a
    linear_combination (-a * fock u (motions r L M)) * this

theorem bracket_orbitals {env : Env} (ha : Angular env) (r p : LSPair) {L : ℕ} {M : ℤ} (hM : |M| ≤ L) :
    bracket env (brArgs r p L) = fock (orbitals p L M) (motions r L M) := by
  rw [fock_comm]
  exact bracket_overlap ha hM _ _ _ _ _ _ _ _

theorem shell_antisym {N L : ℕ} {p : LSPair} (hp : p ∈ orbStates N L) (S T : ℕ) (M : ℤ) :
    Shell N L M (antisym S T (orbitals p L M)) := by
  have h1 := shell_orbitals hp M
  have h2 := shell_orbitals (flip_mem hp) M
  unfold antisym
  rw [exchanged_orbitals, sub_eq_add_neg, ← neg_smul, smul_smul]
  refine ⟨homogeneous_smul (h1.homogeneous.add (homogeneous_smul h2.homogeneous _)) _, fun _ _ _ _ _ _ h => ?_, fun _ _ _ _ _ _ h => ?_⟩
  · rw [fock_smul_left, fock_add_left, fock_smul_left, h1.ortho _ _ _ _ _ _ h, h2.ortho _ _ _ _ _ _ h]
    ring
  · rw [fock_smul_left, fock_add_left, fock_smul_left, h1.ortho' _ _ _ _ _ _ h, h2.ortho' _ _ _ _ _ _ h]
    ring

theorem ls_amplitudes {env : ChainEnv} (ha : Angular env.mosh) (A : RCOp) (q q' : LSJT) (p p' : LSPair)
    {M M' : ℤ} (hM : |M| ≤ q.L) (hM' : |M'| ≤ q'.L) : lsSpec env A q p q' p' =
      ∑ r ∈ orbStates (p.1 + p.2.2.1) q.L, ∑ s ∈ orbStates (p'.1 + p'.2.2.1) q'.L,
        fock (antisym q.S q.T (orbitals p q.L M)) (motions r q.L M) * A (motion q r) (motion q' s) *
          fock (antisym q'.S q'.T (orbitals p' q'.L M')) (motions s q'.L M') := by
  have hsub : ∀ N L S T : ℕ, rcStates N L S T = (orbStates N L).filter fun r => (r.2.1 + S + T) % 2 = 1 := fun N L S T => by
    ext r
    rw [mem_rc_orb, Finset.mem_filter]
  have h2 : √2 * √2 = (2 : ℝ) := Real.mul_self_sqrt (by norm_num)
  unfold lsSpec
  rw [hsub, Finset.sum_filter]
  refine Finset.sum_congr rfl fun r _ => ?_
  rw [fock_antisym]
  split_ifs
  · rw [hsub, Finset.sum_filter]
    refine Finset.sum_congr rfl fun s _ => ?_
    rw [fock_antisym]
    split_ifs
    · rw [bracket_orbitals ha r p hM, bracket_orbitals ha s p' hM']
      linear_combination (-fock (orbitals p q.L M) (motions r q.L M) * A (motion q r) (motion q' s) *
        fock (orbitals p' q'.L M') (motions s q'.L M')) * h2
    · ring
  · simp

theorem fock_ext {u u' : Two} (h : ∀ v, fock u v = fock u' v) : u = u' := by
  have key : ∀ (w : Two) (d : Fin 2 × Fin 3 →₀ ℕ), fock w (monomial d 1) = MvPolynomial.coeff d w * dfac d := by
    intro w d
    classical
    rw [fock_eq (S := insert d w.support) (Finset.subset_insert _ _), Finset.sum_eq_single d]
    · rw [coeff_monomial, if_pos rfl, mul_one]
    · intro e _ he
      rw [coeff_monomial, if_neg he.symm]
      ring
    · intro hd
      exact absurd (Finset.mem_insert_self _ _) hd
  ext d
  have := h (monomial d 1)
  rw [key, key] at this
  refine mul_right_cancel₀ (ne_of_gt ?_) this
  exact Finset.prod_pos fun i _ => by positivity

theorem expand_motions {N L : ℕ} {M : ℤ} {u : Two} (h : Shell N L M u) :
    u = ∑ r ∈ orbStates N L, fock u (motions r L M) • motions r L M :=
  fock_ext fun v => by
    rw [insert_motions h, fock_sum_left]
    exact Finset.sum_congr rfl fun r _ => by rw [fock_smul_left, fock_comm v]

theorem nodes {L : ℕ} {p p' : LSPair} (hp : IsOrb L p) (hp' : IsOrb L p') : ((p.1 - p.2.1) / 2 = (p'.1 - p'.2.1) / 2 ∧ p.2.1 = p'.2.1 ∧
    (p.2.2.1 - p.2.2.2) / 2 = (p'.2.2.1 - p'.2.2.2) / 2 ∧ p.2.2.2 = p'.2.2.2) ↔ p = p' := by
  obtain ⟨⟨h1, h2⟩, ⟨h3, h4⟩, _⟩ := hp
  obtain ⟨⟨h1', h2'⟩, ⟨h3', h4'⟩, _⟩ := hp'
  constructor
  · intro h
    ext <;> omega
  · rintro rfl
    exact ⟨rfl, rfl, rfl, rfl⟩

theorem couples_orb {L : ℕ} {p : LSPair} (hp : IsOrb L p) : Couples p.2.1 p.2.2.2 L := (quanta_orb (mem_orbStates.mpr ⟨hp, rfl⟩)).2

theorem orbitals_norm {L : ℕ} {p p' : LSPair} (hp : IsOrb L p) (hp' : IsOrb L p') {M : ℤ} (hM : |M| ≤ L) :
    fock (orbitals p L M) (orbitals p' L M) = if p = p' then 1 else 0 := by
  unfold orbitals
  rw [coupled_norm _ _ _ _ (couples_orb hp) hM]
  simp only [nodes hp hp']

theorem motions_norm {L : ℕ} {p p' : LSPair} (hp : IsOrb L p) (hp' : IsOrb L p') {M : ℤ} (hM : |M| ≤ L) :
    fock (motions p L M) (motions p' L M) = if p = p' then 1 else 0 := by
  unfold motions
  rw [← turn_coupled, ← turn_coupled, fock_turn (by norm_num), coupled_norm _ _ _ _ (couples_orb hp) hM]
  simp only [nodes hp hp']

/-! ## Properties -/

/-- **C166.**  If the elements given to the transformation are those of a linear operator on the states of two particles between states
of relative and centre-of-mass motion, the elements it returns are those of the operator between antisymmetrised states of two nucleons. -/
theorem ls_operator {env : ChainEnv} (ha : Angular env.mosh) (O : Two →ₗ[ℝ] Two) (A : RCOp) {q q' : LSJT} {p p' : LSPair}
    (hp : IsOrb q.L p) (hp' : IsOrb q'.L p') {M M' : ℤ} (hM : |M| ≤ q.L) (hM' : |M'| ≤ q'.L)
    (hA : ∀ r s, IsOrb q.L r → IsOrb q'.L s → A (motion q r) (motion q' s) = fock (motions r q.L M) (O (motions s q'.L M'))) :
    lsSpec env A q p q' p' = fock (antisym q.S q.T (orbitals p q.L M)) (O (antisym q'.S q'.T (orbitals p' q'.L M'))) := by
  have ht := fun M' => shell_antisym (mem_orbStates.mpr ⟨hp', rfl⟩) q'.S q'.T M'
  rw [ls_amplitudes ha A q q' p p' hM hM', insert_motions (shell_antisym (mem_orbStates.mpr ⟨hp, rfl⟩) q.S q.T M)]
  refine Finset.sum_congr rfl fun r hr => ?_
  conv_rhs => rw [expand_motions (ht M')]
  rw [map_sum, fock_sum_left, Finset.mul_sum]
  refine Finset.sum_congr rfl fun s hs => ?_
  rw [map_smul, fock_smul_left, hA r s (mem_orbStates.mp hr).1 (mem_orbStates.mp hs).1, fock_comm (motions r _ _)]
  ring

/-- **C166, for the code.**  Given the matrices of an operator between states of relative and centre-of-mass motion, the stage that
transforms to LS-coupled states of two nucleons returns its matrices between antisymmetrised states.  The operator may depend on
the spins and on the angular momenta it connects, so that `O` can be a reduced one. -/
theorem ls_stage_operator {env : ChainEnv} (ha : Angular env.mosh) {o : Relative.OpLabels} {T0 : ℕ} {t : Trunc} {rc ls : List LSSub} {Nmax : ℕ}
    (hrc : RCSpace Nmax rc) (hls : LSSpace t ls) (hsub : (ls.map LSSub.labels).Sublist (rc.map LSSub.labels)) (hN : t.N2max ≤ 84)
    (O : LSJT → LSJT → Two →ₗ[ℝ] Two) {M M' : ℕ → ℤ} (hM : ∀ L, |M L| ≤ L) (hM' : ∀ L, |M' L| ≤ L) {m : Blocks}
    (hm : Holds o T0 rc LSSub.qn LSSub.states m fun b x k y => fock (motions x b.L (M b.L)) (O b.lsjt k.lsjt (motions y k.L (M' k.L)))) :
    ∃ m', lsBlocks env o rc m ls T0 = .ok m' ∧ Holds o T0 ls LSSub.qn LSSub.states m' fun b x k y =>
      fock (antisym b.S b.T (orbitals x b.L (M b.L))) (O b.lsjt k.lsjt (antisym k.S k.T (orbitals y k.L (M' k.L)))) := by
  let A : RCOp := fun x y => fock (motions (x.Nr.toNat, x.lr.toNat, x.Nc.toNat, x.lc.toNat) x.L.toNat (M x.L.toNat))
    (O ⟨x.L.toNat, x.S.toNat, x.J.toNat, x.T.toNat⟩ ⟨y.L.toNat, y.S.toNat, y.J.toNat, y.T.toNat⟩
      (motions (y.Nr.toNat, y.lr.toNat, y.Nc.toNat, y.lc.toNat) y.L.toNat (M' y.L.toNat)))
  obtain ⟨m', h1, h2⟩ := ls_stage (env := env) (A := A) hrc hls hsub hN (m := m) (by simpa [A, rcState, LSSub.lsjt] using hm)
  refine ⟨m', h1, fun n b k x y hn hx hy i j p p' hp hp' => ?_⟩
  rw [h2 n b k x y hn hx hy i j p p' hp hp']
  have orb : ∀ z ∈ ls, ∀ u ∈ z.states, IsOrb z.L u := by
    intro z hz u hu
    obtain ⟨⟨⟨a1, a2, a3, a4⟩, _, a5, _⟩, _⟩ := (hls.states z hz u).mp hu
    exact ⟨⟨a1, a2⟩, ⟨a3, a4⟩, a5⟩
  exact ls_operator ha (O x.lsjt y.lsjt) A (q := x.lsjt) (q' := y.lsjt)
    (orb x (List.mem_of_getElem? hx) p (List.mem_of_getElem? hp)) (orb y (List.mem_of_getElem? hy) p' (List.mem_of_getElem? hp'))
    (hM x.L) (hM' y.L) fun r s _ _ => by simp [A, motion, LSSub.lsjt]

/-- The antisymmetrised states are orthogonal, and normalised to one or, for equal orbitals, to two. -/
theorem antisym_norm {L S T : ℕ} {p p' : LSPair} (hp : IsOrb L p) (hp' : IsOrb L p')
    (hc : lexLE (p.1, p.2.1) (p.2.2.1, p.2.2.2)) (hc' : lexLE (p'.1, p'.2.1) (p'.2.2.1, p'.2.2.2))
    (he : (p.1, p.2.1) = (p.2.2.1, p.2.2.2) → (L + S + T) % 2 = 1) {M : ℤ} (hM : |M| ≤ L) :
    fock (antisym S T (orbitals p L M)) (antisym S T (orbitals p' L M)) =
      if p = p' then (if (p.1, p.2.1) = (p.2.2.1, p.2.2.2) then 2 else 1) else 0 := by
  have hx : ∀ u v : Two, fock (exchanged u) v = fock u (exchanged v) := fun u v => by
    rw [← fock_exchanged, exchanged_twice]
  have ha2 := half
  have hc2 : ((-1 : ℝ) ^ (S + 1 + (T + 1))) * (-1) ^ (S + 1 + (T + 1)) = 1 := by
    rw [← pow_add]
    exact Even.neg_one_pow ⟨_, rfl⟩
  have e : fock (antisym S T (orbitals p L M)) (antisym S T (orbitals p' L M)) = fock (orbitals p L M) (orbitals p' L M) -
      (-1) ^ (S + 1 + (T + 1)) * fock (orbitals p L M) (exchanged (orbitals p' L M)) := by
    unfold antisym
    rw [fock_smul_left, fock_smul_right]
    simp only [sub_eq_add_neg, ← neg_smul, fock_add_left, fock_add_right, fock_smul_left, fock_smul_right, hx, exchanged_twice]
    generalize (1 / √2 : ℝ) = a at *
    generalize (-1 : ℝ) ^ (S + 1 + (T + 1)) = c at *
    linear_combination (fock (orbitals p L M) (orbitals p' L M) - 2 * c * fock (orbitals p L M) (exchanged (orbitals p' L M)) +
      c * c * fock (orbitals p L M) (orbitals p' L M)) * ha2 + 1 / 2 * fock (orbitals p L M) (orbitals p' L M) * hc2
  rw [e, exchanged_orbitals, fock_smul_right, orbitals_norm hp hp' hM, orbitals_norm hp (isOrb_flip hp') hM]
  unfold lexLE at hc hc'
  by_cases hpp : p = p'
  · subst hpp
    rw [if_pos rfl, if_pos rfl]
    by_cases hd : (p.1, p.2.1) = (p.2.2.1, p.2.2.2)
    · have ho := he hd
      rw [if_pos hd, if_pos (by rw [Prod.mk.injEq] at hd; unfold flip; ext <;> simp [hd])]
      rw [Prod.mk.injEq] at hd
      have : (-1 : ℝ) ^ (S + 1 + (T + 1)) * sgn ((p.2.1 : ℤ) + p.2.2.2 - L) = -1 := by
        unfold sgn
        rcases Nat.even_or_odd (S + 1 + (T + 1)) with h | h
        · rw [h.neg_one_pow, if_neg]
          · norm_num
          · rw [Nat.even_iff] at h
            omega
        · rw [h.neg_one_pow, if_pos]
          · norm_num
          · rw [Nat.odd_iff] at h
            omega
      linear_combination -this
    · rw [if_neg hd, if_neg]
      · ring
      · intro h
        apply hd
        rw [h]
        unfold flip
        simp only [Prod.mk.injEq]
        have h1 := congrArg (fun x : LSPair => x.1) h
        have h2 := congrArg (fun x : LSPair => x.2.1) h
        unfold flip at h1 h2
        dsimp only at h1 h2
        exact ⟨h1.symm, h2.symm⟩
  · rw [if_neg hpp, if_neg hpp, if_neg]
    · ring
    · intro h
      apply hpp
      subst h
      unfold flip at *
      dsimp only at hc
      ext <;> dsimp only <;> omega

/-- The identity goes to the identity, in the normalisation of antisymmetrised states. -/
theorem ls_identity {env : ChainEnv} (ha : Angular env.mosh) (A : RCOp) {q : LSJT} {p p' : LSPair} (hp : IsOrb q.L p) (hp' : IsOrb q.L p')
    (hc : lexLE (p.1, p.2.1) (p.2.2.1, p.2.2.2)) (hc' : lexLE (p'.1, p'.2.1) (p'.2.2.1, p'.2.2.2))
    (he : (p.1, p.2.1) = (p.2.2.1, p.2.2.2) → (q.L + q.S + q.T) % 2 = 1)
    (hA : ∀ r s, IsOrb q.L r → IsOrb q.L s → A (motion q r) (motion q s) = if r = s then 1 else 0) :
    lsSpec env A q p q p' = if p = p' then (if (p.1, p.2.1) = (p.2.2.1, p.2.2.2) then 2 else 1) else 0 := by
  have hM : |(0 : ℤ)| ≤ q.L := by simp
  rw [ls_operator ha LinearMap.id A hp hp' hM hM fun r s hr hs => by rw [hA r s hr hs, LinearMap.id_apply, motions_norm hr hs hM]]
  exact antisym_norm hp hp' hc hc' he hM

open Classical in
/-- The states of the code for given `N`, `L`, `S` and `T`. -/
noncomputable def lsStates (N L S T : ℕ) : Finset LSPair :=
  (orbStates N L).filter fun p => lexLE (p.1, p.2.1) (p.2.2.1, p.2.2.2) ∧ ((p.1, p.2.1) = (p.2.2.1, p.2.2.2) → (L + S + T) % 2 = 1)

theorem lsStates_quanta {N L S T : ℕ} {p : LSPair} (h : p ∈ lsStates N L S T) : p.1 + p.2.2.1 = N := by
  classical
  unfold lsStates at h
  rw [Finset.mem_filter] at h
  exact (mem_orbStates.mp h.1).2

theorem flip_bracket {env : Env} (ha : Angular env) (r p : LSPair) (L : ℕ) :
    bracket env (brArgs r (flip p) L) = sgn (p.2.1 + p.2.2.2 - L) * (-1) ^ r.2.1 * bracket env (brArgs r p L) := by
  have hM : |(0 : ℤ)| ≤ L := by simp
  have hs : sgn ((p.2.1 : ℤ) + p.2.2.2 - L) * sgn ((p.2.1 : ℤ) + p.2.2.2 - L) = 1 := by unfold sgn; split_ifs <;> norm_num
  rw [bracket_orbitals ha r _ hM, bracket_orbitals ha r _ hM]
  have h : fock (exchanged (orbitals p L 0)) (motions r L 0) = (-1) ^ r.2.1 * fock (orbitals p L 0) (motions r L 0) := by
    rw [← fock_exchanged, exchanged_twice, exchanged_motions, fock_smul_right]
  rw [exchanged_orbitals, fock_smul_left] at h
  rw [mul_assoc, ← h, ← mul_assoc, hs, one_mul]

theorem flip_diag (p : LSPair) : flip p = p ↔ (p.1, p.2.1) = (p.2.2.1, p.2.2.2) := by
  obtain ⟨a, b, c, d⟩ := p
  unfold flip
  simp only [Prod.mk.injEq]
  omega

/-- Sums over the antisymmetrised states of the code, with their norms, are sums over all states. -/
theorem ls_complete {env : Env} (ha : Angular env) {N L S T : ℕ} {s s' : LSPair} (hs : s ∈ rcStates N L S T) (hs' : s' ∈ rcStates N L S T) :
    (∑ p ∈ lsStates N L S T, 2 * bracket env (brArgs s p L) * bracket env (brArgs s' p L) /
      (if (p.1, p.2.1) = (p.2.2.1, p.2.2.2) then 2 else 1)) = if s = s' then 1 else 0 := by
  classical
  have hM : |(0 : ℤ)| ≤ L := by simp
  rw [mem_rc_orb] at hs hs'
  have hall : ∑ p ∈ orbStates N L, bracket env (brArgs s p L) * bracket env (brArgs s' p L) = if s = s' then 1 else 0 := by
    rw [← motions_norm (mem_orbStates.mp hs.1).1 (mem_orbStates.mp hs'.1).1 hM, insert_orbitals (shell_motions hs.1 0)]
    refine Finset.sum_congr rfl fun p _ => ?_
    rw [bracket_orbitals ha s p hM, bracket_orbitals ha s' p hM, fock_comm, fock_comm (orbitals p L 0)]
  have hf : ∀ p, bracket env (brArgs s (flip p) L) * bracket env (brArgs s' (flip p) L) =
      bracket env (brArgs s p L) * bracket env (brArgs s' p L) := by
    intro p
    rw [flip_bracket ha, flip_bracket ha]
    have h1 : sgn ((p.2.1 : ℤ) + p.2.2.2 - L) * sgn ((p.2.1 : ℤ) + p.2.2.2 - L) = 1 := by unfold sgn; split_ifs <;> norm_num
    have h2 : (-1 : ℝ) ^ s.2.1 * (-1) ^ s'.2.1 = 1 := by
      rw [← pow_add]
      exact Even.neg_one_pow (Nat.even_iff.mpr (by omega))
    linear_combination (bracket env (brArgs s p L) * bracket env (brArgs s' p L)) * (h1 * ((-1) ^ s.2.1 * (-1) ^ s'.2.1) + h2)
  have hz : ∀ p : LSPair, (p.1, p.2.1) = (p.2.2.1, p.2.2.2) → (L + S + T) % 2 ≠ 1 → bracket env (brArgs s p L) = 0 := by
    intro p hd ho
    have h := flip_bracket ha s p L
    rw [(flip_diag p).mpr hd] at h
    rw [Prod.mk.injEq] at hd
    have : sgn ((p.2.1 : ℤ) + p.2.2.2 - L) * (-1 : ℝ) ^ s.2.1 = -1 := by
      unfold sgn
      rcases Nat.even_or_odd s.2.1 with h | h
      · rw [h.neg_one_pow, if_neg]
        · norm_num
        · rw [Nat.even_iff] at h
          omega
      · rw [h.neg_one_pow, if_pos]
        · norm_num
        · rw [Nat.odd_iff] at h
          omega
    rw [this] at h
    linarith
  rw [← hall]
  set g : LSPair → ℝ := fun p => bracket env (brArgs s p L) * bracket env (brArgs s' p L) with hg
  have hsplit := Finset.sum_filter_add_sum_filter_not (orbStates N L) (fun p => lexLE (p.1, p.2.1) (p.2.2.1, p.2.2.2)) g
  have hnot : ∑ p ∈ (orbStates N L).filter (fun p => ¬lexLE (p.1, p.2.1) (p.2.2.1, p.2.2.2)), g p =
      ∑ p ∈ ((orbStates N L).filter (fun p => lexLE (p.1, p.2.1) (p.2.2.1, p.2.2.2))).filter (fun p => ¬(p.1, p.2.1) = (p.2.2.1, p.2.2.2)), g p := by
    refine Finset.sum_nbij' flip flip ?_ ?_ (fun _ _ => rfl) (fun _ _ => rfl) (fun p _ => (hf p).symm)
    · intro p hp
      simp only [Finset.mem_filter] at hp ⊢
      refine ⟨⟨flip_mem hp.1, ?_⟩, ?_⟩
      · have := hp.2
        unfold lexLE flip at *
        dsimp only at *
        omega
      · have := hp.2
        unfold lexLE flip at *
        rw [Prod.mk.injEq]
        dsimp only at *
        omega
    · intro p hp
      simp only [Finset.mem_filter] at hp ⊢
      refine ⟨flip_mem hp.1.1, ?_⟩
      obtain ⟨⟨_, h1⟩, h2⟩ := hp
      unfold lexLE flip at *
      rw [Prod.mk.injEq] at h2
      dsimp only at *
      omega
  rw [← hsplit, hnot, Finset.sum_filter (s := (orbStates N L).filter _), ← Finset.sum_add_distrib]
  have hls : lsStates N L S T = ((orbStates N L).filter (fun p => lexLE (p.1, p.2.1) (p.2.2.1, p.2.2.2))).filter
      (fun p => (p.1, p.2.1) = (p.2.2.1, p.2.2.2) → (L + S + T) % 2 = 1) := by
    rw [Finset.filter_filter]
    unfold lsStates
    congr
  rw [hls, Finset.sum_filter]
  refine Finset.sum_congr rfl fun p _ => ?_
  simp only [hg]
  by_cases hd : (p.1, p.2.1) = (p.2.2.1, p.2.2.2)
  · by_cases ho : (L + S + T) % 2 = 1
    · rw [if_pos (fun _ => ho), if_pos hd, if_neg (not_not.mpr hd)]
      ring
    · rw [if_neg (fun h => ho (h hd)), hz p hd ho]
      simp
  · rw [if_pos (fun h => absurd h hd), if_neg hd, if_pos hd]
    ring

/-- Products of operators go to products, in the normalisation of antisymmetrised states. -/
theorem ls_product {env : ChainEnv} (ha : Angular env.mosh) (A B : RCOp) (q q' q'' : LSJT) (N : ℕ) (p p'' : LSPair) :
    ∑ p' ∈ lsStates N q'.L q'.S q'.T,
      lsSpec env A q p q' p' * lsSpec env B q' p' q'' p'' / (if (p'.1, p'.2.1) = (p'.2.2.1, p'.2.2.2) then 2 else 1) =
    lsSpec env (fun x y => ∑ s ∈ rcStates N q'.L q'.S q'.T, A x (motion q' s) * B (motion q' s) y) q p q'' p'' := by
  set b := fun s p' => bracket env.mosh (brArgs s p' q'.L) with hb
  set R := rcStates N q'.L q'.S q'.T with hR
  let F : LSPair → ℝ := fun s => ∑ r ∈ rcStates (p.1 + p.2.2.1) q.L q.S q.T, 2 * bracket env.mosh (brArgs r p q.L) * A (motion q r) (motion q' s)
  let G : LSPair → ℝ := fun s => ∑ t ∈ rcStates (p''.1 + p''.2.2.1) q''.L q''.S q''.T, B (motion q' s) (motion q'' t) * bracket env.mosh (brArgs t p'' q''.L)
  have hA : ∀ p' ∈ lsStates N q'.L q'.S q'.T, lsSpec env A q p q' p' = ∑ s ∈ R, F s * b s p' := by
    intro p' hp'
    have hN := lsStates_quanta hp'
    unfold lsSpec
    rw [hN, Finset.sum_comm]
    refine Finset.sum_congr rfl fun s _ => ?_
    rw [Finset.sum_mul]
  have hB : ∀ p' ∈ lsStates N q'.L q'.S q'.T, lsSpec env B q' p' q'' p'' = ∑ s ∈ R, 2 * b s p' * G s := by
    intro p' hp'
    have hN := lsStates_quanta hp'
    unfold lsSpec
    rw [hN]
    refine Finset.sum_congr rfl fun s _ => ?_
    rw [Finset.mul_sum]
    exact Finset.sum_congr rfl fun t _ => by ring
  have hC : lsSpec env (fun x y => ∑ s ∈ R, A x (motion q' s) * B (motion q' s) y) q p q'' p'' = ∑ s ∈ R, F s * G s := by
    unfold lsSpec
    simp only [F, G, Finset.sum_mul_sum]
    symm
    rw [Finset.sum_comm]
    refine Finset.sum_congr rfl fun r _ => ?_
    rw [Finset.sum_comm]
    refine Finset.sum_congr rfl fun t _ => ?_
    rw [Finset.mul_sum, Finset.sum_mul]
    exact Finset.sum_congr rfl fun s _ => by ring
  rw [hC]
  have e : ∀ p' ∈ lsStates N q'.L q'.S q'.T,
      lsSpec env A q p q' p' * lsSpec env B q' p' q'' p'' / (if (p'.1, p'.2.1) = (p'.2.2.1, p'.2.2.2) then 2 else 1) =
      ∑ s ∈ R, ∑ s' ∈ R, F s * G s' * (2 * b s p' * b s' p' / (if (p'.1, p'.2.1) = (p'.2.2.1, p'.2.2.2) then 2 else 1)) := by
    intro p' hp'
    rw [hA p' hp', hB p' hp', Finset.sum_mul_sum, Finset.sum_div]
    refine Finset.sum_congr rfl fun s _ => ?_
    rw [Finset.sum_div]
    exact Finset.sum_congr rfl fun s' _ => by ring
  rw [Finset.sum_congr rfl e, Finset.sum_comm]
  refine Finset.sum_congr rfl fun s hs => ?_
  rw [Finset.sum_comm]
  have e2 : ∀ s' ∈ R, ∑ p' ∈ lsStates N q'.L q'.S q'.T,
      F s * G s' * (2 * b s p' * b s' p' / (if (p'.1, p'.2.1) = (p'.2.2.1, p'.2.2.2) then 2 else 1)) = if s = s' then F s * G s' else 0 := by
    intro s' hs'
    rw [← Finset.mul_sum, ls_complete ha hs hs']
    split_ifs <;> ring
  rw [Finset.sum_congr rfl e2, Finset.sum_ite_eq, if_pos hs]

/-- The hypotheses are met: an operator that is no scalar, states with nodes, unequal numbers of quanta and different `L`. -/
example (am : RelEnv) (nine : NineJ) (swap : ℕ → ℕ × ℕ → ℕ × ℕ → ℝ) :
    lsSpec ⟨am, angularEnv, nine, swap⟩
      (fun x y => fock (motions (x.Nr.toNat, x.lr.toNat, x.Nc.toNat, x.lc.toNat) x.L.toNat 0)
        (X (0, 1) * X (1, 1) * motions (y.Nr.toNat, y.lr.toNat, y.Nc.toNat, y.lc.toNat) y.L.toNat 1))
      ⟨3, 1, 2, 1⟩ (3, 1, 4, 2) ⟨2, 0, 2, 1⟩ (2, 0, 4, 2) =
    fock (antisym 1 1 (orbitals (3, 1, 4, 2) 3 0)) (X (0, 1) * X (1, 1) * antisym 0 1 (orbitals (2, 0, 4, 2) 2 1)) :=
  ls_operator (env := ⟨am, angularEnv, nine, swap⟩) angularEnv_angular (LinearMap.mulLeft ℝ (X (0, 1) * X (1, 1) : Two)) _
    (q := ⟨3, 1, 2, 1⟩) (q' := ⟨2, 0, 2, 1⟩) (p := (3, 1, 4, 2)) (p' := (2, 0, 4, 2)) (M := 0) (M' := 1)
    (by unfold IsOrb Moshinsky.Osc Tri; norm_num) (by unfold IsOrb Moshinsky.Osc Tri; norm_num) (by norm_num) (by norm_num)
    fun r s _ _ => by simp [motion, mul_assoc]

example (am : RelEnv) (nine : NineJ) (swap : ℕ → ℕ × ℕ → ℕ × ℕ → ℝ) :
    lsSpec ⟨am, angularEnv, nine, swap⟩ (fun x y => if x = y then 1 else 0) ⟨2, 1, 2, 0⟩ (3, 1, 3, 1) ⟨2, 1, 2, 0⟩ (3, 1, 3, 1) = 2 :=
  (ls_identity (env := ⟨am, angularEnv, nine, swap⟩) angularEnv_angular _ (q := ⟨2, 1, 2, 0⟩) (p := (3, 1, 3, 1)) (p' := (3, 1, 3, 1))
    (by unfold IsOrb Moshinsky.Osc Tri; norm_num) (by unfold IsOrb Moshinsky.Osc Tri; norm_num) (by unfold lexLE; norm_num)
    (by unfold lexLE; norm_num) (by norm_num) fun r s _ _ => by
      refine if_congr ?_ rfl rfl
      obtain ⟨a, b, c, d⟩ := r
      obtain ⟨a', b', c', d'⟩ := s
      simp [motion]).trans (by norm_num)

/-- The hypotheses are met in the spaces of 20 quanta, for any operator. -/
example (am : RelEnv) (nine : NineJ) (swap : ℕ → ℕ × ℕ → ℕ × ℕ → ℝ) (o : Relative.OpLabels) (T0 : ℕ) (O : LSJT → LSJT → Two →ₗ[ℝ] Two) :
    ∃ m m', lsBlocks ⟨am, angularEnv, nine, swap⟩ o (rcSpace 20) m (lsSpace ⟨12, 20⟩) T0 = .ok m' ∧
      Holds o T0 (lsSpace ⟨12, 20⟩) LSSub.qn LSSub.states m' fun b x k y =>
        fock (antisym b.S b.T (orbitals x b.L b.L)) (O b.lsjt k.lsjt (antisym k.S k.T (orbitals y k.L (-k.L)))) := by
  obtain ⟨m, _, hm⟩ := stage_ok o T0 (rcSpace 20) LSSub.qn LSSub.states
    (fun b x k y => fock (motions x b.L b.L) (O b.lsjt k.lsjt (motions y k.L (-k.L))))
    (fun p => match (rcSpace 20)[p.1]?, (rcSpace 20)[p.2]? with
      | some b, some k => .ok (b.states.map fun x => k.states.map fun y =>
          fock (motions x b.L b.L) (O b.lsjt k.lsjt (motions y k.L (-k.L))))
      | _, _ => .ok [])
    (fun b k x y hx hy _ _ => by simp only [hx, hy])
  exact ⟨m, ls_stage_operator (env := ⟨am, angularEnv, nine, swap⟩) angularEnv_angular (rcSpace_ok 20) (lsSpace_ok ⟨12, 20⟩)
    (spaces_sublist ⟨12, 20⟩) (by norm_num) O (M := fun L => L) (M' := fun L => -L) (fun L => by simp) (fun L => by simp) hm⟩

end Verif.Moshinsky
