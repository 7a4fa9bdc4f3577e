import Verif.SU2.Multiplet

/-!
# Amplitudes

Spaces of amplitudes for one or several angular momenta, and the orthogonality and completeness of the coupling coefficients.
-/

namespace Verif.SU2

/-- Amplitudes over a set of projections, with raising and lowering operators. -/
structure Sys (α : Type*) where
  supp : Finset α
  P : (α → ℝ) →ₗ[ℝ] α → ℝ
  Q : (α → ℝ) →ₗ[ℝ] α → ℝ
  adj : ∀ f g : α → ℝ, ∑ a ∈ supp, P f a * g a = ∑ a ∈ supp, f a * Q g a

/-- The scalar product of amplitudes. -/
noncomputable def Sys.form {α : Type*} (s : Sys α) : (α → ℝ) →ₗ[ℝ] (α → ℝ) →ₗ[ℝ] ℝ :=
  LinearMap.mk₂ ℝ (fun f g => ∑ a ∈ s.supp, f a * g a)
    (fun f g h => by simp only [Pi.add_apply, add_mul, Finset.sum_add_distrib])
    (fun c f g => by simp only [Pi.smul_apply, smul_eq_mul, Finset.mul_sum, mul_assoc])
    (fun f g h => by simp only [Pi.add_apply, mul_add, Finset.sum_add_distrib])
    (fun c f g => by
      simp only [Pi.smul_apply, smul_eq_mul, Finset.mul_sum]
      exact Finset.sum_congr rfl fun _ _ => by ring)

theorem Sys.form_apply {α : Type*} (s : Sys α) (f g : α → ℝ) : s.form f g = ∑ a ∈ s.supp, f a * g a := rfl

theorem Sys.adj_P {α : Type*} (s : Sys α) (f g : α → ℝ) : s.form (s.P f) g = s.form f (s.Q g) := s.adj f g

theorem Sys.adj_Q {α : Type*} (s : Sys α) (f g : α → ℝ) : s.form (s.Q f) g = s.form f (s.P g) := by
  have := s.adj g f
  simp only [Sys.form_apply]
  rw [Finset.sum_congr rfl fun a _ => mul_comm (s.Q f a) (g a), ← this]
  exact Finset.sum_congr rfl fun a _ => mul_comm _ _

/-- One angular momentum. -/
noncomputable def spin (j : ℕ) : Sys ℤ where
  supp := projs j
  P := { toFun := fun f m => dn j m * f (m - 2)
         map_add' := fun f g => by funext m; simp only [Pi.add_apply]; ring
         map_smul' := fun c f => by funext m; simp only [Pi.smul_apply, smul_eq_mul, RingHom.id_apply]; ring }
  Q := { toFun := fun f m => up j m * f (m + 2)
         map_add' := fun f g => by funext m; simp only [Pi.add_apply]; ring
         map_smul' := fun c f => by funext m; simp only [Pi.smul_apply, smul_eq_mul, RingHom.id_apply]; ring }
  adj f g := by
    have := sum_step (j := j) (fun m => dn j m * f (m - 2) * g m)
      (by rw [dn_up, up_top]; ring) (by rw [dn_bottom]; ring)
    refine this.symm.trans (Finset.sum_congr rfl fun m _ => ?_)
    simp only [LinearMap.coe_mk, AddHom.coe_mk, dn_up, add_sub_cancel_right]
    ring

/-- The states of one angular momentum. -/
noncomputable def ket (j : ℕ) (m : ℤ) : ℤ → ℝ := fun k => if m ∈ projs j ∧ k = m then 1 else 0

theorem ket_multiplet (j : ℕ) : Multiplet (spin j).P (spin j).Q j (ket j) where
  out m hm := by
    funext k
    exact if_neg fun h => hm h.1
  raise m hm := by
    funext k
    simp only [spin, ket, LinearMap.coe_mk, AddHom.coe_mk, Pi.smul_apply, smul_eq_mul]
    by_cases hk : k = m + 2
    · subst hk
      rw [dn_up, if_pos ⟨hm, by ring⟩]
      by_cases hj : m + 2 ∈ projs j
      · rw [if_pos ⟨hj, rfl⟩]
      · rw [show m = j by rw [mem_projs] at *; omega, up_top]
        ring
    · rw [if_neg (fun h => hk (by omega)), if_neg (fun h => hk h.2)]
      ring
  lower m hm := by
    funext k
    simp only [spin, ket, LinearMap.coe_mk, AddHom.coe_mk, Pi.smul_apply, smul_eq_mul]
    by_cases hk : k = m - 2
    · subst hk
      rw [up_dn, if_pos ⟨hm, by ring⟩]
      by_cases hj : m - 2 ∈ projs j
      · rw [if_pos ⟨hj, rfl⟩]
      · rw [show m = -j by rw [mem_projs] at *; omega, dn_bottom]
        ring
    · rw [if_neg (fun h => hk (by omega)), if_neg (fun h => hk h.2)]
      ring

theorem scale {α : Type*} (P : (α → ℝ) →ₗ[ℝ] α → ℝ) (f : α → ℝ) (c : ℝ) (a : α) : P (fun x => f x * c) a = P f a * c := by
  have : (fun x => f x * c) = c • f := by
    funext x
    simp only [Pi.smul_apply, smul_eq_mul]
    ring
  rw [this, map_smul, Pi.smul_apply, smul_eq_mul, mul_comm]

theorem scale' {α : Type*} (P : (α → ℝ) →ₗ[ℝ] α → ℝ) (f : α → ℝ) (c : ℝ) (a : α) : P (fun x => c * f x) a = c * P f a := by
  rw [← smul_eq_mul, ← Pi.smul_apply, ← map_smul]
  rfl

/-- An operator on each of two systems. -/
noncomputable def both {α β : Type*} (P : (α → ℝ) →ₗ[ℝ] α → ℝ) (P' : (β → ℝ) →ₗ[ℝ] β → ℝ) : (α × β → ℝ) →ₗ[ℝ] α × β → ℝ where
  toFun f x := P (fun a => f (a, x.2)) x.1 + P' (fun b => f (x.1, b)) x.2
  map_add' f g := by
    funext x
    show P ((fun a => f (a, x.2)) + fun a => g (a, x.2)) x.1 + P' ((fun b => f (x.1, b)) + fun b => g (x.1, b)) x.2 =
      (P (fun a => f (a, x.2)) x.1 + P' (fun b => f (x.1, b)) x.2) + (P (fun a => g (a, x.2)) x.1 + P' (fun b => g (x.1, b)) x.2)
    rw [map_add, map_add, Pi.add_apply, Pi.add_apply]
    ring
  map_smul' c f := by
    funext x
    show P (c • fun a => f (a, x.2)) x.1 + P' (c • fun b => f (x.1, b)) x.2 =
      c * (P (fun a => f (a, x.2)) x.1 + P' (fun b => f (x.1, b)) x.2)
    rw [map_smul, map_smul, Pi.smul_apply, Pi.smul_apply, smul_eq_mul, smul_eq_mul]
    ring

theorem both_apply {α β : Type*} (P : (α → ℝ) →ₗ[ℝ] α → ℝ) (P' : (β → ℝ) →ₗ[ℝ] β → ℝ) (f : α × β → ℝ) (x : α × β) :
    both P P' f x = P (fun a => f (a, x.2)) x.1 + P' (fun b => f (x.1, b)) x.2 := rfl

/-- Two systems together. -/
noncomputable def Sys.prod {α β : Type*} (s : Sys α) (t : Sys β) : Sys (α × β) where
  supp := s.supp ×ˢ t.supp
  P := both s.P t.P
  Q := both s.Q t.Q
  adj f g := by
    simp only [both_apply, add_mul, mul_add, Finset.sum_add_distrib, Finset.sum_product]
    congr 1
    · rw [Finset.sum_comm]
      conv_rhs => rw [Finset.sum_comm]
      exact Finset.sum_congr rfl fun b _ => s.adj (fun a => f (a, b)) fun a => g (a, b)
    · exact Finset.sum_congr rfl fun a _ => t.adj (fun b => f (a, b)) fun b => g (a, b)

/-- Multiplication of amplitudes along a splitting of the projections. -/
noncomputable def mulAlong {α β γ : Type*} (p : γ → α) (q : γ → β) : (α → ℝ) →ₗ[ℝ] (β → ℝ) →ₗ[ℝ] γ → ℝ :=
  LinearMap.mk₂ ℝ (fun f g c => f (p c) * g (q c))
    (fun f g h => by funext c; simp only [Pi.add_apply]; ring)
    (fun c f g => by funext c; simp only [Pi.smul_apply, smul_eq_mul]; ring)
    (fun f g h => by funext c; simp only [Pi.add_apply]; ring)
    (fun c f g => by funext c; simp only [Pi.smul_apply, smul_eq_mul]; ring)

theorem mulAlong_apply {α β γ : Type*} (p : γ → α) (q : γ → β) (f : α → ℝ) (g : β → ℝ) (c : γ) :
    mulAlong p q f g c = f (p c) * g (q c) := rfl

theorem prod_P {α β : Type*} (s : Sys α) (t : Sys β) (f : α → ℝ) (g : β → ℝ) :
    (s.prod t).P (mulAlong Prod.fst Prod.snd f g) = mulAlong Prod.fst Prod.snd (s.P f) g + mulAlong Prod.fst Prod.snd f (t.P g) := by
  funext x
  simp only [Sys.prod, both_apply, mulAlong_apply, Pi.add_apply, scale, scale']

theorem prod_Q {α β : Type*} (s : Sys α) (t : Sys β) (f : α → ℝ) (g : β → ℝ) :
    (s.prod t).Q (mulAlong Prod.fst Prod.snd f g) = mulAlong Prod.fst Prod.snd (s.Q f) g + mulAlong Prod.fst Prod.snd f (t.Q g) := by
  funext x
  simp only [Sys.prod, both_apply, mulAlong_apply, Pi.add_apply, scale, scale']

theorem couple_ket (j1 j2 J : ℕ) (M : ℤ) (x : ℤ × ℤ) :
    couple (mulAlong Prod.fst Prod.snd) j1 (ket j1) j2 (ket j2) J M x = cgd j1 x.1 j2 x.2 J M := by
  have e : couple (mulAlong Prod.fst Prod.snd) j1 (ket j1) j2 (ket j2) J M x =
      ∑ m1 ∈ projs j1, ∑ m2 ∈ projs j2, if x.2 = m2 then (if x.1 = m1 then cgd j1 m1 j2 m2 J M else 0) else 0 := by
    simp only [couple, Finset.sum_apply, Pi.smul_apply, mulAlong_apply, smul_eq_mul, ket]
    refine Finset.sum_congr rfl fun m1 h1 => Finset.sum_congr rfl fun m2 h2 => ?_
    simp only [h1, h2, true_and]
    split_ifs <;> ring
  rw [e]
  simp only [Finset.sum_ite_eq]
  by_cases h1 : x.1 ∈ projs j1
  · by_cases h2 : x.2 ∈ projs j2
    · simp only [h2, if_true]
      rw [Finset.sum_ite_eq, if_pos h1]
    · simp only [h2, if_false, Finset.sum_const_zero]
      exact (cgd_range fun h => h2 h.2.1).symm
  · rw [cgd_range fun h => h1 h.1]
    refine Finset.sum_eq_zero fun m1 hm1 => ?_
    split_ifs
    · rename_i h
      exact absurd (h ▸ hm1) h1
    · rfl
    · rfl

/-- The coupling coefficients to `J` are the amplitudes of a multiplet. -/
theorem cgd_multiplet (j1 j2 J : ℕ) : Multiplet ((spin j1).prod (spin j2)).P ((spin j1).prod (spin j2)).Q J
    fun M x => cgd j1 x.1 j2 x.2 J M := by
  have := (ket_multiplet j1).couple (prod_P (spin j1) (spin j2)) (prod_Q (spin j1) (spin j2)) (ket_multiplet j2) J
  convert this using 2 with M
  funext x
  exact (couple_ket j1 j2 J M x).symm

/-- The coupling coefficients are orthonormal. -/
theorem cgd_ortho {j1 j2 J J' : ℕ} {M M' : ℤ} (ht : Coupled j1 j2 J) (hM : M ∈ projs J) :
    ∑ m1 ∈ projs j1, ∑ m2 ∈ projs j2, cgd j1 m1 j2 m2 J M * cgd j1 m1 j2 m2 J' M' = if J = J' ∧ M = M' then 1 else 0 := by
  split_ifs with h
  · rw [← h.1, ← h.2, ← cgd_norm ht hM]
    simp only [sq]
  · have := (cgd_multiplet j1 j2 J).ortho (Sys.adj_P _) (Sys.adj_Q _) (cgd_multiplet j1 j2 J') (m := M) (m' := M') (by tauto)
    rw [Sys.form_apply, Sys.prod, Finset.sum_product] at this
    exact this

/-- The projections of the first angular momentum with a given sum. -/
noncomputable def cols (j1 j2 : ℕ) (M : ℤ) : Finset ℤ := (projs j1).filter fun m => M - m ∈ projs j2
/-- The angular momenta with a given projection. -/
noncomputable def rows (j1 j2 : ℕ) (M : ℤ) : Finset ℕ := (Finset.range (j1 + j2 + 1)).filter fun J => Coupled j1 j2 J ∧ M ∈ projs J

theorem card_rows (j1 j2 : ℕ) (M : ℤ) : (rows j1 j2 M).card = (cols j1 j2 M).card := by
  refine Finset.card_bij (fun J _ => min (j1 : ℤ) (M + j2) - (j1 + j2 - J)) ?_ ?_ ?_
  · intro J h
    simp only [rows, cols, Finset.mem_filter, Finset.mem_range, Coupled, mem_projs, abs_le] at *
    omega
  · intro J _ J' _ h
    omega
  · intro m h
    refine ⟨((j1 : ℤ) + j2 + m - min (j1 : ℤ) (M + j2)).toNat, ?_, ?_⟩
    · simp only [rows, cols, Finset.mem_filter, Finset.mem_range, Coupled, mem_projs, abs_le] at *
      omega
    · simp only [cols, Finset.mem_filter, mem_projs] at h
      omega

theorem sum_cols (j1 j2 : ℕ) (M : ℤ) (f : ℤ → ℤ → ℝ) (h : ∀ m1 m2, m1 + m2 ≠ M → f m1 m2 = 0) :
    ∑ m1 ∈ projs j1, ∑ m2 ∈ projs j2, f m1 m2 = ∑ m ∈ cols j1 j2 M, f m (M - m) := by
  rw [cols, Finset.sum_filter]
  refine Finset.sum_congr rfl fun m1 _ => ?_
  split_ifs with hc
  · refine Finset.sum_eq_single (M - m1) (fun m2 _ h2 => h _ _ (by omega)) fun h2 => absurd hc h2
  · refine Finset.sum_eq_zero fun m2 h2 => h _ _ fun h3 => hc ?_
    rw [← h3, add_sub_cancel_left]
    exact h2

theorem complete_cols (j1 j2 : ℕ) (M : ℤ) {m m' : ℤ} (hm : m ∈ cols j1 j2 M) (hm' : m' ∈ cols j1 j2 M) :
    ∑ J ∈ rows j1 j2 M, cgd j1 m j2 (M - m) J M * cgd j1 m' j2 (M - m') J M = if m = m' then 1 else 0 := by
  let A : Matrix (rows j1 j2 M) (cols j1 j2 M) ℝ := Matrix.of fun J m => cgd j1 m j2 (M - m) J M
  have hA : A * A.transpose = 1 := by
    ext J J'
    rw [Matrix.mul_apply, Matrix.one_apply]
    simp only [A, Matrix.transpose_apply, Matrix.of_apply]
    have hJ := (Finset.mem_filter.mp J.2).2
    rw [Finset.sum_coe_sort (cols j1 j2 M) fun m => cgd j1 m j2 (M - m) J M * cgd j1 m j2 (M - m) J' M,
      ← sum_cols j1 j2 M (fun m1 m2 => cgd j1 m1 j2 m2 J M * cgd j1 m1 j2 m2 J' M) fun m1 m2 h => by rw [cgd_of_ne h, zero_mul],
      cgd_ortho hJ.1 hJ.2]
    simp only [Subtype.ext_iff, and_true]
  have e : (rows j1 j2 M) ≃ (cols j1 j2 M) := Fintype.equivOfCardEq (by simpa using card_rows j1 j2 M)
  have hB := (Matrix.mul_eq_one_comm_of_equiv e).mp hA
  have := congrFun (congrFun hB ⟨m, hm⟩) ⟨m', hm'⟩
  rw [Matrix.mul_apply, Matrix.one_apply] at this
  simp only [A, Matrix.transpose_apply, Matrix.of_apply, Subtype.mk.injEq] at this
  rw [← this, Finset.sum_coe_sort (rows j1 j2 M) fun J => cgd j1 m j2 (M - m) J M * cgd j1 m' j2 (M - m') J M]

/-- All angular momenta to which two couple. -/
noncomputable def sums (j1 j2 : ℕ) : Finset ℕ := (Finset.range (j1 + j2 + 1)).filter (Coupled j1 j2)

theorem mem_sums {j1 j2 J : ℕ} : J ∈ sums j1 j2 ↔ Coupled j1 j2 J := by
  rw [sums, Finset.mem_filter, Finset.mem_range]
  unfold Coupled
  omega

/-- The coupling coefficients are complete. -/
theorem cgd_complete {j1 j2 : ℕ} {m1 m2 m1' m2' : ℤ} (h1 : m1 ∈ projs j1) (h2 : m2 ∈ projs j2) (h1' : m1' ∈ projs j1) (h2' : m2' ∈ projs j2) :
    ∑ J ∈ sums j1 j2, ∑ M ∈ projs J, cgd j1 m1 j2 m2 J M * cgd j1 m1' j2 m2' J M = if m1 = m1' ∧ m2 = m2' then 1 else 0 := by
  have e : ∀ J ∈ sums j1 j2, ∑ M ∈ projs J, cgd j1 m1 j2 m2 J M * cgd j1 m1' j2 m2' J M =
      if m1 + m2 ∈ projs J then cgd j1 m1 j2 m2 J (m1 + m2) * cgd j1 m1' j2 m2' J (m1 + m2) else 0 := by
    intro J _
    rw [← Finset.sum_ite_eq (projs J) (m1 + m2) fun M => cgd j1 m1 j2 m2 J M * cgd j1 m1' j2 m2' J M]
    refine Finset.sum_congr rfl fun M _ => ?_
    split_ifs with h
    · rfl
    · rw [cgd_of_ne h, zero_mul]
  rw [Finset.sum_congr rfl e, ← Finset.sum_filter]
  by_cases hs : m1' + m2' = m1 + m2
  · have hr : (sums j1 j2).filter (fun J => m1 + m2 ∈ projs J) = rows j1 j2 (m1 + m2) := by
      ext J
      simp only [sums, rows, Finset.mem_filter, and_assoc]
    have := complete_cols j1 j2 (m1 + m2) (m := m1) (m' := m1') (Finset.mem_filter.mpr ⟨h1, by rwa [add_sub_cancel_left]⟩)
      (Finset.mem_filter.mpr ⟨h1', by rwa [← hs, add_sub_cancel_left]⟩)
    rw [hr]
    rw [add_sub_cancel_left, ← hs, add_sub_cancel_left, hs] at this
    rw [this]
    congr 1
    exact propext ⟨fun h => ⟨h, by omega⟩, fun h => h.1⟩
  · rw [if_neg (fun h => hs (by rw [h.1, h.2]))]
    refine Finset.sum_eq_zero fun J _ => ?_
    rw [cgd_of_ne (m1 := m1') hs, mul_zero]

end Verif.SU2
