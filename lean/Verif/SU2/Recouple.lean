import Verif.SU2.Scheme

/-!
# Recoupling of three and of four angular momenta

The recoupling coefficients are defined by sums over projections of products of coupling coefficients.  They do not depend on the
projection of the total, and they expand the states of one scheme in those of the other.
-/

namespace Verif.SU2

/-! ## Three angular momenta -/

/-- The amplitude of `ma`, `mb`, `mc` in the state `((a b)ab c)J M`. -/
noncomputable def amp3 (a b c ab J : ℕ) (M ma mb mc : ℤ) : ℝ := cgd a ma b mb ab (ma + mb) * cgd ab (ma + mb) c mc J M

/-- The overlap of `((a b)ab c)J M` and `((a c)ac b)J M`. -/
noncomputable def overlap3 (a b c ab ac J : ℕ) (M : ℤ) : ℝ :=
  ∑ ma ∈ projs a, ∑ mb ∈ projs b, ∑ mc ∈ projs c, amp3 a b c ab J M ma mb mc * amp3 a c b ac J M ma mc mb

theorem ket_self {j : ℕ} {m : ℤ} (hm : m ∈ projs j) : ket j m m = 1 := if_pos ⟨hm, rfl⟩

/-- Three angular momenta coupled from the left. -/
noncomputable def left3 (a b c : ℕ) := ((Scheme.one a).couple (Scheme.one b)).couple (Scheme.one c)

theorem left3_A (a b c ab J : ℕ) (M : ℤ) {x : (ℤ × ℤ) × ℤ} (hx : x ∈ (((spin a).prod (spin b)).prod (spin c)).supp) :
    (left3 a b c).A ⟨(⟨((), ()), ab⟩, ()), J⟩ M x = amp3 a b c ab J M x.1.1 x.1.2 x.2 := by
  rw [Sys.prod, Finset.mem_product, Sys.prod, Finset.mem_product] at hx
  obtain ⟨⟨h1, h2⟩, h3⟩ := hx
  show cgd ab (x.1.1 + x.1.2) c x.2 J M * (cgd a x.1.1 b x.1.2 ab (x.1.1 + x.1.2) * (ket a x.1.1 x.1.1 * ket b x.1.2 x.1.2) * ket c x.2 x.2) = _
  rw [ket_self h1, ket_self h2, ket_self h3, amp3]
  ring

/-- Exchange of the last two. -/
def swap23 : (ℤ × ℤ) × ℤ ≃ (ℤ × ℤ) × ℤ where
  toFun x := ((x.1.1, x.2), x.1.2)
  invFun x := ((x.1.1, x.2), x.1.2)
  left_inv _ := rfl
  right_inv _ := rfl

/-- The scheme that couples the first and the third. -/
noncomputable def other3 (a b c : ℕ) : Scheme (((spin a).prod (spin b)).prod (spin c)) ((_ : ((_ : Unit × Unit) × ℕ) × Unit) × ℕ) :=
  (left3 a c b).reorder (((spin a).prod (spin b)).prod (spin c)) swap23
    (fun f => by
      funext x
      simp only [Sys.prod, both_apply, Function.comp_apply, swap23, Equiv.coe_fn_mk]
      ring)
    (fun f => by
      funext x
      simp only [Sys.prod, both_apply, Function.comp_apply, swap23, Equiv.coe_fn_mk]
      ring)
    (fun x hx => by
      simp only [Sys.prod, Finset.mem_product, swap23, Equiv.coe_fn_mk] at *
      tauto)

theorem supp3 {a b c : ℕ} {x : (ℤ × ℤ) × ℤ} : x ∈ (((spin a).prod (spin b)).prod (spin c)).supp ↔
    (x.1.1 ∈ projs a ∧ x.1.2 ∈ projs b) ∧ x.2 ∈ projs c := by
  simp only [Sys.prod, Finset.mem_product, spin]

theorem other3_A (a b c ac J : ℕ) (M : ℤ) {x : (ℤ × ℤ) × ℤ} (hx : x ∈ (((spin a).prod (spin b)).prod (spin c)).supp) :
    (other3 a b c).A ⟨(⟨((), ()), ac⟩, ()), J⟩ M x = amp3 a c b ac J M x.1.1 x.2 x.1.2 := by
  refine left3_A a c b ac J M (x := swap23 x) ?_
  rw [supp3] at *
  simp only [swap23, Equiv.coe_fn_mk]
  tauto

theorem form3 (a b c ab ac J : ℕ) (M : ℤ) : (((spin a).prod (spin b)).prod (spin c)).form
    ((left3 a b c).A ⟨(⟨((), ()), ab⟩, ()), J⟩ M) ((other3 a b c).A ⟨(⟨((), ()), ac⟩, ()), J⟩ M) = overlap3 a b c ab ac J M := by
  rw [Sys.form_apply, Finset.sum_congr rfl fun x hx => by rw [left3_A _ _ _ _ _ _ hx, other3_A _ _ _ _ _ _ hx]]
  simp only [Sys.prod, Finset.sum_product, spin]
  rfl

theorem left3_mult (a b c ab J : ℕ) : Multiplet (((spin a).prod (spin b)).prod (spin c)).P (((spin a).prod (spin b)).prod (spin c)).Q J
    ((left3 a b c).A ⟨(⟨((), ()), ab⟩, ()), J⟩) := (left3 a b c).mult ⟨(⟨((), ()), ab⟩, ()), J⟩

theorem other3_j (a b c ac J : ℕ) : (other3 a b c).j ⟨(⟨((), ()), ac⟩, ()), J⟩ = J := rfl

/-- The overlap does not depend on the projection. -/
theorem overlap3_eq (a b c ab ac J : ℕ) {M : ℤ} (hM : M ∈ projs J) : overlap3 a b c ab ac J M = overlap3 a b c ab ac J J := by
  rw [← form3, ← form3]
  exact (other3 a b c).overlap (left3_mult a b c ab J) (other3_j a b c ac J) hM

/-- Expansion of the states of one scheme in those of the other. -/
theorem recouple3 (a b c ab J : ℕ) (M : ℤ) {ma mb mc : ℤ} (ha : ma ∈ projs a) (hb : mb ∈ projs b) (hc : mc ∈ projs c) :
    amp3 a b c ab J M ma mb mc = ∑ ac ∈ (sums a c).filter (fun ac => Coupled ac b J), overlap3 a b c ab ac J J * amp3 a c b ac J M ma mc mb := by
  have hx : ((ma, mb), mc) ∈ (((spin a).prod (spin b)).prod (spin c)).supp := by
    rw [supp3]
    exact ⟨⟨ha, hb⟩, hc⟩
  have e := (other3 a b c).expand (left3_mult a b c ab J) (M := M) hx
  rw [left3_A _ _ _ _ _ _ hx] at e
  rw [e, Finset.sum_filter]
  have hK : (other3 a b c).K = ((((Finset.univ : Finset Unit) ×ˢ (Finset.univ : Finset Unit)).sigma fun _ => sums a c) ×ˢ
      (Finset.univ : Finset Unit)).sigma fun p => sums p.1.2 b := rfl
  rw [hK, Finset.sum_sigma, Finset.sum_product, Finset.sum_sigma, Finset.sum_product]
  simp only [Finset.univ_unique, Finset.sum_singleton, PUnit.default_eq_unit]
  rw [Finset.sum_filter]
  refine Finset.sum_congr rfl fun ac _ => ?_
  trans ∑ J' ∈ sums ac b, if J' = J then overlap3 a b c ab ac J J * amp3 a c b ac J M ma mc mb else 0
  · refine Finset.sum_congr rfl fun J' _ => ?_
    rw [other3_j]
    split_ifs with h
    · subst h
      rw [other3_A _ _ _ _ _ _ hx]
      congr 1
      exact form3 a b c ab ac J' J'
    · rfl
  · rw [Finset.sum_ite_eq']
    simp only [mem_sums]

/-! ## Four angular momenta -/

/-- The amplitude of `m1`, `s1`, `m2`, `s2` in the state `((j1 j2)J12 (j3 j4)J34)J M` of four angular momenta. -/
noncomputable def amp4 (j1 j2 j3 j4 J12 J34 J : ℕ) (M m1 m2 m3 m4 : ℤ) : ℝ :=
  cgd j1 m1 j2 m2 J12 (m1 + m2) * cgd j3 m3 j4 m4 J34 (m3 + m4) * cgd J12 (m1 + m2) J34 (m3 + m4) J M

/-- The overlap of `((a b)ab (c d)cd)J M` and `((a c)ac (b d)bd)J M`. -/
noncomputable def overlap4 (a b c d ab cd ac bd J : ℕ) (M : ℤ) : ℝ :=
  ∑ ma ∈ projs a, ∑ mb ∈ projs b, ∑ mc ∈ projs c, ∑ md ∈ projs d,
    amp4 a b c d ab cd J M ma mb mc md * amp4 a c b d ac bd J M ma mc mb md

/-- Four angular momenta coupled in pairs. -/
noncomputable def pairs4 (a b c d : ℕ) := ((Scheme.one a).couple (Scheme.one b)).couple ((Scheme.one c).couple (Scheme.one d))

theorem supp4 {a b c d : ℕ} {x : (ℤ × ℤ) × (ℤ × ℤ)} : x ∈ (((spin a).prod (spin b)).prod ((spin c).prod (spin d))).supp ↔
    (x.1.1 ∈ projs a ∧ x.1.2 ∈ projs b) ∧ x.2.1 ∈ projs c ∧ x.2.2 ∈ projs d := by
  simp only [Sys.prod, Finset.mem_product, spin]

theorem pairs4_A (a b c d ab cd J : ℕ) (M : ℤ) {x : (ℤ × ℤ) × (ℤ × ℤ)} (hx : x ∈ (((spin a).prod (spin b)).prod ((spin c).prod (spin d))).supp) :
    (pairs4 a b c d).A ⟨(⟨((), ()), ab⟩, ⟨((), ()), cd⟩), J⟩ M x = amp4 a b c d ab cd J M x.1.1 x.1.2 x.2.1 x.2.2 := by
  rw [supp4] at hx
  obtain ⟨⟨h1, h2⟩, h3, h4⟩ := hx
  show cgd ab (x.1.1 + x.1.2) cd (x.2.1 + x.2.2) J M * (cgd a x.1.1 b x.1.2 ab (x.1.1 + x.1.2) * (ket a x.1.1 x.1.1 * ket b x.1.2 x.1.2) *
    (cgd c x.2.1 d x.2.2 cd (x.2.1 + x.2.2) * (ket c x.2.1 x.2.1 * ket d x.2.2 x.2.2))) = _
  rw [ket_self h1, ket_self h2, ket_self h3, ket_self h4, amp4]
  ring

/-- Exchange of the middle two. -/
def middle : (ℤ × ℤ) × (ℤ × ℤ) ≃ (ℤ × ℤ) × (ℤ × ℤ) where
  toFun x := ((x.1.1, x.2.1), (x.1.2, x.2.2))
  invFun x := ((x.1.1, x.2.1), (x.1.2, x.2.2))
  left_inv _ := rfl
  right_inv _ := rfl

/-- The scheme that couples the first and the third, and the second and the fourth. -/
noncomputable def other4 (a b c d : ℕ) : Scheme (((spin a).prod (spin b)).prod ((spin c).prod (spin d)))
    ((_ : ((_ : Unit × Unit) × ℕ) × ((_ : Unit × Unit) × ℕ)) × ℕ) :=
  (pairs4 a c b d).reorder (((spin a).prod (spin b)).prod ((spin c).prod (spin d))) middle
    (fun f => by
      funext x
      simp only [Sys.prod, both_apply, Function.comp_apply, middle, Equiv.coe_fn_mk]
      ring)
    (fun f => by
      funext x
      simp only [Sys.prod, both_apply, Function.comp_apply, middle, Equiv.coe_fn_mk]
      ring)
    (fun x hx => by
      simp only [Sys.prod, Finset.mem_product, middle, Equiv.coe_fn_mk] at *
      tauto)

theorem other4_A (a b c d ac bd J : ℕ) (M : ℤ) {x : (ℤ × ℤ) × (ℤ × ℤ)} (hx : x ∈ (((spin a).prod (spin b)).prod ((spin c).prod (spin d))).supp) :
    (other4 a b c d).A ⟨(⟨((), ()), ac⟩, ⟨((), ()), bd⟩), J⟩ M x = amp4 a c b d ac bd J M x.1.1 x.2.1 x.1.2 x.2.2 := by
  refine pairs4_A a c b d ac bd J M (x := middle x) ?_
  rw [supp4] at *
  simp only [middle, Equiv.coe_fn_mk]
  tauto

theorem form4 (a b c d ab cd ac bd J : ℕ) (M : ℤ) : (((spin a).prod (spin b)).prod ((spin c).prod (spin d))).form
    ((pairs4 a b c d).A ⟨(⟨((), ()), ab⟩, ⟨((), ()), cd⟩), J⟩ M) ((other4 a b c d).A ⟨(⟨((), ()), ac⟩, ⟨((), ()), bd⟩), J⟩ M) =
      overlap4 a b c d ab cd ac bd J M := by
  rw [Sys.form_apply, Finset.sum_congr rfl fun x hx => by rw [pairs4_A _ _ _ _ _ _ _ _ hx, other4_A _ _ _ _ _ _ _ _ hx]]
  simp only [Sys.prod, Finset.sum_product, spin]
  rfl

theorem pairs4_mult (a b c d ab cd J : ℕ) : Multiplet (((spin a).prod (spin b)).prod ((spin c).prod (spin d))).P
    (((spin a).prod (spin b)).prod ((spin c).prod (spin d))).Q J ((pairs4 a b c d).A ⟨(⟨((), ()), ab⟩, ⟨((), ()), cd⟩), J⟩) :=
  (pairs4 a b c d).mult ⟨(⟨((), ()), ab⟩, ⟨((), ()), cd⟩), J⟩

theorem other4_j (a b c d ac bd J : ℕ) : (other4 a b c d).j ⟨(⟨((), ()), ac⟩, ⟨((), ()), bd⟩), J⟩ = J := rfl

/-- The overlap does not depend on the projection. -/
theorem overlap4_eq (a b c d ab cd ac bd J : ℕ) {M : ℤ} (hM : M ∈ projs J) :
    overlap4 a b c d ab cd ac bd J M = overlap4 a b c d ab cd ac bd J J := by
  rw [← form4, ← form4]
  exact (other4 a b c d).overlap (pairs4_mult a b c d ab cd J) (other4_j a b c d ac bd J) hM

/-- Expansion of the states of one scheme in those of the other. -/
theorem recouple4 (a b c d ab cd J : ℕ) (M : ℤ) {ma mb mc md : ℤ} (ha : ma ∈ projs a) (hb : mb ∈ projs b) (hc : mc ∈ projs c)
    (hd : md ∈ projs d) : amp4 a b c d ab cd J M ma mb mc md =
      ∑ ac ∈ sums a c, ∑ bd ∈ (sums b d).filter (fun bd => Coupled ac bd J),
        overlap4 a b c d ab cd ac bd J J * amp4 a c b d ac bd J M ma mc mb md := by
  have hx : ((ma, mb), (mc, md)) ∈ (((spin a).prod (spin b)).prod ((spin c).prod (spin d))).supp := by
    rw [supp4]
    exact ⟨⟨ha, hb⟩, hc, hd⟩
  have e := (other4 a b c d).expand (pairs4_mult a b c d ab cd J) (M := M) hx
  rw [pairs4_A _ _ _ _ _ _ _ _ hx] at e
  rw [e, Finset.sum_filter]
  have hK : (other4 a b c d).K = ((((Finset.univ : Finset Unit) ×ˢ (Finset.univ : Finset Unit)).sigma fun _ => sums a c) ×ˢ
      (((Finset.univ : Finset Unit) ×ˢ (Finset.univ : Finset Unit)).sigma fun _ => sums b d)).sigma fun p => sums p.1.2 p.2.2 := rfl
  rw [hK, Finset.sum_sigma, Finset.sum_product, Finset.sum_sigma, Finset.sum_product]
  simp only [Finset.univ_unique, Finset.sum_singleton, PUnit.default_eq_unit]
  refine Finset.sum_congr rfl fun ac _ => ?_
  rw [Finset.sum_sigma, Finset.sum_product]
  simp only [Finset.sum_singleton]
  rw [Finset.sum_filter]
  refine Finset.sum_congr rfl fun bd _ => ?_
  trans ∑ J' ∈ sums ac bd, if J' = J then overlap4 a b c d ab cd ac bd J J * amp4 a c b d ac bd J M ma mc mb md else 0
  · refine Finset.sum_congr rfl fun J' _ => ?_
    rw [other4_j]
    split_ifs with h
    · subst h
      rw [other4_A _ _ _ _ _ _ _ _ hx]
      congr 1
      exact form4 a b c d ab cd ac bd J' J'
    · rfl
  · rw [Finset.sum_ite_eq']
    simp only [mem_sums]

end Verif.SU2
