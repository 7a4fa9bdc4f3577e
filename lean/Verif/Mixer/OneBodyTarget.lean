import Verif.Mixer.OneBodyProps
import Verif.Obme.FileProps
import Verif.Obme.GenProps

/-!
# Properties of the targets of `obmixer` and of the built-in operators
-/

namespace Verif.Mixer
open Verif Verif.Mapping Verif.Xform Verif.Obme
open Verif.H2 hiding Mat Subspace

/-- The orbital `(l,j,tz,n)` of a space is state `a` of subspace `i`. -/
def At (s : Space) (o : Obme.Labels × ℕ) (i a : ℕ) : Prop :=
  ∃ b, s[i]? = some b ∧ b.labels = o.1 ∧ b.ns[a]? = some o.2

theorem At.unique {s : Space} (g : GoodSpace s) {o : Obme.Labels × ℕ} {i a i' a' : ℕ} (h : At s o i a)
    (h' : At s o i' a') : i = i' ∧ a = a' := by
  obtain ⟨b, h1, h2, h3⟩ := h
  obtain ⟨b', h1', h2', h3'⟩ := h'
  have hi := sub_unique g h1 h1' (h2.trans h2'.symm)
  subst hi
  rw [h1] at h1'
  cases h1'
  refine ⟨rfl, ?_⟩
  obtain ⟨ha, _⟩ := List.getElem?_eq_some_iff.mp h3
  exact (List.getElem?_inj ha (g.ns b (mem_of_getElem? h1))).mp (h3.trans h3'.symm)

theorem At.dim {s : Space} {o : Obme.Labels × ℕ} {i a : ℕ} (h : At s o i a) : a < dim s i := by
  obtain ⟨b, h1, _, h3⟩ := h
  rw [dim_some h1]
  exact (List.getElem?_eq_some_iff.mp h3).1

open Classical in
/-- A sum over the states of a space against the indicator of one orbital. -/
theorem sum_at {s : Space} (g : GoodSpace s) {o : Obme.Labels × ℕ} (f : (_ : ℕ) × ℕ → ℝ) :
    (∀ i a, At s o i a → ∑ t ∈ states s, (if At s o t.1 t.2 then 1 else 0) * f t = f ⟨i, a⟩) ∧
    ((¬ ∃ i a, At s o i a) → ∑ t ∈ states s, (if At s o t.1 t.2 then 1 else 0) * f t = 0) := by
  constructor
  · intro i a h
    rw [Finset.sum_eq_single_of_mem ⟨i, a⟩ (mem_states'.mpr h.dim)]
    · simp [h]
    · rintro ⟨i', a'⟩ _ hne
      rw [if_neg, zero_mul]
      intro h'
      obtain ⟨rfl, rfl⟩ := h.unique g h'
      exact hne rfl
  · intro h
    apply Finset.sum_eq_zero
    rintro ⟨i', a'⟩ _
    rw [if_neg, zero_mul]
    intro h'
    exact h ⟨i', a', h'⟩

/-- **C81.** A target of `obmixer` is the named operator on the target orbitals: the tensor character is kept, the
element between two target orbitals is the element between the same orbitals of the operator, whatever their
positions, and zero if the operator does not have one of them.  Writing never fails for an operator of the map. -/
theorem target_element {env : ObEnv} {m : ObMap} {id : String} {d : ObData} (hm : m id = some (some d))
    (gd : GoodOb d) (ge : GoodSpace env.space) :
    ∃ r, targetOb env m id = .ok r ∧ GoodOb r ∧ r.space = env.space ∧ r.secs.qn = d.secs.qn ∧
      ∀ o o' i a k c, At env.space o i a → At env.space o' k c →
        (∀ i1 a1 k1 c1, At d.space o i1 a1 → At d.space o' k1 c1 → r.el i a k c = d.el i1 a1 k1 c1) ∧
        ((¬ ∃ i1 a1, At d.space o i1 a1) ∨ (¬ ∃ k1 c1, At d.space o' k1 c1) → r.el i a k c = 0) := by
  classical
  unfold targetOb
  rw [look_ok.mpr hm]
  simp only [Except.ok_bind']
  by_cases hsp : d.space = env.space
  · rw [if_pos hsp]
    refine ⟨d, rfl, gd, hsp, rfl, ?_⟩
    intro o o' i a k c h1 h2
    constructor
    · intro i1 a1 k1 c1 h3 h4
      rw [hsp] at h3 h4
      obtain ⟨rfl, rfl⟩ := h1.unique ge h3
      obtain ⟨rfl, rfl⟩ := h2.unique ge h4
      rfl
    · rw [hsp]
      rintro (h | h)
      · exact absurd ⟨i, a, h1⟩ h
      · exact absurd ⟨k, c, h2⟩ h
  · rw [if_neg hsp]
    obtain ⟨xm, x1, x2, x3⟩ := overlaps_identity (spl := env.ovl) (bt := env.basis) gd.space ge
      (allSectors_spec scalarQN d.space env.space) rfl
    obtain ⟨mats, s1, s2, s3⟩ := similarity_element (osecs := d.secs) (omats := d.mats) gd.space ge x2
      (by have := allSectors_spec d.secs.qn d.space d.space; rw [← gd.secs] at this; exact this) gd.fits
      (allSectors_spec d.secs.qn env.space env.space) rfl
    simp only [x1, s1, Except.ok_bind', Except.pure_ok]
    refine ⟨_, rfl, ⟨ge, rfl, s2⟩, rfl, rfl, ?_⟩
    have hind : ∀ {o : Obme.Labels × ℕ} {i a : ℕ}, At env.space o i a → ∀ t ∈ states d.space,
        elem (allSectors scalarQN d.space env.space) xm t.1 t.2 i a =
          if At d.space o t.1 t.2 then 1 else 0 := by
      rintro o i a ⟨b, h1, h2, h3⟩ ⟨j, e⟩ ht
      rw [mem_states'] at ht
      have hj := dim_pos_lt ht
      have hjs : d.space[j]? = some d.space[j] := List.getElem?_eq_getElem hj
      rw [dim_some hjs] at ht
      obtain ⟨ha, h3'⟩ := List.getElem?_eq_some_iff.mp h3
      simp only
      rw [x3 j i _ b e a hjs h1 ht ha]
      congr 1
      simp only [eq_iff_iff, At, hjs, Option.some.injEq, exists_eq_left', List.getElem?_eq_getElem ht,
        List.getD_eq_getElem?_getD, h3, Option.getD_some, h2]
    intro o o' i a k c h1 h2
    have hval : elem (allSectors d.secs.qn env.space env.space) mats i a k c =
        ∑ s ∈ states d.space, (if At d.space o s.1 s.2 then 1 else 0) *
          ∑ t ∈ states d.space, (if At d.space o' t.1 t.2 then 1 else 0) * d.el s.1 s.2 t.1 t.2 := by
      rw [s3]
      refine Finset.sum_congr rfl fun s hs => ?_
      rw [Finset.mul_sum]
      refine Finset.sum_congr rfl fun t ht => ?_
      rw [hind h1 s hs, hind h2 t ht, ObData.el]
      ring
    constructor
    · intro i1 a1 k1 c1 h3 h4
      show elem (allSectors d.secs.qn env.space env.space) mats i a k c = _
      rw [hval, (sum_at gd.space _).1 _ _ h3, (sum_at gd.space _).1 _ _ h4]
    · intro h
      show elem (allSectors d.secs.qn env.space env.space) mats i a k c = _
      rw [hval]
      rcases h with h | h
      · exact (sum_at gd.space _).2 h
      · apply Finset.sum_eq_zero
        intro s _
        rw [(sum_at gd.space _).2 h, mul_zero]

/-- **C81.** A target that names no operator is refused. -/
theorem target_unknown {env : ObEnv} {m : ObMap} {id : String} (hm : m id = none) :
    targetOb env m id = .error .exitFailure := by
  simp [targetOb, look, hm, Except.error_bind']

/-- **C81.** What `obmixer` writes reads back: each file, read by the same library, has the target orbitals as bra
and ket, the tensor character of the named operator, and its elements up to the number format. -/
theorem obmixer_files {Orb : Type} {lib : Lib Orb} (laws : LibLaws lib) {rnd : ℝ → ℝ} (h0 : rnd 0 = 0)
    {env : ObEnv} {chans : List ObChannel} {targets : List String} {files : List (List Obme.Line)}
    (hr : RunOK env chans) (hb : Built lib env.space) (h : obmixer lib rnd env chans targets = .ok files) :
    ∃ m, buildOb env chans = .ok m ∧ List.Forall₂ (fun id f => ∃ d r hd mats, m id = some (some d) ∧
      targetOb env m id = .ok r ∧ readFile lib f = .ok (hd, mats) ∧ hd.bra = env.space ∧ hd.ket = env.space ∧
      hd.secs = allSectors d.secs.qn env.space env.space ∧
      ∀ i a k c, elem hd.secs mats i a k c = rnd (chop (r.el i a k c))) targets files := by
  unfold obmixer at h
  simp only [Except.bind_eq_ok] at h
  obtain ⟨m, hm, h⟩ := h
  refine ⟨m, hm, ?_⟩
  rw [mapM_ok_iff] at h
  refine h.imp ?_
  intro id f hf
  simp only [Except.bind_eq_ok] at hf
  obtain ⟨r, h1, h2⟩ := hf
  have hlook : ∃ d, m id = some (some d) := by
    unfold targetOb at h1
    simp only [Except.bind_eq_ok, look_ok] at h1
    obtain ⟨d, hd, _⟩ := h1
    exact ⟨d, hd⟩
  obtain ⟨d, hd⟩ := hlook
  obtain ⟨r', e1, gr, e2, e3, _⟩ := target_element hd (build_good hr hm _ _ hd) hr.space
  rw [h1] at e1
  cases e1
  have hs := gr.secs
  rw [e2, e3] at hs
  rw [e2, hs] at h2
  have hfit := gr.fits
  rw [e2, hs] at hfit
  obtain ⟨file, mats', w1, w2, _, w4⟩ := file_round_trip laws h0 true 'S' d.secs.qn hb hb hfit []
  rw [h2] at w1
  cases w1
  rw [List.append_nil] at w2
  refine ⟨d, r, _, mats', hd, h1, w2, rfl, rfl, rfl, ?_⟩
  intro i a k c
  rw [ObData.el, hs]
  exact w4 i a k c

end Verif.Mixer
