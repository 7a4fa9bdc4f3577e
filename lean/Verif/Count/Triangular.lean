import Verif.Count.Sums
import Mathlib.Algebra.Order.Archimedean.Real.Basic

/-!
# C60: the triangular mode of `orbital-gen`
-/

namespace Verif.Count
open Verif

/-- A loop that ends has met a value at which its condition fails, and all before satisfied it. -/
theorem For.ends {M : Type} {e : M} {op : M → M → M} {c : ℕ → Prop} {body : ℕ → M → Prop} {start : ℕ} {v : M}
    (h : For e op c body start v) : ∃ b, start ≤ b ∧ ¬ c b ∧ ∀ x, start ≤ x → x < b → c x ∧ ∃ w, body x w := by
  induction h with
  | stop h => exact ⟨_, le_rfl, h, by omega⟩
  | @step x v s hc hb _ ih =>
    obtain ⟨b, h1, h2, h3⟩ := ih
    refine ⟨b, by omega, h2, fun y hy hlt => ?_⟩
    by_cases hxy : y = x
    · subst hxy
      exact ⟨hc, v, hb⟩
    · exact h3 y (by omega) hlt

/-- A loop whose condition holds exactly below `b` appends its bodies. -/
theorem forList_iff {α : Type} {c : ℕ → Prop} {body : ℕ → List α → Prop} {f : ℕ → List α} {b : ℕ} : ∀ {start : ℕ},
    (∀ x, start ≤ x → (c x ↔ x < b)) → (∀ x v, start ≤ x → x < b → (body x v ↔ v = f x)) →
    ∀ {s}, ForList c body start s ↔ s = (List.range' start (b - start)).flatMap f := by
  intro start
  induction h : b - start generalizing start with
  | zero =>
    intro hc _ s
    have hn : ¬ c start := by rw [hc start le_rfl]; omega
    simp only [List.range'_zero, List.flatMap_nil]
    constructor
    · intro h
      cases h with
      | stop => rfl
      | step h _ _ => exact absurd h hn
    · rintro rfl
      exact .stop hn
  | succ m ih =>
    intro hc hb s
    have hlt : start < b := by omega
    have hy : c start := (hc start le_rfl).mpr hlt
    have ih' := fun {s} => ih (start := start + 1) (by omega) (fun x hx => hc x (by omega))
      (fun x v hx => hb x v (by omega)) (s := s)
    rw [List.range'_succ, List.flatMap_cons]
    constructor
    · intro h
      cases h with
      | stop h => exact absurd hy h
      | step _ h1 h2 => rw [(hb _ _ le_rfl hlt).mp h1, ih'.mp h2]
    · rintro rfl
      exact .step hy ((hb _ _ le_rfl hlt).mpr rfl) (ih'.mpr rfl)

/-- A linear condition with positive slope holds below some bound. -/
theorem linear_cut {a w : ℝ} (ha : 0 < a) (d : ℝ) : ∃ b : ℕ, ∀ n : ℕ, d + a * n ≤ w ↔ n < b := by
  classical
  have hex : ∃ n : ℕ, w < d + a * n := by
    obtain ⟨n, hn⟩ := exists_nat_gt ((w - d) / a)
    refine ⟨n, ?_⟩
    rw [div_lt_iff₀ ha] at hn
    linarith
  refine ⟨Nat.find hex, fun n => ⟨fun h => ?_, fun h => ?_⟩⟩
  · by_contra hc
    have h1 : ((Nat.find hex : ℕ) : ℝ) ≤ n := by exact_mod_cast not_lt.mp hc
    have h2 := Nat.find_spec hex
    have := mul_le_mul_of_nonneg_left h1 ha.le
    linarith
  · exact not_lt.mp (Nat.find_min hex h)

/-- The orbitals with `a n + b l ≤ wmax`. -/
def Inside (wmax a b : ℝ) (o : OrbitalInfo) : Prop :=
  o.species ≤ 1 ∧ a * o.n + b * o.l ≤ wmax ∧ (o.tj = 2 * o.l + 1 ∨ (o.tj = 2 * o.l - 1 ∧ 0 < o.tj)) ∧
    o.weight = a * o.n + b * o.l

/-- **C60.** The loops end exactly if the largest weight is negative or both coefficients are positive. -/
theorem triangular_ends (wmax a b : ℝ) : (∃ out, Triangular wmax a b out) ↔ wmax < 0 ∨ (0 < a ∧ 0 < b) := by
  constructor
  · rintro ⟨out, h⟩
    by_contra hc
    push_neg at hc
    obtain ⟨hw, hab⟩ := hc
    obtain ⟨s, -, hs, h1⟩ := h.ends
    have hs0 : 0 < s := by
      rcases Nat.eq_zero_or_pos s with rfl | h
      · exact absurd (Nat.zero_le 1) hs
      · exact h
    obtain ⟨-, v, hv⟩ := h1 0 le_rfl hs0
    obtain ⟨n, -, hn, h2⟩ := hv.ends
    have ha : 0 < a := by
      by_contra ha
      apply hn
      have := mul_nonpos_of_nonpos_of_nonneg (not_lt.mp ha) (Nat.cast_nonneg (α := ℝ) n)
      linarith
    have hn0 : 0 < n := by
      rcases Nat.eq_zero_or_pos n with rfl | h
      · exact absurd (by simpa using hw) hn
      · exact h
    obtain ⟨-, u, hu⟩ := h2 0 le_rfl hn0
    obtain ⟨l, -, hl, -⟩ := hu.ends
    apply hl
    have := mul_nonpos_of_nonpos_of_nonneg (hab ha) (Nat.cast_nonneg (α := ℝ) l)
    simp only [Nat.cast_zero, mul_zero, zero_add]
    linarith
  · rintro (hw | ⟨ha, hb⟩)
    · have inner : ∀ s, ForList (fun n : ℕ => a * n ≤ wmax) (fun n v =>
          ForList (fun l : ℕ => a * n + b * l ≤ wmax) (fun l v => v = emit a b s n l) 0 v) 0 [] := fun s =>
        .stop (by simpa using hw)
      exact ⟨_, .step (by norm_num) (inner 0) (.step (by norm_num) (inner 1) (.stop (by norm_num)))⟩
    · choose L hL using fun n : ℕ => linear_cut (w := wmax) hb (a * n)
      obtain ⟨B, hB⟩ := linear_cut (w := wmax) ha 0
      simp only [zero_add] at hB
      refine ⟨_, (forList_iff (b := 2) (fun x _ => by omega) fun s v _ _ => forList_iff (fun n _ => hB n)
        fun n v _ _ => forList_iff (fun l _ => hL n l) fun l v _ _ => Iff.rfl).mpr rfl⟩

theorem triangular_list {wmax a b : ℝ} (ha : 0 < a) (hb : 0 < b) {out : List OrbitalInfo} (h : Triangular wmax a b out) :
    ∃ (B : ℕ) (L : ℕ → ℕ), (∀ n : ℕ, a * n ≤ wmax ↔ n < B) ∧ (∀ n l : ℕ, a * n + b * l ≤ wmax ↔ l < L n) ∧
      out = (List.range 2).flatMap fun s => (List.range B).flatMap fun n => (List.range (L n)).flatMap fun l =>
        emit a b s n l := by
  choose L hL using fun n : ℕ => linear_cut (w := wmax) hb (a * n)
  obtain ⟨B, hB⟩ := linear_cut (w := wmax) ha 0
  simp only [zero_add] at hB
  refine ⟨B, L, hB, hL, ?_⟩
  have := (forList_iff (b := 2) (fun x _ => by omega) fun s v _ _ => forList_iff (fun n _ => hB n)
    fun n v _ _ => forList_iff (fun l _ => hL n l) fun l v _ _ => Iff.rfl).mp h
  simpa only [Nat.sub_zero, List.range_eq_range'] using this

theorem mem_emit {a b : ℝ} {s n l : ℕ} {o : OrbitalInfo} : o ∈ emit a b s n l ↔ o.species = s ∧ o.n = n ∧ o.l = l ∧
    (o.tj = 2 * l + 1 ∨ (o.tj = 2 * l - 1 ∧ 0 < o.tj)) ∧ o.weight = a * n + b * l := by
  obtain ⟨s', n', l', t', w'⟩ := o
  unfold emit
  rw [List.mem_append]
  split
  · simp only [List.mem_singleton, OrbitalInfo.mk.injEq]
    constructor
    · rintro (⟨rfl, rfl, rfl, rfl, rfl⟩ | ⟨rfl, rfl, rfl, rfl, rfl⟩)
      · exact ⟨rfl, rfl, rfl, Or.inr ⟨rfl, by omega⟩, rfl⟩
      · exact ⟨rfl, rfl, rfl, Or.inl rfl, rfl⟩
    · rintro ⟨rfl, rfl, rfl, (rfl | ⟨rfl, _⟩), rfl⟩
      · exact Or.inr ⟨rfl, rfl, rfl, rfl, rfl⟩
      · exact Or.inl ⟨rfl, rfl, rfl, rfl, rfl⟩
  · rename_i hl
    simp only [List.not_mem_nil, false_or, List.mem_singleton, OrbitalInfo.mk.injEq]
    constructor
    · rintro ⟨rfl, rfl, rfl, rfl, rfl⟩
      exact ⟨rfl, rfl, rfl, Or.inl rfl, rfl⟩
    · rintro ⟨rfl, rfl, rfl, (rfl | ⟨rfl, h⟩), rfl⟩
      · exact ⟨rfl, rfl, rfl, rfl, rfl⟩
      · omega

/-- **C60.** When the loops end with positive coefficients, the list holds exactly the orbitals with
`a n + b l ≤ wmax` and `j = l ± 1/2 > 0` of both species, each once. -/
theorem triangular_orbitals {wmax a b : ℝ} (ha : 0 < a) (hb : 0 < b) {out : List OrbitalInfo}
    (h : Triangular wmax a b out) : (∀ o, o ∈ out ↔ Inside wmax a b o) ∧ out.Nodup := by
  obtain ⟨B, L, hB, hL, rfl⟩ := triangular_list ha hb h
  constructor
  · intro o
    simp only [List.mem_flatMap, List.mem_range, mem_emit]
    constructor
    · rintro ⟨s, hs, n, hn, l, hl, rfl, rfl, rfl, ht, hw⟩
      exact ⟨by omega, (hL _ _).mpr hl, ht, hw⟩
    · rintro ⟨h1, h2, h3, h4⟩
      refine ⟨o.species, by omega, o.n, (hB _).mp ?_, o.l, (hL _ _).mp h2, rfl, rfl, rfl, h3, h4⟩
      have := mul_nonneg hb.le (Nat.cast_nonneg (α := ℝ) o.l)
      linarith
  · have key : ∀ {γ : Type} (l : List ℕ) (f : ℕ → List γ), l.Nodup → (∀ x, (f x).Nodup) →
        (∀ x y, x ≠ y → ∀ o, o ∈ f x → o ∉ f y) → (l.flatMap f).Nodup := by
      intro γ l f hl hf hd
      rw [List.nodup_flatMap]
      refine ⟨fun x _ => hf x, ?_⟩
      refine hl.imp fun {x y} hxy => ?_
      exact fun o ho ho' => hd x y hxy o ho ho'
    have he : ∀ s n l, (emit a b s n l).Nodup := by
      intro s n l
      unfold emit
      split
      · simp only [List.singleton_append, List.nodup_cons, List.mem_singleton, OrbitalInfo.mk.injEq, List.not_mem_nil,
          not_false_eq_true, List.nodup_nil, and_true, true_and]
        omega
      · simp
    refine key _ _ List.nodup_range (fun s => key _ _ List.nodup_range (fun n => key _ _ List.nodup_range (he s n) ?_) ?_) ?_
    · intro x y hxy o h1 h2
      exact hxy ((mem_emit.mp h1).2.2.1.symm.trans (mem_emit.mp h2).2.2.1)
    · intro x y hxy o h1 h2
      simp only [List.mem_flatMap, List.mem_range, mem_emit] at h1 h2
      obtain ⟨_, _, _, e1, _⟩ := h1
      obtain ⟨_, _, _, e2, _⟩ := h2
      exact hxy (e1.symm.trans e2)
    · intro x y hxy o h1 h2
      simp only [List.mem_flatMap, List.mem_range, mem_emit] at h1 h2
      obtain ⟨_, _, _, _, e1, _⟩ := h1
      obtain ⟨_, _, _, _, e2, _⟩ := h2
      exact hxy (e1.symm.trans e2)

/-- **C60.** A file is written exactly if the largest weight is not negative and both coefficients are positive; it holds
exactly the orbitals inside the triangle, each once.  A negative largest weight is an error. -/
theorem triangular_file (wmax a b : ℝ) :
    (∀ out, Written wmax a b (.ok out) → 0 ≤ wmax ∧ 0 < a ∧ 0 < b ∧ (∀ o, o ∈ out ↔ Inside wmax a b o) ∧ out.Nodup) ∧
    (0 ≤ wmax → 0 < a → 0 < b → ∃ out, Written wmax a b (.ok out)) ∧
    (∀ err, Written wmax a b (.error err) ↔ err = .exitFailure ∧ wmax < 0) := by
  have empty : ∀ out, wmax < 0 → Triangular wmax a b out → out = [] := by
    intro out hw h
    have body : ∀ s v, ForList (fun n : ℕ => a * n ≤ wmax) (fun n v =>
        ForList (fun l : ℕ => a * n + b * l ≤ wmax) (fun l v => v = emit a b s n l) 0 v) 0 v → v = [] := by
      intro s v h
      cases h with
      | stop => rfl
      | step h _ _ => exact absurd (by simpa using h) (not_le.mpr hw)
    have := (forList_iff (b := 2) (f := fun _ => []) (fun x _ => by omega) fun s v _ _ =>
      ⟨body s v, fun e => e ▸ .stop (by simpa using hw)⟩).mp h
    rw [this]
    rfl
  have full : ∀ out, 0 ≤ wmax → 0 < a → 0 < b → Triangular wmax a b out → out ≠ [] := by
    rintro out hw ha hb h rfl
    have := ((triangular_orbitals ha hb h).1 ⟨0, 0, 0, 1, 0⟩).mpr ⟨by simp, by simpa using hw, by simp, by simp⟩
    cases this
  refine ⟨?_, ?_, ?_⟩
  · intro out h
    cases h with
    | some h hne hp =>
      have hc := (triangular_ends wmax a b).mp ⟨_, h⟩
      rcases hc with hw | ⟨ha, hb⟩
      · exact absurd (empty _ hw h) hne
      · have hw : 0 ≤ wmax := by
          by_contra hw
          exact hne (empty _ (not_le.mp hw) h)
        obtain ⟨h1, h2⟩ := triangular_orbitals ha hb h
        exact ⟨hw, ha, hb, fun o => (hp.mem_iff).trans (h1 o), hp.nodup_iff.mpr h2⟩
  · intro hw ha hb
    obtain ⟨out, h⟩ := (triangular_ends wmax a b).mpr (Or.inr ⟨ha, hb⟩)
    exact ⟨out, .some h (full out hw ha hb h) (List.Perm.refl _)⟩
  · intro err
    constructor
    · intro h
      cases h with
      | none h =>
        refine ⟨rfl, ?_⟩
        by_contra hw
        rcases (triangular_ends wmax a b).mp ⟨_, h⟩ with h' | ⟨ha, hb⟩
        · exact hw h'
        · exact full _ (not_lt.mp hw) ha hb h rfl
    · rintro ⟨rfl, hw⟩
      obtain ⟨out, h⟩ := (triangular_ends wmax a b).mpr (Or.inl hw)
      exact .none (empty _ hw h ▸ h)

/-- With a negative coefficient the error is reported though there are orbitals below the largest weight. -/
example : Written (-1) (-1) 1 (.error .exitFailure) ∧ Inside (-1) (-1) 1 ⟨0, 1, 0, 1, -1⟩ :=
  ⟨((triangular_file (-1) (-1) 1).2.2 _).mpr ⟨rfl, by norm_num⟩, by norm_num [Inside]⟩

/-- The weights of the oscillator give a file. -/
example : ∃ out, Written 3 2 1 (.ok out) ∧ (⟨0, 1, 1, 3, 3⟩ : OrbitalInfo) ∈ out := by
  obtain ⟨out, h⟩ := (triangular_file 3 2 1).2.1 (by norm_num) (by norm_num) (by norm_num)
  refine ⟨out, h, (((triangular_file 3 2 1).1 out h).2.2.2.1 _).mpr ?_⟩
  norm_num [Inside]

/-- **C60.** With the weights `2n + l` of the oscillator and largest weight `N`, the file holds the orbitals of the shells
up to `N`. -/
theorem triangular_oscillator {N : ℕ} {out : List OrbitalInfo} (h : Written N 2 1 (.ok out)) :
    ∀ s n l t, s ≤ 1 → ((∃ o ∈ out, o.species = s ∧ o.n = n ∧ o.l = l ∧ o.tj = (t : ℕ)) ↔ (n, l, t) ∈ nlj N) := by
  obtain ⟨-, -, -, h1, -⟩ := (triangular_file _ _ _).1 out h
  intro s n l t hs
  have hcast : (2 * (n : ℝ) + 1 * l ≤ N) ↔ 2 * n + l ≤ N := by
    rw [one_mul]
    exact_mod_cast Iff.rfl
  simp only [nlj, Finset.mem_filter, Finset.mem_product, Finset.mem_range]
  constructor
  · rintro ⟨o, ho, rfl, rfl, rfl, ht⟩
    obtain ⟨-, h3, h4, -⟩ := (h1 o).mp ho
    rw [hcast] at h3
    rw [ht] at h4
    omega
  · rintro ⟨-, h2, h3⟩
    refine ⟨⟨s, n, l, t, 2 * n + 1 * l⟩, (h1 _).mpr ⟨hs, hcast.mpr h2, ?_, rfl⟩, rfl, rfl, rfl, rfl⟩
    simp only
    omega

end Verif.Count
