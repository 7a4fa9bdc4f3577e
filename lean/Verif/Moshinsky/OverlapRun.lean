import Verif.Moshinsky.SixJ

/-!
# What a run of the bracket code returns

The values returned by any sequence of calls are overlaps of coupled oscillator states (C164).
-/

namespace Verif.Moshinsky.Osc
open Verif.Moshinsky

/-! ## Specification -/

/-- The overlap for the arguments of a bracket with projection `M`; there is no state with a negative quantum number. -/
noncomputable def overlapKey (M : ℤ) (k : Key) : ℝ :=
  if 0 ≤ k.n1d ∧ 0 ≤ k.l1d ∧ 0 ≤ k.n2d ∧ 0 ≤ k.l2d ∧ 0 ≤ k.n1 ∧ 0 ≤ k.l1 ∧ 0 ≤ k.n2 ∧ 0 ≤ k.l2 ∧ 0 ≤ k.Λ then
    overlap cg k.n1d.toNat k.l1d.toNat k.n2d.toNat k.l2d.toNat k.n1.toNat k.l1.toNat k.n2.toNat k.l2.toNat k.Λ.toNat M
  else 0

/-! ## Properties -/

/-- The value for any arguments is an overlap, with any projection. -/
theorem bracket_overlap_key {env : Env} (ha : Angular env) (k : Key) {M : ℤ} (hM : |M| ≤ k.Λ ∨ k.Λ < 0) :
    bracket env k = overlapKey M k := by
  unfold overlapKey
  split_ifs with h
  · obtain ⟨n1d, l1d, n2d, l2d, n1, l1, n2, l2, Λ⟩ := k
    simp only at h hM
    obtain ⟨h1, h2, h3, h4, h5, h6, h7, h8, h9⟩ := h
    lift n1d to ℕ using h1
    lift l1d to ℕ using h2
    lift n2d to ℕ using h3
    lift l2d to ℕ using h4
    lift n1 to ℕ using h5
    lift l1 to ℕ using h6
    lift n2 to ℕ using h7
    lift l2 to ℕ using h8
    lift Λ to ℕ using h9
    simp only [Int.toNat_natCast]
    exact bracket_overlap ha (by omega) n1d l1d n2d l2d n1 l1 n2 l2
  · refine (bracket_brackets env).selection k fun hk => h ?_
    obtain ⟨hn, _, ht, _⟩ := hk
    simp only [Key.Nonneg] at hn
    have := abs_nonneg (k.l1d - k.l2d)
    omega

/-- **C164.**  With angular-momentum functions that have the defining property of six-j symbols, any sequence of calls within
the range of the table of factorials, whatever the cache holds from earlier calls of the sequence and in whatever order terms
are summed, returns for each call the overlap of the state of relative and centre-of-mass motion with the state of the two
particles, coupled to the same angular momentum, with any common projection. -/
theorem run_overlaps {env : Env} (ha : Angular env) (order : List (ℝ × Key) → List (ℝ × Key)) (horder : ∀ l, (order l).Perm l)
    (history : List Key) (hr : ∀ k ∈ history, k.InRange) (d : ℕ) (hd : ∀ k ∈ history, 2 * (k.n1 + k.n2).toNat + 2 ≤ d)
    (M : Key → ℤ) (hM : ∀ k ∈ history, |M k| ≤ k.Λ ∨ k.Λ < 0) :
    ∃ m, runAll env order d history (fun _ => none) = .ok (history.map fun k => overlapKey (M k) k, m) := by
  obtain ⟨m, hm⟩ := memo_transparent env (bracket env) (bracket_brackets env) order horder history hr d hd
  refine ⟨m, ?_⟩
  rw [hm]
  congr 2
  exact List.map_congr_left fun k hk => bracket_overlap_key ha k (hM k hk)

/-- The hypotheses are met: the functions made of six-j symbols, and calls with nodes in all four states. -/
example : ∃ m, runAll angularEnv id 6 [⟨1, 0, 0, 0, 1, 0, 0, 0, 0⟩, ⟨1, 1, 1, 2, 1, 2, 1, 1, 2⟩, ⟨0, -1, 0, 0, 0, 0, 0, 0, 0⟩]
    (fun _ => none) = .ok ([overlap cg 1 0 0 0 1 0 0 0 0 0, overlap cg 1 1 1 2 1 2 1 1 2 (-1), 0], m) := by
  have h := run_overlaps angularEnv_angular id (fun l => List.Perm.refl l)
    [⟨1, 0, 0, 0, 1, 0, 0, 0, 0⟩, ⟨1, 1, 1, 2, 1, 2, 1, 1, 2⟩, ⟨0, -1, 0, 0, 0, 0, 0, 0, 0⟩]
    (by simp only [List.mem_cons, List.not_mem_nil, or_false, forall_eq_or_imp, forall_eq]; simp [Key.InRange, Key.rho]) 6
    (by simp only [List.mem_cons, List.not_mem_nil, or_false, forall_eq_or_imp, forall_eq]; simp)
    (fun k => if k.Λ = 2 then -1 else 0)
    (by simp only [List.mem_cons, List.not_mem_nil, or_false, forall_eq_or_imp, forall_eq]; norm_num)
  simpa [overlapKey] using h

/-- The defining property fixes the six-j symbols wherever the sum it is about can be other than zero. -/
theorem sixj_determined {f g : Int → Int → Int → Int → Int → Int → ℝ} (hf : SixJ f) (hg : SixJ g) (l1 l1' κ l2' l2 Λ : ℕ)
    (ht : |(l1' : ℤ) - l2'| ≤ Λ ∧ (Λ : ℤ) ≤ l1' + l2') : f l1 l1' κ l2' l2 Λ = g l1 l1' κ l2' l2 Λ := by
  obtain ⟨m1, m2, hne⟩ : ∃ m1 m2 : ℤ, cg l1' m1 l2' m2 Λ 0 ≠ 0 := by
    by_contra hc
    push Not at hc
    have := cg_norm ht (M := 0) (by simp)
    simp [hc] at this
  have h1 : sgn ((l1' : ℤ) + l2 + Λ) ≠ 0 := by unfold sgn; split_ifs <;> norm_num
  have h2 : √((2 * (l1 : ℝ) + 1) * (2 * l2 + 1)) ≠ 0 := by positivity
  have h := (hf l1 l1' κ l2' l2 Λ m1 m2 0).symm.trans (hg l1 l1' κ l2' l2 Λ m1 m2 0)
  exact mul_left_cancel₀ (mul_ne_zero h1 h2) (mul_right_cancel₀ hne h)

example : |((1 : ℕ) : ℤ) - (2 : ℕ)| ≤ (2 : ℕ) ∧ ((2 : ℕ) : ℤ) ≤ (1 : ℕ) + (2 : ℕ) := by norm_num

end Verif.Moshinsky.Osc
