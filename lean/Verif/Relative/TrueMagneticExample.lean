import Verif.Relative.TrueMagnetic
import Verif.Relative.NLOM1Examples

/-!
# A run for the magnetic dipole operator with the coefficients of Condon and Shortley
-/

namespace Verif.Relative.Relcm.Ex
open Verif Verif.H2 Verif.SU2 Verif.Relative Axial

/-- All antisymmetric states of a subspace up to `N` quanta. -/
def statesOf (N L S T g : ℕ) : List State :=
  (List.range (N + 1)).flatMap fun Nr => (List.range (Nr + 1)).flatMap fun lr => (List.range (N - Nr + 1)).flatMap fun Nc =>
    ((List.range (Nc + 1)).map fun lc => State.mk Nr lr Nc lc).filter fun p =>
      decide (p.Nr % 2 = p.lr % 2 ∧ p.Nc % 2 = p.lc % 2 ∧ (p.Nr + p.Nc) % 2 = g ∧ (p.lr + S + T) % 2 = 1) && tri p.lr p.lc L

/-- All subspaces up to `N` quanta. -/
def spaceOf (N : ℕ) : List Sub :=
  (List.range (N + 1)).flatMap fun L => (List.range 2).flatMap fun S => (List.range (L + S + 1)).flatMap fun J => (List.range 2).flatMap fun T =>
    ((List.range 2).map fun g => Sub.mk L S J T g (statesOf N L S T g)).filter fun s => tri s.L s.S s.J && !s.states.isEmpty

theorem states_ok {N L S T g : ℕ} {p : State} (h : p ∈ statesOf N L S T g) : StateOK N p ∧ tri p.lr p.lc L = true := by
  simp only [statesOf, List.mem_flatMap, List.mem_range, List.mem_filter, List.mem_map, Bool.and_eq_true, decide_eq_true_eq] at h
  obtain ⟨Nr, h1, lr, h2, Nc, h3, ⟨lc, h4, rfl⟩, ⟨h5, h6, _⟩, h7⟩ := h
  simp only at h5 h6 h7
  exact ⟨⟨by simp only; omega, by simp only; omega, h5, h6, by simp only; omega⟩, h7⟩

/-- The space meets the conditions for every truncation. -/
theorem space_ok (N : ℕ) : SpaceOK N (spaceOf N) := by
  have m : ∀ s ∈ spaceOf N, s.S ≤ 1 ∧ s.T ≤ 1 ∧ ∀ p ∈ s.states, StateOK N p ∧ tri p.lr p.lc s.L = true := by
    intro s hs
    simp only [spaceOf, List.mem_flatMap, List.mem_range, List.mem_filter, List.mem_map] at hs
    obtain ⟨L, _, S, hS, J, _, T, hT, ⟨g, _, rfl⟩, _⟩ := hs
    exact ⟨by simp only; omega, by simp only; omega, fun p hp => states_ok hp⟩
  exact ⟨fun s hs => ⟨(m s hs).1, (m s hs).2.1, fun p hp => ((m s hs).2.2 p hp).1⟩, fun s hs p hp => ((m s hs).2.2 p hp).2⟩

/-- C184: a run up to two quanta; the deuteron channel and the singlet are among the sectors, and their elements are written. -/
example (cubic : List ℝ → List ℝ → ℝ) : ∃ out, run nm (libD cubic spaceOf) (file "1" "LENPIC-NLOM1") = .ok out ∧ out.file = "out" ∧
    Stores cgD 1 1 (Relcm.m1 cgD harmK (radialInt cubic 3000 (√2 * 2)) 1 2 rootError) (sectorsOf ⟨1, 0, 1, 1⟩ (spaceOf 2)) out.blocks := by
  obtain ⟨out, h1, h2, _, _, h5, h6, _⟩ := relcm_gen_true (cubic := cubic) file_ok rfl
    ⟨by decide, by decide, by decide, by decide, by decide⟩ ⟨by decide, by decide, by decide, by decide⟩ (by norm_num) (space_ok 2)
  rw [h5] at h6
  exact ⟨out, h1, h2, h6⟩

/-- `³S1` and `¹S0` with the centre of mass at rest are states of the space, and form a sector. -/
example : ((spaceOf 2).filter fun s => decide (s.L = 0 ∧ s.g = 0 ∧ ⟨0, 0, 0, 0⟩ ∈ s.states)).map (fun s => (s.S, s.J, s.T)) = [(0, 0, 1), (1, 1, 0)] := by
  decide +kernel

example : ((sectorsOf ⟨1, 0, 1, 1⟩ (spaceOf 2) 1).any fun x => decide ((x.1.L, x.1.S, x.1.J, x.1.T) = (0, 0, 0, 1) ∧ (x.2.L, x.2.S, x.2.J, x.2.T) = (0, 1, 1, 0))) = true := by
  decide +kernel

/-- The elements with bra and ket exchanged: singlet to triplet and back. -/
example : ratio 0 1 * ratio 1 0 = 1 := by
  norm_num [ratio, Moshinsky.sgn]

end Verif.Relative.Relcm.Ex
