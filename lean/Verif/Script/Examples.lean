import Verif.Script.GenerateInputProps
import Verif.Script.Hamiltonian
import Mathlib.Data.Real.Archimedean
import Mathlib.Algebra.Order.Floor.Ring

/-!
# The hypotheses of C156 and C157 are met
-/

namespace Verif.Script.Ex
open Verif Verif.Mixer.Control

/-- A way of writing integers. -/
def unary (i : Int) : String := String.ofList ((if i < 0 then '-' else '+') :: List.replicate i.natAbs '1')

theorem unary_inj {i j : Int} (h : unary i = unary j) : i = j := by
  have h1 := String.ofList_injective h
  rw [List.cons.injEq] at h1
  have h2 := congrArg List.length h1.2
  simp only [List.length_replicate] at h2
  have h3 := h1.1
  split at h3 <;> split at h3 <;> first | omega | (exact absurd h3 (by decide))

open Classical in
/-- Reading of integers written so, and of zero. -/
noncomputable def int? (s : String) : Option Int :=
  if s = "0" then some 0 else if h : ∃ i, unary i = s then some h.choose else none

theorem int?_unary (i : Int) : int? (unary i) = some i := by
  have h0 : unary i ≠ "0" := by
    intro h
    have h1 := congrArg String.toList h
    unfold unary at h1
    rw [String.toList_ofList] at h1
    split at h1 <;> simp at h1
  have h : ∃ j, unary j = unary i := ⟨i, rfl⟩
  unfold int?
  rw [if_neg h0, dif_pos h, unary_inj h.choose_spec]

noncomputable def nm : Numbers := ⟨int?, fun s => (int? s).map fun i => (i : ℝ)⟩

noncomputable def pr : Printing := ⟨unary, fun x => unary ⌊x⌋, fun x => unary ⌊x⌋⟩

theorem readable : Readable nm pr := by
  refine ⟨int?_unary, fun i => ?_, fun x => ?_, fun x => ?_, rfl⟩ <;>
    simp [nm, pr, int?_unary]

theorem reads : Reads nm pr fun x => (⌊x⌋ : ℝ) where
  plain := by simp [nm, pr, int?_unary]
  e x := by simp [nm, pr, int?_unary]

/-- The parameters of `example01.py`, with another mass number. -/
noncomputable def params (n : ℕ) (coulomb : Bool) : Params where
  NmaxOrb := 2
  NmaxOrbInt := 20
  orbitals := "orbitals.dat"
  orbitalsInt := "orbitals-int.dat"
  radialMe t n := "radial-me-" ++ t ++ toString n ++ ".dat"
  olap := "radial-olap.dat"
  VNN := "JISP16-ob-9-20.bin"
  VC := "VC-ob-9-20.bin"
  hw := 20
  target := ("tb", 2)
  hwInt := 20
  hwC := 20
  xform := false
  xformTrunc := ("ob", 9)
  A := n
  a := 20
  hwCm := none
  coulomb := coulomb
  h2Format := 0

theorem input_exists (n : ℕ) (hn : n ≠ 0) (coulomb : Bool) : ∃ ls, h2mixerInput pr (params n coulomb) = .ok ls := by
  have hc : Computable (params n coulomb) := by
    refine ⟨?_, ?_, ?_, ?_⟩ <;> simp [params, Params.cm, hn]
  have h1 : ∃ w, weightMax pr (params n coulomb).target = .ok w := ⟨_, by
    simp only [weightMax, params, String.reduceEq, if_true, if_false]
    rfl⟩
  have h2 : ∃ src, sourceLines pr (params n coulomb) = .ok src := ⟨_, rfl⟩
  obtain ⟨w, h1⟩ := h1
  obtain ⟨src, h2⟩ := h2
  unfold h2mixerInput
  rw [h1, h2, H2.Except.ok_bind', H2.Except.ok_bind', if_pos hc]
  exact ⟨_, rfl⟩

/-- `h2mixer` is given a file, with lines that it reads and lines that it does not. -/
example (setup : Setup) (disk : Disk) : ∃ ls, h2mixerInput pr (params 4 true) = .ok ls ∧
    h2mixer setup disk (asControl ls) = .error .parseError ∧ ["define-source", "operator", "Ursqr"] ∈ ls ∧
    (∃ c, parse nm ⟨["define-target", "tbme-H.bin"], false⟩ = .ok c) := by
  obtain ⟨ls, h⟩ := input_exists 4 (by norm_num) true
  refine ⟨ls, h, example_mixer_refused h _ _, ?_, ?_⟩
  · obtain ⟨w, src, -, hs, -, rfl⟩ := input_shape h
    simp only [List.mem_append]
    refine .inl (.inr ?_)
    simp [sourceLines, vnnLine, params] at hs
    rw [← hs]
    simp
  · obtain ⟨w, src, -, hs, -, e⟩ := input_shape h
    refine (example_mixer_lines_partial h readable ?_).mpr ?_
    · rw [e]
      simp [targetLines, targets]
    · simp [Outdated]

/-- The settings of the example are read. -/
example : ∃ ls l1 l2 l3 l4 rest, h2mixerInput pr (params 4 true) = .ok ls ∧ ls = l1 :: l2 :: l3 :: l4 :: rest ∧
    parse nm ⟨l1, false⟩ = .ok (.indexing (params 4 true).orbitals ⟨2, 2, 2, 2, 2⟩) ∧ parse nm ⟨l4, false⟩ = .ok (.mass 4) := by
  obtain ⟨ls, h⟩ := input_exists 4 (by norm_num) true
  obtain ⟨l1, l2, l3, l4, rest, w, e, ht, h1, -, -, h4⟩ := example_settings_partial h readable fun i => by simp [nm, pr, int?_unary]
  refine ⟨ls, l1, l2, l3, l4, rest, h, e, ?_, by rw [h4]; rfl⟩
  rcases ht with ⟨ht, -⟩ | ⟨-, rfl⟩
  · simp [params] at ht
  · rw [h1]
    simp [params]

/-- For any number of particles, in an algebra where one is not zero, the Hamiltonian of the example with the parameters as
distributed. -/
example (n : ℕ) (hn : n ≠ 0) (VNN VC : Module.End ℂ (MvPolynomial (Fin n × Fin 3) ℂ)) :
    ∃ ts, Target (params n true) "tbme-H.bin" ts ∧
      combine ((polynomials n).source (oscillatorLength 20) VNN VC) ts =
        (polynomials n).Trel + VNN + (20 : ℂ) • (polynomials n).Ncm 20 + VC := by
  refine ⟨_, by
    simp only [Target, targets, List.mem_cons, Prod.mk.injEq, true_and]
    exact .inl rfl, ?_⟩
  have hc : 0 < mNcsqr * 20 := by norm_num [mNcsqr]
  have hl : oscillatorLength 20 / oscillatorLength 20 = 1 := by
    apply div_self
    have : (0 : ℝ) < hbarc := by norm_num [hbarc]
    unfold oscillatorLength
    have := Real.sqrt_pos.mpr hc
    positivity
  have h := example_H (polynomials n) (p := params n true) rfl hn (by norm_num [params]) (.inr ⟨rfl, rfl⟩)
    (by norm_num [params]) (by norm_num [params]) VNN VC (by
      simp only [Target, targets, List.mem_cons, Prod.mk.injEq, true_and]
      exact .inl rfl)
  rw [show (params n true).hw = 20 from rfl, show (params n true).hwC = 20 from rfl, hl] at h
  refine h.trans ?_
  simp [params]

end Verif.Script.Ex
