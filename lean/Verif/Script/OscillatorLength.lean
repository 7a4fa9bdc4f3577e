import Verif.Osc.Schroedinger
import Verif.Script.GenerateInput
import Verif.Relative.N2LO

/-!
# Property C186: the length in the library and in the script
-/

namespace Verif.Script

/-- `generate_input.py` and the library have the same length, so the functions of the length that the script passes on solve the equation of C186. -/
theorem script_length (hw : ℝ) : oscillatorLength hw = Osc.oscillatorLength hw := rfl

theorem script_solves {hw : ℝ} (h : 0 < hw) (n l : ℕ) (g1 g2 : ℝ) :
    Osc.Solves 938.92 197.327 hw l (hw * (2 * n + l + 3 / 2)) fun r => Osc.waveFunction .position n l (oscillatorLength hw) r 0 g1 g2 :=
  Osc.length_solves h n l g1 g2

/-- The operators of chiral effective field theory are computed with another value of `ħc`. -/
theorem lenpic_hbarc_differs : Relative.Lenpic.hbarc ≠ Osc.kMFDnHc ∧ |Relative.Lenpic.hbarc - Osc.kMFDnHc| < 2e-5 := by
  unfold Relative.Lenpic.hbarc Osc.kMFDnHc
  constructor
  · norm_num
  · rw [abs_lt]
    constructor <;> norm_num

example : Osc.Solves 938.92 197.327 20 0 (20 * (2 * (1 : ℕ) + (0 : ℕ) + 3 / 2)) fun r => Osc.waveFunction .position 1 0 (oscillatorLength 20) r 0 0 0 :=
  script_solves (by norm_num) 1 0 0 0

end Verif.Script
