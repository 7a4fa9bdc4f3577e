import Verif.Mixer.Words
import Verif.Relative.Gen
import Mathlib.Analysis.Real.Sqrt

/-!
# The worked example and the conversion script

Models of `script/manual-example/generate_input.py` (`run_script`, `h2mixer_input`) and of `script/jpv2rel.py`.

Simplifications: numbers are exact until they are printed; printing is a given function; a file name is one word.  The
comments and empty lines of the generated files are left out, as the readers of the programs leave them out.  An exception
of Python ends the run.  `mfdn_input`, the input of a program that is not part of this repository, is not modelled.
-/

namespace Verif.Script
open Verif Verif.Mixer.Control

/-! ## Parameters -/

/-- Entries of the dictionary `params` (`generate_input.py` 29-55). -/
structure Params where
  NmaxOrb : Int
  NmaxOrbInt : Int
  orbitals : String
  orbitalsInt : String
  /-- `radial_me_filename_pattern` with the two places filled. -/
  radialMe : String → Int → String
  olap : String
  VNN : String
  VC : String
  hw : ℝ
  target : String × Int
  hwInt : ℝ
  hwC : ℝ
  xform : Bool
  xformTrunc : String × Int
  A : Int
  a : ℝ
  hwCm : Option ℝ
  coulomb : Bool
  h2Format : Int

/-- `str.format` for integers, and for floating-point numbers with `{}` and with `{:e}`. -/
structure Printing where
  int : Int → String
  plain : ℝ → String
  e : ℝ → String

/-- `k_mN_csqr` (`generate_input.py` 19), in MeV. -/
noncomputable def mNcsqr : ℝ := 938.92

/-- `k_hbar_c` (`generate_input.py` 20), in MeV fm. -/
noncomputable def hbarc : ℝ := 197.327

/-! ## Helpers -/

/-- `weight_max_string` (`generate_input.py` 77-92); for another code `cutoffs` is not assigned. -/
def weightMax (pr : Printing) (t : String × Int) : Except Err (List String) :=
  if t.1 = "ob" then .ok [pr.int t.2, pr.int t.2, pr.int (2 * t.2), pr.int (2 * t.2), pr.int (2 * t.2)]
  else if t.1 = "tb" then .ok [pr.int t.2, pr.int t.2, pr.int t.2, pr.int t.2, pr.int t.2]
  else .error .exitFailure

/-- `oscillator_length` (`generate_input.py` 94-106), where it is defined. -/
noncomputable def oscillatorLength (hw : ℝ) : ℝ := hbarc / Real.sqrt (mNcsqr * hw)

/-! ## `run_script` -/

/-- A line of the run script: the program, its arguments, the file it reads as standard input. -/
structure Command where
  program : String
  args : List String
  stdin : Option String := none

/-- `run_script` (`generate_input.py` 109-144).  `math.sqrt(hw_int/hw)` of the overlaps is evaluated only if asked for. -/
noncomputable def runScript (pr : Printing) (p : Params) : List Command :=
  [⟨"orbital-gen", ["--oscillator", pr.int p.NmaxOrb, p.orbitals], none⟩,
   ⟨"orbital-gen", ["--oscillator", pr.int p.NmaxOrbInt, p.orbitalsInt], none⟩] ++
  (["r", "k"].flatMap fun t => [(1 : Int), 2].map fun n =>
    ⟨"radial-gen", ["--kinematic", t, pr.int n, "oscillator", "orbitals.dat", p.radialMe t n], none⟩) ++
  (if p.xform then [⟨"radial-gen", ["--overlaps", pr.plain (Real.sqrt (p.hwInt / p.hw)), "oscillator", p.orbitalsInt, p.olap],
    none⟩] else []) ++
  [⟨"h2mixer", [], some "h2mixer.in"⟩]

/-! ## `h2mixer_input` -/

/-- `hw_cm`, by default `hw` (`generate_input.py` 205-207). -/
def Params.cm (p : Params) : ℝ := p.hwCm.getD p.hw

/-- `coef_VC` (`generate_input.py` 223, 263). -/
noncomputable def coefVC (p : Params) : ℝ := Real.sqrt (p.hw / p.hwC)

/-- The targets with their terms (`generate_input.py` 209-264). -/
noncomputable def targets (p : Params) : List (String × List (String × ℝ)) :=
  let A : ℝ := p.A
  let a := p.a
  let hw := p.hw
  let cm := p.cm
  [("tbme-H.bin",
    [("Ursqr", 1 / (2 * A) * a * (cm / hw)), ("Vr1r2", 1 / A * a * (cm / hw)),
     ("Uksqr", (A - 1) / (2 * A) * hw + 1 / (2 * A) * a * (hw / cm)), ("Vk1k2", -1 / A * hw + 1 / A * a * (hw / cm)),
     ("identity", -3 / 2 * a), ("VNN", 1)] ++ (if p.coulomb then [("VC", coefVC p)] else [])),
   ("tbme-rrel2.bin",
    [("Ursqr", (A - 1) * (oscillatorLength hw / A) ^ 2), ("Vr1r2", -2 * (oscillatorLength hw / A) ^ 2)]),
   ("tbme-Ncm.bin",
    [("Ursqr", 1 / (2 * A) * (cm / hw)), ("Vr1r2", 1 / A * (cm / hw)), ("Uksqr", 1 / (2 * A) * (hw / cm)),
     ("Vk1k2", 1 / A * (hw / cm)), ("identity", -3 / 2)]),
   ("tbme-Trel.bin", [("Uksqr", (A - 1) / (2 * A) * hw), ("Vk1k2", -1 / A * hw)]),
   ("tbme-VNN.bin", [("VNN", 1)]),
   ("tbme-VC.bin", [("VC", coefVC p)])]

/-- The text of a coefficient: the constant of `VNN` with `{}`, the others with `{:e}`. -/
noncomputable def coefText (pr : Printing) (t : String × ℝ) : String := if t.1 = "VNN" then pr.plain t.2 else pr.e t.2

/-- The lines of the targets. -/
noncomputable def targetLines (pr : Printing) (p : Params) : List (List String) :=
  (targets p).flatMap fun t => ["define-target", t.1] :: t.2.map fun c => ["add-source", c.1, coefText pr c]

/-- The settings (`generate_input.py` 165-170). -/
def settingLines (pr : Printing) (p : Params) (w : List String) : List (List String) :=
  [["set-target-indexing", p.orbitals] ++ w, ["set-target-multipolarity", "0", "0", "0"],
   ["set-output-format", pr.int p.h2Format], ["set-mass", pr.int p.A]]

/-- The source of the interaction (`generate_input.py` 188-193). -/
def vnnLine (pr : Printing) (p : Params) : Except Err (List String) :=
  if p.xform then do
    let w ← weightMax pr p.xformTrunc
    pure (["define-source", "xform", "VNN", p.VNN] ++ w ++ [p.olap])
  else .ok ["define-source", "input", "VNN", p.VNN]

/-- The sources (`generate_input.py` 173-197). -/
def sourceLines (pr : Printing) (p : Params) : Except Err (List (List String)) := do
  let vnn ← vnnLine pr p
  pure ((["r", "k"].flatMap fun t => [(1 : Int), 2].map fun n => ["define-radial-operator", t, pr.int n, p.radialMe t n]) ++
    (["identity", "Ursqr", "Vr1r2", "Uksqr", "Vk1k2"].map fun s => ["define-source", "operator", s]) ++ [vnn] ++
    (if p.coulomb then [["define-source", "input", "VC", p.VC]] else []))

/-- Where the arithmetic of the targets raises no exception: divisions by `A`, `hw`, `hw_cm` and `hw_c`, square roots of
`k_mN_csqr*hw` and `hw/hw_c`. -/
def Computable (p : Params) : Prop := p.A ≠ 0 ∧ 0 < p.hw ∧ p.cm ≠ 0 ∧ 0 < p.hwC

open Classical in
/-- `h2mixer_input` (`generate_input.py` 146-269), as words. -/
noncomputable def h2mixerInput (pr : Printing) (p : Params) : Except Err (List (List String)) := do
  let w ← weightMax pr p.target
  let src ← sourceLines pr p
  if Computable p then pure (settingLines pr p w ++ src ++ targetLines pr p) else .error .exitFailure

/-- The file as `h2mixer` sees it: the lines end with their last word. -/
def asControl (ls : List (List String)) : List CLine := ls.map fun ws => ⟨ws, false⟩

/-! ## `script/jpv2rel.py` -/

/-- A task (`jpv2rel.py` 48-57), with the file names as filled in. -/
structure Task where
  Nmax : Int
  Jmax : Int
  jpv : String
  rel : String

/-- `input_lines` of `convert_jpv2rel` (`jpv2rel.py` 62-66). -/
def Task.input (pr : Printing) (t : Task) : List (List String) :=
  [[pr.int t.Nmax, pr.int t.Jmax], [t.jpv], [t.rel]]

end Verif.Script
