import Verif.Density.Obscalc

/-!
# Model of `natorb-gen`

`programs/obutils/natorb-gen.cpp`.

Simplifications: control lines as in `Verif/Mixer/Control.lean`; `Eigen::SelfAdjointEigenSolver` and the two calls of
`std::sort` with `basis::OrbitalSortCmpWeight` (absent from the checkout) are the fields of `Ext`.  The orbital file
is the list of its orbitals, the info file the list of its lines, each an orbital and its occupation.  A density is
kept together with the orbitals in force when it was read.  Without `set-output-xform` the name of the output file
is empty, which opening it rejects.
-/

namespace Verif.Density
open Verif Verif.Mapping Verif.Obme
open Verif.Mixer.Control (CLine Numbers word int num atEnd)

/-- What comes from outside: eigenvalues, eigenvectors (component, number), sorting. -/
structure Ext (Orb : Type) where
  values : Mat → ℕ → ℝ
  vectors : Mat → ℕ → ℕ → ℝ
  sortOrb : List Orb → List Orb
  sortOcc : List (Full × ℝ) → List (Full × ℝ)

/-- Diagonalisation of a sector, 203-211: eigenvalues and eigenvectors reversed. -/
def diagonalize {Orb : Type} (e : Ext Orb) (m : Mat) : Except Err (List ℝ × Mat) := do
  assertE (m.rows = m.cols)
  pure ((List.range m.rows).map (fun i => e.values m (m.rows - 1 - i)),
    ⟨m.rows, m.rows, fun a i => e.vectors m a (m.rows - 1 - i)⟩)

/-- The occupations of a sector, 215-221: the number of the eigenvector serves as `n`. -/
def occupations (b : Obme.Sub) (vs : List ℝ) : List (Full × ℝ) :=
  vs.zipIdx.map fun p => (⟨b.labels.sp, p.2, b.labels.l, b.labels.tj⟩, p.1)

/-- Body of the loop over sectors, 194-222. -/
def natSector {Orb : Type} (e : Ext Orb) (space : Space) (p : (ℕ × ℕ) × Mat) :
    Except Err (List (Full × ℝ) × Mat) := do
  let b ← getE space p.1.1
  let d ← diagonalize e p.2
  pure (occupations b d.1, d.2)

/-- The output. -/
structure NatOut (Orb : Type) where
  orbitals : List Orb
  info : List (Full × ℝ)
  xform : List Line

/-- `main`, 186-262, once the control file is read. -/
noncomputable def natorb {Orb : Type} (lib : Lib Orb) (e : Ext Orb) (rnd : ℝ → ℝ) (space dspace : Space) (d : Density) :
    Except Err (NatOut Orb) := do
  let s ← d.data.getMultipole 0
  let rs ← (s.1.pairs.zip s.2).mapM (natSector e dspace)
  let file ← writeFile lib.toLib rnd true 'R' space (lib.mkSpace (e.sortOrb (lib.info space)))
    (allSectors ⟨0, 0, 0⟩ space (lib.mkSpace (e.sortOrb (lib.info space)))) (rs.map Prod.snd)
  pure ⟨e.sortOrb (lib.info space), (e.sortOcc (rs.flatMap Prod.fst)).reverse, file⟩

/-! ## Control file -/

/-- A line, once read. -/
inductive NCmd where
  | output (orb xform : String) (info : Option String)
  | indexing (file : String)
  | densities (state : State) (file : String) (info : Option String)
  | nothing

/-- Arguments of `set-output-xform`, 111-124. -/
def parseNOutput (trailing : Bool) (ws : List String) : Except Err NCmd := do
  let o ← word ws
  let x ← word o.2
  if atEnd trailing x.2 then pure (.output o.1 x.1 none)
  else do
    let i ← word x.2
    pure (.output o.1 x.1 (some i.1))

/-- Arguments of `set-indexing`, 127-130. -/
def parseNIndexing (ws : List String) : Except Err NCmd := do
  let f ← word ws
  pure (.indexing f.1)

/-- Arguments of `define-densities`, 138-150. -/
noncomputable def parseNDensities (nm : Numbers) (trailing : Bool) (ws : List String) : Except Err NCmd := do
  let J ← num nm ws
  let g ← int nm J.2
  let n ← int nm g.2
  let f ← word n.2
  if atEnd trailing f.2 then pure (.densities ⟨twice J.1, g.1, n.1⟩ f.1 none)
  else do
    let i ← word f.2
    pure (.densities ⟨twice J.1, g.1, n.1⟩ f.1 (some i.1))

/-- The keywords, 110-166: others are passed over. -/
noncomputable def parseN (nm : Numbers) (l : CLine) : Except Err NCmd :=
  match l.words with
  | [] => .ok .nothing
  | k :: ws =>
    if k = "set-output-xform" then parseNOutput l.trailing ws
    else if k = "set-indexing" then parseNIndexing ws
    else if k = "define-densities" then parseNDensities nm l.trailing ws
    else .ok .nothing

/-- `RunParameters`, 88-96. -/
structure NRun where
  files : Option (String × String × Option String)
  space : Space
  density : Option (Space × Density)

/-- Carrying out a line. -/
noncomputable def execN {Orb : Type} (lib : Lib Orb) (disk : Disk) (r : NRun) : NCmd → Except Err NRun
  | .output o x i => .ok ⟨some (o, x, i), r.space, r.density⟩
  | .indexing f => do
    let s ← disk.orbitals f
    pure ⟨r.files, s, r.density⟩
  | .densities q f i => do
    let d ← openDensity lib disk r.space q q f i
    pure ⟨r.files, r.space, some (r.space, d)⟩
  | .nothing => .ok r

/-- `ReadParameters`, 101-168. -/
noncomputable def readN {Orb : Type} (lib : Lib Orb) (nm : Numbers) (disk : Disk) (ls : List CLine) : Except Err NRun :=
  ls.foldlM (fun r l => do
    let c ← parseN nm l
    execN lib disk r c) ⟨none, [], none⟩

/-- Dereferencing `density_stream`. -/
def theDensity : Option (Space × Density) → Except Err (Space × Density)
  | some d => .ok d
  | none => .error .undefinedBehaviour

/-- The names of the output files. -/
def theFiles : Option (String × String × Option String) → Except Err (String × String × Option String)
  | some f => .ok f
  | none => .error .streamFail

/-- `main`, 174-266: names of the output files and what is written to them. -/
noncomputable def natorbRun {Orb : Type} (lib : Lib Orb) (e : Ext Orb) (rnd : ℝ → ℝ) (nm : Numbers) (disk : Disk)
    (ls : List CLine) : Except Err ((String × String × Option String) × NatOut Orb) := do
  let r ← readN lib nm disk ls
  let d ← theDensity r.density
  let o ← natorb lib e rnd r.space d.1 d.2
  let f ← theFiles r.files
  pure (f, o)

end Verif.Density
