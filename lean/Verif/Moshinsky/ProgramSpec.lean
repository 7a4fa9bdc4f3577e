import Verif.Moshinsky.Program
import Verif.Moshinsky.Spaces
import Verif.H2.HeaderProps

/-!
# What `moshinsky` is to do

The spaces of the absent `basis` library as far as needed, and the matrices to be written.
-/

namespace Verif.Moshinsky.Program
open Verif Verif.Moshinsky
open Verif.H2 (Format Desc Sector Subspace OrbSpace Orb Species BasisLib WriteCall)
open Verif.Relative (OpLabels RelFile)

/-- The spaces for a truncation, with relative-cm states of up to `Nmax` quanta. -/
structure Spaces (w : World) (t : Trunc) (Nmax : ℕ) : Prop where
  rc : RCSpace Nmax (w.rcs Nmax)
  ls : LSSpace t (w.lss (t.N1max, t.N2max))
  order : ((w.lss (t.N1max, t.N2max)).map LSSub.labels).Sublist ((w.rcs Nmax).map LSSub.labels)
  jj : JJSpace t (w.jjs (t.N1max, t.N2max))
  jt : JTSpace t (w.jts (t.N1max, t.N2max))

/-- The label of a proton or neutron orbital. -/
def nucleon (orbs : OrbSpace) (proton : Bool) (i : ℕ) : Lab :=
  match (if proton then orbs.p else orbs.n)[i]? with
  | some x => ((2 * x.n + x.l).toNat, x.twiceJ.toNat)
  | none => (0, 0)

/-- Whether the first and the second nucleon of a pair is a proton. -/
def isProton : Species → Bool × Bool
  | .pp => (true, true)
  | .nn => (false, false)
  | .pn => (true, false)

/-- The labels of the two orbitals of a state. -/
def pairOf (orbs : OrbSpace) (sp : Species) (x : H2.State) : Lab × Lab :=
  (nucleon orbs (isProton sp).1 x.index1, nucleon orbs (isProton sp).2 x.index2)

/-- The isospin projection: half the number of protons less half that of neutrons. -/
def projection (sp : Species) : Int :=
  ((if (isProton sp).1 then 1 else -1) + (if (isProton sp).2 then 1 else -1)) / 2

/-- The orbitals: the same for protons and neutrons, in order of `(N,j)`, with half-integer `j` of at most `N+1/2`. -/
structure OscOrbitals (orbs : OrbSpace) : Prop where
  same : orbs.p.map (fun x => ((2 * x.n + x.l).toNat, x.twiceJ.toNat)) = orbs.n.map fun x => ((2 * x.n + x.l).toNat, x.twiceJ.toNat)
  order : (orbs.p.map fun x => ((2 * x.n + x.l).toNat, x.twiceJ.toNat)).Pairwise fun a b : Lab => a.1 < b.1 ∨ a.1 = b.1 ∧ a.2 < b.2
  odd : ∀ x ∈ orbs.p, x.twiceJ.toNat % 2 = 1 ∧ x.twiceJ.toNat ≤ 2 * (2 * x.n + x.l).toNat + 1

/-- A subspace of the two-body space: its states are pairs of orbitals within the truncation, of its `J` and parity. -/
def PnStates (t : Trunc) (orbs : OrbSpace) (s : Subspace) : Prop :=
  ∀ x ∈ s.states, x.index1 < orbs.p.length ∧ x.index2 < orbs.p.length ∧
    InTrunc t (pairOf orbs s.species x).1.1 (pairOf orbs s.species x).2.1 ∧
    Tri (pairOf orbs s.species x).1.2 (pairOf orbs s.species x).2.2 (2 * s.J) ∧
    s.g = ((pairOf orbs s.species x).1.1 + (pairOf orbs s.species x).2.1) % 2

/-- `basis::TwoBodySpaceJJJPN` and its sectors as far as needed: the selection rules of `J` and parity, and a change of isospin
projection that is not negative. -/
structure PnBasis (t : Trunc) (lib : BasisLib) (d : Desc) : Prop where
  orbitals : OscOrbitals d.orbs
  bra : ∀ s ∈ (d.index lib).sectors, PnStates t d.orbs s.bra
  ket : ∀ s ∈ (d.index lib).sectors, PnStates t d.orbs s.ket
  momentum : ∀ s ∈ (d.index lib).sectors, |(s.bra.J : Int) - d.J0| ≤ s.ket.J ∧ (s.ket.J : Int) ≤ s.bra.J + d.J0
  parity : ∀ s ∈ (d.index lib).sectors, ((s.bra.g : Int) + s.ket.g + d.g0) % 2 = 0
  charge : ∀ s ∈ (d.index lib).sectors, projection s.ket.species ≤ projection s.bra.species

/-- The element between two states of the proton-neutron scheme. -/
noncomputable def pnElement (R : RME) (o : OpLabels) (orbs : OrbSpace) (s : Sector) (x y : H2.State) : ℝ :=
  wignerEckart R o.T0min o.T0max ⟨projection s.bra.species, s.bra.J, s.bra.g, []⟩ ⟨projection s.ket.species, s.ket.J, s.ket.g, []⟩
    ⟨0, 0, (pairOf orbs s.bra.species x).1, (pairOf orbs s.bra.species x).2⟩
    ⟨0, 0, (pairOf orbs s.ket.species y).1, (pairOf orbs s.ket.species y).2⟩

/-- The matrix of a sector: values below `10⁻¹⁴` are dropped, and so is the lower triangle of a diagonal sector. -/
noncomputable def pnMatrix (R : RME) (o : OpLabels) (orbs : OrbSpace) (s : Sector) : H2.Mat :=
  ⟨s.bra.states.length, s.ket.states.length, fun i j =>
    match s.bra.states[i]?, s.ket.states[j]? with
    | some x, some y =>
      if s.braIndex = s.ketIndex ∧ j < i ∨ |pnElement R o orbs s x y| < 1e-14 then 0 else pnElement R o orbs s x y
    | _, _ => 0⟩

/-- What is written: the matrix of each sector, to be normalised. -/
noncomputable def pnCalls (R : RME) (o : OpLabels) (orbs : OrbSpace) (ss : List Sector) : List WriteCall :=
  ss.zipIdx.map fun p => ⟨p.2, pnMatrix R o orbs p.1, .asToNAS⟩

/-- The operator in the relative file has, in each of its isospin components, the elements `R`, and exchange of bra and ket is
compatible with the coupling of a spectator. -/
structure Given (w : World) (f : RelFile) (R : ℕ → RelRME) : Prop where
  holds : ∀ T0, f.labels.T0min ≤ T0 → T0 ≤ f.labels.T0max → FileHolds w.env.swap f T0 (R T0)
  law : ∀ T0, SwapLaw w.env f.labels.J0 T0
  three : f.labels.T0max ≤ 2

end Verif.Moshinsky.Program
