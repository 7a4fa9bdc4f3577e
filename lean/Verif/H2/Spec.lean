import Verif.H2.Model
import Mathlib.Data.Finset.Prod
import Mathlib.Data.Finset.Card
import Mathlib.Data.Finset.Range

/-! # Specification vocabulary for the H2 properties

Nothing here refers to the loops, buffers or state machines of the model. -/

namespace Verif.H2
open Verif

/-- Matrix elements an H2 file stores for a sector: all of them, except below the diagonal
of a diagonal sector. -/
def Stored (s : Sector) (b k : Nat) : Prop :=
  b < s.bra.size ∧ k < s.ket.size ∧ (s.braIndex = s.ketIndex → b ≤ k)

instance (s : Sector) (b k : Nat) : Decidable (Stored s b k) := by
  unfold Stored; infer_instance

/-- Number of stored matrix elements of a sector. -/
def storedCount (s : Sector) : Nat :=
  ((Finset.range s.bra.size ×ˢ Finset.range s.ket.size).filter
    fun p => s.braIndex = s.ketIndex → p.1 ≤ p.2).card

/-- Normalisation `1/√(1+δ_ab)` of an antisymmetrised pair state; protons and neutrons are
distinguishable. -/
noncomputable def pairNorm (sp : Species) (st : State) : ℝ :=
  1 / Real.sqrt (1 + (if sp ≠ .pn ∧ st.index1 = st.index2 then 1 else 0))

/-- Factor taking an element to the stored normalisation. -/
noncomputable def storedFactor (conv : Conv) (s : Sector) (b k : Nat) : ℝ :=
  if conv = .asToNAS then
    pairNorm s.bra.species (s.bra.state b) * pairNorm s.ket.species (s.ket.state k)
  else 1

/-- `m` is what reading sector `s` must return if `w` was written, where `r` is the
rounding of single-precision values done by the medium. -/
def IsImage (fm : FloatModel) (r : BitVec 32 → BitVec 32) (s : Sector) (w : WriteCall) (m : Mat) :
    Prop :=
  m.rows = s.bra.size ∧ m.cols = s.ket.size ∧
  ∀ b k, m.val b k = if Stored s b k then
    fm.ofF32 (r (fm.toF32 (storedFactor w.conv s b k * w.mat.val b k))) else 0

/-- A Fortran unformatted sequential record. -/
def fortranRecord (payload : List Byte) : List Byte :=
  bytes32 (BitVec.ofNat 32 payload.length) ++ payload ++ bytes32 (BitVec.ofNat 32 payload.length)

/-- Row-major stored elements of a sector, as float images. -/
noncomputable def sectorWords (fm : FloatModel) (s : Sector) (w : WriteCall) : List (BitVec 32) :=
  ((List.range s.bra.size).map fun b =>
    ((List.range s.ket.size).filter fun k => decide (Stored s b k)).map fun k =>
      fm.toF32 (storedFactor w.conv s b k * w.mat.val b k)).flatten

/-- Two matrices that agree on the stored elements of a sector. -/
def AgreeOnStored (s : Sector) (m m' : Mat) : Prop :=
  m.rows = m'.rows ∧ m.cols = m'.cols ∧ ∀ b k, Stored s b k → m.val b k = m'.val b k

/-- Orbital of a species: proton number `i` or neutron number `i` (0-based). -/
structure Orbital where
  proton : Bool
  index : Nat
  deriving DecidableEq

end Verif.H2
