import Mathlib.Data.List.Basic
import Mathlib.Data.Nat.Basic

/-!
# Shared vocabulary

Outcomes of a program run, and the byte-level encoding of the fixed-width fields
used by the binary file formats.
-/

namespace Verif

/-- How a run can stop other than by returning a value.  In the C++ these are
`assert` failure, `std::exit(EXIT_FAILURE)` (also through `mcutils::StreamCheck`,
`VerifyBinary`, `ParsingError`), and undefined behaviour by access outside a container.
`notANumber` marks a square root of a negative number (the C++ continues with a NaN). -/
inductive Err where
  | assertFail
  | streamFail
  | badDelimiter
  | parseError
  | exitFailure
  | undefinedBehaviour
  | notANumber
  deriving DecidableEq, Repr

/-- `assert(b)`. -/
def assertE (b : Bool) : Except Err Unit :=
  if b then .ok () else .error .assertFail

abbrev Byte := BitVec 8

/-- Little-endian bytes of a `w`-byte word (the in-memory image written by
`mcutils::WriteBinary<T>` on the little-endian platforms the formats assume). -/
def leBytes (w : Nat) (n : Nat) : List Byte :=
  match w with
  | 0 => []
  | w + 1 => BitVec.ofNat 8 n :: leBytes w (n / 256)

/-- Inverse of `leBytes`: value of a little-endian byte string. -/
def leValue : List Byte → Nat
  | [] => 0
  | b :: bs => b.toNat + 256 * leValue bs

/-- 4-byte word (`int`, `int32_t` or the image of a `float`). -/
def bytes32 (v : BitVec 32) : List Byte := leBytes 4 v.toNat

/-- 8-byte word (`int64_t`). -/
def bytes64 (v : BitVec 64) : List Byte := leBytes 8 v.toNat

/-- Decode a 4-byte word. -/
def word32 (bs : List Byte) : BitVec 32 := BitVec.ofNat 32 (leValue bs)

/-- Decode an 8-byte word. -/
def word64 (bs : List Byte) : BitVec 64 := BitVec.ofNat 64 (leValue bs)

@[simp] theorem leBytes_length (w n : Nat) : (leBytes w n).length = w := by
  induction w generalizing n with
  | zero => rfl
  | succ w ih => simp [leBytes, ih]

theorem leValue_leBytes (w n : Nat) (h : n < 256 ^ w) : leValue (leBytes w n) = n := by
  induction w generalizing n with
  | zero => simp at h; simp [leBytes, leValue, h]
  | succ w ih =>
    have h' : n / 256 < 256 ^ w := by
      apply Nat.div_lt_of_lt_mul; rw [Nat.pow_succ] at h; omega
    simp only [leBytes, leValue, ih _ h', BitVec.toNat_ofNat]
    omega

@[simp] theorem bytes32_length (v) : (bytes32 v).length = 4 := leBytes_length _ _
@[simp] theorem bytes64_length (v) : (bytes64 v).length = 8 := leBytes_length _ _

@[simp] theorem word32_bytes32 (v : BitVec 32) : word32 (bytes32 v) = v := by
  have h : v.toNat < 256 ^ 4 := by have := v.isLt; omega
  simp [word32, bytes32, leValue_leBytes _ _ h]

@[simp] theorem word64_bytes64 (v : BitVec 64) : word64 (bytes64 v) = v := by
  have h : v.toNat < 256 ^ 8 := by have := v.isLt; omega
  simp [word64, bytes64, leValue_leBytes _ _ h]

end Verif
