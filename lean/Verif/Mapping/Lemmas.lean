import Verif.Mapping.Model
import Mathlib.Data.List.Nodup
import Mathlib.Algebra.Ring.Parity
import Mathlib.Data.Fintype.Card
import Mathlib.Data.List.Perm.Basic

/-! # Helper lemmas for the remapping -/

namespace Verif.Mapping
open Verif

theorem lookUp_of_mem {α : Type} [DecidableEq α] {x : α} {xs : List α} (h : x ∈ xs) :
    xs[lookUp x xs]? = some x := by
  simp [lookUp, h, List.getElem?_eq_getElem (List.idxOf_lt_length_of_mem h)]

theorem lookUp_lt {α : Type} [DecidableEq α] {x : α} {xs : List α} (h : x ∈ xs) :
    lookUp x xs < xs.length := by
  rw [lookUp, if_pos h]; exact List.idxOf_lt_length_of_mem h

theorem lookUp_eq_kNone {α : Type} [DecidableEq α] {x : α} {xs : List α} (hl : xs.length ≤ kNone) :
    lookUp x xs = kNone ↔ x ∉ xs := by
  constructor
  · intro h hx
    have := lookUp_lt hx
    omega
  · intro h; simp [lookUp, h]

theorem lookUp_of_getElem {α : Type} [DecidableEq α] {x : α} {xs : List α} (hn : xs.Nodup) {i : Nat}
    (h : xs[i]? = some x) : lookUp x xs = i := by
  obtain ⟨hi, rfl⟩ := List.getElem?_eq_some_iff.1 h
  simp [lookUp, hn.idxOf_getElem]

theorem toIntFromSizeT_toSizeT {i : Int} (h : -(2 ^ 31) ≤ i ∧ i < 2 ^ 31) :
    toIntFromSizeT (toSizeT i) = i := by
  unfold toIntFromSizeT toSizeT
  rw [BitVec.toInt_setWidth, BitVec.toNat_ofInt]
  have : ((2 : Int) ^ 64).toNat = 2 ^ 64 := by decide
  rw [Int.bmod_def]
  norm_num
  omega

theorem phase_round_trip {i : Int} (h : i = 1 ∨ i = -1 ∨ i = 0) : toIntFromSizeT (toSizeT i) = i :=
  toIntFromSizeT_toSizeT (by rcases h with rfl | rfl | rfl <;> omega)

theorem powNegOne_eq (n : Nat) : powNegOne n = (-1) ^ n := by
  unfold powNegOne
  rcases Nat.even_or_odd n with h | h
  · rw [h.neg_one_pow, if_pos]
    obtain ⟨k, rfl⟩ := h; omega
  · rw [h.neg_one_pow, if_neg]
    obtain ⟨k, rfl⟩ := h; omega

theorem mapM_ok {α β : Type} {f : α → Except Err β} {g : α → β} {xs : List α}
    (h : ∀ x ∈ xs, f x = .ok (g x)) : xs.mapM f = .ok (xs.map g) := by
  induction xs with
  | nil => rfl
  | cons x xs ih =>
    rw [List.mapM_cons, h x (by simp), ih fun y hy => h y (by simp [hy])]
    rfl

end Verif.Mapping
