import Verif.Mapping.Core

/-! # Execution of the parallel loop of `RemappedMatrixJJJPN` -/

namespace Verif.Mapping
open Verif

/-- Where iteration `bk` writes, and what; `none` if it writes nothing. -/
noncomputable def writeOf (m : TwoBodyMapping) (src : SectorInfo) (source : Mat) (bk : Nat × Nat) :
    Option ((Nat × Nat) × ℝ) :=
  match (m.stateMapping[src.braIndex]?).bind (·[bk.1]?), (m.stateMapping[src.ketIndex]?).bind (·[bk.2]?) with
  | some (b, pb), some (k, pk) =>
    if b = kNone ∨ k = kNone then none else
      some ((b, k), ((toIntFromSizeT pb * toIntFromSizeT pk : Int) : ℝ) * source.val bk.1 bk.2)
  | _, _ => none

/-- Effect of a write. -/
noncomputable def applyWrite (w : Option ((Nat × Nat) × ℝ)) (t : Mat) : Mat :=
  ⟨t.rows, t.cols, fun i j =>
    match w with
    | some (key, v) => if (i, j) = key then v else t.val i j
    | none => t.val i j⟩

/-- Nothing goes wrong in iteration `bk`. -/
def IterOK (m : TwoBodyMapping) (src : SectorInfo) (source : Mat) (rows cols : Nat) (bk : Nat × Nat) : Prop :=
  ∃ b pb k pk, (m.stateMapping[src.braIndex]?).bind (·[bk.1]?) = some (b, pb) ∧
    (m.stateMapping[src.ketIndex]?).bind (·[bk.2]?) = some (k, pk) ∧
    (b = kNone ∨ b < rows) ∧ (k = kNone ∨ k < cols) ∧ bk.1 < source.rows ∧ bk.2 < source.cols

theorem remapBody_eq {m : TwoBodyMapping} {src : SectorInfo} {source t : Mat} {bk : Nat × Nat}
    (h : IterOK m src source t.rows t.cols bk) :
    remapBody m src source t bk = .ok (applyWrite (writeOf m src source bk) t) := by
  obtain ⟨b, pb, k, pk, h1, h2, h3, h4, h5, h6⟩ := h
  unfold remapBody writeOf applyWrite
  rw [h1, h2]
  simp only
  by_cases hb : b = kNone
  · simp [hb]
  · by_cases hk : k = kNone
    · simp [hb, hk]
    · have c : b < t.rows ∧ k < t.cols ∧ bk.1 < source.rows ∧ bk.2 < source.cols :=
        ⟨h3.resolve_left hb, h4.resolve_left hk, h5, h6⟩
      simp [hb, hk, c]

/-- The final content of an element after the iterations `its`, in any order, if no two of them
write the same element. -/
theorem runIterations_spec {m : TwoBodyMapping} {src : SectorInfo} {source : Mat} (its : List (Nat × Nat))
    (t : Mat) (hok : ∀ bk ∈ its, IterOK m src source t.rows t.cols bk)
    (hinj : its.Pairwise fun x y => ∀ kx vx ky vy, writeOf m src source x = some (kx, vx) →
      writeOf m src source y = some (ky, vy) → kx ≠ ky) :
    ∃ r, runIterations m src source its t = .ok r ∧ r.rows = t.rows ∧ r.cols = t.cols ∧
      (∀ bk ∈ its, ∀ i j v, writeOf m src source bk = some ((i, j), v) → r.val i j = v) ∧
      (∀ i j, (∀ bk ∈ its, ∀ v, writeOf m src source bk ≠ some ((i, j), v)) → r.val i j = t.val i j) := by
  induction its generalizing t with
  | nil => exact ⟨t, rfl, rfl, rfl, by simp, by simp⟩
  | cons x xs ih =>
    rw [List.pairwise_cons] at hinj
    unfold runIterations
    rw [List.foldlM_cons, remapBody_eq (hok x (by simp))]
    obtain ⟨r, h1, h2, h3, h4, h5⟩ := ih (applyWrite (writeOf m src source x) t) (fun bk hb => hok bk (by simp [hb])) hinj.2
    refine ⟨r, h1, h2, h3, ?_, ?_⟩
    · intro bk hb i j v hw
      rcases List.mem_cons.1 hb with rfl | hb
      · rw [h5 i j, hw]
        · simp [applyWrite]
        · intro y hy v' hw'
          exact hinj.1 y hy _ _ _ _ hw hw' rfl
      · exact h4 bk hb i j v hw
    · intro i j hno
      rw [h5 i j (fun bk hb v => hno bk (by simp [hb]) v)]
      cases hw : writeOf m src source x with
      | none => rfl
      | some kv =>
        obtain ⟨key, v⟩ := kv
        have : (i, j) ≠ key := by
          rintro rfl
          exact hno x (by simp) v hw
        simp [applyWrite, this]

theorem mem_iterations {src : SectorInfo} {bk : Nat × Nat} :
    bk ∈ iterations src ↔ bk.1 < src.braSize ∧ bk.2 < src.ketSize := by
  obtain ⟨b, k⟩ := bk
  simp [iterations, List.mem_flatMap]

theorem nodup_iterations (src : SectorInfo) : (iterations src).Nodup := by
  unfold iterations
  rw [List.nodup_flatMap]
  refine ⟨fun b _ => List.nodup_range.map fun x y h => by simpa using h, ?_⟩
  refine List.nodup_range.imp fun {a b} hab => ?_
  intro x h1 h2
  simp only [List.mem_map] at h1 h2
  obtain ⟨_, _, rfl⟩ := h1
  obtain ⟨_, _, h⟩ := h2
  exact hab (by simpa using (congrArg Prod.fst h).symm)

end Verif.Mapping
