import Verif.Relative.Isospin
import Verif.H2.Lemmas

/-!
# Isospin round trip, single-species factors and the SU(4) Casimir (C38, C39, C41)
-/

namespace Verif.Relative
open Verif Verif.H2

/-! ## Helper lemmas -/

theorem mapM_ok {α β : Type} {f : α → Except Err β} {g : α → β} {l : List α}
    (h : ∀ a ∈ l, f a = .ok (g a)) : l.mapM f = .ok (l.map g) := by
  induction l with
  | nil => rfl
  | cons a l ih =>
    rw [List.mapM_cons, h a (by simp), Except.ok_bind', ih (fun b hb => h b (by simp [hb])), Except.ok_bind']
    rfl

/-- Contribution of one accumulation to one entry. -/
def Add.contrib (a : Add) (T0 idx i j : ℕ) : ℝ :=
  if T0 = a.T0 ∧ idx = a.idx then a.coef * a.block i j else 0

theorem accumulate_value (op : Op) (l : List Add) (T0 idx i j : ℕ) :
    accumulate op l T0 idx i j = op T0 idx i j + (l.map fun a => a.contrib T0 idx i j).sum := by
  induction l generalizing op with
  | nil => simp [accumulate]
  | cons a l ih =>
    have := ih (a.apply op)
    simp only [accumulate, List.foldl_cons] at this ⊢
    rw [this]
    simp only [Add.apply, List.map_cons, List.sum_cons, Add.contrib]
    split <;> ring

theorem sum_map_single {α : Type} {l : List α} (hn : l.Nodup) {a : α} (ha : a ∈ l) (f : α → ℝ)
    (h : ∀ b ∈ l, b ≠ a → f b = 0) : (l.map f).sum = f a := by
  induction l with
  | nil => simp at ha
  | cons b l ih =>
    rw [List.nodup_cons] at hn
    simp only [List.map_cons, List.sum_cons]
    by_cases hb : b = a
    · subst hb
      have : (l.map f).sum = 0 := by
        apply List.sum_eq_zero
        intro x hx
        obtain ⟨c, hc, rfl⟩ := List.mem_map.mp hx
        exact h c (by simp [hc]) (fun e => hn.1 (e ▸ hc))
      rw [this, add_zero]
    · rw [h b (by simp) hb, zero_add]
      exact ih hn.2 (by simpa [Ne.symm hb] using ha) (fun c hc => h c (by simp [hc]))

/-- Meaning of the target indexing: the sectors of the input carry their own positions as indices,
component 0 of the target has the same enumeration, a `T=1` sector exists in all three components,
and different sectors have different indices. (`basis::RelativeSectorsLSJT`, not in the repository.) -/
structure GoodSectors (look : ℕ → ℕ → ℕ → Option ℕ) (sectors : List (ℕ × Sec)) : Prop where
  nodup : sectors.Nodup
  own : ∀ p ∈ sectors, look 0 p.2.bra p.2.ket = some p.1
  total : ∀ p ∈ sectors, p.2.braT = 1 → p.2.ketT = 1 → ∀ T0 ≤ 2, ∃ i, look T0 p.2.bra p.2.ket = some i
  inj : ∀ p ∈ sectors, ∀ q ∈ sectors, ∀ T0 i, look T0 p.2.bra p.2.ket = some i →
    look T0 q.2.bra q.2.ket = some i → p = q

/-- The accumulations of one sector when all lookups succeed. -/
def addsOf (look : ℕ → ℕ → ℕ → Option ℕ) (coef : ℕ → ℝ) (tz0 : Bool) (p : ℕ × Sec) (m : Block) : List Add :=
  if p.2.braT ≠ p.2.ketT then []
  else if p.2.ketT = 0 then (if tz0 then [⟨0, p.1, 1, m⟩] else [])
  else if p.2.ketT = 1 then
    [⟨0, (look 0 p.2.bra p.2.ket).getD 0, coef 0, m⟩, ⟨1, (look 1 p.2.bra p.2.ket).getD 0, coef 1, m⟩,
      ⟨2, (look 2 p.2.bra p.2.ket).getD 0, coef 2, m⟩]
  else []

theorem sectorAdds_ok {look : ℕ → ℕ → ℕ → Option ℕ} {sectors : List (ℕ × Sec)} (hg : GoodSectors look sectors)
    (coef : ℕ → ℝ) (tz0 : Bool) (p : ℕ × Sec) (hp : p ∈ sectors) (m : Block) :
    sectorAdds look coef tz0 p.1 p.2 m = .ok (addsOf look coef tz0 p m) := by
  unfold sectorAdds addsOf
  by_cases h1 : p.2.braT = p.2.ketT
  · by_cases h0 : p.2.ketT = 0
    · simp only [h1, h0, ne_eq, not_true_eq_false, if_false, if_true]
      split <;> rfl
    · by_cases h2 : p.2.ketT = 1
      · obtain ⟨i0, e0⟩ := hg.total p hp (h1.trans h2) h2 0 (by omega)
        obtain ⟨i1, e1⟩ := hg.total p hp (h1.trans h2) h2 1 (by omega)
        obtain ⟨i2, e2⟩ := hg.total p hp (h1.trans h2) h2 2 (by omega)
        simp only [h1, h2, ne_eq, not_true_eq_false, if_false, if_true, targetOf, e0, e1, e2,
          Except.ok_bind', Except.pure_ok, Option.getD_some, show ¬ ((1 : ℕ) = 0) by omega]
      · simp only [h1, h0, h2, ne_eq, not_true_eq_false, if_false]
  · simp only [h1, ne_eq, not_false_eq_true, if_true]

theorem addsOf_foreign {look : ℕ → ℕ → ℕ → Option ℕ} {sectors : List (ℕ × Sec)} (hg : GoodSectors look sectors)
    (coef : ℕ → ℝ) (tz0 : Bool) (p q : ℕ × Sec) (hp : p ∈ sectors) (hq : q ∈ sectors) (hne : q ≠ p)
    (m : Block) (T0 idx i j : ℕ) (ht : look T0 p.2.bra p.2.ket = some idx) :
    ((addsOf look coef tz0 q m).map fun a => a.contrib T0 idx i j).sum = 0 := by
  apply List.sum_eq_zero
  intro x hx
  obtain ⟨a, ha, rfl⟩ := List.mem_map.mp hx
  have hq0 := hg.own q hq
  suffices look a.T0 q.2.bra q.2.ket = some a.idx by
    simp only [Add.contrib]
    rw [if_neg]
    rintro ⟨h1, h2⟩
    rw [← h1, ← h2] at this
    exact hne (hg.inj q hq p hp T0 idx this ht)
  unfold addsOf at ha
  by_cases h1 : q.2.braT = q.2.ketT
  · by_cases h0 : q.2.ketT = 0
    · simp only [h1, h0, ne_eq, not_true_eq_false, if_false, if_true] at ha
      split at ha
      · simp only [List.mem_singleton] at ha
        subst ha
        exact hq0
      · simp at ha
    · by_cases h2 : q.2.ketT = 1
      · have ht := hg.total q hq (h1.trans h2) h2
        obtain ⟨i1, e1⟩ := ht 1 (by omega)
        obtain ⟨i2, e2⟩ := ht 2 (by omega)
        simp only [h1, h2, ne_eq, not_true_eq_false, if_false, if_true, hq0, e1, e2, Option.getD_some,
          show ¬ ((1 : ℕ) = 0) by omega, List.mem_cons, List.not_mem_nil, or_false] at ha
        rcases ha with rfl | rfl | rfl
        · exact hq0
        · exact e1
        · exact e2
      · simp [h1, h0, h2] at ha
  · simp [h1] at ha

theorem jpvAdds_ok {look : ℕ → ℕ → ℕ → Option ℕ} {sectors : List (ℕ × Sec)} (hg : GoodSectors look sectors)
    (input : Sp → ℕ → Block) :
    jpvAdds look sectors input = .ok (([Sp.pp, Sp.nn, Sp.pn].map fun s =>
      sectors.map fun p => addsOf look (fun T0 => jpvTable T0 s) (s.Tz = 0) p (input s p.1)).flatten.flatten) := by
  unfold jpvAdds
  rw [mapM_ok (g := fun s => sectors.map fun p =>
    addsOf look (fun T0 => jpvTable T0 s) (s.Tz = 0) p (input s p.1))]
  · rfl
  · intro s _
    exact mapM_ok fun p hp => sectorAdds_ok hg _ _ p hp _

theorem pnAdds_ok {look : ℕ → ℕ → ℕ → Option ℕ} {sectors : List (ℕ × Sec)} (hg : GoodSectors look sectors)
    (input : ℕ → ℕ → Block) :
    pnAdds look sectors input = .ok ((sectors.map fun p => [0, 1, 2].map fun c =>
      addsOf look (fun T0 => pnTable T0 c) (c = 1) p (input c p.1)).flatten.flatten) := by
  unfold pnAdds
  rw [mapM_ok (g := fun p => [0, 1, 2].map fun c =>
      addsOf look (fun T0 => pnTable T0 c) (c = 1) p (input c p.1))]
  · rfl
  · intro p hp
    exact mapM_ok fun c _ => sectorAdds_ok hg _ _ p hp _

theorem sum_flatten (f : Add → ℝ) (l : List (List Add)) :
    (l.flatten.map f).sum = (l.map fun a => (a.map f).sum).sum := by
  induction l with
  | nil => rfl
  | cons a l ih => simp [← ih]

/-- Value of one entry of a target sector after all accumulations of the JPV reader. -/
theorem jpv_value {look : ℕ → ℕ → ℕ → Option ℕ} {sectors : List (ℕ × Sec)} (hg : GoodSectors look sectors)
    (input : Sp → ℕ → Block) {l : List Add} (hl : jpvAdds look sectors input = .ok l) (p : ℕ × Sec)
    (hp : p ∈ sectors) (T0 idx i j : ℕ) (ht : look T0 p.2.bra p.2.ket = some idx) (op : Op) :
    accumulate op l T0 idx i j = op T0 idx i j
      + ([Sp.pp, Sp.nn, Sp.pn].map fun s => ((addsOf look (fun T0 => jpvTable T0 s) (s.Tz = 0) p
        (input s p.1)).map fun a => a.contrib T0 idx i j).sum).sum := by
  rw [jpvAdds_ok hg input] at hl
  cases hl
  rw [accumulate_value, sum_flatten]
  congr 1
  simp only [List.map_cons, List.map_nil, List.flatten_cons, List.flatten_nil, List.append_nil,
    List.map_append, List.sum_append, List.sum_cons, List.sum_nil, add_zero, List.map_map, Function.comp_def]
  have key : ∀ s : Sp, (sectors.map fun q => ((addsOf look (fun T0 => jpvTable T0 s) (s.Tz = 0) q
      (input s q.1)).map fun a => a.contrib T0 idx i j).sum).sum
      = ((addsOf look (fun T0 => jpvTable T0 s) (s.Tz = 0) p (input s p.1)).map fun a => a.contrib T0 idx i j).sum := by
    intro s
    exact sum_map_single hg.nodup hp _ fun q hq hne => addsOf_foreign hg _ _ p q hp hq hne _ _ _ _ _ ht
  rw [key, key, key]

/-- The same for the pn reader. -/
theorem pn_value {look : ℕ → ℕ → ℕ → Option ℕ} {sectors : List (ℕ × Sec)} (hg : GoodSectors look sectors)
    (input : ℕ → ℕ → Block) {l : List Add} (hl : pnAdds look sectors input = .ok l) (p : ℕ × Sec)
    (hp : p ∈ sectors) (T0 idx i j : ℕ) (ht : look T0 p.2.bra p.2.ket = some idx) (op : Op) :
    accumulate op l T0 idx i j = op T0 idx i j
      + ([0, 1, 2].map fun c => ((addsOf look (fun T0 => pnTable T0 c) (c = 1) p
        (input c p.1)).map fun a => a.contrib T0 idx i j).sum).sum := by
  rw [pnAdds_ok hg input] at hl
  cases hl
  rw [accumulate_value, sum_flatten]
  congr 1
  have key := sum_map_single (l := sectors) hg.nodup hp (fun q => ([0, 1, 2].map fun c =>
    ((addsOf look (fun T0 => pnTable T0 c) (c = 1) q (input c q.1)).map fun a => a.contrib T0 idx i j).sum).sum)
    (by
      intro q hq hne
      apply List.sum_eq_zero
      intro x hx
      obtain ⟨c, _, rfl⟩ := List.mem_map.mp hx
      exact addsOf_foreign hg _ _ p q hp hq hne _ _ _ _ _ ht)
  rw [← key]
  clear key
  generalize sectors = l
  clear ht hp hg
  induction l with
  | nil => rfl
  | cons q l ih =>
    simp only [List.map_cons, List.flatten_cons, List.map_append, List.sum_append, List.sum_cons] at ih ⊢
    rw [ih]
    simp only [List.map_nil, List.sum_nil]

theorem sqrt_nine_halves : Real.sqrt (9 / 2) = 3 * Real.sqrt (1 / 2) := by
  rw [show (9 / 2 : ℝ) = 3 ^ 2 * (1 / 2) by norm_num, Real.sqrt_mul (by norm_num), Real.sqrt_sq (by norm_num)]

theorem sqrt_five_halves : Real.sqrt (5 / 2) = 5 * Real.sqrt (1 / 10) := by
  rw [show (5 / 2 : ℝ) = 5 ^ 2 * (1 / 10) by norm_num, Real.sqrt_mul (by norm_num), Real.sqrt_sq (by norm_num)]

theorem sqrt_ten : Real.sqrt 10 = 10 * Real.sqrt (1 / 10) := by
  rw [show (10 : ℝ) = 10 ^ 2 * (1 / 10) by norm_num, Real.sqrt_mul (by norm_num), Real.sqrt_sq (by norm_num)]
  norm_num

theorem sqrt_two_fifths : Real.sqrt (2 / 5) = 2 * Real.sqrt (1 / 10) := by
  rw [show (2 / 5 : ℝ) = 2 ^ 2 * (1 / 10) by norm_num, Real.sqrt_mul (by norm_num), Real.sqrt_sq (by norm_num)]

theorem one_div_sqrt_two : 1 / Real.sqrt 2 = Real.sqrt (1 / 2) := by
  rw [Real.sqrt_div (by norm_num), Real.sqrt_one]

/-! ## Specification -/

/-- Matrix element between states of definite `Tz` (`Tz0 = 0`) of the sector with target index
`t T0` in component `T0`, by the Wigner-Eckart sum over components.  Index of `Tz_ket`: nn 0, pn 1,
pp 2. -/
noncomputable def branched (op : Op) (t : ℕ → ℕ) (tk i j : ℕ) : ℝ :=
  branchT11 0 tk 0 * op 0 (t 0) i j + branchT11 0 tk 1 * op 1 (t 1) i j + branchT11 0 tk 2 * op 2 (t 2) i j

/-- `Tz + 1` of a species. -/
def Sp.tk : Sp → ℕ
  | .pp => 2
  | .nn => 0
  | .pn => 1

/-- Column of the pn file holding a species. -/
def Sp.col : Sp → ℕ
  | .pp => 0
  | .pn => 1
  | .nn => 2

/-! ## Property C38 -/

/-- **C38** (JPV): for every sector with `T'=T=1`, branching the three isospin components produced by
the JPV reader returns the values read for `pp`, `nn` and `pn`. -/
theorem jpv_round_trip {look : ℕ → ℕ → ℕ → Option ℕ} {sectors : List (ℕ × Sec)} (hg : GoodSectors look sectors)
    (input : Sp → ℕ → Block) :
    ∃ l, jpvAdds look sectors input = .ok l ∧
      ∀ p ∈ sectors, p.2.braT = 1 → p.2.ketT = 1 → ∃ t : ℕ → ℕ,
        (∀ T0 ≤ 2, look T0 p.2.bra p.2.ket = some (t T0)) ∧
        ∀ (s : Sp) (i j : ℕ), branched (accumulate (fun _ _ _ _ => 0) l) t s.tk i j = input s p.1 i j := by
  refine ⟨_, jpvAdds_ok hg input, ?_⟩
  intro p hp hb hk
  obtain ⟨i0, e0⟩ := hg.total p hp hb hk 0 (by omega)
  obtain ⟨i1, e1⟩ := hg.total p hp hb hk 1 (by omega)
  obtain ⟨i2, e2⟩ := hg.total p hp hb hk 2 (by omega)
  refine ⟨fun T0 => if T0 = 0 then i0 else if T0 = 1 then i1 else i2, ?_, ?_⟩
  · intro T0 h
    have : T0 = 0 ∨ T0 = 1 ∨ T0 = 2 := by omega
    rcases this with rfl | rfl | rfl
    · simpa using e0
    · simpa using e1
    · simpa using e2
  · intro s i j
    have hs2 : Real.sqrt (1 / 2) * Real.sqrt (1 / 2) = 1 / 2 := Real.mul_self_sqrt (by norm_num)
    have hs10 : Real.sqrt (1 / 10) * Real.sqrt (1 / 10) = 1 / 10 := Real.mul_self_sqrt (by norm_num)
    have w : ∀ T0 idx, look T0 p.2.bra p.2.ket = some idx → _ := fun T0 idx h =>
      jpv_value hg input (jpvAdds_ok hg input) p hp T0 idx i j h (fun _ _ _ _ => 0)
    simp only [branched, if_true, show ¬ ((1 : ℕ) = 0) by omega, show ¬ ((2 : ℕ) = 0) by omega,
      show ¬ ((2 : ℕ) = 1) by omega, if_false]
    rw [w 0 i0 e0, w 1 i1 e1, w 2 i2 e2]
    simp only [addsOf, hb, hk, e0, e1, e2, Option.getD_some, Add.contrib, List.map_cons, List.map_nil,
      List.sum_cons, List.sum_nil, ne_eq, not_true_eq_false, if_false, if_true, true_and, and_true,
      show ¬ ((1 : ℕ) = 0) by omega, show ¬ ((0 : ℕ) = 1) by omega, show ¬ ((0 : ℕ) = 2) by omega,
      show ¬ ((1 : ℕ) = 2) by omega, show ¬ ((2 : ℕ) = 0) by omega, show ¬ ((2 : ℕ) = 1) by omega, false_and,
      add_zero, zero_add, jpvTable, sqrt_nine_halves, sqrt_five_halves, sqrt_ten]
    cases s <;> simp only [Sp.tk, branchT11, sqrt_two_fifths]
    · linear_combination (input .pp p.1 i j - input .nn p.1 i j) * hs2
        + (5 / 3) * (input .pp p.1 i j + input .nn p.1 i j - 2 * input .pn p.1 i j) * hs10
    · linear_combination (input .nn p.1 i j - input .pp p.1 i j) * hs2
        + (5 / 3) * (input .pp p.1 i j + input .nn p.1 i j - 2 * input .pn p.1 i j) * hs10
    · linear_combination - (10 / 3) * (input .pp p.1 i j + input .nn p.1 i j - 2 * input .pn p.1 i j) * hs10

/-- **C38** (JPV), other sectors: a `T'=T=0` sector is copied from the pn file; a sector that changes
isospin stays zero in component 0. -/
theorem jpv_other_sectors {look : ℕ → ℕ → ℕ → Option ℕ} {sectors : List (ℕ × Sec)} (hg : GoodSectors look sectors)
    (input : Sp → ℕ → Block) :
    ∃ l, jpvAdds look sectors input = .ok l ∧ ∀ p ∈ sectors,
      (p.2.braT = 0 → p.2.ketT = 0 → ∀ i j, accumulate (fun _ _ _ _ => 0) l 0 p.1 i j = input .pn p.1 i j) ∧
      (p.2.braT ≠ p.2.ketT → ∀ i j, accumulate (fun _ _ _ _ => 0) l 0 p.1 i j = 0) := by
  refine ⟨_, jpvAdds_ok hg input, ?_⟩
  intro p hp
  have w : ∀ i j, _ := fun i j =>
    jpv_value hg input (jpvAdds_ok hg input) p hp 0 p.1 i j (hg.own p hp) (fun _ _ _ _ => 0)
  constructor
  · intro hb hk i j
    rw [w i j]
    simp [addsOf, hb, hk, Sp.Tz, Add.contrib]
  · intro hne i j
    rw [w i j]
    simp [addsOf, hne]

/-- **C38** (pn format): the same for the pn reader; the two readers' tables assign the same
components to the same physical values. -/
theorem pn_round_trip {look : ℕ → ℕ → ℕ → Option ℕ} {sectors : List (ℕ × Sec)} (hg : GoodSectors look sectors)
    (input : ℕ → ℕ → Block) :
    ∃ l, pnAdds look sectors input = .ok l ∧
      ∀ p ∈ sectors, p.2.braT = 1 → p.2.ketT = 1 → ∃ t : ℕ → ℕ,
        (∀ T0 ≤ 2, look T0 p.2.bra p.2.ket = some (t T0)) ∧
        ∀ (s : Sp) (i j : ℕ), branched (accumulate (fun _ _ _ _ => 0) l) t s.tk i j = input s.col p.1 i j := by
  refine ⟨_, pnAdds_ok hg input, ?_⟩
  intro p hp hb hk
  obtain ⟨i0, e0⟩ := hg.total p hp hb hk 0 (by omega)
  obtain ⟨i1, e1⟩ := hg.total p hp hb hk 1 (by omega)
  obtain ⟨i2, e2⟩ := hg.total p hp hb hk 2 (by omega)
  refine ⟨fun T0 => if T0 = 0 then i0 else if T0 = 1 then i1 else i2, ?_, ?_⟩
  · intro T0 h
    have : T0 = 0 ∨ T0 = 1 ∨ T0 = 2 := by omega
    rcases this with rfl | rfl | rfl
    · simpa using e0
    · simpa using e1
    · simpa using e2
  · intro s i j
    have hs2 : Real.sqrt (1 / 2) * Real.sqrt (1 / 2) = 1 / 2 := Real.mul_self_sqrt (by norm_num)
    have hs10 : Real.sqrt (1 / 10) * Real.sqrt (1 / 10) = 1 / 10 := Real.mul_self_sqrt (by norm_num)
    have w : ∀ T0 idx, look T0 p.2.bra p.2.ket = some idx → _ := fun T0 idx h =>
      pn_value hg input (pnAdds_ok hg input) p hp T0 idx i j h (fun _ _ _ _ => 0)
    simp only [branched, if_true, show ¬ ((1 : ℕ) = 0) by omega, show ¬ ((2 : ℕ) = 0) by omega,
      show ¬ ((2 : ℕ) = 1) by omega, if_false]
    rw [w 0 i0 e0, w 1 i1 e1, w 2 i2 e2]
    simp only [addsOf, hb, hk, e0, e1, e2, Option.getD_some, Add.contrib, List.map_cons, List.map_nil,
      List.sum_cons, List.sum_nil, ne_eq, not_true_eq_false, if_false, if_true, true_and, and_true,
      show ¬ ((1 : ℕ) = 0) by omega, show ¬ ((0 : ℕ) = 1) by omega, show ¬ ((0 : ℕ) = 2) by omega,
      show ¬ ((1 : ℕ) = 2) by omega, show ¬ ((2 : ℕ) = 0) by omega, show ¬ ((2 : ℕ) = 1) by omega, false_and,
      add_zero, zero_add, pnTable, sqrt_nine_halves, sqrt_five_halves, sqrt_ten]
    cases s <;> simp only [Sp.tk, Sp.col, branchT11, sqrt_two_fifths]
    · linear_combination (input 0 p.1 i j - input 2 p.1 i j) * hs2
        + (5 / 3) * (input 0 p.1 i j + input 2 p.1 i j - 2 * input 1 p.1 i j) * hs10
    · linear_combination (input 2 p.1 i j - input 0 p.1 i j) * hs2
        + (5 / 3) * (input 0 p.1 i j + input 2 p.1 i j - 2 * input 1 p.1 i j) * hs10
    · linear_combination - (10 / 3) * (input 0 p.1 i j + input 2 p.1 i j - 2 * input 1 p.1 i j) * hs10

theorem pn_other_sectors {look : ℕ → ℕ → ℕ → Option ℕ} {sectors : List (ℕ × Sec)} (hg : GoodSectors look sectors)
    (input : ℕ → ℕ → Block) :
    ∃ l, pnAdds look sectors input = .ok l ∧ ∀ p ∈ sectors,
      (p.2.braT = 0 → p.2.ketT = 0 → ∀ i j, accumulate (fun _ _ _ _ => 0) l 0 p.1 i j = input Sp.pn.col p.1 i j) ∧
      (p.2.braT ≠ p.2.ketT → ∀ i j, accumulate (fun _ _ _ _ => 0) l 0 p.1 i j = 0) := by
  refine ⟨_, pnAdds_ok hg input, ?_⟩
  intro p hp
  have w : ∀ i j, _ := fun i j =>
    pn_value hg input (pnAdds_ok hg input) p hp 0 p.1 i j (hg.own p hp) (fun _ _ _ _ => 0)
  constructor
  · intro hb hk i j
    rw [w i j]
    simp [addsOf, hb, hk, Sp.col, Add.contrib]
  · intro hne i j
    rw [w i j]
    simp [addsOf, hne]

/-! ## Property C39 -/

/-- **C39**: in a `T=1` sector a proton operator branches to the bare radial value for `pp` and to
zero for `nn` and `pn`; a neutron operator likewise for `nn`. -/
theorem single_species_acts_on_species (proton : Bool) (s : Sp) (x : ℝ) :
    branched (fun T0 _ _ _ => ((coulombFactor (if proton then .p else .n) 1 T0).getD 0) * x) id s.tk 0 0
      = if s = (if proton then .pp else .nn) then x else 0 := by
  have h2 : (Real.sqrt (1 / 2)) ^ 2 = 1 / 2 := Real.sq_sqrt (by norm_num)
  have h10 : (Real.sqrt (1 / 10)) ^ 2 = 1 / 10 := Real.sq_sqrt (by norm_num)
  have e : Real.sqrt 2 = 2 * Real.sqrt (1 / 2) := by
    rw [show (2 : ℝ) = 2 ^ 2 * (1 / 2) by norm_num, Real.sqrt_mul (by norm_num), Real.sqrt_sq (by norm_num)]
    norm_num
  have hp : Real.sqrt (1 / 2) ≠ 0 := (Real.sqrt_pos.mpr (by norm_num)).ne'
  have e1 : 1 / Real.sqrt 2 = Real.sqrt (1 / 2) := one_div_sqrt_two
  have e2 : -1 / Real.sqrt 2 = - Real.sqrt (1 / 2) := by rw [← e1]; ring
  cases proton <;> cases s <;>
    simp only [branched, coulombFactor, if_true, Option.getD_some, singleSpecies, Sp.tk, branchT11, sqrt_ten,
      sqrt_two_fifths, e1, e2, Bool.false_eq_true, if_false, reduceCtorEq, id]
  · linear_combination - x * h2 + (10 / 6) * x * h10
  · linear_combination x * h2 + (10 / 6) * x * h10
  · linear_combination - 2 * (10 / 6) * x * h10
  · linear_combination x * h2 + (10 / 6) * x * h10
  · linear_combination - x * h2 + (10 / 6) * x * h10
  · linear_combination - 2 * (10 / 6) * x * h10

/-- **C39**: single-species operators skip `T=0` sectors; the total operator has only an isoscalar
component, equal to one in every channel, hence the same value for all three species. -/
theorem total_is_charge_independent (T : ℕ) (s : Sp) (x : ℝ) :
    branched (fun T0 _ _ _ => ((coulombFactor .total T T0).getD 0) * x) id s.tk 0 0 = x ∧
    (∀ o T0, o ≠ OpType.total → coulombFactor o 0 T0 = none) := by
  constructor
  · cases s <;> simp [branched, coulombFactor, Sp.tk, branchT11]
  · intro o T0 h
    cases o <;> simp_all [coulombFactor]

/-! ## Property C41 -/

/-- **C41**: for every antisymmetry-allowed two-nucleon channel (`S, T ∈ {0,1}`, `L+S+T` odd) the
SU(4) Casimir is 5 for even `L` and 9 for odd `L`. -/
theorem casimir_by_spatial_symmetry (L S T : Int) (hS : S = 0 ∨ S = 1) (hT : T = 0 ∨ T = 1)
    (hA : (L + S + T) % 2 = 1) : casimir S T = if L % 2 = 0 then 5 else 9 := by
  rcases hS with rfl | rfl <;> rcases hT with rfl | rfl <;> simp only [casimir] <;> split <;> omega

/-! ## Examples -/

/-- Two sectors, one with `T=0`, one with `T=1`. -/
def exLook (T0 b k : ℕ) : Option ℕ :=
  if b = 0 ∧ k = 0 then (if T0 = 0 then some 0 else none)
  else if b = 1 ∧ k = 1 then (if T0 = 0 then some 1 else some 0) else none

def exSectors : List (ℕ × Sec) := [(0, ⟨0, 0, 0, 0⟩), (1, ⟨1, 1, 1, 1⟩)]

theorem exGood : GoodSectors exLook exSectors where
  nodup := by decide
  own := by decide
  total := by
    intro p hp _ _ T0 h
    simp only [exSectors, List.mem_cons, List.not_mem_nil, or_false] at hp
    rcases hp with rfl | rfl
    · simp_all
    · by_cases h0 : T0 = 0 <;> simp [exLook, h0]
  inj := by
    intro p hp q hq T0 i h1 h2
    simp only [exSectors, List.mem_cons, List.not_mem_nil, or_false] at hp hq
    rcases hp with rfl | rfl <;> rcases hq with rfl | rfl <;> by_cases h0 : T0 = 0 <;>
      simp_all [exLook]

/-- The hypotheses are met, with different values for the three species. -/
example : ∃ l, jpvAdds exLook exSectors (fun s _ i j => match s with | .pp => 1 | .nn => 2 | .pn => 3 + i + j) = .ok l ∧
    ∃ t, branched (accumulate (fun _ _ _ _ => 0) l) t Sp.pn.tk 2 5 = 10 := by
  obtain ⟨l, h, H⟩ := jpv_round_trip exGood (fun s _ i j => match s with | .pp => 1 | .nn => 2 | .pn => 3 + i + j)
  obtain ⟨t, _, ht⟩ := H (1, ⟨1, 1, 1, 1⟩) (by decide) rfl rfl
  refine ⟨l, h, t, ?_⟩
  rw [ht]
  norm_num

example : casimir 1 0 = 5 ∧ casimir 1 1 = 9 := by decide

end Verif.Relative
