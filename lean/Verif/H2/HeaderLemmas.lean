import Verif.H2.Header
import Verif.H2.Lemmas

/-! # Parsing lemmas for the headers -/

namespace Verif.H2
open Verif

/-- `p` reads back exactly the tokens `enc`, wherever they stand, and yields `v`. -/
def Parses {τ α : Type} (p : P τ α) (enc : List τ) (v : α) : Prop :=
  ∀ pre post, p (pre ++ (enc ++ post)) pre.length = .ok (v, pre.length + enc.length)

theorem Parses.bind {τ α β : Type} {p : P τ α} {q : α → P τ β} {e1 e2 : List τ} {a : α} {b : β}
    (h1 : Parses p e1 a) (h2 : Parses (q a) e2 b) : Parses (p >>= q) (e1 ++ e2) b := by
  intro pre post
  show (match p (pre ++ (e1 ++ e2 ++ post)) pre.length with
    | .error e => (Except.error e : Except Err (β × Nat))
    | .ok (a, pos') => q a (pre ++ (e1 ++ e2 ++ post)) pos') = _
  have h := h1 pre (e2 ++ post)
  rw [List.append_assoc, h]
  have h' := h2 (pre ++ e1) post
  simp only [List.length_append, List.append_assoc] at h' ⊢
  rw [h', Nat.add_assoc]

theorem Parses.pure {τ α : Type} (a : α) : Parses (τ := τ) (pure a : P τ α) [] a := by
  intro pre post; rfl

/-- `p` stops with `e` when the input continues with `enc`. -/
def Fails {τ α : Type} (p : P τ α) (enc : List τ) (e : Err) : Prop :=
  ∀ pre post, p (pre ++ (enc ++ post)) pre.length = .error e

theorem Fails.here {τ α β : Type} {p : P τ α} {q : α → P τ β} {e1 : List τ} {e : Err}
    (h1 : Fails p e1 e) : Fails (p >>= q) e1 e := by
  intro pre post
  show (match p (pre ++ (e1 ++ post)) pre.length with
    | .error e => (Except.error e : Except Err (β × Nat))
    | .ok (a, pos') => q a (pre ++ (e1 ++ post)) pos') = _
  rw [h1]

theorem Fails.later {τ α β : Type} {p : P τ α} {q : α → P τ β} {e1 e2 : List τ} {a : α} {e : Err}
    (h1 : Parses p e1 a) (h2 : Fails (q a) e2 e) : Fails (p >>= q) (e1 ++ e2) e := by
  intro pre post
  show (match p (pre ++ (e1 ++ e2 ++ post)) pre.length with
    | .error e => (Except.error e : Except Err (β × Nat))
    | .ok (a, pos') => q a (pre ++ (e1 ++ e2 ++ post)) pos') = _
  have h := h1 pre (e2 ++ post)
  rw [List.append_assoc, h]
  have h' := h2 (pre ++ e1) post
  simp only [List.length_append, List.append_assoc] at h' ⊢
  exact h'

theorem Parses.map {τ α β : Type} {p : P τ α} {f : α → β} {e : List τ} {a : α}
    (h : Parses p e a) : Parses (p >>= fun x => (Pure.pure (f x) : P τ β)) e (f a) := by
  have := Parses.bind (q := fun x => (Pure.pure (f x) : P τ β)) h (Parses.pure (f a))
  simpa using this

theorem Parses.many {τ α : Type} {p : P τ α} {xs : List α} {enc : α → List τ}
    (h : ∀ x ∈ xs, Parses p (enc x) x) : Parses (pMany p xs.length) (xs.flatMap enc) xs := by
  induction xs with
  | nil => exact Parses.pure []
  | cons x xs ih =>
    simp only [List.length_cons, List.flatMap_cons, pMany]
    exact Parses.bind (h x (by simp)) (Parses.map (f := fun xs => x :: xs) (ih fun y hy => h y (by simp [hy])))

theorem parses_word32 (w : BitVec 32) : Parses pWord32 (bytes32 w) w := by
  intro pre post
  have := readRaw_append pre (bytes32 w) post
  rw [bytes32_length] at this
  simp [pWord32, this]

theorem parses_word64 (w : BitVec 64) : Parses pWord64 (bytes64 w) w := by
  intro pre post
  have := readRaw_append pre (bytes64 w) post
  rw [bytes64_length] at this
  simp [pWord64, this]

theorem toInt_ofInt32 {i : Int} (h : fitsInt i = true) : (BitVec.ofInt 32 i).toInt = i := by
  simp only [fitsInt, decide_eq_true_eq] at h
  exact BitVec.toInt_ofInt_eq_self (by decide) (by simpa using h.1) (by simpa using h.2)

theorem toInt_ofInt64 {i : Int} (h : fitsLong i = true) : (BitVec.ofInt 64 i).toInt = i := by
  simp only [fitsLong, decide_eq_true_eq] at h
  exact BitVec.toInt_ofInt_eq_self (by decide) (by simpa using h.1) (by simpa using h.2)

theorem narrow_eq {n : Nat} (h : fitsInt n = true) : narrow n = n := by
  have := toInt_ofInt32 h
  simpa [narrow] using this

theorem parses_int_narrow (i : Int) : Parses pInt (wInt i) (BitVec.ofInt 32 i).toInt :=
  Parses.map (f := BitVec.toInt) (parses_word32 (BitVec.ofInt 32 i))

theorem fitsInt_of_toInt {i : Int} (h : (BitVec.ofInt 32 i).toInt = i) : fitsInt i = true := by
  have h1 := BitVec.toInt_lt (x := BitVec.ofInt 32 i)
  have h2 := BitVec.le_toInt (x := BitVec.ofInt 32 i)
  rw [h] at h1 h2
  simp only [fitsInt, decide_eq_true_eq]
  simp at h1 h2
  omega

theorem parses_int {i : Int} (h : fitsInt i = true) : Parses pInt (wInt i) i := by
  have := Parses.map (f := BitVec.toInt) (parses_word32 (BitVec.ofInt 32 i))
  rw [toInt_ofInt32 h] at this
  exact this

theorem parses_int64 {i : Int} (h : fitsLong i = true) : Parses pInt64 (wInt64 i) i := by
  have := Parses.map (f := BitVec.toInt) (parses_word64 (BitVec.ofInt 64 i))
  rw [toInt_ofInt64 h] at this
  exact this

theorem parses_float {fm : FloatModel} {x : ℝ} (h : fm.ofF32 (fm.toF32 x) = x) :
    Parses (pFloat fm) (wFloat fm x) x := by
  have := Parses.map (f := fm.ofF32) (parses_word32 (fm.toF32 x))
  rw [h] at this
  exact this

theorem parses_verify (v : Int) : Parses (pVerify v) (wInt v) () := by
  have := Parses.bind (q := fun w => if w = BitVec.ofInt 32 v then (pure () : P Byte Unit)
      else P.fail .badDelimiter) (e2 := []) (b := ()) (parses_word32 (BitVec.ofInt 32 v))
      (by rw [if_pos rfl]; exact Parses.pure ())
  rw [List.append_nil] at this
  exact this

theorem parses_line (l : Line) : Parses tLine [l] l := by
  intro pre post
  simp [tLine]

theorem parses_lines (ls : List Line) : Parses (pMany tLine ls.length) ls ls := by
  have := Parses.many (p := tLine) (xs := ls) (enc := fun l => [l]) (fun l _ => parses_line l)
  simpa using this

theorem parses_tInts {fits : Int → Bool} {xs : List Int} {ds : List String}
    (h : xs.all fits = true) : Parses (tInts fits xs.length) [⟨xs, ds⟩] xs := by
  have := Parses.bind (q := fun l : Line => if xs.length ≤ l.ints.length ∧ (l.ints.take xs.length).all fits
      then (pure (l.ints.take xs.length) : P Line (List Int)) else P.fail .parseError)
      (e2 := []) (b := xs) (parses_line ⟨xs, ds⟩)
      (by
        simp only [le_refl, List.take_length, true_and]
        rw [if_pos h]; exact Parses.pure xs)
  rw [List.append_nil] at this
  exact this

theorem fails_tInts {fits : Int → Bool} {xs : List Int} {ds : List String}
    (h : xs.all fits = false) : Fails (tInts fits xs.length) [⟨xs, ds⟩] .parseError := by
  have := Fails.later (q := fun l : Line => if xs.length ≤ l.ints.length ∧ (l.ints.take xs.length).all fits
      then (pure (l.ints.take xs.length) : P Line (List Int)) else P.fail .parseError)
      (e2 := []) (e := .parseError) (parses_line ⟨xs, ds⟩)
      (by
        simp only [le_refl, List.take_length, true_and]
        rw [if_neg (by simp [h])]
        intro pre post; rfl)
  rw [List.append_nil] at this
  exact this

theorem mapM_scan {fm : FloatModel} {fmtE : ℝ → String} {xs : List ℝ}
    (h : ∀ x ∈ xs, ∃ w, fm.scan (fmtE x) = some w ∧ fm.ofF32 w = x) :
    ∃ ws, (xs.map fmtE).mapM fm.scan = some ws ∧ ws.length = xs.length ∧ ws.map fm.ofF32 = xs := by
  induction xs with
  | nil => exact ⟨[], rfl, rfl, rfl⟩
  | cons x xs ih =>
    obtain ⟨w, h1, h2⟩ := h x (by simp)
    obtain ⟨ws, h3, h4, h5⟩ := ih fun y hy => h y (by simp [hy])
    refine ⟨w :: ws, ?_, by simp [h4], by simp [h2, h5]⟩
    simp [h1, h3]

theorem parses_tFloats {fm : FloatModel} {fmtE : ℝ → String} {xs : List ℝ} {is : List Int}
    (h : ∀ x ∈ xs, ∃ w, fm.scan (fmtE x) = some w ∧ fm.ofF32 w = x) :
    Parses (tFloats fm xs.length) [⟨is, xs.map fmtE⟩] xs := by
  obtain ⟨ws, h1, h2, h3⟩ := mapM_scan h
  have e : (List.map fmtE xs).take xs.length = List.map fmtE xs := by
    rw [List.take_of_length_le]; simp
  unfold tFloats
  rw [← List.append_nil [(⟨is, xs.map fmtE⟩ : Line)]]
  refine Parses.bind (parses_line _) ?_
  simp only [e, h1, if_pos h2, h3]
  exact Parses.pure xs

theorem parses_lift {τ α : Type} {x : Except Err α} {a : α} (h : x = .ok a) :
    Parses (τ := τ) (pLift x) [] a := by
  intro pre post; simp [pLift, h]

theorem ofFlat_flat (o : OrbSpace) : OrbSpace.ofFlat o.flat = o := by
  cases o with
  | mk p n =>
    simp [OrbSpace.ofFlat, OrbSpace.flat, List.filter_append, List.filter_map, Function.comp_def]

theorem mapM_speciesOfTz (ps : List Bool) :
    (ps.map twiceTz).mapM speciesOfTz = .ok ps := by
  induction ps with
  | nil => rfl
  | cons p ps ih =>
    have : speciesOfTz (twiceTz p) = .ok p := by cases p <;> rfl
    simp [this, ih]

theorem rebuild_orbs (os : List Orb) :
    ((List.range os.length).map fun i => (⟨(os.map (·.n)).getD i 0, (os.map (·.l)).getD i 0,
      (os.map (·.twiceJ)).getD i 0, (os.map (·.weight)).getD i 0⟩ : Orb)) = os := by
  apply List.ext_getElem (by simp)
  intro i h1 h2
  simp at h1
  simp [List.getD, h1]

theorem rebuild_flat (os : List (Bool × Orb)) :
    ((List.range os.length).map fun i => ((os.map (·.1)).getD i true,
      (⟨(os.map (·.2.n)).getD i 0, (os.map (·.2.l)).getD i 0,
      (os.map (·.2.twiceJ)).getD i 0, (os.map (·.2.weight)).getD i 0⟩ : Orb))) = os := by
  apply List.ext_getElem (by simp)
  intro i h1 h2
  simp at h1
  simp [List.getD, h1]

theorem flatMap_field {α : Type} {β : Type} {γ : Type} (f : α → β) (g : β → List γ) (xs : List α) :
    (xs.flatMap fun o => g (f o)) = (xs.map f).flatMap g := by
  simp [List.flatMap_map]

theorem Parses.manyField {τ α β : Type} {p : P τ β} {xs : List α} (f : α → β) {enc : β → List τ}
    (h : ∀ x ∈ xs, Parses p (enc (f x)) (f x)) :
    Parses (pMany p xs.length) (xs.flatMap fun x => enc (f x)) (xs.map f) := by
  rw [flatMap_field]
  have := Parses.many (p := p) (xs := xs.map f) (enc := enc) (by
    intro y hy; obtain ⟨x, hx, rfl⟩ := List.mem_map.1 hy; exact h x hx)
  simpa using this

/-- The integer fields of an orbital fit an `int`, its weight a `float`. -/
def OrbOK (fm : FloatModel) (o : Orb) : Prop :=
  fitsInt o.n = true ∧ fitsInt o.l = true ∧ fitsInt o.twiceJ = true ∧ fm.ofF32 (fm.toF32 o.weight) = o.weight

theorem parses_orbsV15099 {fm : FloatModel} {os : List Orb} (h : ∀ o ∈ os, OrbOK fm o) :
    Parses (readOrbsV15099 fm os.length) (writeOrbsV15099 fm os) os := by
  unfold readOrbsV15099
  rw [if_neg (by omega)]
  simp only [Int.toNat_natCast]
  unfold writeOrbsV15099
  simp only [wRecord, List.append_assoc]
  refine Parses.bind (parses_verify _) ?_
  refine Parses.bind (Parses.manyField Orb.n (enc := wInt) fun o ho => parses_int (h o ho).1) ?_
  refine Parses.bind (parses_verify _) ?_
  refine Parses.bind (parses_verify _) ?_
  refine Parses.bind (Parses.manyField Orb.l (enc := wInt) fun o ho => parses_int (h o ho).2.1) ?_
  refine Parses.bind (parses_verify _) ?_
  refine Parses.bind (parses_verify _) ?_
  refine Parses.bind (Parses.manyField Orb.twiceJ (enc := wInt) fun o ho => parses_int (h o ho).2.2.1) ?_
  refine Parses.bind (parses_verify _) ?_
  refine Parses.bind (parses_verify _) ?_
  refine Parses.bind (Parses.manyField Orb.weight (enc := wFloat fm) fun o ho => parses_float (h o ho).2.2.2) ?_
  rw [← List.append_nil (wInt _)]
  refine Parses.bind (parses_verify _) ?_
  have := Parses.pure (τ := Byte) os
  simpa only [rebuild_orbs] using this

end Verif.H2
