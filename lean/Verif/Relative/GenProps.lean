import Verif.Relative.Gen
import Verif.H2.Lemmas

/-!
# What `relative-gen` reads and the unit tensors it writes
-/

namespace Verif.Relative.Gen
open Verif Verif.H2 Verif.Mixer.Control

/-! ## Property C117: the control file -/

/-- Operators with arguments, as documented (`relative-gen.cpp` 26-92). -/
def withArguments : List String :=
  ["coordinate-sqr", "dipole", "quadrupole", "orbital-am", "spin-am", "coulomb", "symmunit", "interaction", "LENPIC-N2LOGT"]

/-- `r|k`. -/
inductive CoordWord : String → Coord → Prop
  | r : CoordWord "r" .r
  | k : CoordWord "k" .k

/-- `p|n|total`. -/
inductive SpeciesWord : String → OpType → Prop
  | p : SpeciesWord "p" .p
  | n : SpeciesWord "n" .n
  | total : SpeciesWord "total" .total

/-- The documented operator line, with surplus words. -/
inductive OperatorLine (nm : Numbers) : List String → Choice → Prop
  | coordinateSqr {w c a t rest} : CoordWord w c → nm.int? a = some t →
      OperatorLine nm ("coordinate-sqr" :: w :: a :: rest) (.coordinateSqr c t)
  | dipole {w c a t rest} : CoordWord w c → nm.int? a = some t → OperatorLine nm ("dipole" :: w :: a :: rest) (.dipole c t)
  | quadrupole {w c a t rest} : CoordWord w c → nm.int? a = some t →
      OperatorLine nm ("quadrupole" :: w :: a :: rest) (.quadrupole c t)
  | orbital {a t rest} : nm.int? a = some t → OperatorLine nm ("orbital-am" :: a :: rest) (.orbital t)
  | spin {a t rest} : nm.int? a = some t → OperatorLine nm ("spin-am" :: a :: rest) (.spin t)
  | coulomb {w s a t rest} : SpeciesWord w s → nm.int? a = some t →
      OperatorLine nm ("coulomb" :: w :: a :: rest) (.coulomb s t)
  | symmunit {ws rest} {u : UnitLabels} :
      ws.map nm.int? = [u.T0, u.Np, u.Lp, u.Sp, u.Jp, u.Tp, u.N, u.L, u.S, u.J, u.T].map some →
      OperatorLine nm ("symmunit" :: (ws ++ rest)) (.symmunit u)
  | interaction {w rest} : OperatorLine nm ("interaction" :: w :: rest) (.interaction w)
  | n2logt {a b c R l n rest} : nm.num? a = some R → nm.num? b = some l → nm.int? c = some n →
      OperatorLine nm ("LENPIC-N2LOGT" :: a :: b :: c :: rest) (.n2logt R l n)
  | plain {name rest} : name ∉ withArguments → OperatorLine nm (name :: rest) (.plain name)

/-- The documented control file: the four lines, with surplus words. -/
structure ControlFile (nm : Numbers) (f : Input) (p : Params) : Prop where
  labels : ∃ a b c d rest, f.line 0 = a :: b :: c :: d :: rest ∧ nm.int? a = some p.J0 ∧ nm.int? b = some p.g0 ∧
    nm.int? c = some p.T0min ∧ nm.int? d = some p.T0max
  basis : ∃ a rest, f.line 1 = a :: rest ∧ nm.int? a = some p.Nmax
  Jmax : p.Jmax = p.Nmax + 1
  operator : OperatorLine nm (f.line 2) p.choice
  file : ∃ rest, f.line 3 = p.file :: rest

theorem word_ok {ws : List String} {r : String × List String} : word ws = .ok r ↔ ws = r.1 :: r.2 := by
  obtain ⟨a, b⟩ := r
  cases ws with
  | nil => simp [word]
  | cons w ws => simp [word]

theorem int_ok {nm : Numbers} {ws : List String} {r : Int × List String} :
    int nm ws = .ok r ↔ ∃ w, ws = w :: r.2 ∧ nm.int? w = some r.1 := by
  obtain ⟨a, b⟩ := r
  cases ws with
  | nil => simp [int]
  | cons w ws =>
    rw [int]
    split
    · rename_i i h
      simp only [Except.ok.injEq, Prod.mk.injEq, List.cons.injEq]
      constructor
      · rintro ⟨rfl, rfl⟩
        exact ⟨w, ⟨rfl, rfl⟩, h⟩
      · rintro ⟨w', ⟨rfl, rfl⟩, h'⟩
        rw [h] at h'
        exact ⟨Option.some.inj h', rfl⟩
    · rename_i h
      simp only [reduceCtorEq, List.cons.injEq, false_iff]
      rintro ⟨w', ⟨rfl, rfl⟩, h'⟩
      rw [h] at h'
      exact absurd h' (by simp)

theorem num_ok {nm : Numbers} {ws : List String} {r : ℝ × List String} :
    num nm ws = .ok r ↔ ∃ w, ws = w :: r.2 ∧ nm.num? w = some r.1 := by
  obtain ⟨a, b⟩ := r
  cases ws with
  | nil => simp [num]
  | cons w ws =>
    rw [num]
    split
    · rename_i i h
      simp only [Except.ok.injEq, Prod.mk.injEq, List.cons.injEq]
      constructor
      · rintro ⟨rfl, rfl⟩
        exact ⟨w, ⟨rfl, rfl⟩, h⟩
      · rintro ⟨w', ⟨rfl, rfl⟩, h'⟩
        rw [h] at h'
        exact ⟨Option.some.inj h', rfl⟩
    · rename_i h
      simp only [reduceCtorEq, List.cons.injEq, false_iff]
      rintro ⟨w', ⟨rfl, rfl⟩, h'⟩
      rw [h] at h'
      exact absurd h' (by simp)

theorem coord_ok {nm : Numbers} {ws : List String} {r : Coord × Int} :
    readCoord nm ws = .ok r ↔ ∃ w a rest, ws = w :: a :: rest ∧ CoordWord w r.1 ∧ nm.int? a = some r.2 := by
  obtain ⟨c, t⟩ := r
  simp only [readCoord, Except.bind_eq_ok, word_ok, int_ok]
  constructor
  · rintro ⟨⟨w, ws'⟩, rfl, ⟨t', rest⟩, ⟨a, rfl, h⟩, h2⟩
    simp only at h2
    split at h2
    · rename_i hw
      subst hw
      cases h2
      exact ⟨_, _, _, rfl, .r, h⟩
    · split at h2
      · rename_i hw
        subst hw
        cases h2
        exact ⟨_, _, _, rfl, .k, h⟩
      · cases h2
  · rintro ⟨w, a, rest, rfl, hw, h⟩
    refine ⟨(w, a :: rest), rfl, (t, rest), ⟨a, rfl, h⟩, ?_⟩
    cases hw <;> rfl

theorem choice_ok {nm : Numbers} {ws : List String} {c : Choice} : readChoice nm ws = .ok c ↔ OperatorLine nm ws c := by
  constructor
  · intro h
    simp only [readChoice, Except.bind_eq_ok, word_ok] at h
    obtain ⟨⟨name, rest⟩, rfl, h⟩ := h
    simp only at h
    split at h
    · rename_i e
      subst e
      simp only [Except.bind_eq_ok, int_ok] at h
      obtain ⟨_, ⟨w, rfl, hw⟩, h⟩ := h
      cases h
      exact .orbital hw
    split at h
    · rename_i e
      subst e
      simp only [Except.bind_eq_ok, int_ok] at h
      obtain ⟨_, ⟨w, rfl, hw⟩, h⟩ := h
      cases h
      exact .spin hw
    split at h
    · rename_i e
      subst e
      simp only [Except.bind_eq_ok, coord_ok] at h
      obtain ⟨_, ⟨w, a, r, rfl, hw, ha⟩, h⟩ := h
      cases h
      exact .coordinateSqr hw ha
    split at h
    · rename_i e
      subst e
      simp only [Except.bind_eq_ok, coord_ok] at h
      obtain ⟨_, ⟨w, a, r, rfl, hw, ha⟩, h⟩ := h
      cases h
      exact .dipole hw ha
    split at h
    · rename_i e
      subst e
      simp only [Except.bind_eq_ok, coord_ok] at h
      obtain ⟨_, ⟨w, a, r, rfl, hw, ha⟩, h⟩ := h
      cases h
      exact .quadrupole hw ha
    split at h
    · rename_i e
      subst e
      simp only [Except.bind_eq_ok, word_ok, int_ok] at h
      obtain ⟨⟨s, r⟩, rfl, ⟨n, r2⟩, ⟨a, rfl, ha⟩, h⟩ := h
      simp only at h
      split at h
      · rename_i e
        subst e
        cases h
        exact .coulomb .p ha
      split at h
      · rename_i e
        subst e
        cases h
        exact .coulomb .n ha
      split at h
      · rename_i e
        subst e
        cases h
        exact .coulomb .total ha
      · cases h
    split at h
    · rename_i e
      subst e
      simp only [Except.bind_eq_ok, int_ok] at h
      obtain ⟨r1, ⟨w1, rfl, h1⟩, r2, ⟨w2, e2, h2⟩, r3, ⟨w3, e3, h3⟩, r4, ⟨w4, e4, h4⟩, r5, ⟨w5, e5, h5⟩,
        r6, ⟨w6, e6, h6⟩, r7, ⟨w7, e7, h7⟩, r8, ⟨w8, e8, h8⟩, r9, ⟨w9, e9, h9⟩, r10, ⟨w10, e10, h10⟩,
        r11, ⟨w11, e11, h11⟩, h⟩ := h
      cases h
      rw [e2, e3, e4, e5, e6, e7, e8, e9, e10, e11]
      exact .symmunit (ws := [w1, w2, w3, w4, w5, w6, w7, w8, w9, w10, w11]) (rest := r11.2)
        (by simp [h1, h2, h3, h4, h5, h6, h7, h8, h9, h10, h11])
    split at h
    · rename_i e
      subst e
      simp only [Except.bind_eq_ok, word_ok] at h
      obtain ⟨⟨s, r⟩, rfl, h⟩ := h
      cases h
      exact .interaction
    split at h
    · rename_i e
      subst e
      simp only [Except.bind_eq_ok, num_ok, int_ok] at h
      obtain ⟨r1, ⟨w1, rfl, h1⟩, r2, ⟨w2, e2, h2⟩, r3, ⟨w3, e3, h3⟩, h⟩ := h
      cases h
      rw [e2, e3]
      exact .n2logt h1 h2 h3
    · cases h
      refine .plain ?_
      simp only [withArguments, List.mem_cons, List.not_mem_nil, or_false]
      tauto
  · intro h
    cases h with
    | coordinateSqr hw ha =>
      simp only [readChoice, word, Except.ok_bind', (coord_ok (r := (_, _))).mpr ⟨_, _, _, rfl, hw, ha⟩]
      rfl
    | dipole hw ha =>
      simp only [readChoice, word, Except.ok_bind', (coord_ok (r := (_, _))).mpr ⟨_, _, _, rfl, hw, ha⟩]
      rfl
    | quadrupole hw ha =>
      simp only [readChoice, word, Except.ok_bind', (coord_ok (r := (_, _))).mpr ⟨_, _, _, rfl, hw, ha⟩]
      rfl
    | orbital ha =>
      simp only [readChoice, word, Except.ok_bind', int, ha]
      rfl
    | spin ha =>
      simp only [readChoice, word, Except.ok_bind', int, ha]
      rfl
    | coulomb hw ha =>
      cases hw <;> simp only [readChoice, word, Except.ok_bind', int, ha] <;> rfl
    | symmunit hu =>
      rename_i ws rest u
      simp only [List.map_cons, List.map_nil, List.map_eq_cons_iff, List.map_eq_nil_iff] at hu
      obtain ⟨a1, l1, rfl, h1, ⟨a2, l2, rfl, h2, ⟨a3, l3, rfl, h3, ⟨a4, l4, rfl, h4, ⟨a5, l5, rfl, h5, ⟨a6, l6, rfl, h6, ⟨a7, l7, rfl, h7, ⟨a8, l8, rfl, h8, ⟨a9, l9, rfl, h9, ⟨a10, l10, rfl, h10, ⟨a11, l11, rfl, h11, hu⟩⟩⟩⟩⟩⟩⟩⟩⟩⟩⟩ := hu
      subst hu
      simp only [readChoice, word, Except.ok_bind', int, List.cons_append, List.nil_append, h1, h2, h3, h4, h5, h6,
        h7, h8, h9, h10, h11]
      rfl
    | interaction =>
      simp only [readChoice, word, Except.ok_bind']
      rfl
    | n2logt h1 h2 h3 =>
      simp only [readChoice, word, Except.ok_bind', int, num, h1, h2, h3]
      rfl
    | plain hn =>
      simp only [withArguments, List.mem_cons, List.not_mem_nil, or_false, not_or] at hn
      simp only [readChoice, word, Except.ok_bind', hn, if_false]
      rfl

/-- **C117.** What is read is what the documented control file says, and nothing else is accepted. -/
theorem control_file {nm : Numbers} {f : Input} {p : Params} : readParams nm f = .ok p ↔ ControlFile nm f p := by
  simp only [readParams, Except.bind_eq_ok, int_ok, word_ok, choice_ok]
  constructor
  · rintro ⟨r1, ⟨w1, e1, h1⟩, r2, ⟨w2, e2, h2⟩, r3, ⟨w3, e3, h3⟩, r4, ⟨w4, e4, h4⟩, r5, ⟨w5, e5, h5⟩, c, hc, r6, e6, h⟩
    cases h
    exact ⟨⟨w1, w2, w3, w4, r4.2, by rw [e1, e2, e3, e4], h1, h2, h3, h4⟩, ⟨w5, r5.2, e5, h5⟩, rfl, hc, ⟨r6.2, e6⟩⟩
  · rintro ⟨⟨a, b, c, d, rest, e, h1, h2, h3, h4⟩, ⟨a5, r5, e5, h5⟩, hJ, hc, ⟨r6, e6⟩⟩
    obtain ⟨J0, g0, T0min, T0max, Nmax, Jmax, choice, file⟩ := p
    simp only at h1 h2 h3 h4 h5 hJ hc e6
    subst hJ
    exact ⟨(J0, _), ⟨a, e, h1⟩, (g0, _), ⟨b, rfl, h2⟩, (T0min, _), ⟨c, rfl, h3⟩, (T0max, _), ⟨d, rfl, h4⟩, (Nmax, _),
      ⟨a5, e5, h5⟩, choice, hc, (file, _), e6, rfl⟩

/-- Only one kind of failure occurs while reading. -/
theorem int_error {nm : Numbers} {ws : List String} {e : Err} (h : int nm ws = .error e) : e = .parseError := by
  cases ws with
  | nil => cases h; rfl
  | cons w ws =>
    rw [int] at h
    split at h <;> cases h
    rfl

theorem word_error {ws : List String} {e : Err} (h : word ws = .error e) : e = .parseError := by
  cases ws <;> cases h
  rfl

/-- **C117, missing lines.** If the last line ends with a newline, a file with fewer than four lines is refused. -/
theorem missing_line_refused {nm : Numbers} {f : Input} (hn : f.newline = true) (hl : f.lines.length < 4) (p : Params) :
    readParams nm f ≠ .ok p := by
  intro h
  obtain ⟨_, _, _, _, r, h⟩ := control_file.mp h
  rw [Input.line, List.getElem?_eq_none (by omega)] at h
  simp [hn] at h

/-- **C117 is false of files without a final newline**: the last line is read again in place of those missing, and so a
file without a file name is accepted; the operator goes to a file named like the operator. -/
theorem missing_line_accepted {nm : Numbers} {a b c d n : String} {J0 g0 T0 T1 Nmax : Int} (h1 : nm.int? a = some J0)
    (h2 : nm.int? b = some g0) (h3 : nm.int? c = some T0) (h4 : nm.int? d = some T1) (h5 : nm.int? n = some Nmax)
    {name : String} (hname : name ∉ withArguments) :
    readParams nm ⟨[[a, b, c, d], [n], [name]], false⟩ =
      .ok ⟨J0, g0, T0, T1, Nmax, Nmax + 1, .plain name, name⟩ :=
  control_file.mpr ⟨⟨a, b, c, d, [], rfl, h1, h2, h3, h4⟩, ⟨n, [], rfl, h5⟩, rfl, .plain hname, ⟨[], rfl⟩⟩

/-! ## Property C118: unit tensors -/

/-- The labels name two states, in canonical order, that the operator connects. -/
structure Canonical (o : OpLabels) (Nmax Jmax : ℕ) (u : UnitLabels) (T0 : ℕ) (bra ket : RelSub) (n' n : ℕ) : Prop where
  rank : u.T0 = T0
  range : o.T0min ≤ T0 ∧ T0 ≤ o.T0max
  three : T0 ≤ 2
  hbra : bra ∈ relSpace Nmax Jmax
  hket : ket ∈ relSpace Nmax Jmax
  braLabels : u.Lp = bra.L ∧ u.Sp = bra.S ∧ u.Jp = bra.J ∧ u.Tp = bra.T
  ketLabels : u.L = ket.L ∧ u.S = ket.S ∧ u.J = ket.J ∧ u.T = ket.T
  braState : n' < bra.size ∧ u.Np = bra.L + 2 * n'
  ketState : n < ket.size ∧ u.N = ket.L + 2 * n
  connected : tri bra.J o.J0 ket.J ∧ tri bra.T T0 ket.T ∧ (bra.L + ket.L + o.g0) % 2 = 0
  order : bra = ket ∧ n' ≤ n ∨ SubLt bra ket

theorem sub_ext {Nmax Jmax : ℕ} {s t : RelSub} (hs : s ∈ relSpace Nmax Jmax) (ht : t ∈ relSpace Nmax Jmax) (h1 : s.L = t.L)
    (h2 : s.S = t.S) (h3 : s.J = t.J) : s = t := by
  obtain ⟨_, _, _, _, h5, h6, h7, h8⟩ := mem_space.mp hs
  obtain ⟨_, _, _, _, k5, k6, k7, k8⟩ := mem_space.mp ht
  obtain ⟨L, S, J, T, N, z⟩ := s
  obtain ⟨L', S', J', T', N', z'⟩ := t
  simp only at *
  subst h1 h2 h3 h7 h8 k7 k8
  simp only [RelSub.mk.injEq, true_and, and_true]
  omega

theorem lookUp_some {Nmax Jmax : ℕ} {L S J T : Int} {s : RelSub} :
    lookUp (relSpace Nmax Jmax) L S J T = some s ↔
      s ∈ relSpace Nmax Jmax ∧ L = s.L ∧ S = s.S ∧ J = s.J ∧ T = s.T := by
  constructor
  · intro h
    have h1 := List.mem_of_find?_eq_some h
    have h2 := List.find?_some h
    simp only [decide_eq_true_eq] at h2
    exact ⟨h1, h2.1.symm, h2.2.1.symm, h2.2.2.1.symm, h2.2.2.2.symm⟩
  · rintro ⟨hs, rfl, rfl, rfl, rfl⟩
    cases h : lookUp (relSpace Nmax Jmax) s.L s.S s.J s.T with
    | none =>
      have := List.find?_eq_none.mp h s hs
      simp at this
    | some t =>
      have h1 := List.mem_of_find?_eq_some h
      have h2 := List.find?_some h
      simp only [decide_eq_true_eq, Nat.cast_inj] at h2
      rw [sub_ext h1 hs h2.1 h2.2.1 h2.2.2.1]

theorem stateIndex_some {s : RelSub} {N : Int} {n : ℕ} : stateIndex s N = some n ↔ n < s.size ∧ N = s.L + 2 * n := by
  constructor
  · intro h
    have h1 := List.mem_of_find?_eq_some h
    have h2 := List.find?_some h
    simp only [decide_eq_true_eq] at h2
    exact ⟨List.mem_range.mp h1, h2.symm⟩
  · rintro ⟨hn, rfl⟩
    cases h : stateIndex s (s.L + 2 * n) with
    | none =>
      have := List.find?_eq_none.mp h n (List.mem_range.mpr hn)
      simp at this
    | some t =>
      have h2 := List.find?_some h
      simp only [decide_eq_true_eq] at h2
      congr 1
      omega

theorem findIdx_mem {l : List RSec} {p : RSec} (h : p ∈ l) (hn : l.Nodup) :
    ∃ k, l.findIdx? (fun q => decide (q = p)) = some k ∧ ∀ i : ℕ, l[i]? = some p ↔ i = k := by
  cases hk : l.findIdx? (fun q => decide (q = p)) with
  | none =>
    have := List.findIdx?_eq_none_iff.mp hk p h
    simp at this
  | some k =>
    obtain ⟨hk1, hk2, _⟩ := List.findIdx?_eq_some_iff_getElem.mp hk
    simp only [decide_eq_true_eq] at hk2
    refine ⟨k, rfl, fun i => ⟨fun hi => ?_, ?_⟩⟩
    · obtain ⟨hi', e⟩ := List.getElem?_eq_some_iff.mp hi
      exact (List.Nodup.getElem_inj_iff hn).mp (e.trans hk2.symm)
    · rintro rfl
      rw [List.getElem?_eq_getElem hk1, hk2]

/-- The unit tensor of `T0`, `bra`, `n'`, `ket`, `n`. -/
def IsUnit (sectors : ℕ → List RSec) (op : RelOp) (T0 : ℕ) (bra ket : RelSub) (n' n : ℕ) : Prop :=
  ∀ t, List.Forall₂ (fun p b => ∀ i j, b i j =
    .ok (if t = T0 ∧ p = (bra, ket) ∧ i = n' ∧ j = n then (1 : ℝ) else 0)) (sectors t) (op t)

/-- **C118.** For labels of two states in canonical order that the operator connects, exactly the element between them is
one and all others are zero. -/
theorem unit_stored {o : OpLabels} {Nmax Jmax : ℕ} {u : UnitLabels} {T0 : ℕ} {bra ket : RelSub} {n' n : ℕ}
    (h : Canonical o Nmax Jmax u T0 bra ket n' n) :
    ∃ op, constructUnit (relSpace Nmax Jmax) (relSectors o (relSpace Nmax Jmax)) u = .ok op ∧
      IsUnit (relSectors o (relSpace Nmax Jmax)) op T0 bra ket n' n := by
  have hb := lookUp_some.mpr ⟨h.hbra, h.braLabels⟩
  have hk := lookUp_some.mpr ⟨h.hket, h.ketLabels⟩
  have hi := stateIndex_some.mpr h.braState
  have hj := stateIndex_some.mpr h.ketState
  have hm : (bra, ket) ∈ relSectors o (relSpace Nmax Jmax) T0 :=
    mem_sectors.mpr ⟨h.range, h.hbra, h.hket, h.order.imp And.left id, by
      simp [allowed, h.connected]⟩
  obtain ⟨k, hk1, hk2⟩ := findIdx_mem hm (sectors_nodup o Nmax Jmax T0)
  have hT := h.three
  have hT' : ¬ (u.T0 < 0 ∨ 2 < u.T0) := by
    rw [h.rank]
    omega
  have hT2 : u.T0.toNat = T0 := by
    rw [h.rank]
    rfl
  have hc : (if bra = ket then assertE (indexLe (some n') (some n)) else .ok ()) = (.ok () : Except Err Unit) := by
    split
    · rename_i e
      rcases h.order with ho | ho
      · simp [indexLe, ho.2, assertE]
      · subst e
        rcases ho with ho | ⟨_, ho | ⟨_, ho⟩⟩ <;> omega
    · rfl
  refine ⟨_, by
    simp only [constructUnit, hb, hk, hi, hj, if_neg hT', hT2, hk1]
    rw [hc]
    rfl, ?_⟩
  intro t
  generalize hS : relSectors o (relSpace Nmax Jmax) = sectors at hk2
  by_cases ht : t = T0
  · subst ht
    simp only [if_true, true_and]
    refine List.forall₂_iff_get.mpr ⟨by simp [constructZero], fun i h1 h2 i' j' => ?_⟩
    simp only [List.get_eq_getElem, List.getElem_set, constructZero, List.getElem_map]
    have e := hk2 i
    rw [List.getElem?_eq_getElem h1] at e
    simp only [Option.some.injEq] at e
    by_cases hik : k = i
    · have : (sectors t)[i] = (bra, ket) := e.mpr hik.symm
      simp only [if_pos hik, this, true_and, setOne, zeroE]
      split <;> rfl
    · have : ¬ (sectors t)[i] = (bra, ket) := fun x => hik (e.mp x).symm
      simp only [if_neg hik, this, false_and, if_false, zeroE]
  · simp only [if_neg ht, ht, false_and, if_false]
    refine List.forall₂_iff_get.mpr ⟨by simp [constructZero], fun i h1 h2 i' j' => ?_⟩
    simp [constructZero, zeroE]

/-- **C118, converse.** Only such labels are accepted. -/
theorem unit_canonical {o : OpLabels} {Nmax Jmax : ℕ} {u : UnitLabels} {op : RelOp}
    (h : constructUnit (relSpace Nmax Jmax) (relSectors o (relSpace Nmax Jmax)) u = .ok op) :
    ∃ T0 bra ket n' n, Canonical o Nmax Jmax u T0 bra ket n' n := by
  rw [constructUnit] at h
  cases hb : lookUp (relSpace Nmax Jmax) u.Lp u.Sp u.Jp u.Tp with
  | none => rw [hb] at h; cases h
  | some bra =>
  cases hk : lookUp (relSpace Nmax Jmax) u.L u.S u.J u.T with
  | none => rw [hb, hk] at h; cases h
  | some ket =>
  rw [hb, hk] at h
  simp only at h
  split at h
  · cases h
  rename_i hT
  split at h
  · cases h
  rename_i k hk'
  obtain ⟨hk1, hk2, _⟩ := List.findIdx?_eq_some_iff_getElem.mp hk'
  simp only [decide_eq_true_eq] at hk2
  have hm : (bra, ket) ∈ relSectors o (relSpace Nmax Jmax) u.T0.toNat := hk2 ▸ List.getElem_mem hk1
  obtain ⟨hr, _, _, ho, ha⟩ := mem_sectors.mp hm
  obtain ⟨hb1, hb2⟩ := lookUp_some.mp hb
  obtain ⟨hq1, hq2⟩ := lookUp_some.mp hk
  simp only [allowed, Bool.and_eq_true, decide_eq_true_eq] at ha
  rw [Except.bind_eq_ok] at h
  obtain ⟨_, hc, h⟩ := h
  split at h
  rotate_left
  · cases h
  rename_i i j hi hj
  refine ⟨u.T0.toNat, bra, ket, i, j, by omega, hr, by omega, hb1, hq1, hb2, hq2, stateIndex_some.mp hi, stateIndex_some.mp hj,
    ⟨ha.1.1, ha.1.2, ha.2⟩, ?_⟩
  rcases ho with e | ho
  · refine .inl ⟨e, ?_⟩
    simp only at e
    rw [if_pos e, hi, hj] at hc
    simpa [indexLe] using (assertE_ok.mp hc)
  · exact .inr ho

/-- **C118, refusal (`_partial`).** Labels of two states of one subspace in the wrong order end the program at its
assertion.  Missing: all other labels that are not canonical are not recognised, see `unit_unchecked`. -/
theorem unit_order_refused_partial {o : OpLabels} {Nmax Jmax : ℕ} {u : UnitLabels} {T0 : ℕ} {s : RelSub} {n' n : ℕ}
    (h : Canonical o Nmax Jmax { u with Np := u.N, N := u.Np } T0 s s n n') (hn : n ≠ n') :
    constructUnit (relSpace Nmax Jmax) (relSectors o (relSpace Nmax Jmax)) u = .error .assertFail := by
  have hb := lookUp_some.mpr ⟨h.hbra, h.braLabels⟩
  have hk := lookUp_some.mpr ⟨h.hket, h.ketLabels⟩
  have hi := stateIndex_some.mpr h.ketState
  have hj := stateIndex_some.mpr h.braState
  simp only at hb hk hi hj
  have hm : (s, s) ∈ relSectors o (relSpace Nmax Jmax) T0 :=
    mem_sectors.mpr ⟨h.range, h.hbra, h.hket, .inl rfl, by simp [allowed, h.connected]⟩
  obtain ⟨k, hk1, hk2⟩ := findIdx_mem hm (sectors_nodup o Nmax Jmax T0)
  have hT := h.three
  have hT0 : u.T0 = T0 := h.rank
  have hT' : ¬ (u.T0 < 0 ∨ 2 < u.T0) := by
    rw [hT0]
    omega
  have hT2 : u.T0.toNat = T0 := by
    rw [hT0]
    rfl
  have ho : ¬ n' ≤ n := by
    rcases h.order with ho | ho
    · omega
    · rcases ho with ho | ⟨_, ho | ⟨_, ho⟩⟩ <;> omega
  simp only [constructUnit, hb, hk, hi, hj, if_neg hT', hT2, hk1]
  simp [indexLe, ho, assertE, Except.error_bind']

/-- **C118 is false of other labels that are not canonical**: the program goes on with the places of a state, subspace or
sector it did not find.  Labels that are read are either canonical, or stopped at the assertion, or used undefined. -/
theorem unit_unchecked {o : OpLabels} {Nmax Jmax : ℕ} {u : UnitLabels} {bra ket : RelSub} (hb : bra ∈ relSpace Nmax Jmax)
    (hk : ket ∈ relSpace Nmax Jmax) (lb : u.Lp = bra.L ∧ u.Sp = bra.S ∧ u.Jp = bra.J ∧ u.Tp = bra.T)
    (lk : u.L = ket.L ∧ u.S = ket.S ∧ u.J = ket.J ∧ u.T = ket.T) (h : SubLt ket bra) :
    constructUnit (relSpace Nmax Jmax) (relSectors o (relSpace Nmax Jmax)) u = .error .undefinedBehaviour := by
  simp only [constructUnit, lookUp_some.mpr ⟨hb, lb⟩, lookUp_some.mpr ⟨hk, lk⟩]
  split
  · rfl
  · split
    · rfl
    · rename_i k hk'
      obtain ⟨hk1, hk2, _⟩ := List.findIdx?_eq_some_iff_getElem.mp hk'
      simp only [decide_eq_true_eq] at hk2
      have hm : (bra, ket) ∈ relSectors o (relSpace Nmax Jmax) u.T0.toNat := hk2 ▸ List.getElem_mem hk1
      obtain ⟨_, _, _, ho, _⟩ := mem_sectors.mp hm
      exfalso
      simp only at ho
      rcases ho with rfl | ho
      · rcases h with h | ⟨_, h | ⟨_, h⟩⟩ <;> omega
      · rcases h with h1 | ⟨e1, h1 | ⟨e2, h1⟩⟩ <;> rcases ho with h | ⟨e3, h | ⟨e4, h⟩⟩ <;> omega

end Verif.Relative.Gen
