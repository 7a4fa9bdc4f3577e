import Verif.Density.Obscalc
import Verif.Density.FileProps
import Verif.Obme.ProductProps
import Mathlib.Algebra.BigOperators.Field

/-!
# Properties of `obscalc-ob`
-/

namespace Verif.Density
open Verif Verif.Mapping Verif.Obme
open Verif.H2 (Except.ok_bind' Except.error_bind' Except.pure_ok Except.bind_eq_ok assertE_ok)
open Verif.Mixer.Control (CLine Numbers word int num atEnd)

/-! ## Contraction -/

theorem foldlM_add {step : ℝ → ℕ → Except Err ℝ} {t : ℕ → ℝ} (n : ℕ)
    (h : ∀ v i, i < n → step v i = .ok (v + t i)) (v : ℝ) :
    (List.range n).foldlM step v = .ok (v + ∑ i ∈ Finset.range n, t i) := by
  induction n with
  | zero => simp
  | succ n ih =>
    rw [List.range_succ, List.foldlM_append, ih fun v i hi => h v i (by omega)]
    simp only [List.foldlM_cons, List.foldlM_nil, Except.ok_bind', h _ n (by omega), Finset.sum_range_succ, add_assoc]
    rfl

/-- The quantum numbers of a state of a space. -/
def orbital (space : Space) (p : (_ : ℕ) × ℕ) : Full :=
  match space[p.1]? with
  | some b => ⟨b.labels.sp, b.ns.getD p.2 0, b.labels.l, b.labels.tj⟩
  | none => ⟨.p, 0, 0, 0⟩

theorem orbital_hasState {space : Space} {p : (_ : ℕ) × ℕ} (h : p ∈ states space) :
    HasState space p.1 p.2 (orbital space p) := by
  obtain ⟨h1, h2⟩ := mem_states.mp h
  have hb : space[p.1]? = some space[p.1] := List.getElem?_eq_getElem h1
  rw [dim_some hb] at h2
  refine ⟨space[p.1], hb, ?_, ?_⟩
  · simp only [orbital, hb, Full.labels]
  · simp only [orbital, hb]
    rw [List.getD_eq_getElem?_getD, List.getElem?_eq_getElem h2]
    rfl

theorem blockElem_ok {s : Sectors} {mats : List Mat} {space : Space} (hf : Fits s mats space space) {i k x a c : ℕ}
    (hx : s.pairs.idxOf? (i, k) = some x) (ha : a < dim space i) (hc : c < dim space k) :
    blockElem mats x a c = .ok (elem s mats i a k c) := by
  obtain ⟨m, hm, hr, hcm, hv⟩ := fits_block hf hx
  simp only [blockElem, getE_ok hm, Except.ok_bind', assertE, hr, hcm, ha, hc, and_self, decide_true, if_true,
    Except.pure_ok, hv a c ha hc]

theorem contract_sum {space : Space} {secs : Sectors} {omats dmats : List Mat} (ho : Fits secs omats space space)
    (hd : Fits secs dmats space space) : contract space secs omats dmats =
      .ok (∑ p ∈ states space, ∑ q ∈ states space, (((orbital space p).tj : ℝ) + 1) *
        elem secs omats p.1 p.2 q.1 q.2 * elem secs dmats p.1 p.2 q.1 q.2) := by
  have hsec : ∀ a < space.length, ∀ v b, b < space.length → sumSector space secs omats dmats a v b =
      .ok (v + ∑ i ∈ Finset.range (dim space a), ∑ j ∈ Finset.range (dim space b),
        (((orbital space ⟨a, i⟩).tj : ℝ) + 1) * elem secs omats a i b j * elem secs dmats a i b j) := by
    intro a ha v b hb
    unfold sumSector
    have hsa : space[a]? = some space[a] := List.getElem?_eq_getElem ha
    have hsb : space[b]? = some space[b] := List.getElem?_eq_getElem hb
    rcases hx : secs.pairs.idxOf? (a, b) with _ | x
    · simp only
      rw [Finset.sum_eq_zero, add_zero]
      intro i _
      refine Finset.sum_eq_zero fun j _ => ?_
      rw [elem_absent (idxOf?_none.mp hx), mul_zero, zero_mul]
    · simp only [getE_ok hsa, getE_ok hsb, Except.ok_bind', sumStates]
      rw [← dim_some hsa, ← dim_some hsb]
      apply foldlM_add
      intro v i hi
      apply foldlM_add
      intro v j hj
      have ht : (orbital space ⟨a, i⟩).tj = space[a].labels.tj := by simp [orbital, hsa]
      simp only [blockElem_ok ho hx hi hj, blockElem_ok hd hx hi hj, Except.ok_bind', Except.pure_ok, ht]
  unfold contract
  rw [foldlM_add space.length (t := fun a => ∑ b ∈ Finset.range space.length, ∑ i ∈ Finset.range (dim space a),
      ∑ j ∈ Finset.range (dim space b), (((orbital space ⟨a, i⟩).tj : ℝ) + 1) * elem secs omats a i b j *
        elem secs dmats a i b j)]
  · rw [zero_add]
    simp only [states, Finset.sum_sigma]
    congr 1
    refine Finset.sum_congr rfl fun a _ => ?_
    exact Finset.sum_comm
  · intro v a ha
    exact foldlM_add _ (fun v b hb => hsec a ha v b hb) v

/-! ## Values -/

/-- The elements as they are in the file, before division by `√(2j+1)`. -/
noncomputable def unscaled (e : Entry) : Entry := ⟨e.J0, e.bra, e.ket, e.value * Real.sqrt (e.bra.tj + 1)⟩

theorem finalValue_unscaled (es : List Entry) (J0 : Int) (x y : Full) :
    finalValue (es.map unscaled) J0 x y = finalValue es J0 x y * Real.sqrt (x.tj + 1) := by
  induction es using List.reverseRecOn with
  | nil => simp [finalValue]
  | append_singleton es e ih =>
    rw [List.map_append, List.map_singleton, finalValue_append, finalValue_append, ih]
    by_cases h : e.J0 = J0 ∧ e.bra = x ∧ e.ket = y
    · obtain ⟨h1, h2, h3⟩ := h
      simp [unscaled, h1, h2, h3]
    · rw [if_neg h, if_neg (by simpa [unscaled] using h)]

/-- The elements of an operator file between orbitals given by their quantum numbers; zero for orbitals that the
file does not have. -/
structure OperMeans (op : Oper) (T : Full → Full → ℝ) : Prop where
  elements : ∀ i a x k c y, HasState op.space i a x → HasState op.space k c y → elem op.secs op.mats i a k c = T x y
  absent : ∀ x y, ¬ (InSpace op.space x ∧ InSpace op.space y) → T x y = 0

/-- What is meant by an observable: the elements of the operator contracted with the elements of the density file
over the orbitals of the run, in the convention of the output. -/
noncomputable def observable (space : Space) (J0 : Int) (T : Full → Full → ℝ) (raw : List Entry) : ℝ :=
  (∑ p ∈ states space, ∑ q ∈ states space, Real.sqrt ((orbital space p).tj + 1) *
    T (orbital space p) (orbital space q) * finalValue raw J0 (orbital space p) (orbital space q)) /
    Real.sqrt (2 * J0 + 1)

/-- The transition is allowed and known: parity, charge, triangle, no zero of the Wigner coefficient, multipole in
the file. -/
def Calculable (w : Wigner) (q : QN) (bra ket : State) (tz tMb tMk lo hi : Int) : Prop :=
  (bra.g + ket.g).tmod 2 = q.g0 ∧ tz = q.Tz0 ∧
  (|bra.tJ - 2 * q.J0| ≤ ket.tJ ∧ ket.tJ ≤ bra.tJ + 2 * q.J0 ∧ (bra.tJ + 2 * q.J0 + ket.tJ) % 2 = 0) ∧
  1e-8 ≤ |w bra.tJ (2 * q.J0) ket.tJ (-tMb) (tMb - tMk) tMk| ∧ lo ≤ q.J0 ∧ q.J0 ≤ hi

/-- C101, the part that holds: with an operator on the orbitals of the run, `obscalc-ob` gives the contraction of
the operator with the density file for the transitions that are allowed and known, and nothing for the others.
Missing: operators on other orbitals, which are not rejected. -/
theorem matrixElement_partial {w : Wigner} {space : Space} {op : Oper} {d : Density} {bra ket : State}
    {Zb Nb Zk Nk tMb tMk lo hi : Int} {es : List Entry} {T : Full → Full → ℝ}
    (hsec : op.secs = allSectors op.secs.qn op.space op.space) (hfo : Fits op.secs op.mats op.space op.space)
    (hT : OperMeans op T) (hspace : op.space = space) (hm : (tMb - tMk) % 2 = 0)
    (hd : Means space bra ket Zb Nb Zk Nk tMb tMk lo hi d es) :
    (Calculable w op.secs.qn bra ket (tz0 Zb Nb Zk Nk) tMb tMk lo hi →
      matrixElement w space op d = .ok (some (observable space op.secs.qn.J0 T (es.map unscaled)))) ∧
    (¬ Calculable w op.secs.qn bra ket (tz0 Zb Nb Zk Nk) tMb tMk lo hi → matrixElement w space op d = .ok none) := by
  have hsp : op.secs = allSectors op.secs.qn space space := by rw [← hspace]; exact hsec
  have hf : Fits op.secs op.mats space space := by rw [← hspace]; exact hfo
  have hT' : ∀ i a x k c y, HasState space i a x → HasState space k c y → elem op.secs op.mats i a k c = T x y := by
    rw [← hspace]; exact hT.elements
  obtain ⟨bra', ket', Zb', Nb', Zk', Nk', tMb', tMk', data⟩ := d
  obtain ⟨⟨h1, h2⟩, ⟨h3, h4, h5, h6⟩, ⟨h7, h8⟩, ⟨h9, h10⟩, hel⟩ := hd
  simp only at h1 h2 h3 h4 h5 h6 h7 h8 h9 h10 hel
  subst h1 h2 h3 h4 h5 h6 h7 h8
  have hass : assertE (decide ((tMb' - tMk') % 2 = 0)) = .ok () := by simp [assertE, hm]
  simp only [matrixElement, hass, Except.ok_bind', Calculable, g0, h9, h10]
  constructor
  · rintro ⟨c1, c2, c3, c4, c5, c6⟩
    have ht : allowedTriangle bra'.tJ (2 * op.secs.qn.J0) ket'.tJ = true := by
      simpa [allowedTriangle] using c3
    rw [if_neg (by simpa using c1), if_neg (by simpa using c2), if_neg (by simp [ht]), if_neg (by simpa using c4),
      if_neg (by omega)]
    obtain ⟨mats, hget, hfit, hv⟩ := hel.inside op.secs.qn.J0 c5 c6
    have hq : (⟨op.secs.qn.J0, g0 bra' ket', tz0 Zb' Nb' Zk' Nk'⟩ : QN) = op.secs.qn := by
      rw [g0, c1, c2]
    rw [hq, ← hsp] at hget hfit hv
    simp only [hget, Except.ok_bind', contract_sum hf hfit, Except.pure_ok, observable]
    refine congrArg (fun z => Except.ok (some (z / Real.sqrt (2 * (op.secs.qn.J0 : ℝ) + 1)))) ?_
    refine Finset.sum_congr rfl fun p hp => Finset.sum_congr rfl fun q hq' => ?_
    rw [hv p.1 p.2 _ q.1 q.2 _ (orbital_hasState hp) (orbital_hasState hq'), finalValue_unscaled,
      hT' p.1 p.2 _ q.1 q.2 _ (orbital_hasState hp) (orbital_hasState hq')]
    have hs : Real.sqrt (((orbital space p).tj : ℝ) + 1) * Real.sqrt (((orbital space p).tj : ℝ) + 1) =
        ((orbital space p).tj : ℝ) + 1 := Real.mul_self_sqrt (by positivity)
    linear_combination (-(T (orbital space p) (orbital space q) *
      finalValue es op.secs.qn.J0 (orbital space p) (orbital space q))) * hs
  · intro hn
    by_cases c1 : (bra'.g + ket'.g).tmod 2 = op.secs.qn.g0
    · rw [if_neg (by simpa using c1)]
      by_cases c2 : tz0 Zb' Nb' Zk' Nk' = op.secs.qn.Tz0
      · rw [if_neg (by simpa using c2)]
        by_cases c3 : allowedTriangle bra'.tJ (2 * op.secs.qn.J0) ket'.tJ = true
        · rw [if_neg (by simp [c3])]
          by_cases c4 : |w bra'.tJ (2 * op.secs.qn.J0) ket'.tJ (-tMb') (tMb' - tMk') tMk'| < 1e-8
          · rw [if_pos c4]; rfl
          · rw [if_neg c4, if_pos]
            · rfl
            · by_contra hh
              exact hn ⟨c1, c2, by simpa [allowedTriangle] using c3, not_lt.mp c4, by omega, by omega⟩
        · rw [if_pos (by simp [c3])]; rfl
      · rw [if_pos (by simpa using c2)]; rfl
    · rw [if_pos (by simpa using c1)]; rfl

/-! ## A run -/

/-- The orbitals in force after some lines: those of the last `set-indexing`, none before the first. -/
def SpaceAfter (disk : Disk) (cs : List OCmd) (s : Space) : Prop :=
  ((∀ f, OCmd.indexing f ∉ cs) ∧ s = []) ∨
    ∃ pre f post, cs = pre ++ .indexing f :: post ∧ (∀ f, OCmd.indexing f ∉ post) ∧ disk.orbitals f = .ok s

/-- The output in force after some lines: that of the last `set-output-file`. -/
def OutputAfter (cs : List OCmd) (o : Option (String × Bool)) : Prop :=
  ((∀ f a, OCmd.output f a ∉ cs) ∧ o = none) ∨
    ∃ pre f a post, cs = pre ++ .output f a :: post ∧ (∀ f a, OCmd.output f a ∉ post) ∧ o = some (f, a)

/-- The declared operators. -/
def operatorLines (cs : List OCmd) : List (String × String) := cs.filterMap fun
  | .operator n f => some (n, f)
  | _ => none

/-- The declared densities, each with the lines before it. -/
def densityLines : List OCmd → List OCmd → List (List OCmd × State × State × String × Option String)
  | _, [] => []
  | pre, .densities b k f i :: cs => (pre, b, k, f, i) :: densityLines (pre ++ [.densities b k f i]) cs
  | pre, .output f a :: cs => densityLines (pre ++ [.output f a]) cs
  | pre, .indexing f :: cs => densityLines (pre ++ [.indexing f]) cs
  | pre, .operator n f :: cs => densityLines (pre ++ [.operator n f]) cs

theorem SpaceAfter.skip {disk : Disk} {cs : List OCmd} {s : Space} (h : SpaceAfter disk cs s) {c : OCmd}
    (hc : ∀ f, c ≠ .indexing f) : SpaceAfter disk (cs ++ [c]) s := by
  rcases h with ⟨h1, h2⟩ | ⟨pre, f, post, rfl, h1, h2⟩
  · refine Or.inl ⟨fun f hf => ?_, h2⟩
    rcases List.mem_append.mp hf with h | h
    · exact h1 f h
    · exact hc f (List.mem_singleton.mp h).symm
  · refine Or.inr ⟨pre, f, post ++ [c], by simp, fun g hg => ?_, h2⟩
    rcases List.mem_append.mp hg with h | h
    · exact h1 g h
    · exact hc g (List.mem_singleton.mp h).symm

theorem OutputAfter.skip {cs : List OCmd} {o : Option (String × Bool)} (h : OutputAfter cs o) {c : OCmd}
    (hc : ∀ f a, c ≠ .output f a) : OutputAfter (cs ++ [c]) o := by
  rcases h with ⟨h1, h2⟩ | ⟨pre, f, a, post, rfl, h1, h2⟩
  · refine Or.inl ⟨fun f a hf => ?_, h2⟩
    rcases List.mem_append.mp hf with h | h
    · exact h1 f a h
    · exact hc f a (List.mem_singleton.mp h).symm
  · refine Or.inr ⟨pre, f, a, post ++ [c], by simp, fun g b hg => ?_, h2⟩
    rcases List.mem_append.mp hg with h | h
    · exact h1 g b h
    · exact hc g b (List.mem_singleton.mp h).symm

/-- Carrying out the lines from a state. -/
theorem exec_all {Orb : Type} [DecidableEq Orb] {lib : Lib Orb} {disk : Disk} (cs : List OCmd) :
    ∀ (pre : List OCmd) (r r' : Run), SpaceAfter disk pre r.space → OutputAfter pre r.output →
      cs.foldlM (exec lib disk) r = .ok r' →
      SpaceAfter disk (pre ++ cs) r'.space ∧ OutputAfter (pre ++ cs) r'.output ∧
      (∃ ops, r'.ops = r.ops ++ ops ∧ List.Forall₂ (fun l o => ∃ h, disk.obme l.2 = .ok h ∧
        openOper lib l.1 h = .ok o) (operatorLines cs) ops) ∧
      (∃ ds, r'.ds = r.ds ++ ds ∧ List.Forall₂ (fun l d => ∃ s, SpaceAfter disk l.1 s ∧
        openDensity lib disk s l.2.1 l.2.2.1 l.2.2.2.1 l.2.2.2.2 = .ok d) (densityLines pre cs) ds) := by
  induction cs with
  | nil =>
    intro pre r r' h1 h2 h
    simp only [List.foldlM_nil, Except.pure_ok, Except.ok.injEq] at h
    subst h
    exact ⟨by simpa using h1, by simpa using h2, ⟨[], by simp, .nil⟩, ⟨[], by simp, .nil⟩⟩
  | cons c cs ih =>
    intro pre r r' h1 h2 h
    simp only [List.foldlM_cons, Except.bind_eq_ok] at h
    obtain ⟨r1, he, h⟩ := h
    cases c with
    | output f a =>
      simp only [exec, Except.ok.injEq] at he
      subst he
      have := ih (pre ++ [.output f a]) ⟨some (f, a), r.space, r.ops, r.ds⟩ r' (h1.skip (by simp))
        (Or.inr ⟨pre, f, a, [], by simp, by simp, rfl⟩) h
      simpa [List.append_assoc, operatorLines, densityLines] using this
    | indexing f =>
      simp only [exec, Except.bind_eq_ok, Except.pure_ok, Except.ok.injEq] at he
      obtain ⟨s, hs, rfl⟩ := he
      have := ih (pre ++ [.indexing f]) ⟨r.output, s, r.ops, r.ds⟩ r' (Or.inr ⟨pre, f, [], by simp, by simp, hs⟩) (h2.skip (by simp)) h
      simpa [List.append_assoc, operatorLines, densityLines] using this
    | operator n f =>
      simp only [exec, Except.bind_eq_ok, Except.pure_ok, Except.ok.injEq] at he
      obtain ⟨d, hd, o, ho, rfl⟩ := he
      obtain ⟨k1, k2, ⟨ops, k3, k4⟩, k5⟩ := ih (pre ++ [.operator n f])
        ⟨r.output, r.space, r.ops ++ [o], r.ds⟩ r' (h1.skip (by simp)) (h2.skip (by simp)) h
      refine ⟨by simpa using k1, by simpa using k2, ⟨o :: ops, by simpa using k3, ?_⟩, by simpa [densityLines] using k5⟩
      exact .cons ⟨d, hd, ho⟩ k4
    | densities b k f i =>
      simp only [exec, Except.bind_eq_ok, Except.pure_ok, Except.ok.injEq] at he
      obtain ⟨d, hd, rfl⟩ := he
      obtain ⟨k1, k2, k3, ⟨ds, k4, k5⟩⟩ := ih (pre ++ [.densities b k f i])
        ⟨r.output, r.space, r.ops, r.ds ++ [d]⟩ r' (h1.skip (by simp)) (h2.skip (by simp)) h
      refine ⟨by simpa using k1, by simpa using k2, by simpa [operatorLines] using k3, ⟨d :: ds, by simpa using k4, ?_⟩⟩
      exact .cons ⟨r.space, h1, hd⟩ k5

theorem read_lines {Orb : Type} [DecidableEq Orb] {lib : Lib Orb} {nm : Numbers} {disk : Disk} (ls : List CLine) :
    ∀ {r r' : Run}, ls.foldlM (fun r l => do
      let c ← parseO nm l
      exec lib disk r c) r = .ok r' → ∃ cs, ls.mapM (parseO nm) = .ok cs ∧ cs.foldlM (exec lib disk) r = .ok r' := by
  induction ls with
  | nil => intro r r' h; exact ⟨[], rfl, h⟩
  | cons l ls ih =>
    intro r r' h
    simp only [List.foldlM_cons, Except.bind_eq_ok] at h
    obtain ⟨r1, ⟨c, hc, h1⟩, h⟩ := h
    obtain ⟨cs, h2, h3⟩ := ih h
    refine ⟨c :: cs, ?_, ?_⟩
    · rw [List.mapM_cons, hc, h2]; rfl
    · simp only [List.foldlM_cons, h1, Except.ok_bind']
      exact h3

/-- The section of an operator as it is meant. -/
noncomputable def sectionSpec (val : Oper → Density → Option ℝ) (ds : List Density) (op : Oper) : Section :=
  ⟨op.name, op.secs.qn, ds.filterMap fun d => (val op d).map fun x => ⟨d.bra, d.ket, x⟩⟩

theorem section_ok {w : Wigner} {space : Space} {ds : List Density} {op : Oper} {ss : List Section}
    {val : Oper → Density → Option ℝ}
    (hval : val = fun op d => ((matrixElement w space op d).toOption).join)
    (h : sectionOf w space ds op = .ok ss) : (∀ d ∈ ds, matrixElement w space op d = .ok (val op d)) ∧
      ss = [sectionSpec val ds op].filter fun s => s.rows ≠ [] := by
  simp only [sectionOf, Except.bind_eq_ok] at h
  obtain ⟨rows, hr, h⟩ := h
  have key : ∀ (ds : List Density) (rows : List (Option Row)), ds.mapM (rowOf w space op) = .ok rows →
      (∀ d ∈ ds, matrixElement w space op d = .ok (val op d)) ∧
      rows.filterMap id = ds.filterMap fun d => (val op d).map fun x => (⟨d.bra, d.ket, x⟩ : Row) := by
    intro ds
    induction ds with
    | nil =>
      intro rows h
      simp only [List.mapM_nil, Except.pure_ok, Except.ok.injEq] at h
      subst h
      simp
    | cons d ds ih =>
      intro rows h
      simp only [List.mapM_cons, Except.bind_eq_ok, Except.pure_ok, Except.ok.injEq] at h
      obtain ⟨x, hx, xs, hxs, rfl⟩ := h
      simp only [rowOf, Except.bind_eq_ok, Except.pure_ok, Except.ok.injEq] at hx
      obtain ⟨v, hv, rfl⟩ := hx
      have hvv : val op d = v := by rw [hval]; simp [hv, Except.toOption]
      obtain ⟨h1, h2⟩ := ih xs hxs
      refine ⟨?_, ?_⟩
      · intro d' hd'
        rcases List.mem_cons.mp hd' with rfl | hd'
        · rw [hv, hvv]
        · exact h1 d' hd'
      · rw [List.filterMap_cons, List.filterMap_cons, hvv, ← h2]
        cases v <;> rfl
  obtain ⟨h1, h2⟩ := key ds rows hr
  refine ⟨h1, ?_⟩
  simp only [Except.pure_ok, Except.ok.injEq] at h
  rw [← h, h2]
  by_cases hn : (ds.filterMap fun d => (val op d).map fun x => (⟨d.bra, d.ket, x⟩ : Row)) = []
  · simp [sectionSpec, hn]
  · rw [if_pos (List.length_pos_iff.mpr hn), List.filter_cons_of_pos (by simpa [sectionSpec] using hn)]
    simp [sectionSpec]

/-- C102: a run writes, for the declared operators in order, the values for the declared densities in order that can
be calculated, leaving out operators without any; each density is read with the orbitals in force at its line, the
values are calculated with those in force at the end. -/
theorem obscalc_run {Orb : Type} [DecidableEq Orb] {lib : Lib Orb} {w : Wigner} {nm : Numbers} {disk : Disk}
    {ls : List CLine} {o : String × Bool} {ss : List Section} (h : obscalc lib w nm disk ls = .ok (o, ss)) :
    ∃ (cs : List OCmd) (space : Space) (ops : List Oper) (ds : List Density) (val : Oper → Density → Option ℝ),
      ls.mapM (parseO nm) = .ok cs ∧ OutputAfter cs (some o) ∧ SpaceAfter disk cs space ∧
      List.Forall₂ (fun l o => ∃ h, disk.obme l.2 = .ok h ∧ openOper lib l.1 h = .ok o) (operatorLines cs) ops ∧
      List.Forall₂ (fun l d => ∃ s, SpaceAfter disk l.1 s ∧
        openDensity lib disk s l.2.1 l.2.2.1 l.2.2.2.1 l.2.2.2.2 = .ok d) (densityLines [] cs) ds ∧
      (∀ op ∈ ops, ∀ d ∈ ds, matrixElement w space op d = .ok (val op d)) ∧
      ss = (ops.map (sectionSpec val ds)).filter fun s => s.rows ≠ [] := by
  simp only [obscalc, Except.bind_eq_ok, Except.pure_ok, Except.ok.injEq, Prod.mk.injEq] at h
  obtain ⟨r, hr, o', ho, sss, hs, rfl, rfl⟩ := h
  obtain ⟨cs, hcs, hex⟩ := read_lines ls hr
  obtain ⟨k1, k2, ⟨ops, k3, k4⟩, ⟨ds, k5, k6⟩⟩ := exec_all cs [] _ r (Or.inl ⟨by simp, rfl⟩) (Or.inl ⟨by simp, rfl⟩) hex
  simp only [List.nil_append] at k1 k2 k3 k5
  rw [k3, k5] at hs
  have ho' : r.output = some o' := by
    cases hro : r.output with
    | none => rw [hro] at ho; cases ho
    | some x => rw [hro] at ho; cases ho; rfl
  refine ⟨cs, r.space, ops, ds, fun op d => ((matrixElement w r.space op d).toOption).join, hcs, ho' ▸ k2, k1, k4, k6, ?_⟩
  have key : ∀ (ops : List Oper) (sss : List (List Section)), ops.mapM (sectionOf w r.space ds) = .ok sss →
      (∀ op ∈ ops, ∀ d ∈ ds, matrixElement w r.space op d = .ok ((matrixElement w r.space op d).toOption).join) ∧
      sss.flatten = (ops.map (sectionSpec (fun op d => ((matrixElement w r.space op d).toOption).join) ds)).filter
        fun s => s.rows ≠ [] := by
    intro ops
    induction ops with
    | nil =>
      intro sss h
      simp only [List.mapM_nil, Except.pure_ok, Except.ok.injEq] at h
      subst h
      simp
    | cons op ops ih =>
      intro sss h
      simp only [List.mapM_cons, Except.bind_eq_ok, Except.pure_ok, Except.ok.injEq] at h
      obtain ⟨x, hx, xs, hxs, rfl⟩ := h
      obtain ⟨h1, h2⟩ := section_ok rfl hx
      obtain ⟨h3, h4⟩ := ih xs hxs
      refine ⟨?_, ?_⟩
      · intro op' hop'
        rcases List.mem_cons.mp hop' with rfl | hop'
        · exact h1
        · exact h3 op' hop'
      · rw [List.flatten_cons, h2, h4, List.map_cons, ← List.filter_append]
        rfl
  exact key ops sss hs

/-! ## Control lines -/

/-- The lines of the control file and what they ask for. -/
inductive LineMeans (nm : Numbers) : CLine → OCmd → Prop
  | output (f) : LineMeans nm ⟨["set-output-file", f], false⟩ (.output f false)
  | outputMode (f m rest t) : LineMeans nm ⟨"set-output-file" :: f :: m :: rest, t⟩ (.output f (m = "append"))
  | indexing (f rest t) : LineMeans nm ⟨"set-indexing" :: f :: rest, t⟩ (.indexing f)
  | operator (n f rest t) : LineMeans nm ⟨"define-operator" :: n :: f :: rest, t⟩ (.operator n f)
  | single (wJf wgf wnf wJi wgi wni f) (Jf : ℝ) (gf nf : Int) (Ji : ℝ) (gi ni : Int)
      (h : nm.num? wJf = some Jf ∧ nm.int? wgf = some gf ∧ nm.int? wnf = some nf ∧ nm.num? wJi = some Ji ∧
        nm.int? wgi = some gi ∧ nm.int? wni = some ni) :
      LineMeans nm ⟨["define-densities", wJf, wgf, wnf, wJi, wgi, wni, f], false⟩
        (.densities ⟨twice Jf, gf, nf⟩ ⟨twice Ji, gi, ni⟩ f none)
  | multi (wJf wgf wnf wJi wgi wni f i rest t) (Jf : ℝ) (gf nf : Int) (Ji : ℝ) (gi ni : Int)
      (h : nm.num? wJf = some Jf ∧ nm.int? wgf = some gf ∧ nm.int? wnf = some nf ∧ nm.num? wJi = some Ji ∧
        nm.int? wgi = some gi ∧ nm.int? wni = some ni) :
      LineMeans nm ⟨"define-densities" :: wJf :: wgf :: wnf :: wJi :: wgi :: wni :: f :: i :: rest, t⟩
        (.densities ⟨twice Jf, gf, nf⟩ ⟨twice Ji, gi, ni⟩ f (some i))

theorem word_ok {ws : List String} {r : String × List String} (h : word ws = .ok r) : ws = r.1 :: r.2 := by
  cases ws with
  | nil => cases h
  | cons w ws => cases h; rfl

theorem int_ok {nm : Numbers} {ws : List String} {r : Int × List String} (h : int nm ws = .ok r) :
    ∃ w, ws = w :: r.2 ∧ nm.int? w = some r.1 := by
  cases ws with
  | nil => cases h
  | cons w ws =>
    simp only [int] at h
    cases hw : nm.int? w with
    | none => rw [hw] at h; cases h
    | some i => rw [hw] at h; cases h; exact ⟨w, rfl, hw⟩

theorem num_ok {nm : Numbers} {ws : List String} {r : ℝ × List String} (h : num nm ws = .ok r) :
    ∃ w, ws = w :: r.2 ∧ nm.num? w = some r.1 := by
  cases ws with
  | nil => cases h
  | cons w ws =>
    simp only [num] at h
    cases hw : nm.num? w with
    | none => rw [hw] at h; cases h
    | some i => rw [hw] at h; cases h; exact ⟨w, rfl, hw⟩

theorem atEnd_true {t : Bool} {ws : List String} (h : atEnd t ws = true) : t = false ∧ ws = [] := by
  simpa [atEnd, and_comm] using h

/-- Exactly the lines of the table are accepted, with the meaning given there: an unknown keyword, a missing
argument or an argument that is not a number is rejected. -/
theorem control_line {nm : Numbers} {l : CLine} {c : OCmd} : parseO nm l = .ok c ↔ LineMeans nm l c := by
  constructor
  · intro h
    obtain ⟨ws, t⟩ := l
    cases ws with
    | nil => cases h
    | cons k ws =>
      simp only [parseO] at h
      split at h
      · rename_i hk
        subst hk
        simp only [parseOutput, Except.bind_eq_ok] at h
        obtain ⟨⟨f, r⟩, hf, h⟩ := h
        obtain rfl := word_ok hf
        split at h
        · rename_i he
          obtain ⟨rfl, rfl⟩ := atEnd_true he
          cases h
          exact .output f
        · simp only [Except.bind_eq_ok, Except.pure_ok, Except.ok.injEq] at h
          obtain ⟨⟨m, r'⟩, hm, rfl⟩ := h
          obtain rfl := word_ok hm
          exact .outputMode f m r' t
      · split at h
        · rename_i hk
          subst hk
          simp only [parseIndexing, Except.bind_eq_ok, Except.pure_ok, Except.ok.injEq] at h
          obtain ⟨⟨f, r⟩, hf, rfl⟩ := h
          obtain rfl := word_ok hf
          exact .indexing f r t
        · split at h
          · rename_i hk
            subst hk
            simp only [parseOperator, Except.bind_eq_ok, Except.pure_ok, Except.ok.injEq] at h
            obtain ⟨⟨n, r⟩, hn, ⟨f, r'⟩, hf, rfl⟩ := h
            obtain rfl := word_ok hn
            obtain rfl := word_ok hf
            exact .operator n f r' t
          · split at h
            · rename_i hk
              subst hk
              simp only [parseDensities, Except.bind_eq_ok] at h
              obtain ⟨⟨Jf, r1⟩, h1, ⟨gf, r2⟩, h2, ⟨nf, r3⟩, h3, ⟨Ji, r4⟩, h4, ⟨gi, r5⟩, h5, ⟨ni, r6⟩, h6, ⟨f, r7⟩, h7, h⟩ := h
              obtain ⟨w1, rfl, e1⟩ := num_ok h1
              obtain ⟨w2, rfl, e2⟩ := int_ok h2
              obtain ⟨w3, rfl, e3⟩ := int_ok h3
              obtain ⟨w4, rfl, e4⟩ := num_ok h4
              obtain ⟨w5, rfl, e5⟩ := int_ok h5
              obtain ⟨w6, rfl, e6⟩ := int_ok h6
              obtain rfl := word_ok h7
              split at h
              · rename_i he
                obtain ⟨rfl, rfl⟩ := atEnd_true he
                cases h
                exact .single _ _ _ _ _ _ _ _ _ _ _ _ _ ⟨e1, e2, e3, e4, e5, e6⟩
              · simp only [Except.bind_eq_ok, Except.pure_ok, Except.ok.injEq] at h
                obtain ⟨⟨i, r8⟩, h8, rfl⟩ := h
                obtain rfl := word_ok h8
                exact .multi _ _ _ _ _ _ _ _ _ _ _ _ _ _ _ _ ⟨e1, e2, e3, e4, e5, e6⟩
            · cases h
  · intro h
    cases h with
    | output f => rfl
    | outputMode f m rest t => simp [parseO, parseOutput, word, atEnd, Except.ok_bind', Except.pure_ok]
    | indexing f rest t => simp [parseO, parseIndexing, word, Except.ok_bind', Except.pure_ok]
    | operator n f rest t => simp [parseO, parseOperator, word, Except.ok_bind', Except.pure_ok]
    | single _ _ _ _ _ _ _ _ _ _ _ _ _ h =>
      obtain ⟨e1, e2, e3, e4, e5, e6⟩ := h
      simp [parseO, parseDensities, word, num, int, atEnd, Except.ok_bind', Except.pure_ok, e1, e2, e3, e4, e5, e6]
    | multi _ _ _ _ _ _ _ _ _ _ _ _ _ _ _ _ h =>
      obtain ⟨e1, e2, e3, e4, e5, e6⟩ := h
      simp [parseO, parseDensities, word, num, int, atEnd, Except.ok_bind', Except.pure_ok, e1, e2, e3, e4, e5, e6]

/-! ## Examples -/

namespace Ex

/-- An operator file on the orbitals of `sampleSpace`, every element of the scalar sectors being one. -/
noncomputable def oper : Oper := ⟨"one", sampleSpace, allSectors ⟨0, 0, 0⟩ sampleSpace sampleSpace, sampleOp ⟨0, 0, 0⟩⟩

/-- The same elements between other orbitals. -/
def otherSpace : Space := [⟨⟨0, 1, .p⟩, [5, 6]⟩, ⟨⟨1, 1, .p⟩, [7]⟩]

noncomputable def otherOper : Oper :=
  ⟨"one", otherSpace, allSectors ⟨0, 0, 0⟩ otherSpace otherSpace, sampleOp ⟨0, 0, 0⟩⟩

open Classical in
/-- Ones between orbitals of the space with the same labels. -/
noncomputable def ones (s : Space) (x y : Full) : ℝ := if InSpace s x ∧ InSpace s y ∧ x.labels = y.labels then 1 else 0

theorem hasState_sample {i a : ℕ} {x : Full} (h : HasState sampleSpace i a x) :
    (i = 0 ∧ a = 0 ∧ x = s0) ∨ (i = 0 ∧ a = 1 ∧ x = s1) ∨ (i = 1 ∧ a = 0 ∧ x = p0) := by
  obtain ⟨b, hb, hl, ha⟩ := h
  obtain ⟨sp, n, l, tj⟩ := x
  match i, a with
  | 0, 0 => simp only [sampleSpace] at hb; cases hb; cases hl; cases ha; simp [s0]
  | 0, 1 => simp only [sampleSpace] at hb; cases hb; cases hl; cases ha; simp [s1]
  | 1, 0 => simp only [sampleSpace] at hb; cases hb; cases hl; cases ha; simp [p0]
  | 0, a + 2 => simp only [sampleSpace] at hb; cases hb; cases ha
  | 1, a + 1 => simp only [sampleSpace] at hb; cases hb; cases ha
  | i + 2, a => simp only [sampleSpace] at hb; cases hb

theorem hasState_other {i a : ℕ} {x : Full} (h : HasState otherSpace i a x) :
    (i = 0 ∧ a = 0 ∧ x = ⟨.p, 5, 0, 1⟩) ∨ (i = 0 ∧ a = 1 ∧ x = ⟨.p, 6, 0, 1⟩) ∨ (i = 1 ∧ a = 0 ∧ x = ⟨.p, 7, 1, 1⟩) := by
  obtain ⟨b, hb, hl, ha⟩ := h
  obtain ⟨sp, n, l, tj⟩ := x
  match i, a with
  | 0, 0 => simp only [otherSpace] at hb; cases hb; cases hl; cases ha; simp
  | 0, 1 => simp only [otherSpace] at hb; cases hb; cases hl; cases ha; simp
  | 1, 0 => simp only [otherSpace] at hb; cases hb; cases hl; cases ha; simp
  | 0, a + 2 => simp only [otherSpace] at hb; cases hb; cases ha
  | 1, a + 1 => simp only [otherSpace] at hb; cases hb; cases ha
  | i + 2, a => simp only [otherSpace] at hb; cases hb

theorem pairs0 : (allSectors ⟨0, 0, 0⟩ sampleSpace sampleSpace).pairs = [(0, 0), (1, 1)] := by decide

theorem sample_elem (i a k c : ℕ) (hi : i < 2) (hk : k < 2) (ha : a < dim sampleSpace i) (hc : c < dim sampleSpace k) :
    elem (allSectors ⟨0, 0, 0⟩ sampleSpace sampleSpace) (sampleOp ⟨0, 0, 0⟩) i a k c = if i = k then 1 else 0 := by
  have h00 : ([(0, 0), (1, 1)] : List (ℕ × ℕ)).idxOf? (0, 0) = some 0 := by decide
  have h11 : ([(0, 0), (1, 1)] : List (ℕ × ℕ)).idxOf? (1, 1) = some 1 := by decide
  have h01 : ([(0, 0), (1, 1)] : List (ℕ × ℕ)).idxOf? (0, 1) = none := by decide
  have h10 : ([(0, 0), (1, 1)] : List (ℕ × ℕ)).idxOf? (1, 0) = none := by decide
  interval_cases i <;> interval_cases k <;> simp [elem, sampleOp, pairs0, h00, h11, h01, h10, ha, hc]

theorem oper_means : OperMeans oper (ones sampleSpace) := by
  refine ⟨?_, ?_⟩
  · intro i a x k c y hx hy
    have hin : InSpace sampleSpace x ∧ InSpace sampleSpace y := ⟨⟨_, _, hx⟩, ⟨_, _, hy⟩⟩
    simp only [ones, hin.1, hin.2, true_and]
    rcases hasState_sample hx with ⟨rfl, rfl, rfl⟩ | ⟨rfl, rfl, rfl⟩ | ⟨rfl, rfl, rfl⟩ <;>
    rcases hasState_sample hy with ⟨rfl, rfl, rfl⟩ | ⟨rfl, rfl, rfl⟩ | ⟨rfl, rfl, rfl⟩ <;>
    exact (sample_elem _ _ _ _ (by decide) (by decide) (by decide) (by decide)).trans (by simp [s0, s1, p0, Full.labels])
  · intro x y h
    simp only [ones]
    exact if_neg fun hc => h ⟨hc.1, hc.2.1⟩

theorem other_means : OperMeans otherOper (ones otherSpace) := by
  refine ⟨?_, ?_⟩
  · intro i a x k c y hx hy
    have hin : InSpace otherSpace x ∧ InSpace otherSpace y := ⟨⟨_, _, hx⟩, ⟨_, _, hy⟩⟩
    simp only [ones, hin.1, hin.2, true_and]
    rcases hasState_other hx with ⟨rfl, rfl, rfl⟩ | ⟨rfl, rfl, rfl⟩ | ⟨rfl, rfl, rfl⟩ <;>
    rcases hasState_other hy with ⟨rfl, rfl, rfl⟩ | ⟨rfl, rfl, rfl⟩ | ⟨rfl, rfl, rfl⟩ <;>
    exact (sample_elem _ _ _ _ (by decide) (by decide) (by decide) (by decide)).trans (by simp [Full.labels])
  · intro x y h
    simp only [ones]
    exact if_neg fun hc => h ⟨hc.1, hc.2.1⟩

/-- The projection `M = 1/2` on both sides and a coefficient that is not zero. -/
theorem calculable : Calculable (fun _ _ _ _ _ _ => 1) ⟨0, 0, 0⟩ state state (tz0 1 0 1 0) 1 1 0 1 := by
  refine ⟨by decide, by decide, by decide, by norm_num, by decide, by decide⟩

/-- A run's value: the operator `one` with the density of `full_file`. -/
theorem value : ∃ d, readSingle lib sampleSpace state state ⟨header ++ data, true⟩ = .ok d ∧
    matrixElement (fun _ _ _ _ _ _ => 1) sampleSpace oper d =
      .ok (some (observable sampleSpace 0 (ones sampleSpace) (entries.map unscaled))) := by
  obtain ⟨d, h1, h2⟩ := full_file
  exact ⟨d, h1, (matrixElement_partial (op := oper) rfl (sampleOp_fits _) oper_means rfl rfl h2).1 calculable⟩

theorem observable_value : observable sampleSpace 0 (ones sampleSpace) (entries.map unscaled) = 3 * Real.sqrt 2 := by
  have h0 : InSpace sampleSpace s0 := in0
  have hs : Real.sqrt 2 ≠ 0 := by positivity
  simp only [observable, states, Finset.sum_sigma]
  have hr : Finset.range sampleSpace.length = {0, 1} := by decide
  have hr0 : Finset.range (dim sampleSpace 0) = {0, 1} := by decide
  have hr1 : Finset.range (dim sampleSpace 1) = {0} := by decide
  have e0 : orbital sampleSpace ⟨0, 0⟩ = s0 := rfl
  have e1 : orbital sampleSpace ⟨0, 1⟩ = s1 := rfl
  have e2 : orbital sampleSpace ⟨1, 0⟩ = p0 := rfl
  have hz : ∀ x y : Full, ¬ (x = s0 ∧ y = s0) → finalValue (entries.map unscaled) 0 x y = 0 := by
    intro x y hxy
    have : ¬ (s0 = x ∧ s0 = y) := fun h => hxy ⟨h.1.symm, h.2.symm⟩
    simp [finalValue, entries, unscaled, this]
  have h00 : finalValue (entries.map unscaled) 0 s0 s0 = 3 := by
    simp [finalValue, entries, unscaled, s0]
  have ho : ones sampleSpace s0 s0 = 1 := by simp [ones, h0]
  rw [hr]
  simp only [Finset.sum_insert, Finset.sum_singleton, Finset.mem_singleton, zero_ne_one, not_false_eq_true, hr0, hr1, e0,
    e1, e2, h00, ho]
  rw [hz s0 s1 (by decide), hz s0 p0 (by decide), hz s1 s0 (by decide), hz s1 s1 (by decide), hz s1 p0 (by decide),
    hz p0 s0 (by decide), hz p0 s1 (by decide), hz p0 p0 (by decide)]
  simp [s0]
  norm_num
  ring

/-- C101 is false in full: an operator file on other orbitals is accepted and contracted position by position, so
that a value comes out although the operator has no element between orbitals of the density. -/
theorem other_orbitals_contracted : ∃ d, readSingle lib sampleSpace state state ⟨header ++ data, true⟩ = .ok d ∧
    OperMeans otherOper (ones otherSpace) ∧
    matrixElement (fun _ _ _ _ _ _ => 1) sampleSpace otherOper d = .ok (some (3 * Real.sqrt 2)) ∧
    observable sampleSpace 0 (ones otherSpace) (entries.map unscaled) = 0 := by
  obtain ⟨d, h1, h2⟩ := value
  refine ⟨d, h1, other_means, ?_, ?_⟩
  · rw [observable_value] at h2
    exact h2
  · simp only [observable]
    rw [Finset.sum_eq_zero, zero_div]
    intro p hp
    refine Finset.sum_eq_zero fun q hq => ?_
    have : ones otherSpace (orbital sampleSpace p) (orbital sampleSpace q) = 0 := by
      simp only [ones]
      refine if_neg fun hc => ?_
      obtain ⟨i, a, h⟩ := hc.1
      rcases hasState_sample (orbital_hasState hp) with ⟨_, _, hx⟩ | ⟨_, _, hx⟩ | ⟨_, _, hx⟩ <;>
      rw [hx] at h <;>
      rcases hasState_other h with ⟨_, _, hy⟩ | ⟨_, _, hy⟩ | ⟨_, _, hy⟩ <;>
      cases hy
    rw [this]
    ring

/-- A run with one operator and one density. -/
noncomputable def nums : Numbers :=
  ⟨fun s => if s = "0" then some 0 else if s = "1" then some 1 else none, fun s => if s = "0.5" then some 0.5 else none⟩

noncomputable def disk : Disk := ⟨fun _ => .ok sampleSpace,
  fun _ => .ok (⟨none, sampleSpace, sampleSpace, allSectors ⟨0, 0, 0⟩ sampleSpace sampleSpace⟩, sampleOp ⟨0, 0, 0⟩),
  fun _ => .ok ⟨header ++ data, true⟩⟩

def control : List CLine := [⟨["set-indexing", "orbitals.dat"], false⟩, ⟨["set-output-file", "out", "append"], false⟩,
  ⟨["define-operator", "one", "one.dat"], false⟩,
  ⟨["define-densities", "0.5", "0", "1", "0.5", "0", "1", "robdme.dat"], false⟩]

example : obscalc lib (fun _ _ _ _ _ _ => 1) nums disk control =
    .ok (("out", true), [⟨"one", ⟨0, 0, 0⟩, [⟨state, state, 3 * Real.sqrt 2⟩]⟩]) := by
  obtain ⟨d, h1, h2⟩ := value
  rw [observable_value] at h2
  have hJ : twice 0.5 = 1 := by norm_num [twice]
  have e1 := (control_line (nm := nums)).mpr (.indexing "orbitals.dat" [] false)
  have e2 := (control_line (nm := nums)).mpr (.outputMode "out" "append" [] false)
  have e3 := (control_line (nm := nums)).mpr (.operator "one" "one.dat" [] false)
  have e4 := (control_line (nm := nums)).mpr (.single "0.5" "0" "1" "0.5" "0" "1" "robdme.dat" 0.5 0 1 0.5 0 1
    (by simp [nums]))
  rw [hJ] at e4
  have hd : openDensity lib disk sampleSpace state state "robdme.dat" none = .ok d := by
    simp only [openDensity, disk, Except.ok_bind', h1]
  have ho : openOper lib "one" (⟨none, sampleSpace, sampleSpace, allSectors ⟨0, 0, 0⟩ sampleSpace sampleSpace⟩,
      sampleOp ⟨0, 0, 0⟩) = .ok oper := by
    simp [openOper, assertE, oper, Except.pure_ok, Except.ok_bind']
  have hr : readO lib nums disk control = .ok ⟨some ("out", true), sampleSpace, [oper], [d]⟩ := by
    simp only [readO, control, List.foldlM_cons, List.foldlM_nil, e1, e2, e3, e4, Except.ok_bind', exec]
    rw [show disk.orbitals "orbitals.dat" = .ok sampleSpace from rfl]
    simp only [Except.ok_bind', Except.pure_ok]
    rw [show disk.obme "one.dat" = .ok (⟨none, sampleSpace, sampleSpace, allSectors ⟨0, 0, 0⟩ sampleSpace sampleSpace⟩,
      sampleOp ⟨0, 0, 0⟩) from rfl]
    simp only [Except.ok_bind', ho, Except.pure_ok]
    rw [show (⟨1, 0, 1⟩ : State) = state from rfl, hd]
    simp [Except.ok_bind']
  obtain ⟨hb, hk⟩ : d.bra = state ∧ d.ket = state := by
    obtain ⟨d', k1, k2⟩ := full_file
    rw [h1] at k1
    cases k1
    exact k2.states
  simp [obscalc, hr, openOutput, sectionOf, rowOf, h2, Except.ok_bind', Except.pure_ok, hb, hk]
  exact ⟨rfl, rfl⟩

end Ex

end Verif.Density
