import Verif.Moshinsky.ProgramProps

/-!
# Input files that are too small
-/

namespace Verif.Moshinsky.Program
open Verif Verif.Moshinsky
open Verif.H2 (Except.ok_bind' Except.error_bind' Except.pure_ok Except.bind_eq_ok)
open Verif.Relative (OpLabels RelFile openFile mapM_ok)
open Verif.Relative.Gen (Input)

/-! ## Stages that succeed or fail in one way -/

/-- Success, or failure with `e`. -/
def OkOr {α : Type} (e : Err) (x : Except Err α) : Prop := (∃ a, x = .ok a) ∨ x = .error e

theorem mapM_okOr {α β : Type} {e : Err} {f : α → Except Err β} : ∀ {l : List α}, (∀ a ∈ l, OkOr e (f a)) → OkOr e (l.mapM f)
  | [], _ => .inl ⟨[], rfl⟩
  | a :: l, h => by
    rw [List.mapM_cons]
    rcases h a (by simp) with ⟨b, hb⟩ | hb
    · rw [hb, Except.ok_bind']
      rcases mapM_okOr (l := l) fun x hx => h x (by simp [hx]) with ⟨bs, hbs⟩ | hbs
      · rw [hbs]
        exact .inl ⟨_, rfl⟩
      · rw [hbs]
        exact .inr rfl
    · rw [hb]
      exact .inr rfl

theorem mapM_fails {α β : Type} {e : Err} {f : α → Except Err β} : ∀ {l : List α}, (∀ a ∈ l, OkOr e (f a)) → (∃ a ∈ l, f a = .error e) →
    l.mapM f = .error e
  | [], _, h => by simp at h
  | a :: l, h, hx => by
    rw [List.mapM_cons]
    rcases h a (by simp) with ⟨b, hb⟩ | hb
    · rw [hb, Except.ok_bind']
      have : ∃ a ∈ l, f a = .error e := by
        obtain ⟨x, hm, he⟩ := hx
        rcases List.mem_cons.mp hm with rfl | hm
        · rw [hb] at he
          cases he
        · exact ⟨x, hm, he⟩
      rw [mapM_fails (l := l) (fun x hx => h x (by simp [hx])) this]
      rfl
    · rw [hb]
      rfl

theorem components_fails {o : OpLabels} {g : ℕ → Except Err Blocks} {e : Err}
    (h : ∀ T0, o.T0min ≤ T0 → T0 ≤ o.T0max → OkOr e (g T0)) {T0 : ℕ} (h1 : o.T0min ≤ T0) (h2 : T0 ≤ o.T0max) (hx : g T0 = .error e) :
    components o g = .error e := by
  unfold components
  rw [mapM_fails (e := e)]
  · rfl
  · intro a ha
    rw [List.mem_range'_1] at ha
    exact h a (by omega) (by omega)
  · exact ⟨T0, by rw [List.mem_range'_1]; omega, hx⟩

theorem mem_places {o : OpLabels} {T0 : ℕ} {σ : Type} {subs : List σ} {qn : σ → QN} {p : ℕ × ℕ}
    (h : p ∈ sectorPairs o T0 (subs.map qn)) : ∃ x y, subs[p.1]? = some x ∧ subs[p.2]? = some y ∧ p.1 ≤ p.2 ∧
      allowedQ o T0 (qn x) (qn y) = true := by
  rw [mem_sectorPairs] at h
  obtain ⟨h1, a, b, ha, hb, h2⟩ := h
  simp only [List.getElem?_map, Option.map_eq_some_iff] at ha hb
  obtain ⟨x, hx, rfl⟩ := ha
  obtain ⟨y, hy, rfl⟩ := hb
  exact ⟨x, y, hx, hy, h1, h2⟩

theorem diagonal_place {o : OpLabels} {T0 : ℕ} {σ : Type} {subs : List σ} {qn : σ → QN} {s : σ} (hs : s ∈ subs)
    (h : allowedQ o T0 (qn s) (qn s) = true) : ∃ i, subs[i]? = some s ∧ (i, i) ∈ sectorPairs o T0 (subs.map qn) := by
  obtain ⟨i, hi⟩ := List.mem_iff_getElem?.mp hs
  refine ⟨i, hi, ?_⟩
  rw [mem_sectorPairs]
  exact ⟨le_refl _, qn s, qn s, by simp [hi], by simp [hi], h⟩

/-! ## The relative file -/

theorem element_asserts {env : ChainEnv} {f : RelFile} {T0 : ℕ} {b k : LSSub} {x y : LSPair}
    (hcm : x.2.2 = y.2.2) (h : f.Nmax < x.1 ∨ f.Nmax < y.1) :
    relCMElement env.am (relSource env f T0) f.labels.J0 (rcState b x) (rcState k y) = .error .assertFail := by
  unfold relCMElement
  rw [if_neg (by simp [rcState, hcm])]
  have : decide (max (rcState b x).Nr (rcState k y).Nr ≤ (relSource env f T0).Nmax) = false := by
    rw [decide_eq_false_iff_not]
    simp only [rcState, relSource]
    omega
  rw [this]
  rfl

theorem element_okOr {env : ChainEnv} {f : RelFile} {T0 : ℕ} {R : RelRME} (hR : FileHolds env.swap f T0 R)
    (hT0 : f.labels.T0min ≤ T0 ∧ T0 ≤ f.labels.T0max) {Nmax : ℕ} {b k : LSSub} (hb : ValidLS Nmax b)
    (hk : ValidLS Nmax k) {x y : LSPair} (hx : IsRC b.N b.L b.S b.T x) (hy : IsRC k.N k.L k.S k.T y)
    (ha : allowedQ f.labels T0 b.qn k.qn = true) :
    OkOr .assertFail (relCMElement env.am (relSource env f T0) f.labels.J0 (rcState b x) (rcState k y)) := by
  by_cases hcm : x.2.2 = y.2.2
  · by_cases h : f.Nmax < x.1 ∨ f.Nmax < y.1
    · exact .inr (element_asserts hcm h)
    · exact .inl ⟨_, rc_element hR hT0 hb hk hx hy (by omega) (by omega) ha⟩
  · refine .inl ⟨_, cm_conserved _ _ _ _ _ ?_⟩
    intro e
    simp only [rcState, Prod.mk.injEq, Nat.cast_inj] at e
    exact hcm (Prod.ext e.1 e.2)

section
variable {w : World} {ctl : Input} {p : Params} {f : RelFile} {R : ℕ → RelRME}

/-- C132: if a relative-cm state that the operator could connect with itself has more relative quanta than the relative file, the run ends
with a failed assertion, whatever the target: no file is written with missing elements. -/
theorem moshinsky_small_relative_file (ha : Asks w.nm ctl p) (hc : 0 ≤ p.cutoff) (hs : p.source = .rel) (ht : p.target ≠ .rel)
    (hf : w.rel? p.input = some f) (hg : Given w f R) (hrc : RCSpace (truncOf p).N2max (w.rcs (truncOf p).N2max))
    {T0 : ℕ} (h1 : f.labels.T0min ≤ T0) (h2 : T0 ≤ f.labels.T0max) {s : LSSub} (hm : s ∈ w.rcs (truncOf p).N2max)
    (hJ : f.labels.J0 ≤ 2 * s.J) (hT : T0 ≤ 2 * s.T) (hg0 : f.labels.g0 % 2 = 0) {x : LSPair} (hx : x ∈ s.states) (hN : f.Nmax < x.1) :
    run w ctl = .error .assertFail := by
  have hlt : p.source.code < p.target.code := by
    rw [hs]
    cases e : p.target <;> simp_all [Coupling.code]
  rw [run_eq ha hlt hc, fromSource_rel hs hf hg.three]
  have hq : ∀ T0', f.labels.T0min ≤ T0' → T0' ≤ f.labels.T0max →
      ∀ q ∈ sectorPairs f.labels T0' ((w.rcs (truncOf p).N2max).map LSSub.qn), OkOr .assertFail (do
        let b ← getSub (w.rcs (truncOf p).N2max) q.1
        let k ← getSub (w.rcs (truncOf p).N2max) q.2
        b.states.mapM fun x => k.states.mapM fun y =>
          relCMElement w.env.am (relSource w.env f T0') f.labels.J0 (rcState b x) (rcState k y)) := by
    intro T0' h1' h2' q hq
    obtain ⟨b, k, hb, hk, _, hall⟩ := mem_places hq
    simp only [getSub_ok hb, getSub_ok hk, Except.ok_bind']
    have mb := List.mem_of_getElem? hb
    have mk := List.mem_of_getElem? hk
    exact mapM_okOr fun x hx => mapM_okOr fun y hy => element_okOr (hg.holds T0' h1' h2') ⟨h1', h2'⟩ (hrc.valid b mb) (hrc.valid k mk)
      ((hrc.states b mb x).mp hx) ((hrc.states k mk y).mp hy) hall
  rw [components_fails (e := .assertFail) (T0 := T0) ?_ h1 h2 ?_]
  · rfl
  · intro T0' h1' h2'
    exact mapM_okOr (hq T0' h1' h2')
  · have hall : allowedQ f.labels T0 s.qn s.qn = true := by
      rw [allowedQ_iff]
      simp only [LSSub.qn, Tri]
      omega
    obtain ⟨i, hi, hmem⟩ := diagonal_place hm hall
    refine mapM_fails (hq T0 h1 h2) ⟨(i, i), hmem, ?_⟩
    simp only [getSub_ok hi, Except.ok_bind']
    have hel : ∀ a ∈ s.states, ∀ b ∈ s.states, OkOr .assertFail
        (relCMElement w.env.am (relSource w.env f T0) f.labels.J0 (rcState s a) (rcState s b)) := fun a ha b hb =>
      element_okOr (hg.holds T0 h1 h2) ⟨h1, h2⟩ (hrc.valid s hm) (hrc.valid s hm) ((hrc.states s hm a).mp ha) ((hrc.states s hm b).mp hb) hall
    refine mapM_fails (fun a ha => mapM_okOr fun b hb => hel a ha b hb) ⟨x, hx, ?_⟩
    exact mapM_fails (fun b hb => hel x hx b hb) ⟨x, hx, element_asserts rfl (.inl hN)⟩

/-! ## The relative-cm file -/

/-- C132, where the program does not check: if an LS subspace that the operator could connect with itself has more quanta than the
relative-cm file, the place `kNone` of the subspace that is not found is used as an index. -/
theorem moshinsky_small_relcm_file {g : RCFile} (ha : Asks w.nm ctl p) (hc : 0 ≤ p.cutoff) (hs : p.source = .relcm)
    (ht : p.source.code < p.target.code) (hf : w.rc? p.input = some g) (h3 : g.labels.T0max ≤ 2)
    (hrc : RCSpace g.Nmax (w.rcs g.Nmax)) (hls : LSSpace (truncOf p) (w.lss ((truncOf p).N1max, (truncOf p).N2max)))
    (h84 : (truncOf p).N2max ≤ 84)
    {T0 : ℕ} (h1 : g.labels.T0min ≤ T0) (h2 : T0 ≤ g.labels.T0max) {s : LSSub}
    (hm : s ∈ w.lss ((truncOf p).N1max, (truncOf p).N2max))
    (hJ : g.labels.J0 ≤ 2 * s.J) (hT : T0 ≤ 2 * s.T) (hg0 : g.labels.g0 % 2 = 0) (hN : g.Nmax < s.N) :
    run w ctl = .error .undefinedBehaviour := by
  have hrel : p.target ≠ .relcm := by
    intro e
    rw [hs, e] at ht
    exact absurd ht (by decide)
  rw [run_eq ha ht hc, fromSource_relcm hs hf h3]
  unfold fromRC
  rw [if_neg hrel]
  generalize hL : w.lss ((truncOf p).N1max, (truncOf p).N2max) = ls at *
  have hq : ∀ T0', ∀ q ∈ sectorPairs g.labels T0' (ls.map LSSub.qn), OkOr .undefinedBehaviour (do
      let b ← getSub ls q.1
      let k ← getSub ls q.2
      let bi ← found (lookLS (w.rcs g.Nmax) b.labels)
      let ki ← found (lookLS (w.rcs g.Nmax) k.labels)
      let n ← found (lookSector (sectorPairs g.labels T0' ((w.rcs g.Nmax).map LSSub.qn)) bi ki)
      let rb ← getSub (w.rcs g.Nmax) bi
      let rk ← getSub (w.rcs g.Nmax) ki
      let U ← bracketMatrix w.env.mosh rb b
      let V ← bracketMatrix w.env.mosh rk k
      pure (sandwich b.states.length k.states.length U (entry (g.blocks T0') n) V)) := by
    intro T0' q hq
    obtain ⟨b, k, hb, hk, _, _⟩ := mem_places hq
    have mb := List.mem_of_getElem? hb
    have mk := List.mem_of_getElem? hk
    simp only [getSub_ok hb, getSub_ok hk, Except.ok_bind']
    have hat : ∀ u ∈ ls, ∀ i, lookLS (w.rcs g.Nmax) u.labels = some i → ∃ v U, (w.rcs g.Nmax)[i]? = some v ∧
        bracketMatrix w.env.mosh v u = .ok U := by
      intro u mu i hi
      have := (idxOf?_getElem? hrc.labels).mp hi
      rw [List.getElem?_map, Option.map_eq_some_iff] at this
      obtain ⟨v, hv, hl⟩ := this
      have mv := List.mem_of_getElem? hv
      have hN' : v.N = u.N := by
        simp only [LSSub.labels, Prod.mk.injEq] at hl
        exact hl.2.2.2.2.2
      have huN := (hls.valid u mu).N
      exact ⟨v, _, hv, bracketMatrix_ok w.env.mosh hl (fun r hr => (hrc.states v mv r).mp hr)
        (fun x hx => ((hls.states u mu x).mp hx).1) (by omega)⟩
    cases e1 : lookLS (w.rcs g.Nmax) b.labels with
    | none => exact .inr rfl
    | some bi =>
      cases e2 : lookLS (w.rcs g.Nmax) k.labels with
      | none => exact .inr rfl
      | some ki =>
        simp only [found, Except.ok_bind']
        cases e3 : lookSector (sectorPairs g.labels T0' ((w.rcs g.Nmax).map LSSub.qn)) bi ki with
        | none => exact .inr rfl
        | some n =>
          obtain ⟨v, U, hv, hU⟩ := hat b mb bi e1
          obtain ⟨v', V, hv', hV⟩ := hat k mk ki e2
          simp only [Except.ok_bind', getSub_ok hv, getSub_ok hv', hU, hV, Except.pure_ok]
          exact .inl ⟨_, rfl⟩
  rw [components_fails (e := .undefinedBehaviour) (T0 := T0) ?_ h1 h2 ?_]
  · rfl
  · intro T0' _ _
    exact mapM_okOr (hq T0')
  · have hall : allowedQ g.labels T0 s.qn s.qn = true := by
      rw [allowedQ_iff]
      simp only [LSSub.qn, Tri]
      omega
    obtain ⟨i, hi, hmem⟩ := diagonal_place hm hall
    refine mapM_fails (hq T0) ⟨(i, i), hmem, ?_⟩
    have hnone : lookLS (w.rcs g.Nmax) s.labels = none := by
      rw [lookLS, List.idxOf?_eq_none_iff]
      intro hc
      obtain ⟨v, hv, hl⟩ := List.mem_map.mp hc
      have hN' : v.N = s.N := by
        simp only [LSSub.labels, Prod.mk.injEq] at hl
        exact hl.2.2.2.2.2
      have := (hrc.valid v hv).N
      omega
    simp only [getSub_ok hi, Except.ok_bind', hnone, found, Except.error_bind']

end

end Verif.Moshinsky.Program
