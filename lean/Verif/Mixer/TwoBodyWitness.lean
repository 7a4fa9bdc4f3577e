import Verif.Mixer.XformProps
import Verif.Separable.IdentityProps

/-!
# Properties C55, C56, C78, C79, C82, C83: concrete runs of `h2mixer`, and what it does not report
-/

namespace Verif.Mixer
open Verif Verif.Mapping Verif.Xform Verif.Obme Verif.Separable
open Verif.H2 hiding Mat Subspace

namespace Ex

/-- Target: `(0p3/2)²` and `(0p3/2)(0s1/2)`. -/
def target : TBIndexing := ⟨Mapping.Ex.tgt, Mapping.Ex.tgtSpace, [(0, 0)]⟩
/-- Indexing of the files: other order of the orbitals. -/
def fileIx : TBIndexing := ⟨Mapping.Ex.src, Mapping.Ex.srcSpace, [(0, 0)]⟩

noncomputable def env : Env where
  am := Separable.Example.am
  target := target
  qn := scalarQN
  A := some 6
  ob _ := none
  xf _ := none
  tol := 1 / 10

theorem target_ok : IndexOK env.target where
  orb := Mapping.Ex.wf_tgt
  odd := by intro s; cases s <;> decide
  space := Mapping.Ex.inputs.tgtWF
  sectors := by decide

theorem fileIx_ok : IndexOK fileIx where
  orb := Mapping.Ex.wf_src
  odd := Mapping.Ex.halfOdd
  space := Mapping.Ex.inputs.srcWF
  sectors := by decide

/-- The operator `c |ψ⟩⟨ψ|`. -/
noncomputable def op (c : ℝ) : ℝ →ₗ[ℝ] ℝ →ₗ[ℝ] ℝ := c • LinearMap.lsmul ℝ ℝ

theorem op_apply (c x y : ℝ) : op c x y = c * (x * y) := by simp [op]

/-- A file with elements `c`, upper triangle only. -/
noncomputable def file (c : ℝ) : H2In := ⟨fileIx, scalarQN, fun _ => .ok ⟨2, 2, fun i j => if i ≤ j then c else 0⟩⟩

theorem src_state {st : ℕ × ℕ} (h : st ∈ ([(0, 1), (1, 1)] : List (ℕ × ℕ))) :
    Mapping.Ex.K.state Mapping.Ex.src Mapping.Ex.lab st = 1 := by
  simp only [List.mem_cons, List.not_mem_nil, or_false] at h
  rcases h with rfl | rfl <;>
    simp [PairKets.state, Mapping.Ex.src, Mapping.Ex.lab, Species2.first, Species2.second, Orbitals.of, Mapping.Ex.K,
      Mapping.Ex.s1, Mapping.Ex.p3]

theorem tgt_state0 : Mapping.Ex.K.state Mapping.Ex.tgt Mapping.Ex.lab (0, 0) = 1 := by
  simp [PairKets.state, Mapping.Ex.tgt, Mapping.Ex.lab, Species2.first, Species2.second, Orbitals.of, Mapping.Ex.K,
    Mapping.Ex.p3]

theorem tgt_state1 : Mapping.Ex.K.state Mapping.Ex.tgt Mapping.Ex.lab (0, 1) = -1 := by
  simp [PairKets.state, Mapping.Ex.tgt, Mapping.Ex.lab, Species2.first, Species2.second, Orbitals.of, Mapping.Ex.K,
    Mapping.Ex.s1, Mapping.Ex.p3]
  norm_num

theorem fileIx_sector {n : ℕ} {p : ℕ × ℕ} {b k : Subspace} (h : IsSector fileIx n p b k) :
    p = (0, 0) ∧ b = ⟨Mapping.Ex.lab, [(0, 1), (1, 1)]⟩ ∧ k = ⟨Mapping.Ex.lab, [(0, 1), (1, 1)]⟩ := by
  have hp := List.mem_of_getElem? h.sector
  simp only [fileIx, List.mem_singleton] at hp
  subst hp
  have hb := h.bra
  have hk := h.ket
  simp only [fileIx, Mapping.Ex.srcSpace, List.getElem?_cons_zero, Option.some.injEq] at hb hk
  exact ⟨rfl, hb.symm, hk.symm⟩

theorem target_sector {n : ℕ} {p : ℕ × ℕ} {b k : Subspace} (h : IsSector target n p b k) :
    n = 0 ∧ p = (0, 0) ∧ b = ⟨Mapping.Ex.lab, [(0, 0), (0, 1)]⟩ ∧ k = ⟨Mapping.Ex.lab, [(0, 0), (0, 1)]⟩ := by
  have hp := List.mem_of_getElem? h.sector
  have hn := (List.getElem?_eq_some_iff.mp h.sector).1
  simp only [target, List.length_singleton] at hn
  simp only [target, List.mem_singleton] at hp
  subst hp
  have hb := h.bra
  have hk := h.ket
  simp only [target, Mapping.Ex.tgtSpace, List.getElem?_cons_zero, Option.some.injEq] at hb hk
  exact ⟨by omega, rfl, hb.symm, hk.symm⟩

theorem theSector : IsSector target 0 (0, 0) ⟨Mapping.Ex.lab, [(0, 0), (0, 1)]⟩ ⟨Mapping.Ex.lab, [(0, 0), (0, 1)]⟩ :=
  ⟨rfl, rfl, rfl⟩

theorem file_holds (c : ℝ) : Holds Mapping.Ex.K (op c) (file c) := by
  intro n p b k h
  obtain ⟨rfl, rfl, rfl⟩ := fileIx_sector h
  refine ⟨_, rfl, rfl, rfl, ?_⟩
  intro i j sti stj hi hj hle
  have hle := hle rfl
  show (if i ≤ j then c else 0) = _
  rw [if_pos hle]
  show c = op c (Mapping.Ex.K.state Mapping.Ex.src Mapping.Ex.lab sti) (Mapping.Ex.K.state Mapping.Ex.src Mapping.Ex.lab stj)
  rw [src_state (List.mem_of_getElem? hi), src_state (List.mem_of_getElem? hj), op_apply]
  ring

theorem file_sym (c : ℝ) : SymWithin Mapping.Ex.K (op c) (file c).ix := by
  intro _ _ s _ _ st _ st' _
  rw [op_apply, op_apply]
  ring

theorem file_covers (c : ℝ) : ∀ s p b k, IsSector env.target s p b k →
    ∀ sti ∈ b.states, ∀ stj ∈ k.states, Covers (file c) env.target.orbitals b k sti stj := by
  intro s p b k h sti hi stj hj
  obtain ⟨rfl, rfl, rfl, rfl⟩ := target_sector h
  have key : ∀ st ∈ ([(0, 0), (0, 1)] : List (ℕ × ℕ)), ∃ st' ∈ ([(0, 1), (1, 1)] : List (ℕ × ℕ)),
      SameOrbitals Mapping.Ex.src Mapping.Ex.tgt .pp st' st := by
    intro st hst
    simp only [List.mem_cons, List.not_mem_nil, or_false] at hst
    rcases hst with rfl | rfl
    · exact ⟨(1, 1), by simp, Mapping.Ex.p3, Mapping.Ex.p3, ⟨rfl, rfl⟩, .inl ⟨rfl, rfl⟩⟩
    · exact ⟨(0, 1), by simp, Mapping.Ex.s1, Mapping.Ex.p3, ⟨rfl, rfl⟩, .inr ⟨by decide, rfl, rfl⟩⟩
  exact ⟨0, (0, 0), ⟨Mapping.Ex.lab, [(0, 1), (1, 1)]⟩, ⟨Mapping.Ex.lab, [(0, 1), (1, 1)]⟩, ⟨rfl, rfl, rfl⟩, rfl, rfl,
    key _ hi, key _ hj⟩

theorem target_range : ∀ p ∈ env.target.sectors, p.1 < env.target.space.length ∧ p.2 < env.target.space.length := by
  intro p hp
  simp only [env, target, List.mem_singleton] at hp
  subst hp
  exact ⟨by decide, by decide⟩

/-- What a source of elements `c` provides. -/
theorem file_source (id : String) (c : ℝ) : ∃ T, source env ⟨id, .input (file c)⟩ (0, 0) = .ok (some T) ∧
    SectorSize env (0, 0) T ∧ T.val 0 0 = c ∧ T.val 0 1 = -c := by
  obtain ⟨r, h1, h2, h3⟩ := input_source (id := id) (fileIx_ok : IndexOK (file c).ix) target_ok (file_holds c)
    (file_sym c) (p := (0, 0)) theSector.bra theSector.ket
  have e1 := (h3 0 0 (0, 0) (0, 0) rfl rfl).1 (file_covers c _ _ _ _ theSector _ (by simp) _ (by simp))
  have e2 := (h3 0 1 (0, 0) (0, 1) rfl rfl).1 (file_covers c _ _ _ _ theSector _ (by simp) _ (by simp))
  have e1' : elemOf r 0 0 = op c (Mapping.Ex.K.state Mapping.Ex.tgt Mapping.Ex.lab (0, 0))
    (Mapping.Ex.K.state Mapping.Ex.tgt Mapping.Ex.lab (0, 0)) := e1
  have e2' : elemOf r 0 1 = op c (Mapping.Ex.K.state Mapping.Ex.tgt Mapping.Ex.lab (0, 0))
    (Mapping.Ex.K.state Mapping.Ex.tgt Mapping.Ex.lab (0, 1)) := e2
  rw [tgt_state0, op_apply] at e1' e2'
  rw [tgt_state1] at e2'
  cases r with
  | none =>
    exfalso
    have : source env ⟨id, .input (file c)⟩ (0, 0) = .ok none := h1
    have hs : findSector (file c).ix Mapping.Ex.lab Mapping.Ex.lab = some 0 := rfl
    obtain ⟨m, hm⟩ := mapping_total Mapping.Ex.inputs
    have h4 : source env ⟨id, .input (file c)⟩ (0, 0) = populateInput env (file c) (some m) (0, 0) := by
      simp only [source, initChannel]
      have : twoBodyMapping (file c).ix.orbitals (file c).ix.space env.target.orbitals env.target.space = .ok m := hm
      rw [this]
      rfl
    rw [this] at h4
    unfold populateInput at h4
    rw [getE_ok (show env.target.space[0]? = some _ from rfl), Except.ok_bind', Except.ok_bind'] at h4
    have h5 := h4.symm
    simp only [hs, Except.bind_eq_ok] at h5
    obtain ⟨_, _, _, _, _, _, _, _, h5⟩ := h5
    cases h5
  | some T => exact ⟨T, h1, h2 T rfl, by simpa [elemOf] using e1', by simpa [elemOf] using e2'⟩

/-- The files `V` and `W`. -/
noncomputable def files : List (String × H2In) := [("V", file 1), ("W", file 2)]
/-- Their operators. -/
noncomputable def ops (id : String) : ℝ →ₗ[ℝ] ℝ →ₗ[ℝ] ℝ := if id = "V" then op 1 else op 2

/-- The hypotheses of `mix_operators` (with those of `mix_files`, `input_source`, `mix_total`, `mix_element`) are
met: `3 V + W/2` with `V = 1` and `W = 2` has the element `4` up to the sign of the exchanged orbitals. -/
example : ∃ out M, mix env (inputChannels files) [[("V", 3), ("W", 1 / 2)]] = .ok out ∧ out[0]? = some [M] ∧
    M.val 0 1 = (-4 : ℝ) := by
  obtain ⟨out, h1, h2⟩ := mix_operators (B := ops) (K := Mapping.Ex.K) target_ok target_range
    (files := files) (by decide) (by
      intro f hf
      simp only [files, List.mem_cons, List.not_mem_nil, or_false] at hf
      rcases hf with rfl | rfl
      · exact ⟨fileIx_ok, file_holds 1, file_sym 1⟩
      · exact ⟨fileIx_ok, file_holds 2, file_sym 2⟩)
    (cs := [("V", 3), ("W", 1 / 2)]) (by
      intro t ht
      simp only [List.mem_cons, List.not_mem_nil, or_false] at ht
      rcases ht with rfl | rfl
      · exact ⟨("V", file 1), by simp [files], rfl, file_covers 1⟩
      · exact ⟨("W", file 2), by simp [files], rfl, file_covers 2⟩)
  obtain ⟨M, h3, _, _, h4⟩ := h2 0 _ _ _ theSector
  refine ⟨out, M, h1, h3, ?_⟩
  have h5 := h4 0 1 (0, 0) (0, 1) rfl rfl
  have e : opSum ops [("V", 3), ("W", 1 / 2)] (Mapping.Ex.K.state Mapping.Ex.tgt Mapping.Ex.lab (0, 0))
      (Mapping.Ex.K.state Mapping.Ex.tgt Mapping.Ex.lab (0, 1)) = -4 := by
    rw [tgt_state0, tgt_state1, opSum_apply]
    simp [ops, op_apply]
    norm_num
  have h6 : ChopOf env.tol (opSum ops [("V", 3), ("W", 1 / 2)] (Mapping.Ex.K.state Mapping.Ex.tgt Mapping.Ex.lab (0, 0))
      (Mapping.Ex.K.state Mapping.Ex.tgt Mapping.Ex.lab (0, 1))) (M.val 0 1) := h5
  rw [e] at h6
  exact h6.2 (by norm_num [env])

/-- A run on channels of given elements, and what it writes. -/
theorem run (chans : List Channel) (hc : ∀ c ∈ chans, ∃ r, source env c (0, 0) = .ok r ∧
      ∀ m, r = some m → SectorSize env (0, 0) m)
    (hi : ∀ c ∈ chans, ∃ m, initChannel env c = .ok m) (cs : List (String × ℝ)) :
    ∃ out M, mix env chans [cs] = .ok out ∧ out = [[M]] ∧ ∃ src : String → Option Mat,
      (∀ id, Provides env chans (0, 0) id (src id)) ∧ ∀ i j, ChopOf env.tol (combination src cs i j) (M.val i j) := by
  obtain ⟨out, h⟩ := mix_total (targets := [cs]) hi (by
    intro p hp
    simp only [env, target, List.mem_singleton] at hp
    subst hp
    exact hc) target_range
  obtain ⟨h1, h2⟩ := mix_element h
  obtain ⟨ms, h3, h4, src, h5, h6⟩ := h2 0 (0, 0) rfl
  obtain ⟨M, h7, _, h8⟩ := h6 0 cs rfl
  refine ⟨out, M, h, ?_, src, h5, h8⟩
  have e1 : ms = [M] := by
    match ms, h4, h7 with
    | [x], _, h7 => simpa using h7
  match out, h1, h3 with
  | [x], _, h3 =>
    simp only [List.getElem?_cons_zero, Option.some.injEq] at h3
    rw [h3, e1]

theorem file_init (id : String) (c : ℝ) : ∃ m, initChannel env ⟨id, .input (file c)⟩ = .ok m := by
  obtain ⟨m, hm⟩ := mapping_total Mapping.Ex.inputs
  refine ⟨some m, ?_⟩
  have : twoBodyMapping (file c).ix.orbitals (file c).ix.space env.target.orbitals env.target.space = .ok m := hm
  simp only [initChannel, this, Except.ok_bind', Except.pure_ok]

end Ex

/-! ### Undefined names -/

/-- **C56**, refuted: a target may name a source that was never defined, with any coefficient; the run ends well and the
line is left out of the sum. -/
theorem undefined_not_reported : ∃ (env : Env) (chans : List Channel) (cs : List (String × ℝ)) (out : List (List Mat)),
    (∃ t ∈ cs, t.2 ≠ 0 ∧ ∀ c ∈ chans, c.id ≠ t.1) ∧ chans ≠ [] ∧ mix env chans [cs] = .ok out ∧
      mix env chans [cs.filter fun t => decide (t.1 ∈ chans.map (·.id))] = .ok out := by
  obtain ⟨T, hT, hs, _⟩ := Ex.file_source "V" 1
  obtain ⟨out, M, h, -⟩ := Ex.run [⟨"V", .input (Ex.file 1)⟩] (by
      intro c hc
      simp only [List.mem_singleton] at hc
      subst hc
      exact ⟨_, hT, by rintro m ⟨⟩; exact hs⟩) (by
      intro c hc
      simp only [List.mem_singleton] at hc
      subst hc
      exact Ex.file_init _ _) [("V", 1), ("V2", 1000)]
  refine ⟨Ex.env, _, _, out, ⟨("V2", 1000), by simp, by norm_num, by simp⟩, by simp, h, ?_⟩
  have := undefined_ignored Ex.env [⟨"V", .input (Ex.file 1)⟩] [[("V", 1), ("V2", 1000)]]
  rw [h] at this
  exact this.symm

/-! ### Names given twice -/

/-- **C82**, what happens with a name given twice: in each sector the last channel of the name that has a matrix for
it is used, and where it has none an earlier one of the same name. -/
theorem duplicate_last_wins {env : Env} {pre post : List Channel} {a b : Channel} {p : ℕ × ℕ} {id : String}
    (ha : a.id = id) (hb : b.id = id) (hpost : ∀ c ∈ post, c.id ≠ id) :
    (∀ m, source env b p = .ok (some m) → Provides env (pre ++ a :: b :: post) p id (some m)) ∧
    (source env b p = .ok none → ∀ m, source env a p = .ok (some m) →
      Provides env (pre ++ a :: b :: post) p id (some m)) := by
  constructor
  · intro m hm
    exact ⟨pre ++ [a], b, post, by simp, hb, hm, fun c hc he => absurd he (hpost c hc)⟩
  · intro hn m hm
    refine ⟨pre, a, b :: post, rfl, ha, hm, ?_⟩
    intro c hc he
    rcases List.mem_cons.mp hc with rfl | hc
    · exact hn
    · exact absurd he (hpost c hc)

/-- **C82**, refuted: two two-body sources of the same name are not reported.  The target gets the second, not the sum
and not the first. -/
theorem duplicate_names_accepted : ∃ (env : Env) (a b : Channel) (out : List (List Mat)) (ma mb M : Mat),
    a.id = b.id ∧ source env a (0, 0) = .ok (some ma) ∧ source env b (0, 0) = .ok (some mb) ∧
      mix env [a, b] [[(a.id, 1)]] = .ok out ∧ out = [[M]] ∧ M.val 0 0 = mb.val 0 0 ∧ M.val 0 0 ≠ ma.val 0 0 ∧
      M.val 0 0 ≠ ma.val 0 0 + mb.val 0 0 := by
  obtain ⟨T, hT, hs, e1, _⟩ := Ex.file_source "V" 1
  obtain ⟨T', hT', hs', e2, _⟩ := Ex.file_source "V" 2
  obtain ⟨out, M, h, ho, src, hsrc, hM⟩ := Ex.run [⟨"V", .input (Ex.file 1)⟩, ⟨"V", .input (Ex.file 2)⟩] (by
      intro c hc
      simp only [List.mem_cons, List.not_mem_nil, or_false] at hc
      rcases hc with rfl | rfl
      · exact ⟨_, hT, by rintro m ⟨⟩; exact hs⟩
      · exact ⟨_, hT', by rintro m ⟨⟩; exact hs'⟩) (by
      intro c hc
      simp only [List.mem_cons, List.not_mem_nil, or_false] at hc
      rcases hc with rfl | rfl <;> exact Ex.file_init _ _) [("V", 1)]
  have hp := (duplicate_last_wins (env := Ex.env) (pre := []) (post := []) (a := ⟨"V", .input (Ex.file 1)⟩)
    (b := ⟨"V", .input (Ex.file 2)⟩) (p := (0, 0)) (id := "V") rfl rfl (by simp)).1 _ hT'
  have hsv := provides_unique (hsrc "V") hp
  have hv := hM 0 0
  simp only [combination, List.map_cons, List.map_nil, List.sum_cons, List.sum_nil, hsv, elemOf, e2] at hv
  have hv' : M.val 0 0 = 2 := by
    rw [hv.2 (by norm_num [Ex.env])]
    norm_num
  exact ⟨Ex.env, ⟨"V", .input (Ex.file 1)⟩, ⟨"V", .input (Ex.file 2)⟩, out, T, T', M, rfl, hT, hT', h, ho, by rw [hv', e2], by rw [hv', e1]; norm_num,
    by rw [hv', e1, e2]; norm_num⟩

/-! ### Tensor character of input files -/

/-- **C83**, what happens with an input file of another tensor character: it is not looked at. -/
theorem input_character_unread (env : Env) (id : String) (file : H2In) (q : QN) (p : ℕ × ℕ) :
    source env ⟨id, .input { file with qn := q }⟩ p = source env ⟨id, .input file⟩ p := rfl

/-- **C83**, refuted for input files: a file of an operator that changes parity and charge is mixed into a scalar
target. -/
theorem input_character_unchecked : ∃ (env : Env) (file : H2In) (out : List (List Mat)) (M : Mat),
    file.qn ≠ env.qn ∧ mix env [⟨"V", .input file⟩] [[("V", 1)]] = .ok out ∧ out = [[M]] ∧ M.val 0 0 = 1 := by
  let f : H2In := { Ex.file 1 with qn := ⟨2, 1, 1⟩ }
  obtain ⟨T, hT, hs, e1, _⟩ := Ex.file_source "V" 1
  have hT' : source Ex.env ⟨"V", .input f⟩ (0, 0) = .ok (some T) := hT
  obtain ⟨out, M, h, ho, src, hsrc, hM⟩ := Ex.run [⟨"V", .input f⟩] (by
      intro c hc
      simp only [List.mem_singleton] at hc
      subst hc
      exact ⟨_, hT', by rintro m ⟨⟩; exact hs⟩) (by
      intro c hc
      simp only [List.mem_singleton] at hc
      subst hc
      exact Ex.file_init "V" 1) [("V", 1)]
  have hsv := provides_unique (hsrc "V") (provides_of_nodup (ch := ⟨"V", .input f⟩) (by simp) (by simp) hT')
  have hv := hM 0 0
  simp only [combination, List.map_cons, List.map_nil, List.sum_cons, List.sum_nil, hsv, elemOf, e1] at hv
  refine ⟨Ex.env, f, out, M, by decide, h, ho, ?_⟩
  rw [hv.2 (by norm_num [Ex.env])]
  norm_num

/-- **C83.** Separable sources are checked: a run ends well only if each upgraded one-body operator has the tensor
character of the targets, and the two factors of each product the same orbitals, ranks in a triangle with that of
the targets, parities and charges adding to theirs; and all names they use exist. -/
theorem separable_character {env : Env} {chans : List Channel} {targets : List (List (String × ℝ))}
    {out : List (List Mat)} (h : mix env chans targets = .ok out) :
    (∀ id ob, ⟨id, .opU ob⟩ ∈ chans → ∃ d, env.ob ob = some d ∧ d.secs.qn = env.qn) ∧
    (∀ id a b f, ⟨id, .opV a b f⟩ ∈ chans → ∃ da db, env.ob a = some da ∧ env.ob b = some db ∧
      da.space = db.space ∧ |da.secs.qn.J0 - db.secs.qn.J0| ≤ env.qn.J0 ∧
      env.qn.J0 ≤ da.secs.qn.J0 + db.secs.qn.J0 ∧ (2 : Int) ∣ da.secs.qn.g0 + db.secs.qn.g0 + env.qn.g0 ∧
      da.secs.qn.Tz0 + db.secs.qn.Tz0 = env.qn.Tz0) ∧
    (∀ id file sp ss x, ⟨id, .xform file sp ss x⟩ ∈ chans → ∃ ov, env.xf x = some ov) := by
  unfold mix at h
  rw [Except.bind_eq_ok] at h
  obtain ⟨o, ho, -⟩ := h
  rw [opened_iff] at ho
  have hinit : ∀ c ∈ chans, ∃ m, initChannel env c = .ok m := by
    intro c hc
    obtain ⟨y, _, e, hy⟩ := forall₂_mem_left ho c hc
    exact ⟨_, hy⟩
  have find : ∀ {ob d}, findOb env.ob ob = .ok d → env.ob ob = some d := by
    intro ob d hf
    unfold findOb at hf
    split at hf
    · rename_i hd
      cases hf
      exact hd
    · cases hf
  refine ⟨?_, ?_, ?_⟩
  · intro id ob hc
    obtain ⟨m, hm⟩ := hinit _ hc
    simp only [initChannel, Except.bind_eq_ok, assertE_ok, decide_eq_true_eq] at hm
    obtain ⟨d, hd, _, h1, _, h2, _, h3, _⟩ := hm
    exact ⟨d, find hd, by cases hq : d.secs.qn; cases hq' : env.qn; simp_all⟩
  · intro id a b f hc
    obtain ⟨m, hm⟩ := hinit _ hc
    simp only [initChannel, Except.bind_eq_ok, assertE_ok, decide_eq_true_eq, tri] at hm
    obtain ⟨da, ha, db, hb, _, h1, _, h2, _, h3, _, h4, _⟩ := hm
    exact ⟨da, db, find ha, find hb, h1, h2.1, h2.2, Int.dvd_of_tmod_eq_zero h3, h4⟩
  · intro id file sp ss x hc
    obtain ⟨m, hm⟩ := hinit _ hc
    simp only [initChannel, Except.bind_eq_ok] at hm
    obtain ⟨_, _, ov, hv, _⟩ := hm
    unfold findXf at hv
    split at hv
    · rename_i d hd
      exact ⟨d, hd⟩
    · cases hv

/-! ### Mass number -/

/-- **C84.** Without `set-mass` a run that uses the identity or an upgraded one-body operator reads an uninitialised
mass number: no run with at least one sector has a defined result. -/
theorem mass_needed {env : Env} {chans : List Channel} {targets : List (List (String × ℝ))}
    {out : List (List Mat)} (h : mix env chans targets = .ok out) (hs : env.target.sectors ≠ [])
    (hc : (∃ id ob, ⟨id, .opU ob⟩ ∈ chans) ∨ ⟨"identity", .builtin⟩ ∈ chans) : ∃ A, env.A = some A := by
  unfold mix at h
  simp only [Except.bind_eq_ok] at h
  obtain ⟨o, ho, h⟩ := h
  rw [opened_iff] at ho
  rw [mapM_ok_iff] at h
  obtain ⟨p, hp⟩ := List.exists_mem_of_ne_nil _ hs
  obtain ⟨ms, _, hms⟩ := forall₂_mem_left h p hp
  unfold mixSector at hms
  simp only [Except.bind_eq_ok] at hms
  obtain ⟨b, hb, _⟩ := hms
  have hall : ∀ {l : List (Channel × Option TwoBodyMapping)} {b b' : Blocks}, l.foldlM (saveStep env p) b = .ok b' →
      ∀ c ∈ l, ∃ r, populate env c.1 c.2 p = .ok r := by
    intro l
    induction l with
    | nil => intro b b' _ c hc; simp at hc
    | cons x l ih =>
      intro b b' h c hc
      rw [List.foldlM_cons] at h
      simp only [Except.bind_eq_ok, saveStep] at h
      obtain ⟨b1, ⟨r, hr, _⟩, h⟩ := h
      rcases List.mem_cons.mp hc with rfl | hc
      · exact ⟨r, hr⟩
      · exact ih h c hc
  have mass : ∀ {A}, massE env.A = .ok A → ∃ A, env.A = some A := by
    intro A hA
    unfold massE at hA
    split at hA
    · rename_i A' e
      exact ⟨A', e⟩
    · cases hA
  rcases hc with ⟨id, ob, hc⟩ | hc
  · obtain ⟨y, hy, e, _⟩ := forall₂_mem_left ho _ hc
    obtain ⟨r, hr⟩ := hall hb y hy
    rw [e] at hr
    simp only [populate, populateU, Except.bind_eq_ok] at hr
    obtain ⟨_, _, _, _, _, _, _, _, _, _, A, hA, _⟩ := hr
    exact mass hA
  · obtain ⟨y, hy, e, _⟩ := forall₂_mem_left ho _ hc
    obtain ⟨r, hr⟩ := hall hb y hy
    rw [e] at hr
    simp only [populate, populateBuiltin, if_true, Except.bind_eq_ok] at hr
    obtain ⟨_, _, A, hA, _⟩ := hr
    exact mass hA

/-- The hypotheses of `mass_needed` and `mix_total` are met by the identity with `A = 6`, whose element is
`2/(6·5)`. -/
example : ∃ out M, mix Ex.env [⟨"identity", .builtin⟩] [[("identity", 6)]] = .ok out ∧ out = [[M]] ∧
    M.val 0 0 = 2 / 5 := by
  obtain ⟨T, hT, e0, hsz⟩ : ∃ T, source Ex.env ⟨"identity", .builtin⟩ (0, 0) = .ok (some T) ∧ T.val 0 0 = 1 / 15 ∧
      SectorSize Ex.env (0, 0) T := by
    refine ⟨⟨2, 2, fun i j => 2 / ((6 * (6 - 1) : Int) : ℝ) * (if i = j then 1 else 0)⟩, rfl, ?_, ?_⟩
    · norm_num
    · exact ⟨_, _, Ex.theSector.bra, Ex.theSector.ket, rfl, rfl⟩
  obtain ⟨out, M, h, ho, src, hsrc, hM⟩ := Ex.run [⟨"identity", .builtin⟩] (by
      intro c hc
      simp only [List.mem_singleton] at hc
      subst hc
      exact ⟨_, hT, by rintro m ⟨⟩; exact hsz⟩) (by
      intro c hc
      simp only [List.mem_singleton] at hc
      subst hc
      exact ⟨none, rfl⟩) [("identity", 6)]
  have hsv := provides_unique (hsrc "identity")
    (provides_of_nodup (ch := ⟨"identity", .builtin⟩) (by simp) (by simp) hT)
  have hv := hM 0 0
  simp only [combination, List.map_cons, List.map_nil, List.sum_cons, List.sum_nil, hsv, elemOf, e0] at hv
  refine ⟨out, M, h, ho, ?_⟩
  rw [hv.2 (by norm_num [Ex.env, abs_of_pos])]
  norm_num

/-- The hypotheses of `mix_copy` are met. -/
example : ∃ out, mix Ex.env [⟨"V", .input ⟨Ex.target, scalarQN, fun _ => .ok ⟨2, 2, fun i j => i + 2 * j⟩⟩⟩]
    [[("V", 1)]] = .ok out ∧ ∃ M, out[0]? = some [M] ∧ M.val 1 0 = 2 := by
  obtain ⟨out, h1, h2⟩ := mix_copy (env := Ex.env) (id := "V")
    (file := ⟨Ex.target, scalarQN, fun _ => .ok ⟨2, 2, fun i j => i + 2 * j⟩⟩) rfl Ex.target_ok Ex.target_range (by
      intro n p b k h
      obtain ⟨rfl, rfl, rfl, rfl⟩ := Ex.target_sector h
      exact ⟨_, rfl, rfl, rfl⟩)
  obtain ⟨a, M, h3, h4, _, _, h5⟩ := h2 0 _ _ _ Ex.theSector
  cases h3
  refine ⟨out, h1, M, h4, ?_⟩
  have := h5 1 0 (by decide) (by decide)
  rw [if_pos ⟨rfl, by decide⟩] at this
  rw [this.2 (by norm_num [Ex.env])]
  norm_num

/-! ### A transformed source -/

namespace Ex

/-- `(0s)²`, `0s1s`, `(1s)²` with `J = 0`. -/
def full : Subspace := ⟨⟨.pp, 0, 0⟩, [(0, 0), (0, 1), (1, 1)]⟩
/-- Its indexing. -/
def fullIx : TBIndexing := ⟨Xform.Ex.o, [full], [(0, 0)]⟩

theorem fullIx_ok : IndexOK fullIx where
  orb := by constructor <;> intro s <;> cases s <;> decide
  odd := by intro s; cases s <;> decide
  space := Mapping.Ex.spaceWF (by decide) (by decide) (by decide) (by decide)
  sectors := by decide

theorem full_full : FullSubspace Xform.Ex.o full := by
  constructor
  · intro st hst a b hab
    have hin : ∃ y ∈ Xform.Ex.x.states, y.i1 = st.1 ∧ y.i2 = st.2 := by
      simp only [full, List.mem_cons, List.not_mem_nil, or_false] at hst
      rcases hst with rfl | rfl | rfl
      · exact ⟨⟨0, 0, Xform.Ex.s0, Xform.Ex.s0⟩, by simp [Xform.Ex.x], rfl, rfl⟩
      · exact ⟨⟨0, 1, Xform.Ex.s0, Xform.Ex.s1⟩, by simp [Xform.Ex.x], rfl, rfl⟩
      · exact ⟨⟨1, 1, Xform.Ex.s1, Xform.Ex.s1⟩, by simp [Xform.Ex.x], rfl, rfl⟩
    obtain ⟨⟨i1, i2, a1, a2⟩, hy, e1, e2⟩ := hin
    have hA := Xform.Ex.full.allowed _ hy
    simp only at e1 e2
    subst e1 e2
    have q1 := Option.some.inj (hA.orb1.symm.trans hab.1)
    have q2 := Option.some.inj (hA.orb2.symm.trans hab.2)
    simp only at q1 q2
    subst q1 q2
    exact hA
  · intro y hy
    have := Xform.Ex.full.full y hy
    simp only [Xform.Ex.x, List.mem_cons, List.not_mem_nil, or_false] at this
    rcases this with rfl | rfl | rfl <;> simp [full]

/-- Matrix of the file: `1/2` between `(0s)²` and `(1s)²`, zero for `0s1s`. -/
noncomputable def fullFile : H2In :=
  ⟨fullIx, scalarQN, fun _ => .ok ⟨3, 3, fun i j => if i = 1 ∨ j = 1 then 0 else 1 / 2⟩⟩

/-- `h2mixer` with a transformation `U = (1 -2; 2 1)`. -/
noncomputable def xenv : Env where
  am := Separable.Example.am
  target := fullIx
  qn := scalarQN
  A := none
  ob _ := none
  xf id := if id = "U" then some (Xform.Ex.rot 1 2) else none
  tol := 0

/-- Transformed kets. -/
noncomputable def K' : Species2 → ℕ → Orb → Orb → ℝ := fun sp J a' b' =>
  orbSum Xform.Ex.o sp.first fun a => orbSum Xform.Ex.o sp.second fun b =>
    (lj (Xform.Ex.rot 1 2) sp.first a a' * lj (Xform.Ex.rot 1 2) sp.second b b') • Mapping.Ex.K.ket sp J a b

theorem full_state : ∀ {i : ℕ} {st : ℕ × ℕ}, full.states[i]? = some st →
    (normalised Mapping.Ex.K).state Xform.Ex.o ⟨.pp, 0, 0⟩ st = if i = 1 then 0 else 1 / Real.sqrt 2 := by
  intro i st h
  have hi := (List.getElem?_eq_some_iff.mp h).1
  simp only [full, List.length_cons, List.length_nil] at hi
  simp only [full] at h
  interval_cases i <;>
    simp only [List.getElem?_cons_zero, List.getElem?_cons_succ, Option.some.injEq] at h <;> subst h <;>
    simp [PairKets.state, normalised, Xform.Ex.o, Species2.first, Species2.second, Orbitals.of, Mapping.Ex.K,
      Xform.Ex.s0, Xform.Ex.s1]

theorem full_sector {n : ℕ} {p : ℕ × ℕ} {b k : Subspace} (h : IsSector fullIx n p b k) :
    p = (0, 0) ∧ b = full ∧ k = full := by
  have hp := List.mem_of_getElem? h.sector
  simp only [fullIx, List.mem_singleton] at hp
  subst hp
  have hb := h.bra
  have hk := h.ket
  simp only [fullIx, List.getElem?_cons_zero, Option.some.injEq] at hb hk
  exact ⟨rfl, hb.symm, hk.symm⟩

theorem fullFile_holds : Holds (normalised Mapping.Ex.K) (op 1) fullFile := by
  intro n p b k h
  obtain ⟨rfl, rfl, rfl⟩ := full_sector h
  refine ⟨_, rfl, rfl, rfl, ?_⟩
  intro i j sti stj hi hj _
  show (if i = 1 ∨ j = 1 then 0 else 1 / 2 : ℝ) = op 1 ((normalised Mapping.Ex.K).state Xform.Ex.o ⟨.pp, 0, 0⟩ sti)
    ((normalised Mapping.Ex.K).state Xform.Ex.o ⟨.pp, 0, 0⟩ stj)
  rw [full_state hi, full_state hj, op_apply]
  have h2 : Real.sqrt 2 * Real.sqrt 2 = 2 := Real.mul_self_sqrt (by norm_num)
  have h0 : Real.sqrt 2 ≠ 0 := by positivity
  by_cases h1 : i = 1
  · simp [h1]
  · by_cases h3 : j = 1
    · simp [h3]
    · simp only [h1, h3, or_self, if_false]
      field_simp
      linarith [h2]

/-- The hypotheses of `xform_source` are met: `⟨(0s)²|V|(0s)²⟩` with `V` of element `1/2` between the two closed pairs
becomes `(1² + 2²)² / 2`. -/
example : ∃ T, source xenv ⟨"V", .xform fullFile [full] [(0, 0)] "U"⟩ (0, 0) = .ok (some T) ∧ T.val 0 0 = 25 / 2 := by
  have hself : ∀ st ∈ full.states, ∃ st' ∈ full.states,
      SameOrbitals fullFile.ix.orbitals fullFile.ix.orbitals full.labels.species st' st := by
    intro st hst
    obtain ⟨a, b, hab⟩ := isPair_of_inRange (fullIx_ok.space.inRange full (by simp [fullIx]) st hst)
    exact ⟨st, hst, a, b, hab, .inl hab⟩
  obtain ⟨T, h1, _, h2⟩ := xform_source (env := xenv) (id := "V") (xf := "U") (file := fullFile) (preSpace := [full])
    (preSectors := [(0, 0)]) fullIx_ok fullIx_ok fullIx_ok (ov := Xform.Ex.rot 1 2) rfl fullFile_holds
    (by intro _ _ s _ _ st _ st' _; rw [op_apply, op_apply]; ring) (K' := K') (fun _ _ _ _ => rfl)
    (p := (0, 0)) (b := full) (k := full) rfl rfl full_full full_full (n' := 0) (p' := (0, 0)) (pb := full)
    (pk := full) ⟨rfl, rfl, rfl⟩ rfl rfl full_full full_full (n := 0) (q := (0, 0)) (sb := full) (sk := full)
    ⟨rfl, rfl, rfl⟩ rfl rfl hself hself
  refine ⟨T, h1, ?_⟩
  have h3 := h2 0 0 (0, 0) (0, 0) rfl rfl
  have e : newState K' xenv.target.orbitals full.labels (0, 0) = 5 / Real.sqrt 2 := by
    simp [newState, xenv, fullIx, full, K', Xform.Ex.o, Species2.first, Species2.second, Orbitals.of, orbSum, lj,
      Xform.Ex.rot, Mapping.Ex.K, Xform.Ex.s0, Xform.Ex.s1]
    ring
  rw [h3, e, op_apply]
  have h4 : Real.sqrt 2 * Real.sqrt 2 = 2 := Real.mul_self_sqrt (by norm_num)
  have h0 : Real.sqrt 2 ≠ 0 := by positivity
  field_simp
  nlinarith [h4]

end Ex

end Verif.Mixer
