import Verif.Mixer.Denote2

/-!
# A run of `h2mixer` with sources of every kind
-/

namespace Verif.Mixer.Control.Ex2
open Verif Verif.Mapping Verif.Xform Verif.Obme Verif.Separable Verif.Mixer Verif.SU2 Verif.Mixer.Control.Ex
open Verif.H2 hiding Mat Subspace Orb
open scoped TensorProduct

/-- Protons in `0s1/2` and `0p3/2`. -/
def orbs : Space := [⟨⟨0, 1, .p⟩, [0]⟩, ⟨⟨1, 3, .p⟩, [0]⟩]

theorem orbs_good : GoodSpace orbs := by
  constructor
  · decide
  · decide
  · decide

theorem orbs_in (a : SpOrb) : InSpace orbs a ↔ a = ⟨.p, 0, 0, 1⟩ ∨ a = ⟨.p, 0, 1, 3⟩ := by
  constructor
  · rintro ⟨i, p, b, hb, hl, hn⟩
    have hm := List.mem_of_getElem? hb
    have hn' := List.mem_of_getElem? hn
    obtain ⟨s, n, l, t⟩ := a
    simp only [orbs, List.mem_cons, List.not_mem_nil, or_false] at hm
    simp only [SpOrb.labels] at hl
    rcases hm with rfl | rfl
    · cases hl
      simp only [List.mem_cons, List.not_mem_nil, or_false] at hn'
      exact .inl (by rw [hn'])
    · cases hl
      simp only [List.mem_cons, List.not_mem_nil, or_false] at hn'
      exact .inr (by rw [hn'])
  · rintro (rfl | rfl)
    · exact ⟨0, 0, _, rfl, rfl, rfl⟩
    · exact ⟨1, 0, _, rfl, rfl, rfl⟩

theorem orbs_physical : ∀ a, InSpace orbs a → a.Physical := by
  intro a ha
  rcases (orbs_in a).mp ha with rfl | rfl <;> (unfold SpOrb.Physical; dsimp only; exact ⟨by decide, by decide, by decide⟩)

/-- The states of the file: those of `0s1/2` with the opposite sign. -/
noncomputable def signed (a : SpOrb) (m : ℤ) : Nucleon := (if a.l = 0 then (-1 : ℝ) else 1) • nucleon a m

theorem signed_orthonormal : Orthonormal form1 signed orbs := by
  intro a b ha hb m hm m' hm'
  simp only [signed, map_smul, LinearMap.smul_apply, nucleon_orthonormal orbs_physical a b ha hb m hm m' hm', smul_eq_mul]
  by_cases h : a = b ∧ m = m'
  · rw [if_pos h, h.1]
    split_ifs <;> norm_num
  · rw [if_neg h, mul_zero, mul_zero]

/-- The transformation with the opposite sign of `0s1/2`. -/
noncomputable def turn : Header × List Mat := (⟨none, orbs, orbs, allSectors scalarQN orbs orbs⟩, [⟨1, 1, fun _ _ => -1⟩, ⟨1, 1, fun _ _ => 1⟩])

/-- A file that holds twice the identity. -/
noncomputable def twice : H2In := ⟨Mixer.Ex.pTarget, scalarQN, fun _ => .ok ⟨2, 2, fun i j => 2 * if i = j then 1 else 0⟩⟩

noncomputable def setup2 : Setup :=
  { trueSetup with am := amS, tol := 0, indexing := fun _ _ _ _ => .ok (Mixer.Ex.pTarget, orbs), pre := fun _ _ _ => (Mixer.Ex.pTarget.space, Mixer.Ex.pTarget.sectors) }

noncomputable def disk2 : Disk where
  h2 f := if f = "v.bin" then .ok twice else .error .streamFail
  obme f := if f = "x.dat" then .ok turn else .error .streamFail
  orbitals _ := .error .streamFail

def lines2 : List CLine :=
  [⟨["set-mass", "2"], false⟩, ⟨["define-xform", "X", "x.dat"], false⟩, ⟨["define-ob-source", "builtin", "identity"], false⟩,
   ⟨["define-tb-source", "operatorU", "N", "identity"], false⟩, ⟨["define-tb-source", "operatorV", "NN", "identity", "identity"], false⟩,
   ⟨["define-tb-source", "builtin", "identity"], false⟩, ⟨["define-tb-source", "xform", "W", "v.bin", "1", "1", "1", "1", "1", "X"], false⟩,
   ⟨["define-target", "out.bin"], false⟩, ⟨["add-source", "N", "1"], false⟩, ⟨["add-source", "W", "2"], false⟩, ⟨["add-source", "identity", "1"], false⟩,
   ⟨["add-source", "NN", "2"], false⟩]

def cmds2 : List Cmd :=
  [.mass 2, .xform "X" "x.dat", .ob (.builtin "identity" ""), .tb (.opU "N" "identity"), .tb (.opV "NN" "identity" "identity" 1), .tb (.builtin "identity"),
   .tb (.xform "W" "v.bin" ⟨1, 1, 1, 1, 1⟩ "X"), .target "out.bin", .add "N" 1, .add "W" 2, .add "identity" 1, .add "NN" 2]

theorem parse2 : lines2.mapM (parse setup2.nm) = .ok cmds2 := by
  simp [lines2, cmds2, setup2, trueSetup, setup, parse, parseXf, parseTb, parseOb, parseTerm, optWord, optNum, atEnd, obNames, tbNames, weights, word, num, int, nums, Except.ok_bind', Except.pure_ok]

def cfg2 : Config :=
  { A := some 2, xforms := [("X", "x.dat")], ob := [.builtin "identity" ""],
    tb := [.opU "N" "identity", .opV "NN" "identity" "identity" 1, .builtin "identity", .xform "W" "v.bin" ⟨1, 1, 1, 1, 1⟩ "X"],
    targets := [("out.bin", [("N", 1), ("W", 2), ("identity", 1), ("NN", 2)])] }

theorem read2 : read setup2.nm lines2 = .ok cfg2 := by
  rw [read_ok]
  exact ⟨cmds2, parse2, rfl⟩

/-- The only sector. -/
def sub : Subspace := ⟨⟨.pp, 0, 0⟩, [(0, 0), (1, 1)]⟩

theorem sector2 {n : ℕ} {p : ℕ × ℕ} {b k : Subspace} (h : IsSector Mixer.Ex.pTarget n p b k) : p = (0, 0) ∧ b = sub ∧ k = sub := by
  obtain ⟨h1, h2, h3⟩ := h
  have hp := List.mem_of_getElem? h1
  simp only [Mixer.Ex.pTarget, List.mem_cons, List.not_mem_nil, or_false] at hp
  subst hp
  exact ⟨rfl, (Option.some.inj h2).symm, (Option.some.inj h3).symm⟩

theorem the_sector : IsSector Mixer.Ex.pTarget 0 (0, 0) sub sub := ⟨rfl, rfl, rfl⟩

theorem orbital_at {n : ℕ} {a : Orb} (h : (Mixer.Ex.pTarget.orbitals.of .p)[n]? = some a) : (n = 0 ∧ a = Mapping.Ex.p3) ∨ (n = 1 ∧ a = Mapping.Ex.s1) := by
  match n, h with
  | 0, h => exact .inl ⟨rfl, (Option.some.inj h).symm⟩
  | 1, h => exact .inr ⟨rfl, (Option.some.inj h).symm⟩
  | n + 2, h => simp [Mixer.Ex.pTarget, Orbitals.of] at h

theorem full : FullSubspace Mixer.Ex.pTarget.orbitals sub where
  allowed := by
    intro s hs a b hab
    simp only [sub, List.mem_cons, List.not_mem_nil, or_false] at hs
    rcases hs with rfl | rfl
    · cases Option.some.inj hab.1
      cases Option.some.inj hab.2
      exact ⟨rfl, rfl, by decide, by decide, by decide, by decide⟩
    · cases Option.some.inj hab.1
      cases Option.some.inj hab.2
      exact ⟨rfl, rfl, by decide, by decide, by decide, by decide⟩
  full := by
    rintro ⟨i, j, a, b⟩ h
    have hp := h.parity
    rcases orbital_at h.orb1 with ⟨rfl, rfl⟩ | ⟨rfl, rfl⟩ <;> rcases orbital_at h.orb2 with ⟨rfl, rfl⟩ | ⟨rfl, rfl⟩
    · simp [sub]
    · revert hp; decide
    · revert hp; decide
    · simp [sub]

theorem target_triangles : Triangles Mixer.Ex.pTarget 0 := by
  intro n p b k h
  obtain ⟨-, rfl, rfl⟩ := sector2 h
  decide

theorem available : Available Mixer.Ex.pTarget.orbitals orbs := by
  intro s a ha
  rw [orbs_in]
  cases s with
  | p =>
    simp only [Mixer.Ex.pTarget, Orbitals.of, List.mem_cons, List.not_mem_nil, or_false] at ha
    rcases ha with rfl | rfl
    · exact .inr rfl
    · exact .inl rfl
  | n => simp [Mixer.Ex.pTarget, Orbitals.of] at ha

theorem turn_good : GoodXf ⟨orbs, orbs, allSectors scalarQN orbs orbs, turn.2⟩ where
  bra := orbs_good
  ket := orbs_good
  overlap := by
    refine ⟨rfl, allSectors_spec _ _ _, ?_, ?_⟩
    · decide +kernel
    · intro x i k m hx hm
      have e : (allSectors scalarQN orbs orbs).pairs = [(0, 0), (1, 1)] := by decide +kernel
      rw [e] at hx
      match x, hx, hm with
      | 0, hx, hm => cases hx; cases hm; exact ⟨rfl, rfl⟩
      | 1, hx, hm => cases hx; cases hm; exact ⟨rfl, rfl⟩
      | x + 2, hx, _ => simp at hx

theorem sources2 : SourcesOK disk2 cfg2.xforms cfg2.ob where
  orbitals := by intro file s h; cases h
  xform := by
    intro id file f x h1 h2 h3
    simp only [disk2] at h2
    split at h2
    · cases h2
      obtain ⟨-, rfl⟩ := initXform_scalar h3
      exact turn_good
    · cases h2
  input := by simp [cfg2]
  order := by simp [cfg2]

theorem identity_denotes : Denotes disk2 orbs 1 cfg2.xforms cfg2.ob "identity" ⟨0, 0, 0⟩ orbs nucleon (namedOperator "identity") :=
  .builtin (file := "") (by simp [cfg2]) (.inl ⟨rfl, rfl⟩) (.inl (by simp [namedCharacter]))

theorem stored2 : Stored form1 signed 0 (fun _ => (2 : ℝ) • LinearMap.id) twice := by
  intro n p b k h
  obtain ⟨rfl, rfl, rfl⟩ := sector2 h
  refine ⟨_, rfl, rfl, rfl, ?_⟩
  intro i j s t a1 a2 c1 c2 hi hj h1 h2 _
  have key : ∀ {i j : ℕ} {s t : ℕ × ℕ} {a1 a2 c1 c2 : Orb}, sub.states[i]? = some s → sub.states[j]? = some t → IsPair Mixer.Ex.pTarget.orbitals sub.labels.species s a1 a2 →
      IsPair Mixer.Ex.pTarget.orbitals sub.labels.species t c1 c2 → Reduced form1 0 (fun _ => (2 : ℝ) • LinearMap.id) sub.labels.J sub.labels.J
        (pairOf signed sub.labels.species sub.labels.J a1 a2) (pairOf signed sub.labels.species sub.labels.J c1 c2) (2 * if i = j then 1 else 0) :=
    fun hi hj h1 h2 => reduced_smul (identity_reduced signed_orthonormal Mixer.Ex.pTarget_ok available (List.mem_of_getElem? the_sector.bra) full hi hj h1 h2) 2
  refine ⟨key hi hj h1 h2, fun _ => ?_⟩
  have := key hj hi h2 h1
  simp only [eq_comm (a := j)] at this
  exact this

theorem turned2 : Turned orbs orbs (allSectors scalarQN orbs orbs) turn.2 signed nucleon := by
  intro k r c hc m hm
  have hs : states orbs = {⟨0, 0⟩, ⟨1, 0⟩} := by decide
  have e : (allSectors scalarQN orbs orbs).pairs = [(0, 0), (1, 1)] := by decide +kernel
  have v : elem (allSectors scalarQN orbs orbs) turn.2 0 0 0 0 = -1 ∧ elem (allSectors scalarQN orbs orbs) turn.2 1 0 1 0 = 1 ∧
      elem (allSectors scalarQN orbs orbs) turn.2 1 0 0 0 = 0 ∧ elem (allSectors scalarQN orbs orbs) turn.2 0 0 1 0 = 0 := by
    refine ⟨?_, ?_, ?_, ?_⟩ <;> simp [elem, e, turn, List.idxOf?, List.findIdx?, List.findIdx?.go]
  obtain ⟨v1, v2, v3, v4⟩ := v
  rw [hs, Finset.sum_pair (by decide)]
  obtain ⟨b, hb, hl, hn⟩ := hc
  obtain ⟨s, n, l, t⟩ := c
  match k, r, hb, hn with
  | 0, 0, hb, hn =>
    cases hb
    cases hn
    cases hl
    dsimp only
    rw [v1, v3, zero_smul, add_zero, show orbAt orbs ⟨0, 0⟩ = ⟨.p, 0, 0, 1⟩ from rfl, signed, if_pos rfl, neg_one_smul, neg_one_smul, neg_neg]
  | 1, 0, hb, hn =>
    cases hb
    cases hn
    cases hl
    dsimp only
    rw [v2, v4, zero_smul, zero_add, one_smul, show orbAt orbs ⟨1, 0⟩ = ⟨.p, 0, 1, 3⟩ from rfl, signed, if_neg (by decide), one_smul]
  | 0, r + 1, hb, hn =>
    cases hb
    simp at hn
  | 1, r + 1, hb, hn =>
    cases hb
    simp at hn
  | k + 2, _, hb, _ => simp [orbs] at hb

noncomputable def scene2 : Scene := ⟨disk2, setup2.pre, Mixer.Ex.pTarget, orbs, cfg2.xforms, cfg2.ob, cfg2.tb, cfg2.qn, cfg2.A, nucleon⟩

theorem denotes_N : Denotes2 scene2 "N" fun q => (1 / ((2 : ℤ) - 1 : ℝ)) • onBoth (namedOperator "identity" q) :=
  .upgrade (ob := "identity") (s := orbs) (a := 2) (by simp [scene2, cfg2]) identity_denotes (nucleon_orthonormal orbs_physical) available rfl (by decide) (by decide)

theorem denotes_NN : Denotes2 scene2 "NN" fun q => (1 : ℝ) • onEach 0 0 0 (namedOperator "identity") (namedOperator "identity") q :=
  .product (qx := ⟨0, 0, 0⟩) (qy := ⟨0, 0, 0⟩) (x := "identity") (y := "identity") (s := orbs) (by simp [scene2, cfg2]) identity_denotes identity_denotes available (by decide) (by decide) (by decide)

theorem denotes_identity : Denotes2 scene2 "identity" fun _ => (2 / (((2 : ℕ) : ℝ) * ((2 : ℕ) - 1))) • LinearMap.id :=
  .identity (s := orbs) (a := 2) (by simp [scene2, cfg2]) rfl (by decide) (by decide) rfl (nucleon_orthonormal orbs_physical) available (by
    intro n p b k h
    obtain ⟨rfl, rfl, rfl⟩ := sector2 h
    exact ⟨rfl, full⟩)

theorem denotes_W : Denotes2 scene2 "W" fun _ => (2 : ℝ) • LinearMap.id := by
  refine .xform (file := "v.bin") (xf := "X") (xfile := "x.dat") (w := ⟨1, 1, 1, 1, 1⟩) (f := twice) (g := turn) (st0 := signed) (by simp [scene2, cfg2]) rfl rfl rfl Mixer.Ex.pTarget_ok
    Mixer.Ex.pTarget_ok target_triangles stored2 turned2 ?_ available ?_
  · intro s a
    rw [show turn.1.bra = orbs from rfl, orbs_in]
    obtain ⟨n, l, t⟩ := a
    cases s
    · simp only [twice, Mixer.Ex.pTarget, Orbitals.of, spOrb, Mapping.Ex.p3, Mapping.Ex.s1, List.mem_cons, List.not_mem_nil, or_false, SpOrb.mk.injEq, true_and, Mapping.Orb.mk.injEq]
      exact or_comm
    · simp [twice, Mixer.Ex.pTarget, Orbitals.of, spOrb]
  · intro n p b k h
    obtain ⟨rfl, rfl, rfl⟩ := sector2 h
    exact ⟨full, full, ⟨0, _, _, _, the_sector, rfl, rfl, full, full⟩, ⟨0, _, _, _, the_sector, rfl, rfl, full, full⟩⟩

/-- A file without transformation, and a name that is not declared. -/
example : Denotes2 { scene2 with tb := [.input "V" "v.bin"], st := signed } "V" (fun _ => (2 : ℝ) • LinearMap.id) ∧
    Denotes2 { scene2 with tb := [.input "V" "v.bin"], st := signed } "U" 0 := by
  refine ⟨.input (file := "v.bin") (f := twice) (by simp) rfl Mixer.Ex.pTarget_ok target_triangles stored2 ?_, .absent (by simp [TbDecl.id])⟩
  intro n p b k h s hs t ht
  obtain ⟨rfl, rfl, rfl⟩ := sector2 h
  obtain ⟨a, b, hab⟩ := state_pair _ Mixer.Ex.pTarget_ok (List.mem_of_getElem? the_sector.bra) hs
  obtain ⟨a', b', hab'⟩ := state_pair _ Mixer.Ex.pTarget_ok (List.mem_of_getElem? the_sector.bra) ht
  exact ⟨0, _, _, _, the_sector, rfl, rfl, ⟨s, hs, a, b, hab, .inl hab⟩, ⟨t, ht, a', b', hab', .inl hab'⟩⟩

/-- The hypotheses of `h2mixer_denotes` and `h2mixer_ends` are met by a run that adds a number operator, a product, the identity and a transformed file. -/
example : ∃ out Ms M, h2mixer setup2 disk2 lines2 = .ok out ∧ out[0]? = some ("out.bin", Ms) ∧ Ms[0]? = some M ∧
    Reduced form1 0 (fun q => (1 : ℝ) • (1 / ((2 : ℤ) - 1 : ℝ)) • onBoth (namedOperator "identity" q) + ((2 : ℝ) • (2 : ℝ) • LinearMap.id +
      ((1 : ℝ) • (2 / (((2 : ℕ) : ℝ) * ((2 : ℕ) - 1))) • LinearMap.id + ((2 : ℝ) • (1 : ℝ) • onEach 0 0 0 (namedOperator "identity") (namedOperator "identity") q + 0)))) 0 0
      (pairOf nucleon .pp 0 Mapping.Ex.p3 Mapping.Ex.p3) (pairOf nucleon .pp 0 Mapping.Ex.p3 Mapping.Ex.p3) (M.val 0 0) := by
  have hall : ∀ d ∈ cfg2.tb, ∃ O, Denotes2 scene2 d.id O := by
    intro d hd
    simp only [cfg2, List.mem_cons, List.not_mem_nil, or_false] at hd
    rcases hd with rfl | rfl | rfl | rfl
    · exact ⟨_, denotes_N⟩
    · exact ⟨_, denotes_NN⟩
    · exact ⟨_, denotes_identity⟩
    · exact ⟨_, denotes_W⟩
  let x : XfData := ⟨orbs, orbs, allSectors scalarQN orbs orbs, turn.2⟩
  have hxf : cfg2.xforms.mapM (openXf disk2) = .ok [("X", x)] := by
    rfl
  have hob : cfg2.ob.mapM (openOb disk2) = .ok [⟨"identity", .builtin none⟩] := by rfl
  obtain ⟨d, d1, -⟩ := named_means (env := obEnvOf setup2 orbs [("X", x)]) (space := none) rfl rfl orbs_good orbs_good (by simp) (id := "identity") (qn := ⟨0, 0, 0⟩)
    (.inl (by simp [namedCharacter]))
  have hm : buildOb (obEnvOf setup2 orbs [("X", x)]) [⟨"identity", .builtin none⟩] = .ok (setOb (fun _ => none) "identity" (some d)) :=
    build_snoc (chans := []) rfl rfl (by simp only [valueOf, d1, Except.ok_bind', Except.pure_ok])
  have hch : cfg2.tb.mapM (openTb setup2 disk2 cfg2.qn) = .ok [⟨"N", .opU "identity"⟩, ⟨"NN", .opV "identity" "identity" 1⟩, ⟨"identity", .builtin⟩,
    ⟨"W", .xform twice Mixer.Ex.pTarget.space Mixer.Ex.pTarget.sectors "X"⟩] := by rfl
  obtain ⟨out, ho⟩ := h2mixer_ends (setup := setup2) rfl rfl rfl rfl read2 (target := Mixer.Ex.pTarget) (space := orbs) rfl Mixer.Ex.pTarget_ok orbs_good le_rfl
    target_triangles sources2 (by decide) nucleon (by decide) (by decide) hxf hob hm hch hall
  let O : String → ℤ → Nucleon ⊗[ℝ] Nucleon →ₗ[ℝ] Nucleon ⊗[ℝ] Nucleon := fun id =>
    if id = "N" then fun q => (1 / ((2 : ℤ) - 1 : ℝ)) • onBoth (namedOperator "identity" q)
    else if id = "W" then fun _ => (2 : ℝ) • LinearMap.id
    else if id = "NN" then fun q => (1 : ℝ) • onEach 0 0 0 (namedOperator "identity") (namedOperator "identity") q
    else fun _ => (2 / (((2 : ℕ) : ℝ) * ((2 : ℕ) - 1))) • LinearMap.id
  obtain ⟨Ms, m1, -, m2⟩ := h2mixer_denotes (setup := setup2) rfl rfl rfl rfl read2 ho (target := Mixer.Ex.pTarget) (space := orbs) rfl Mixer.Ex.pTarget_ok orbs_good le_rfl
    target_triangles sources2 (by decide) nucleon (t := 0) rfl (O := O) (by
      intro x hx
      simp only [List.mem_cons, List.not_mem_nil, or_false] at hx
      rcases hx with rfl | rfl | rfl | rfl
      · exact denotes_N
      · exact denotes_W
      · exact denotes_identity
      · exact denotes_NN)
  obtain ⟨M, m3, -, -, m4⟩ := m2 _ _ _ _ the_sector
  refine ⟨out, Ms, M, ho, m1, m3, ?_⟩
  obtain ⟨y, y1, y2⟩ := m4 0 0 (0, 0) (0, 0) Mapping.Ex.p3 Mapping.Ex.p3 Mapping.Ex.p3 Mapping.Ex.p3 rfl rfl ⟨rfl, rfl⟩ ⟨rfl, rfl⟩
  have : M.val 0 0 = y := y1.2 (abs_nonneg _)
  rw [this]
  exact y2

end Verif.Mixer.Control.Ex2
