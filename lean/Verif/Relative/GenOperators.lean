import Verif.Relative.GenProps
import Verif.Relative.ConstructMultipole
import Verif.Relative.ConstructCasimir
import Verif.Relative.N2LOProps

/-!
# What `relative-gen` writes

Property C119: for each name in the control file, the operator written is the one of that name, over all sectors of the
relative space with the truncation of the control file.
-/

namespace Verif.Relative.Gen
open Verif Verif.H2 Verif.Mixer.Control Verif.Relative.Axial

/-- A control file with labels that are not negative. -/
structure Request (nm : Numbers) (f : Input) (o : OpLabels) (Nmax : ℕ) (c : Choice) (file : String) : Prop where
  params : ControlFile nm f ⟨o.J0, o.g0, o.T0min, o.T0max, Nmax, Nmax + 1, c, file⟩
  three : o.T0max ≤ 2

/-- The sectors of the operator: all allowed pairs of subspaces with `N ≤ Nmax`. -/
abbrev allSectors (o : OpLabels) (Nmax : ℕ) : ℕ → List RSec := relSectors o (relSpace Nmax (Nmax + 1))

theorem run_request {nm : Numbers} {lib : Lib} {f : Input} {o : OpLabels} {Nmax : ℕ} {c : Choice} {file : String}
    (h : Request nm f o Nmax c file) :
    run nm lib f = dispatch lib o Nmax (relSpace Nmax (Nmax + 1)) (allSectors o Nmax) c >>= fun op =>
      .ok ⟨file, o, Nmax, Nmax + 1, allSectors o Nmax, op⟩ := by
  have e : ((Nmax : Int) + 1).toNat = Nmax + 1 := by omega
  have hn : ¬ ((o.J0 : Int) < 0 ∨ (o.g0 : Int) < 0 ∨ (o.T0min : Int) < 0 ∨ (o.T0max : Int) < 0 ∨ (Nmax : Int) < 0) := by omega
  have h3 := h.three
  have h3' : (known c && decide (2 < o.T0max)) = false := by simp [h3]
  rw [run, control_file.mpr h.params, Except.ok_bind']
  simp only [if_neg hn, Int.toNat_natCast, e, h3']
  rfl

theorem arg_nat (t : ℕ) : argT0 t = .ok t := by
  simp [argT0]

theorem sub_ok {N : ℕ} {s : RelSub} (h : s ∈ relSpace N (N + 1)) : SubOK N s := by
  obtain ⟨h1, h2, _, h4, h5, h6, h7, h8⟩ := mem_space.mp h
  exact ⟨h2, h6, h4, h5, h7, h1, h8⟩

theorem sec_ok {N T0 : ℕ} {o : OpLabels} {p : RSec} (h : p ∈ allSectors o N T0) : SecOK N o T0 p.1 p.2 := by
  obtain ⟨_, h1, h2, _, ha⟩ := mem_sectors.mp h
  simp only [allowed, Bool.and_eq_true, decide_eq_true_eq] at ha
  exact ⟨sub_ok h1, sub_ok h2, ha.1.1, ha.1.2, ha.2⟩

theorem sec_order {N T0 : ℕ} {o : OpLabels} {p : RSec} (h : p ∈ allSectors o N T0) : p.1.L ≤ p.2.L := by
  obtain ⟨_, _, _, ho, _⟩ := mem_sectors.mp h
  rcases ho with h | h | ⟨h, _⟩
  · rw [h]
  · omega
  · omega

/-- Nothing is lost by the largest `J`: it is `Nmax + 1`, the largest that occurs. -/
theorem all_channels {N : ℕ} {L S J T : ℕ} (hL : L ≤ N) (hS : S ≤ 1) (hJ : tri L S J) (hT : T ≤ 1) (h : (L + S + T) % 2 = 1) :
    ⟨L, S, J, T, N, (N - L) / 2 + 1⟩ ∈ relSpace N (N + 1) := by
  simp only [tri, decide_eq_true_eq] at hJ
  exact mem_space.mpr ⟨hL, hS, by simp only; omega, by simp [tri]; omega, h, hT, rfl, rfl⟩

/-- Laws of the angular momentum library, for all subspaces. -/
structure SpaceLaws (cg : Cg) (am : Am) (Y : ℕ → ℕ → Int → Int → Int → ℝ) (V : ℕ → ℕ → Int → Int → Int → ℝ) (N : ℕ) : Prop where
  half : HalfLaws cg am
  sym : HalfSym cg
  ls : ∀ s' ∈ relSpace N (N + 1), ∀ s ∈ relSpace N (N + 1), LSLaws cg am s' s
  quad : ∀ s' ∈ relSpace N (N + 1), ∀ s ∈ relSpace N (N + 1), QuadLaws cg am Y s' s
  unit : ∀ s' ∈ relSpace N (N + 1), ∀ s ∈ relSpace N (N + 1), UnitLaw cg V s' s ∧
    (¬ tri s'.L 1 s.L → ∀ q m' m, V s'.L s.L q m' m = 0)

/-- The operator of a name, with the labels for which it exists: its rank, its isospin component, and its elements between
products of orbital motion, spins and isospins. -/
inductive Named (Y : ℕ → ℕ → Int → Int → Int → ℝ) (V : ℕ → ℕ → Int → Int → Int → ℝ) :
    Choice → (OpLabels → Prop) → ℕ → ℕ → (Int → Int → Cfg → Cfg → ℝ) → Prop
  | rSqr (T0 : ℕ) : Named Y V (.coordinateSqr .r T0) (SqrLabels · T0) 0 T0 (rSqrOp T0)
  | rsqr : Named Y V (.plain "rsqr") (SqrLabels · 0) 0 0 (rSqrOp 0)
  | quadrupole (T0 : ℕ) : Named Y V (.quadrupole .r T0) (QuadLabels · T0) 2 T0 (quadrupoleOp Y T0)
  | orbital (T0 : ℕ) : Named Y V (.orbital T0) (AmLabels · T0) 1 T0 (orbitalOp T0)
  | spin (T0 : ℕ) : Named Y V (.spin T0) (AmLabels · T0) 1 T0 (spinOp T0)
  | isospin : Named Y V (.plain "isospin") IsospinLabels 0 1 isospinOp
  | casimir : Named Y V (.plain "su4casimir") (fun o => o.J0 = 0 ∧ o.g0 = 0 ∧ o.T0min = 0) 0 0 casimirOp
  | gamowTeller : Named Y V (.plain "LENPIC-LOGT") (AmLabels · 1) 1 1 gamowTellerOp

/-- What the program does with a control file. -/
def Writes (cg : Cg) (nm : Numbers) (lib : Lib) (f : Input) (o : OpLabels) (N : ℕ) (file : String) (J0 T0 : ℕ)
    (A : Int → Int → Cfg → Cfg → ℝ) : Prop :=
  ∃ op, run nm lib f = .ok ⟨file, o, N, N + 1, allSectors o N, op⟩ ∧ Stores cg J0 T0 A (allSectors o N) op

/-- **C119 (`_partial`).** The operator of the name is written if its labels are those of the operator, else the program
ends at an assertion.  Missing, being false: momentum (`momentum_written_partial`) and dipole (`dipole_written_partial`). -/
theorem operator_written_partial {cg : Cg} {lib : Lib} {nm : Numbers} {f : Input} {o : OpLabels} {N : ℕ} {c : Choice}
    {file : String} {Y V : ℕ → ℕ → Int → Int → Int → ℝ} (hl : SpaceLaws cg lib.am Y V N) (h : Request nm f o N c file)
    {Lab : OpLabels → Prop} {J0 T0 : ℕ} {A : Int → Int → Cfg → Cfg → ℝ} (hn : Named Y V c Lab J0 T0 A) :
    (Lab o → Writes cg nm lib f o N file J0 T0 A) ∧ (¬ Lab o → run nm lib f = .error .assertFail) := by
  have hs : ∀ t, ∀ p ∈ allSectors o N t, SecOK N o t p.1 p.2 ∧ LSLaws cg lib.am p.1 p.2 := fun t p hp => by
    obtain ⟨_, h1, h2, _⟩ := mem_sectors.mp hp
    exact ⟨sec_ok hp, hl.ls _ h1 _ h2⟩
  have hq : ∀ t, ∀ p ∈ allSectors o N t, SecOK N o t p.1 p.2 ∧ QuadLaws cg lib.am Y p.1 p.2 ∧ p.1.L ≤ p.2.L := fun t p hp => by
    obtain ⟨_, h1, h2, _⟩ := mem_sectors.mp hp
    exact ⟨sec_ok hp, hl.quad _ h1 _ h2, sec_order hp⟩
  have key : ∀ {P : Prop} {x : Except Err RelOp}, dispatch lib o N (relSpace N (N + 1)) (allSectors o N) c = x →
      ((P → ∃ op, x = .ok op ∧ Stores cg J0 T0 A (allSectors o N) op) ∧ (¬ P → x = .error .assertFail)) →
      (P → Writes cg nm lib f o N file J0 T0 A) ∧ (¬ P → run nm lib f = .error .assertFail) := by
    intro P x hx ⟨h1, h2⟩
    rw [Writes, run_request h, hx]
    refine ⟨fun hP => ?_, fun hP => ?_⟩
    · obtain ⟨op, rfl, ho⟩ := h1 hP
      exact ⟨op, rfl, ho⟩
    · rw [h2 hP]
      rfl
  cases hn with
  | rSqr =>
    exact key (by rw [dispatch, arg_nat, Except.ok_bind']) (coordinate_sqr_stored hl.half (hs _))
  | rsqr => exact key (by simp [dispatch]) (coordinate_sqr_stored hl.half (hs _))
  | quadrupole =>
    refine key (P := QuadLabels o T0) (by rw [dispatch, arg_nat, Except.ok_bind']) ?_
    have := quadrupole_stored hl.half (hq T0) .r
    simpa using this
  | orbital => exact key (by rw [dispatch, arg_nat, Except.ok_bind']) (orbital_stored hl.half (hs _))
  | spin => exact key (by rw [dispatch, arg_nat, Except.ok_bind']) (spin_stored hl.half (hs _))
  | isospin => exact key (by simp [dispatch]) (isospin_stored hl.half (hs _))
  | casimir => exact key (by simp [dispatch]) (casimir_stored hl.half hl.sym (hs _))
  | gamowTeller => exact key (by simp [dispatch]) (gamow_teller_stored hl.half (hs _))

/-- **C119, momentum (`_partial`).** Both names of the squared momentum write its negative. -/
theorem momentum_written_partial {cg : Cg} {lib : Lib} {nm : Numbers} {f : Input} {o : OpLabels} {N : ℕ} {c : Choice}
    {file : String} {Y V : ℕ → ℕ → Int → Int → Int → ℝ} (hl : SpaceLaws cg lib.am Y V N) (h : Request nm f o N c file)
    {T0 : ℕ} (hc : c = .coordinateSqr .k T0 ∨ c = .plain "ksqr" ∧ T0 = 0) :
    (SqrLabels o T0 → Writes cg nm lib f o N file 0 T0 (negOp (kSqrOp T0))) ∧
    (¬ SqrLabels o T0 → run nm lib f = .error .assertFail) := by
  have hs : ∀ p ∈ allSectors o N T0, SecOK N o T0 p.1 p.2 ∧ LSLaws cg lib.am p.1 p.2 := fun p hp => by
    obtain ⟨_, h1, h2, _⟩ := mem_sectors.mp hp
    exact ⟨sec_ok hp, hl.ls _ h1 _ h2⟩
  obtain ⟨h1, h2⟩ := momentum_sqr_stored_partial hl.half hs
  have hd : dispatch lib o N (relSpace N (N + 1)) (allSectors o N) c = constructCoordinateSqr o (allSectors o N) .k T0 := by
    rcases hc with rfl | ⟨rfl, rfl⟩
    · rw [dispatch, arg_nat, Except.ok_bind']
    · simp [dispatch]
  rw [Writes, run_request h, hd]
  refine ⟨fun hP => ?_, fun hP => ?_⟩
  · obtain ⟨op, e, ho⟩ := h1 hP
    exact ⟨op, by rw [e]; rfl, ho⟩
  · rw [h2 hP]
    rfl

/-- **C119, dipole (`_partial`).** The dipole operator is written with the factor of C113. -/
theorem dipole_written_partial {cg : Cg} {lib : Lib} {nm : Numbers} {f : Input} {o : OpLabels} {N : ℕ}
    {file : String} {Y V : ℕ → ℕ → Int → Int → Int → ℝ} (hl : SpaceLaws cg lib.am Y V N) {T0 : ℕ}
    (h : Request nm f o N (.dipole .r T0) file) :
    (DipoleLabels o T0 → Writes cg nm lib f o N file 1 T0 (dipoleDefectOp V)) ∧
    (¬ DipoleLabels o T0 → run nm lib f = .error .assertFail) := by
  have hs : ∀ p ∈ allSectors o N T0, SecOK N o T0 p.1 p.2 ∧ LSLaws cg lib.am p.1 p.2 ∧ UnitLaw cg V p.1 p.2 ∧
      (¬ tri p.1.L 1 p.2.L → ∀ q m' m, V p.1.L p.2.L q m' m = 0) := fun p hp => by
    obtain ⟨_, h1, h2, _⟩ := mem_sectors.mp hp
    exact ⟨sec_ok hp, hl.ls _ h1 _ h2, hl.unit _ h1 _ h2⟩
  obtain ⟨h1, h2⟩ := dipole_stored_partial hl.half hs .r
  have hd : dispatch lib o N (relSpace N (N + 1)) (allSectors o N) (.dipole .r T0) =
      constructDipole lib.am o (allSectors o N) .r T0 := by
    rw [dispatch, arg_nat, Except.ok_bind']
  rw [Writes, run_request h, hd]
  refine ⟨fun hP => ?_, fun hP => ?_⟩
  · obtain ⟨op, e, ho⟩ := h1 hP
    exact ⟨op, by rw [e]; rfl, ho⟩
  · rw [h2 hP]
    rfl

/-- **C119, Coulomb.** The interaction of all pairs, with the number of steps of the control file. -/
theorem coulomb_written {cg : Cg} {lib : Lib} {nm : Numbers} {f : Input} {o : OpLabels} {N : ℕ} {steps : Int}
    {file : String} {Y V : ℕ → ℕ → Int → Int → Int → ℝ} (hl : SpaceLaws cg lib.am Y V N)
    (h : Request nm f o N (.coulomb .total steps) file) (hJ : o.J0 = 0) (hg : o.g0 = 0) (h0 : o.T0min = 0) :
    ∃ op, run nm lib f = .ok ⟨file, o, N, N + 1, allSectors o N, op⟩ ∧
      List.Forall₂ (Holds cg 0 0 (centralOp (fun n' n L => 1 / Real.sqrt 2 * lib.coulomb steps n' n L) 0))
        (allSectors o N 0) (op 0) ∧
      ∀ t, (t = 1 ∨ t = 2) → List.Forall₂ (fun _ b => ∀ i j, b i j = .ok 0) (allSectors o N t) (op t) := by
  obtain ⟨op, e, h1⟩ := coulomb_total_stored hl.half (lib.coulomb steps) (N := N) (o := o) (sectors := allSectors o N)
    (fun T0 _ p hp => sec_ok hp) (fun p hp => by
      obtain ⟨_, k1, k2, _⟩ := mem_sectors.mp hp
      exact hl.ls _ k1 _ k2) hJ hg h0
  refine ⟨op, ?_, h1⟩
  rw [run_request h, dispatch, e]
  rfl

/-- **C119, Coulomb**, refusal. -/
theorem coulomb_labels_refused {lib : Lib} {nm : Numbers} {f : Input} {o : OpLabels} {N : ℕ} {t : OpType} {steps : Int}
    {file : String} (h : Request nm f o N (.coulomb t steps) file) (ho : ¬ (o.J0 = 0 ∧ o.g0 = 0)) :
    run nm lib f = .error .assertFail := by
  rw [run_request h, dispatch, coulomb_refused _ _ _ ho]
  rfl

/-- **C119, N2LO Gamow-Teller (`_partial`, as C115).** -/
theorem n2lo_written_partial {cg : Cg} {lib : Lib} {nm : Numbers} {f : Input} {o : OpLabels} {N : ℕ} {R b : ℝ} {steps : ℕ}
    {file : String} {Y V C : ℕ → ℕ → Int → Int → Int → ℝ} (hl : SpaceLaws cg lib.am Y V N) (h12 : HalfLaws12 cg lib.am lib.am12)
    (ht : ∀ s' ∈ relSpace N (N + 1), ∀ s ∈ relSpace N (N + 1), TensorLaws cg lib.am lib.am12 C s' s)
    (h : Request nm f o N (.n2logt R b steps) file) (hb : 0 < b) {cD : ℝ} (hR : KnownRegulator R cD) (ho : AxialLabels o) :
    Writes cg nm lib f o N file 1 1 (current cg C (radialInt lib.cubic steps (Real.sqrt 2 * b)) (Real.sqrt 2 * b) R
      (contactAll (radialInt lib.cubic steps (Real.sqrt 2 * b)) (Real.sqrt 2 * b) R (dConst cD))) := by
  obtain ⟨op, e, hs⟩ := (n2lo_stored_partial hl.half h12 (N := N) (o := o) (sectors := allSectors o N) (fun p hp => by
    obtain ⟨_, k1, k2, _⟩ := mem_sectors.mp hp
    exact ⟨sec_ok hp, hl.ls _ k1 _ k2, ht _ k1 _ k2⟩) lib.cubic hb steps).1 cD hR ho
  refine ⟨op, ?_, hs⟩
  rw [run_request h, dispatch, Int.toNat_natCast, e]
  rfl

/-- **C119, unit tensors.** -/
theorem unit_written {lib : Lib} {nm : Numbers} {f : Input} {o : OpLabels} {N : ℕ} {u : UnitLabels} {file : String} {T0 : ℕ}
    {bra ket : RelSub} {n' n : ℕ} (h : Request nm f o N (.symmunit u) file) (hc : Canonical o N (N + 1) u T0 bra ket n' n) :
    ∃ op, run nm lib f = .ok ⟨file, o, N, N + 1, allSectors o N, op⟩ ∧ IsUnit (allSectors o N) op T0 bra ket n' n := by
  obtain ⟨op, e, hs⟩ := unit_stored hc
  refine ⟨op, ?_, hs⟩
  rw [run_request h, dispatch, e]
  rfl

/-- **C119, unknown names.** A name that is none of those documented is refused. -/
theorem unknown_refused {lib : Lib} {nm : Numbers} {f : Input} {o : OpLabels} {N : ℕ} {name file : String}
    (h : Request nm f o N (.plain name) file)
    (hn : name ∉ ["zero", "identity", "rsqr", "ksqr", "isospin", "su4casimir", "LENPIC-LOGT"]) :
    run nm lib f = .error .exitFailure := by
  simp only [List.mem_cons, List.not_mem_nil, or_false, not_or] at hn
  rw [run_request h]
  simp [dispatch, hn]

end Verif.Relative.Gen
