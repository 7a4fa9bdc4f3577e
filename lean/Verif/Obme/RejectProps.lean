import Verif.Obme.GenProps
import Verif.Obme.FileProps

/-!
# One-body operators: rejected arguments, remaining cases of the generated operators, chopping
-/

namespace Verif.Obme
open Verif Verif.Mapping Verif.Xform
open Verif.H2 hiding Mat

/-- **C53.** Chopping keeps a value or, if it is smaller than `1e-14`, replaces it by zero; so the value
written differs from the given one by less than `1e-14` before rounding. -/
theorem chop_spec (x : ℝ) : |chop x - x| < 1e-14 ∧ (1e-14 ≤ |x| → chop x = x) ∧ (|x| < 1e-14 → chop x = 0) := by
  unfold chop
  split
  · rename_i h
    refine ⟨by simpa using h, fun h' => absurd h (not_lt.mpr h'), fun _ => rfl⟩
  · rename_i h
    refine ⟨by norm_num, fun _ => rfl, fun h' => absurd h' h⟩

example : chop 3 = 3 := (chop_spec 3).2.1 (by norm_num [abs_of_pos])

/-- **C50.** Overlaps between different bases, or of functions of different length, are the overlap integrals. -/
theorem overlaps_integral {spl : BasisType → BasisType → ℝ → ℕ → ℕ → ℕ → ℕ → ℝ} {bt kt : BasisType}
    {scaleFactor : ℝ} {bra ket : Space} {secs : Sectors} (hs : SectorsOf secs bra ket)
    (hq : secs.qn = scalarQN) (hd : scaleFactor ≠ 1 ∨ bt ≠ kt) :
    ∃ mats, radialOverlaps spl bt kt scaleFactor bra ket secs = .ok mats ∧ Overlap secs mats bra ket ∧
      ∀ i k b k' a c, (i, k) ∈ secs.pairs → bra[i]? = some b → ket[k]? = some k' → a < b.ns.length →
        c < k'.ns.length → elem secs mats i a k c =
          spl bt kt scaleFactor (b.ns.getD a 0) b.labels.l (k'.ns.getD c 0) k'.labels.l := by
  obtain ⟨mats, h1, h2, h3⟩ := generate_element (secs := secs)
    (fun b n k n' => overlapElement spl bt kt scaleFactor b.l n k.l n') hs
  refine ⟨mats, ?_, ⟨hq, hs, h2⟩, ?_⟩
  · unfold radialOverlaps
    rw [hq]
    simpa [scalarQN, assertE_ok] using h1
  · intro i k b k' a c hik hb hk ha hc
    rw [h3 i k b k' a c hik hb hk ha hc]
    unfold overlapElement
    rw [if_neg (by tauto)]

example (spl : BasisType → BasisType → ℝ → ℕ → ℕ → ℕ → ℕ → ℝ) : ∃ mats,
    radialOverlaps spl .oscillator .laguerre 1 sampleSpace sampleSpace
      (allSectors scalarQN sampleSpace sampleSpace) = .ok mats :=
  let ⟨m, h, _⟩ := overlaps_integral (spl := spl) (allSectors_spec scalarQN sampleSpace sampleSpace) rfl
    (Or.inr (show BasisType.oscillator ≠ .laguerre by decide))
  ⟨m, h⟩

/-- **C50.** Overlaps are refused for other tensor characters than that of a scalar. -/
theorem overlaps_rejects {spl : BasisType → BasisType → ℝ → ℕ → ℕ → ℕ → ℕ → ℝ} {bt kt : BasisType}
    {scaleFactor : ℝ} {bra ket : Space} {secs : Sectors} {mats : List Mat}
    (h : radialOverlaps spl bt kt scaleFactor bra ket secs = .ok mats) : secs.qn = scalarQN := by
  unfold radialOverlaps at h
  simp only [Except.bind_eq_ok, assertE_ok] at h
  obtain ⟨_, h1, _, h2, _, h3, _⟩ := h
  obtain ⟨⟨J0, g0, Tz0⟩, _⟩ := secs
  simp_all [scalarQN]

/-- **C68.** Powers and tensor characters without analytic formula, and all operators between Laguerre
functions, are the spline integrals. -/
theorem radial_integral {spl : Spline} {bt : BasisType} {ot : RadType} {order : Int} {sp : Space} {secs : Sectors}
    (hs : SectorsOf secs sp sp) (h0 : order ≠ 0) (hb : bt = .oscillator ∨ bt = .laguerre)
    (h1 : bt = .oscillator → ¬ (order = 1 ∧ secs.qn.J0 = 1 ∧ secs.qn.g0 = 1))
    (h2 : bt = .oscillator → ¬ (order = 2 ∧ (secs.qn.J0 = 0 ∨ secs.qn.J0 = 2) ∧ secs.qn.g0 = 0)) :
    ∃ mats, radialOperator spl bt ot order sp secs = .ok mats ∧ Fits secs mats sp sp ∧
      ∀ i k b k' a c, (i, k) ∈ secs.pairs → sp[i]? = some b → sp[k]? = some k' → a < b.ns.length →
        c < k'.ns.length → elem secs mats i a k c =
          spl bt ot order (b.ns.getD a 0) b.labels.l (k'.ns.getD c 0) k'.labels.l := by
  unfold radialOperator
  apply generateE_element (v := fun b n k n' => spl bt ot order n b.l n' k.l) hs
  intro b mb k mk hal n hn n' hn'
  unfold radialElement
  rw [if_neg h0]
  rcases hb with rfl | rfl
  · simp only [if_neg (h1 rfl), if_neg (h2 rfl)]
  · rfl

example (spl : Spline) : ∃ mats, radialOperator spl .oscillator .r 3 sampleSpace
    (allSectors ⟨3, 1, 0⟩ sampleSpace sampleSpace) = .ok mats :=
  let ⟨m, h, _⟩ := radial_integral (spl := spl) (bt := .oscillator) (ot := .r) (order := 3)
    (allSectors_spec ⟨3, 1, 0⟩ sampleSpace sampleSpace)
    (by decide) (Or.inl rfl) (fun _ => by decide) (fun _ => by decide)
  ⟨m, h⟩

/-- **C69.** The ladder operators are refused outside the oscillator basis. -/
theorem ladder_rejects {crme : Labels → Labels → Int → ℝ} {bt : BasisType} {raising : Bool} {sp : Space}
    {secs : Sectors} {mats : List Mat} (h : ladder crme bt raising sp secs = .ok mats) : bt = .oscillator := by
  unfold ladder at h
  rw [Except.bind_eq_ok] at h
  obtain ⟨_, h, _⟩ := h
  simpa using assertE_ok.mp h

/-- **C50.** Operators are composed only over one and the same intermediate space. -/
theorem compose_rejects {braA ketA braB ketB : Space} {secsA secsB secs : Sectors} {matsA matsB mats : List Mat}
    (h : compose braA ketA secsA matsA braB ketB secsB matsB secs = .ok mats) : ketA = braB := by
  unfold compose at h
  rw [Except.bind_eq_ok] at h
  obtain ⟨_, h, _⟩ := h
  simpa using assertE_ok.mp h

/-- A loop that ends well does so for each element. -/
theorem mapM_ok_mem {α β : Type} {f : α → Except Err β} : ∀ {l : List α} {r : List β}, l.mapM f = .ok r →
    ∀ a ∈ l, ∃ b, f a = .ok b := by
  intro l
  induction l with
  | nil => intro r _ a ha; simp at ha
  | cons x l ih =>
    intro r h a ha
    rw [List.mapM_cons, Except.bind_eq_ok] at h
    obtain ⟨b, hb, h⟩ := h
    rw [Except.bind_eq_ok] at h
    obtain ⟨r', hr, _⟩ := h
    rcases List.mem_cons.mp ha with rfl | ha
    · exact ⟨b, hb⟩
    · exact ih hr a ha

/-- **C53.** A file is written only from matrices with the sizes of the sectors, one per sector. -/
theorem writeFile_rejects {Orb : Type} {lib : Lib Orb} {rnd : ℝ → ℝ} {verbose : Bool} {type : Char}
    {bra ket : Space} {secs : Sectors} {mats : List Mat} {file : List Line}
    (h : writeFile lib rnd verbose type bra ket secs mats = .ok file) :
    mats.length = secs.pairs.length ∧
      ∀ (n i k : ℕ) (m : Mat), secs.pairs[n]? = some (i, k) → mats[n]? = some m →
        ∃ b k', bra[i]? = some b ∧ ket[k]? = some k' ∧ b.ns.length = m.rows ∧ k'.ns.length = m.cols := by
  unfold writeFile at h
  rw [Except.bind_eq_ok] at h
  obtain ⟨_, hl, h⟩ := h
  rw [Except.bind_eq_ok] at h
  obtain ⟨body, hb, _⟩ := h
  refine ⟨by simpa using assertE_ok.mp hl, ?_⟩
  intro n i k m hp hm
  have hz : (secs.pairs.zip mats)[n]? = some ((i, k), m) := by
    rw [List.getElem?_zip_eq_some]; exact ⟨hp, hm⟩
  have hmem := List.mem_of_getElem? hz
  obtain ⟨y, hy⟩ := mapM_ok_mem hb _ hmem
  unfold writeSector at hy
  simp only [Except.bind_eq_ok, assertE_ok, getE_eq_ok, decide_eq_true_eq] at hy
  obtain ⟨b, hb, k', hk, _, h1, _, h2, _⟩ := hy
  exact ⟨b, k', hb, hk, h1, h2⟩

end Verif.Obme
