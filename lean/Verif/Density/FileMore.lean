import Verif.Density.FileProps

/-!
# Densities: charge, and data files that do not belong to the info file
-/

namespace Verif.Density
open Verif Verif.Mapping Verif.Obme
open Verif.H2 (Except.ok_bind' Except.error_bind' Except.pure_ok Except.bind_eq_ok assertE_ok)

/-- Between states of one mass number a density carries the difference of the proton numbers. -/
theorem charge_change {Zb Nb Zk Nk : Int} (h : Zb + Nb = Zk + Nk) : tz0 Zb Nb Zk Nk = Zb - Zk := by
  unfold tz0
  omega

/-- A data file of version 1500 belongs to the info file when version, states and number of elements agree. -/
def Belongs (version tJb nb tJk nk count : Int) (bra ket : State) (m : ℕ) : Prop :=
  version = 1500 ∧ (tJb = bra.tJ ∧ nb = bra.n) ∧ (tJk = ket.tJ ∧ nk = ket.n) ∧ count = m

/-- A data file that does not belong to the info file is rejected. -/
theorem multi_other_data_rejected {Orb : Type} {lib : Lib Orb} {space : Space}
    {version Z N tMb tJb nb tTb tMk tJk nk tTk hi count : Int} {np nn mp mn : ℕ}
    (hp : speciesCount lib (lib.info space) .p = np) (hn : speciesCount lib (lib.info space) .n = nn)
    {c1 c2 : Line} {body : List Line} {is : List InfoLine} {more : List Line}
    (hbody : ∃ bs, clean body = bs ++ more ∧
      List.Forall₂ (fun l i => ∃ idx ia ib rest, l = infoText idx ia ib i rest ∧ i.ket.sp = i.bra.sp) bs is)
    (hlen : is.length = mp + mn) {ls : List Line} {bra ket : State} (hcount : 0 ≤ count) {info data : List Line}
    (hinfo : info = [.int 1500] :: [.int hi] :: [.int np, .int nn] :: [.int mp, .int mn] :: c1 :: c2 :: body)
    (hdata : data = dataHeaderLines version Z N tMb tJb nb tTb tMk tJk nk tTk [.int count] ++ ls)
    (hb : ¬ Belongs version tJb nb tJk nk count bra ket (mp + mn)) :
    readMulti lib space bra ket info data = .error .assertFail := by
  obtain ⟨bs, hb1, hb2⟩ := hbody
  have hih : infoHeader lib space info = .ok (⟨1500, hi, mp, mn⟩, body) := by
    subst hinfo
    simp [infoHeader, infoHeader1500, nextLine_content (l := [.int 1500]) rfl, nextLine_content (l := [.int hi]) rfl,
      nextLine_content (l := [.int np, .int nn]) rfl, nextLine_content (l := [.int mp, .int mn]) rfl, readVersion,
      readCounts, countSpecies_eq, hp, hn, assertE]
  have hri : readInfo ⟨1500, hi, mp, mn⟩ body = .ok is := by
    have hbl : bs.length = mp + mn := by rw [hb2.length_eq, hlen]
    simp only [readInfo]
    rw [if_neg (by decide), ← hbl]
    refine takeLines_of_clean (hb2.imp ?_) hb1
    rintro l i ⟨idx, ia, ib, rest, rfl, hsp⟩
    exact infoText_read hsp
  have hdh : dataHeader ⟨1500, hi, mp, mn⟩ bra ket data = .error .assertFail := by
    rw [hdata]
    simp only [dataHeader, dataHeaderLines, List.cons_append, List.nil_append,
      nextLine_content (l := [.int version]) rfl, nextLine_content (l := [.int Z, .int N]) rfl,
      nextLine_content (l := [.int tMb, .int tJb, .int nb, .int tTb]) rfl,
      nextLine_content (l := [.int tMk, .int tJk, .int nk, .int tTk]) rfl, nextLine_content (l := [.int count]) rfl,
      readVersion, readPair, readDataState, Except.ok_bind']
    by_cases h1 : version = 1500
    swap
    · simp [assertE, h1, Except.error_bind']
    by_cases h2 : tJb = bra.tJ ∧ nb = bra.n
    swap
    · by_cases ha : tJb = bra.tJ
      · simp [assertE, h1, ha, (not_and.mp h2) ha, Except.error_bind', Except.ok_bind']
      · simp [assertE, h1, ha, Except.error_bind', Except.ok_bind']
    by_cases h3 : tJk = ket.tJ ∧ nk = ket.n
    swap
    · by_cases ha : tJk = ket.tJ
      · simp [assertE, h1, h2, ha, (not_and.mp h3) ha, Except.error_bind', Except.ok_bind']
      · simp [assertE, h1, h2, ha, Except.error_bind', Except.ok_bind']
    have h4 : count ≠ ((mp + mn : ℕ) : Int) := fun h => hb ⟨h1, h2, h3, h⟩
    have h5 : count.toNat ≠ mp + mn := by omega
    simp [assertE, h1, h2, h3, dataCounts, readCount, hcount, h5, Except.error_bind', Except.ok_bind']
  simp only [readMulti, hih, hri, hdh, Except.ok_bind', Except.error_bind']

/-- A data file with one element too few, for the deuteron ground state. -/
example {Orb : Type} {lib : Lib Orb} {space : Space} {np nn : ℕ}
    (hp : speciesCount lib (lib.info space) .p = np) (hn : speciesCount lib (lib.info space) .n = nn) (ls : List Line) :
    readMulti lib space ⟨2, 0, 1⟩ ⟨2, 0, 1⟩
      [[.int 1500], [.int 2], [.int np, .int nn], [.int 1, .int 0], [], [], infoText 1 1 1 ⟨⟨.p, 0, 0, 1⟩, ⟨.p, 0, 0, 1⟩, 0⟩ []]
      (dataHeaderLines 1500 1 1 2 2 1 0 2 2 1 0 [.int 0] ++ ls) = .error .assertFail :=
  multi_other_data_rejected hp hn (is := [⟨⟨.p, 0, 0, 1⟩, ⟨.p, 0, 0, 1⟩, 0⟩]) (more := [])
    ⟨[_], rfl, .cons ⟨1, 1, 1, [], rfl, rfl⟩ .nil⟩ (mp := 1) (mn := 0) rfl (by decide) rfl rfl
    (by simp [Belongs])

end Verif.Density
