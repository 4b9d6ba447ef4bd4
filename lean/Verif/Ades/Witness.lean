import Verif.Ades.Props
import Mathlib.Logic.Encodable.Basic
import Mathlib.Logic.Denumerable
import Mathlib.Logic.Equiv.List

/-! # ADES text: concrete cases -/

namespace Verif.Ades.Props

open Verif Mpc Obs80 Sched

/-- Library functions for the examples: a time is written in unary, every float as `1.5`. -/
def wlib : Lib where
  isot _ t := List.replicate (Encodable.encode t + 1) '0'
  iso s := match Encodable.decode (α := ℤ × ℤ) (s.length - 1) with
    | some t => .ok t
    | none => .error .valueError
  repr _ := "1.5".toList

/-- The default precisions of `ADES_to_string`. ades.py:186-197. -/
def wprec : Col → Option Nat
  | .ra | .dec => some 9
  | .rmsRACosDec | .rmsDec => some 5
  | .rmsCorr => some 8
  | .mag => some 4
  | .rmsMag => some 4
  | .exp => some 2
  | .logSNR => some 2
  | .seeing => some 2
  | _ => none

def wctx : Ctx where
  mpcCode := "W84".toList
  obsName := none
  subName := "A. Name".toList
  institution := some "An Institute".toList
  observers := ["A. Name".toList, "B. Name".toList]
  measurers := ["A. Name".toList]
  design := "reflector".toList
  aperture := 3 / 2
  detector := "CCD".toList
  telName := none
  fRatio := some (3 / 2)
  filter := none
  arraySize := none
  pixelSize := none
  software := some ⟨some "software".toList, none, none, none⟩
  coinvestigators := none
  collaborators := none
  fundingSource := some "a fund".toList
  comments := some ["a comment".toList]

/-- A row with the given identifier, time and further values. -/
def wrow (trk : String) (t : ℤ × ℤ) (more : List (Col × Val)) : Row := fun c =>
  List.lookup c ([(Col.trkSub, Val.text trk.toList), (.obsTime, .time t), (.ra, .num (.fin 10)), (.dec, .num (.fin (-5 / 2))),
    (.stn, .text "W84".toList), (.mode, .text "CCD".toList), (.astCat, .text "Gaia2".toList)] ++ more)

/-- Written with the default precisions and read again; rows as lists of the values of all columns. -/
def trip (rows : List Row) (contexts : List (Str × Ctx)) : Except PyErr (List (Option Str × Ctx) × List (List (Option Val))) :=
  match toText wlib 3 wprec rows contexts with
  | .error e => .error e
  | .ok text =>
    match ofText wlib text with
    | .error e => .error e
    | .ok (cs, rows) => .ok (cs, rows.map fun r => Col.all.map r)

/-- The values of all columns. -/
def cells (r : Row) : List (Option Val) := Col.all.map r

/-! ## The hypotheses are met -/

theorem wlib_ok (secs : Nat) : TimesOk wlib secs id where
  back t := by
    change (match Encodable.decode (α := ℤ × ℤ) ((List.replicate (Encodable.encode t + 1) '0').length - 1) with
      | some t => Except.ok t
      | none => .error .valueError) = Except.ok t
    rw [List.length_replicate, Nat.add_sub_cancel, Encodable.encodek]
  nonempty t := by simp [wlib]
  chars t c hc := by
    have := List.eq_of_mem_replicate hc
    subst this
    exact Or.inl (by decide)

theorem wrow_eq (trk : String) (t : ℤ × ℤ) (x : ℚ) : wrow trk t [(.mag, .num (.fin x))] = fun
    | .trkSub => some (.text trk.toList)
    | .obsTime => some (.time t)
    | .ra => some (.num (.fin 10))
    | .dec => some (.num (.fin (-5 / 2)))
    | .stn => some (.text "W84".toList)
    | .mode => some (.text "CCD".toList)
    | .astCat => some (.text "Gaia2".toList)
    | .mag => some (.num (.fin x))
    | _ => none := by
  funext c
  cases c <;> rfl

theorem wrow_good {trk : String} {x : ℚ} {t : ℤ × ℤ} (h : Plain trk.toList) (hid : trk.toList.head? ≠ some '#' ∧ trk.toList.head? ≠ some '!') :
    Good (wrow trk t [(.mag, .num (.fin x))]) := by
  have hw : Plain "W84".toList := ⟨by decide, ⟨by decide, by decide⟩, by decide, by decide, by decide, by decide⟩
  have hm : Plain "CCD".toList := ⟨by decide, ⟨by decide, by decide⟩, by decide, by decide, by decide, by decide⟩
  have ha : Plain "Gaia2".toList := ⟨by decide, ⟨by decide, by decide⟩, by decide, by decide, by decide, by decide⟩
  rw [wrow_eq]
  refine ⟨?_, ?_, ?_, ?_, ?_⟩
  · intro c v h
    cases c <;> cases h <;> rfl
  · intro c hc
    cases c <;> first | (exfalso; revert hc; decide) | (intro h; cases h)
  · exact ⟨fun h => (by cases h), fun h => (by cases h)⟩
  · intro c s hs
    cases c <;> cases hs
    · exact h
    · exact hw
    · exact hm
    · exact ha
  · rintro c s (rfl | rfl | rfl) hs
    · cases hs
    · cases hs
    · cases hs
      exact hid

theorem wctx_good : wctx.Good wlib where
  valid := by decide +kernel
  texts := by
    have : ∀ s ∈ wctx.texts, ((∀ c ∈ s.head?, isSpace c = false) ∧ ∀ c ∈ s.getLast?, isSpace c = false) ∧ ∀ c ∈ s, isSpace c = true → c = ' ' := by
      decide +kernel
    exact this
  numbers x hx := by
    have : x = 3 / 2 := by simpa [Ctx.numbers, wctx] using hx
    rw [this]
    decide +kernel
  reprs x _ := ⟨by simp [wlib], by
    have : ∀ d ∈ "1.5".toList, isSpace d = false := by decide
    exact this⟩

/-- The hypotheses of `C70_round_trip` are met by a table of two observations, which is read back in order of the tracklets. -/
example : (∀ r ∈ [wrow "b" (1, 0) [(.mag, .num (.fin 20))], wrow "a" (1, 0) [(.mag, .num (.fin (41 / 2)))]], Good r) ∧
    trip [wrow "b" (1, 0) [(.mag, .num (.fin 20))], wrow "a" (1, 0) [(.mag, .num (.fin (41 / 2)))]] [("W84".toList, wctx)] =
      .ok ([(some "W84".toList, wctx)],
        [cells (wrow "a" (1, 0) [(.mag, .num (.fin (41 / 2)))]), cells (wrow "b" (1, 0) [(.mag, .num (.fin 20))])]) := by
  refine ⟨?_, by decide +kernel⟩
  intro r hr
  rcases List.mem_cons.1 hr with rfl | hr
  · exact wrow_good ⟨by decide, ⟨by decide, by decide⟩, by decide, by decide, by decide, by decide⟩ ⟨by decide, by decide⟩
  · rw [List.mem_singleton] at hr
    subst hr
    exact wrow_good ⟨by decide, ⟨by decide, by decide⟩, by decide, by decide, by decide, by decide⟩ ⟨by decide, by decide⟩

/-! ## What is lost -/

/-- **C70.** A text that mentions the name of an identifier makes the line a header: the file cannot be read. -/
theorem C70_keyword_false : trip [wrow "b" (1, 0) [(.remarks, .text "see provID".toList)]] [("W84".toList, wctx)] = .error .valueError := by
  decide +kernel

/-- **C70.** A bar in a text cuts the text. -/
theorem C70_bar_false : trip [wrow "b" (1, 0) [(.remarks, .text "a|b".toList)]] [("W84".toList, wctx)] =
    .ok ([(some "W84".toList, wctx)], [cells (wrow "b" (1, 0) [(.remarks, .text "\"a".toList)])]) := by
  decide +kernel

/-- **C70.** An identifier that starts with `#` makes the line a comment: the observation is lost. -/
theorem C70_hash_false : trip [wrow "#b" (1, 0) [], wrow "c" (1, 0) []] [("W84".toList, wctx)] =
    .ok ([(some "W84".toList, wctx)], [cells (wrow "c" (1, 0) [])]) := by
  decide +kernel

/-- **C70.** A magnitude that is null is read back as NaN if another observation of the station has one. -/
theorem C70_null_false : trip [wrow "a" (1, 0) [], wrow "b" (1, 0) [(.mag, .num (.fin 20))]] [("W84".toList, wctx)] =
    .ok ([(some "W84".toList, wctx)],
      [cells (wrow "a" (1, 0) [(.mag, .num .nan)]), cells (wrow "b" (1, 0) [(.mag, .num (.fin 20))])]) := by
  decide +kernel

/-- **C70.** An accepted uncertainty of a millionth of an arcsecond is written as zero, which is refused by the reader; and so is a null
uncertainty beside one that is not null. -/
theorem C70_uncertainty_false :
    trip [wrow "b" (1, 0) [(.rmsDec, .num (.fin (1 / 1000000)))]] [("W84".toList, wctx)] = .error .valueError ∧
    trip [wrow "a" (1, 0) [], wrow "b" (1, 0) [(.rmsDec, .num (.fin (1 / 10)))]] [("W84".toList, wctx)] = .error .valueError :=
  ⟨by decide +kernel, by decide +kernel⟩

/-- **C70.** Co-investigators, although written, are lost. -/
theorem C70_coinvestigators_false :
    trip [wrow "b" (1, 0) []] [("W84".toList, { wctx with coinvestigators := some ["C. Name".toList] })] =
      .ok ([(some "W84".toList, wctx)], [cells (wrow "b" (1, 0) [])]) := by
  decide +kernel

/-- **C70.** A context comes back under the code it contains, not under the station it was given for. -/
theorem C70_code_false : trip [wrow "b" (1, 0) []] [("W84".toList, { wctx with mpcCode := "F51".toList })] =
    .ok ([(some "F51".toList, { wctx with mpcCode := "F51".toList })], [cells (wrow "b" (1, 0) [])]) := by
  decide +kernel

end Verif.Ades.Props
