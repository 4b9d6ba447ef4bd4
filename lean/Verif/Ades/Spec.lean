import Verif.Ades.Model
import Mathlib.Data.List.Infix

/-! # What survives a round trip through ADES text -/

namespace Verif.Ades

open Verif Mpc Obs80

/-- No white space at the ends. -/
def Trim (s : Str) : Prop := (∀ c ∈ s.head?, isSpace c = false) ∧ ∀ c ∈ s.getLast?, isSpace c = false

/-- None of the names of identifiers occurs. -/
def NoKeyword (s : Str) : Prop := ¬ "permID".toList <:+: s ∧ ¬ "provID".toList <:+: s ∧ ¬ "trkSub".toList <:+: s

/-- A text that a table can hand over. -/
structure Plain (s : Str) : Prop where
  nonempty : s ≠ []
  trim : Trim s
  chars : ∀ c ∈ s, c ≠ '|' ∧ c ≠ '"' ∧ c ≠ '\n' ∧ c ≠ '\r'
  keyword : NoKeyword s

/-- The kind of a value. -/
def Val.kind : Val → Kind
  | .text _ => .text
  | .num _ => .num
  | .time _ => .time

/-- The identifiers. -/
def isId (c : Col) : Prop := c = .permID ∨ c = .provID ∨ c = .trkSub

/-- A row of an `ADESObservations` table (`typed`, `required`) that ADES text can hold. -/
structure Good (r : Row) : Prop where
  typed : ∀ c v, r c = some v → v.kind = c.kind
  required : ∀ c, c.required = true → r c ≠ none
  nan : r .ra ≠ some (.num .nan) ∧ r .dec ≠ some (.num .nan)
  plain : ∀ c s, r c = some (.text s) → Plain s
  ids : ∀ c s, isId c → r c = some (.text s) → s.head? ≠ some '#' ∧ s.head? ≠ some '!'

/-- What is asked of the library functions for times: the text of a time is made of digits and `-:.T`, and read back it is the time
`snap` of it. -/
structure TimesOk (lib : Lib) (secs : Nat) (snap : ℤ × ℤ → ℤ × ℤ) : Prop where
  back : ∀ t, lib.iso (lib.isot secs t) = .ok (snap t)
  nonempty : ∀ t, lib.isot secs t ≠ []
  chars : ∀ t, ∀ c ∈ lib.isot secs t, c.isDigit = true ∨ c ∈ "-:.T".toList

/-- The nearest number with `p` decimals. -/
def rounded (p : Nat) : Num → Num
  | .fin x => .fin (if x < 0 then -(((Time.roundHalfEven (|x| * 10 ^ p)).toNat : ℚ) / 10 ^ p)
      else ((Time.roundHalfEven (|x| * 10 ^ p)).toNat : ℚ) / 10 ^ p)
  | n => n

/-- The value read back for a value of a column that is written. -/
def readCell (snap : ℤ × ℤ → ℤ × ℤ) (prec : Col → Option Nat) (c : Col) : Option Val → Option Val
  | none => if c.kind = .num ∧ (prec c).isSome then some (.num .nan) else none
  | some (.text s) => some (.text s)
  | some (.num x) =>
    match prec c with
    | some p => some (.num (rounded p x))
    | none => if x = .nan then none else some (.num (rounded 16 x))
  | some (.time t) => some (.time (snap t))

/-- The row read back for a row of a station with the rows `part`: a column without any value is null. -/
def back (snap : ℤ × ℤ → ℤ × ℤ) (prec : Col → Option Nat) (part : List Row) (r : Row) : Row := fun c =>
  if ∃ r' ∈ part, r' c ≠ none ∧ r' c ≠ some (.num .nan) then readCell snap prec c (r c) else none

/-- The uncertainties read back are accepted: null, or a number not less than 1e-7 and less than 100. -/
def RangeOk (snap : ℤ × ℤ → ℤ × ℤ) (prec : Col → Option Nat) (part : List Row) : Prop :=
  ∀ r ∈ part, ∀ c, c = .rmsRACosDec ∨ c = .rmsDec →
    back snap prec part r c = none ∨ ∃ x : ℚ, back snap prec part r c = some (.num (.fin x)) ∧ 1 / 10000000 ≤ x ∧ x < 100

/-- An identifier comes before another: in the order of texts, and before null. -/
def IdBefore : Option Val → Option Val → Prop
  | some (.text s), some (.text t) => s < t
  | some (.text _), none => True
  | _, _ => False

/-- The time of a row is not later than that of another. -/
def TimeLe : Option Val → Option Val → Prop
  | some (.time t), some (.time u) => t.1 < u.1 ∨ t.1 = u.1 ∧ t.2 ≤ u.2
  | _, _ => False

/-- The order of the rows of a station: by provisional designation, permanent designation, tracklet, time. -/
def InOrder (r q : Row) : Prop :=
  IdBefore (r .provID) (q .provID) ∨ r .provID = q .provID ∧ (IdBefore (r .permID) (q .permID) ∨ r .permID = q .permID ∧
    (IdBefore (r .trkSub) (q .trkSub) ∨ r .trkSub = q .trkSub ∧ TimeLe (r .obsTime) (q .obsTime)))

/-- A text of a context that is handed over: no white space at the ends, and only spaces inside. -/
def Spaced (s : Str) : Prop := Trim s ∧ ∀ c ∈ s, isSpace c = true → c = ' '

/-- The texts of a context. -/
def Ctx.texts (c : Ctx) : List Str :=
  [c.mpcCode, c.subName, c.design, c.detector] ++ c.obsName.toList ++ c.institution.toList ++ c.telName.toList ++ c.filter.toList ++
  c.arraySize.toList ++ c.fundingSource.toList ++ c.observers ++ c.measurers ++ c.coinvestigators.getD [] ++ c.collaborators.getD [] ++
  c.comments.getD [] ++
  (match c.software with
    | none => []
    | some s => s.astrometry.toList ++ s.fitOrder.toList ++ s.photometry.toList ++ s.objectDetection.toList)

/-- The numbers of a context. -/
def Ctx.numbers (c : Ctx) : List ℚ := c.aperture :: (c.fRatio.toList ++ c.pixelSize.toList)

/-- The context read back: co-investigators and collaborators are lost, no comments are an empty list, an empty funding source and a
software section without entries are null. -/
def Ctx.readBack (c : Ctx) : Ctx :=
  { c with
    coinvestigators := none
    collaborators := none
    comments := some (c.comments.getD [])
    fundingSource := if c.fundingSource = some [] then none else c.fundingSource
    software := if c.software = some ⟨none, none, none, none⟩ then none else c.software }

/-- What is asked of a context: its constructor accepted it, its texts can be handed over, and its numbers are what `float` reads in their
texts, which contain no white space. -/
structure Ctx.Good (lib : Lib) (c : Ctx) : Prop where
  valid : c.valid = true
  texts : ∀ s ∈ c.texts, Spaced s
  numbers : ∀ x ∈ c.numbers, number (lib.repr x) = some (.fin x)
  reprs : ∀ x ∈ c.numbers, lib.repr x ≠ [] ∧ ∀ d ∈ lib.repr x, isSpace d = false

end Verif.Ades
