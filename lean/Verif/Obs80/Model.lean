import Verif.Mpc.Model
import Verif.Time.Model

/-!
# 80-column observations: model of `src/adam_core/observations/obs80.py`

Texts are lists of ASCII characters (`str.strip`/`str.split` white space limited to the six ASCII characters of
`Mpc.isSpace`). `Decimal` and `float` values are exact rationals: the 28 digit decimal context is not modelled, and float64 rounding is in `Float.lean`.
Underscores inside `Decimal`/`float` literals are treated as malformed.
-/

namespace Verif.Obs80

open Verif.Mpc (Str isSpace strip pyInt)

/-- Exceptions: `obs80` is Obs80ParseError; the others escape the reader's `except`. Used for obs80.py:89. -/
inductive Err where
  | obs80
  | value
  | overflow
  deriving DecidableEq, Repr

/-- `s.split()` with the current token accumulated in `cur`. Used for obs80.py:73-101. -/
def tokensGo (cur : Str) : Str → List Str
  | [] => if cur = [] then [] else [cur]
  | c :: cs =>
    if isSpace c then (if cur = [] then tokensGo [] cs else cur :: tokensGo [] cs)
    else tokensGo (cur ++ [c]) cs

/-- `s.split()`. Used for obs80.py:73-101. -/
def tokens (s : Str) : List Str := tokensGo [] s

/-- A parsed `Decimal` or `float`. Used for obs80.py:66-70, 109, 123-125. -/
inductive Num where
  | fin (q : ℚ)
  | inf
  | nan

/-- Exponent part of a number literal. Used for obs80.py:66-70, 109, 123-125. -/
def exponent : Str → Option Int
  | [] => some 0
  | c :: cs =>
    if c = 'e' ∨ c = 'E' then
      match cs with
      | '+' :: ds => if Mpc.isDecimal ds then some (Nat.ofDigitChars 10 ds 0) else none
      | '-' :: ds => if Mpc.isDecimal ds then some (-(Nat.ofDigitChars 10 ds 0 : Nat) : Int) else none
      | ds => if Mpc.isDecimal ds then some (Nat.ofDigitChars 10 ds 0) else none
    else none

/-- Digits with an optional point and exponent. Used for obs80.py:66-70, 109, 123-125. -/
def unsignedNum (s : Str) : Option ℚ :=
  let ip := s.takeWhile Char.isDigit
  let rest := s.dropWhile Char.isDigit
  let (fp, rest2) := match rest with
    | '.' :: r => (r.takeWhile Char.isDigit, r.dropWhile Char.isDigit)
    | r => ([], r)
  if ip = [] ∧ fp = [] then none
  else match exponent rest2 with
    | none => none
    | some e => some ((Nat.ofDigitChars 10 (ip ++ fp) 0 : ℚ) * (10 : ℚ) ^ (e - fp.length))

/-- Number literal without sign, including the special names. Used for obs80.py:66-70, 109, 123-125. -/
def unsignedAny (s : Str) : Option Num :=
  let l := s.map Char.toLower
  if l = "nan".toList then some .nan
  else if l = "inf".toList ∨ l = "infinity".toList then some .inf
  else (unsignedNum s).map .fin

/-- `Decimal(raw.strip())` / `float(raw)`: optional sign then literal. Payloads of NaN and signalling NaN of `Decimal` are
treated as malformed. obs80.py:66-70, 109, 123-125. -/
def number (s : Str) : Option Num :=
  match strip s with
  | '-' :: r => (unsignedAny r).map fun n => match n with
    | .fin q => .fin (-q)
    | n => n
  | '+' :: r => unsignedAny r
  | r => unsignedAny r

/-- Days in a month of the proleptic Gregorian calendar, as `datetime.date` checks them. Used for obs80.py:89. -/
def isLeap (y : Int) : Bool := y % 4 = 0 && (y % 100 ≠ 0 || y % 400 = 0)

/-- Used for obs80.py:89. -/
def daysInMonth (y m : Int) : Int :=
  if m = 2 then (if isLeap y then 29 else 28)
  else if m = 4 ∨ m = 6 ∨ m = 9 ∨ m = 11 then 30 else 31

/-- `datetime.date(year, month, day)`: OverflowError when an argument does not fit a C int, ValueError outside the
calendar. obs80.py:89. -/
def mkDate (y m d : Int) : Except Err (Int × Int × Int) :=
  let fits := fun x : Int => -2147483648 ≤ x ∧ x ≤ 2147483647
  if ¬ (fits y ∧ fits m ∧ fits d) then .error .overflow
  else if 1 ≤ y ∧ y ≤ 9999 ∧ 1 ≤ m ∧ m ≤ 12 ∧ 1 ≤ d ∧ d ≤ daysInMonth y m then .ok (y, m, d)
  else .error .value

/-- Days before month `m` in a common year. Used for obs80.py:20, 101. -/
def daysBeforeMonth (m : Int) : Int :=
  if m = 1 then 0 else if m = 2 then 31 else if m = 3 then 59 else if m = 4 then 90 else if m = 5 then 120
  else if m = 6 then 151 else if m = 7 then 181 else if m = 8 then 212 else if m = 9 then 243 else if m = 10 then 273
  else if m = 11 then 304 else 334

/-- `date.toordinal()`. Used for obs80.py:20, 101. -/
def ordinal (y m d : Int) : Int :=
  (y - 1) * 365 + (y - 1) / 4 - (y - 1) / 100 + (y - 1) / 400 + daysBeforeMonth m + (if m > 2 ∧ isLeap y then 1 else 0) + d

/-- `(calendar_day - _MJD_EPOCH).days`. obs80.py:20, 101. -/
def mjdOf (y m d : Int) : Int := ordinal y m d - ordinal 1858 11 17

/-- `_parse_obstime` after tokenisation and number parsing. obs80.py:83-101. -/
def obstimeCore (year month : Int) (dayDecimal : Num) : Except Err (Int × Int) :=
  match dayDecimal with
  | .nan => .error .value
  | .inf => .error .overflow
  | .fin q =>
    let day := ⌊q⌋
    let fraction := q - day
    if fraction < 0 ∨ fraction ≥ 1 then .error .obs80
    else match mkDate year month day with
      | .error .value => .error .obs80
      | .error e => .error e
      | .ok (y, m, d) =>
        let nanos := Time.roundHalfEven (fraction * 86400000000000)
        if nanos = 86400000000000 then
          if y = 9999 ∧ m = 12 ∧ d = 31 then .error .overflow
          else .ok (mjdOf y m d + 1, 0)
        else .ok (mjdOf y m d, nanos)

/-- `_parse_obstime`. obs80.py:73-101. -/
def parseObstime (raw : Str) : Except Err (Int × Int) :=
  match tokens (strip raw) with
  | [a, b, c] =>
    match pyInt a, pyInt b with
    | .ok year, .ok month =>
      match number c with
      | none => .error .obs80
      | some q => obstimeCore year month q
    | _, _ => .error .obs80
  | _ => .error .obs80

/-- `_parse_ra`. obs80.py:104-114. Comparisons with NaN or infinity fail the range test. -/
def parseRa (raw : Str) : Except Err ℚ :=
  match tokens (strip raw) with
  | [a, b, c] =>
    match number a, number b, number c with
    | some (.fin h), some (.fin m), some (.fin s) =>
      if 0 ≤ h ∧ h < 24 ∧ 0 ≤ m ∧ m < 60 ∧ 0 ≤ s ∧ s < 60 then .ok (15 * (h + m / 60 + s / 3600))
      else .error .obs80
    | _, _, _ => .error .obs80
  | _ => .error .obs80

/-- `_parse_dec`. obs80.py:117-133. -/
def parseDec (raw : Str) : Except Err ℚ :=
  match tokens (strip raw) with
  | [c0 :: a, b, c] =>
    if c0 = '+' ∨ c0 = '-' then
      let sign : ℚ := if c0 = '-' then -1 else 1
      match number a, number b, number c with
      | some (.fin d), some (.fin m), some (.fin s) =>
        if 0 ≤ d ∧ d ≤ 90 ∧ 0 ≤ m ∧ m < 60 ∧ 0 ≤ s ∧ s < 60 then
          let value := sign * (d + m / 60 + s / 3600)
          if -90 ≤ value ∧ value ≤ 90 then .ok value else .error .obs80
        else .error .obs80
      | _, _, _ => .error .obs80
    else .error .obs80
  | _ => .error .obs80

/-- One row of `OpticalObs80`. `none` stands for null. obs80.py:28-43. -/
structure Obs where
  rawLine : Str
  designation : Str
  discovery : Bool
  note1 : Option Str
  note2 : Option Str
  code : Str
  days : Int
  nanos : Int
  ra : ℚ
  dec : ℚ
  mag : Option Num
  band : Option Str
  catalog : Option Str
  reference : Option Str

/-- `text.strip() or None`. Used for obs80.py:136-175. -/
def orNone (s : Str) : Option Str := if strip s = [] then none else some (strip s)

/-- `line[a:b]`. Used for obs80.py:136-175. -/
def slice (line : Str) (a b : Nat) : Str := (line.take b).drop a

/-- `parse_optical_obs80`. obs80.py:136-175. The range validator of the `ra_deg` column
(obs80.py:36) refuses a value above 360, which fractional hours can reach, with quivr's own ValidationError; the one on
`dec_deg` cannot fail after the range test. -/
def parseLine (raw : Str) : Except Err Obs :=
  if raw.length < 80 then .error .obs80
  else
    let line := raw.take 80
    let note2 := orNone (slice line 14 15)
    if note2.elim false (fun n => ["R", "S", "V", "r", "s", "v"].contains (String.ofList n)) then .error .obs80
    else
      let designation := strip (slice line 0 12)
      let code := strip (slice line 77 80)
      if designation = [] then .error .obs80
      else if code.length ≠ 3 then .error .obs80
      else
        let magRaw := strip (slice line 65 70)
        match (if magRaw = [] then some none else (number magRaw).map some) with
        | none => .error .obs80
        | some mag =>
          match parseObstime (slice line 15 32) with
          | .error e => .error e
          | .ok (days, nanos) =>
            match parseRa (slice line 32 44) with
            | .error e => .error e
            | .ok ra =>
              match parseDec (slice line 44 56) with
              | .error e => .error e
              | .ok dec =>
                if ra > 360 then .error .value
                else .ok {
                  rawLine := line, designation := designation, discovery := slice line 12 13 = ['*'],
                  note1 := orNone (slice line 13 14), note2 := note2, code := code, days := days, nanos := nanos,
                  ra := ra, dec := dec, mag := mag, band := orNone (slice line 70 71),
                  catalog := orNone (slice line 71 72), reference := orNone (slice line 72 77) }

/-- What the file reader ends with: rows, or an error naming a line, or an error that escaped. Used for obs80.py:190-201. -/
inductive Outcome (α : Type) where
  | rows (l : List α)
  | malformed (line : Nat)
  | escaped (e : Err)

/-- The loop of `parse_optical_obs80_file`, for any line parser; `n` is the number of the next line. obs80.py:190-201. -/
def readGo {α : Type} (parse : Str → Except Err α) (strict : Bool) (acc : List α) (n : Nat) : List Str → Outcome α
  | [] => .rows acc
  | line :: rest =>
    if strip line = [] then readGo parse strict acc (n + 1) rest
    else match parse line with
      | .ok r => readGo parse strict (acc ++ [r]) (n + 1) rest
      | .error .obs80 => if strict then .malformed n else readGo parse strict acc (n + 1) rest
      | .error e => .escaped e

/-- `parse_optical_obs80_file` on the lines of the text. obs80.py:178-201. -/
def readFile (strict : Bool) (lines : List Str) : Outcome Obs := readGo parseLine strict [] 1 lines

end Verif.Obs80
