import Verif.Basic
import Verif.F64

/-! # Packed dates of the Minor Planet Center

`src/adam_core/utils/mpc.py:8-51`. The times of day are computed in float64, so the model rounds every operation with `F64.fl`.
The text handed to astropy is modelled by its fields. Only ASCII text is modelled; of the fractions `float` accepts only digits are
modelled (it would also accept an exponent or underscores). -/

namespace Verif.Dates

open Verif Verif.F64

/-- `int(c, base=32)` for one character. mpc.py:16, 17, 18. -/
def digit32 (c : Char) : Option Nat :=
  if '0' ≤ c ∧ c ≤ '9' then some (c.toNat - '0'.toNat)
  else if 'A' ≤ c ∧ c ≤ 'V' then some (c.toNat - 'A'.toNat + 10)
  else if 'a' ≤ c ∧ c ≤ 'v' then some (c.toNat - 'a'.toNat + 10)
  else none

/-- A decimal digit. Used for mpc.py:16. -/
def digit10 (c : Char) : Option Nat := if '0' ≤ c ∧ c ≤ '9' then some (c.toNat - '0'.toNat) else none

/-- `int(s)` for a text of at most two characters. mpc.py:16. -/
def int2 : List Char → Option Int
  | [a] => (digit10 a).map Int.ofNat
  | [a, b] =>
    match digit10 a, digit10 b with
    | some x, some y => some (10 * x + y)
    | none, some y => if a = '+' ∨ a.isWhitespace then some y else if a = '-' then some (-(y : Int)) else none
    | some x, none => if b.isWhitespace then some x else none
    | none, none => none
  | _ => none

/-- The number written by decimal digits after the point. Used for mpc.py:15-26. -/
def fraction : List Nat → ℚ
  | [] => 0
  | d :: ds => (d + fraction ds) / 10

/-- The fields of `T{hours}:{minutes}:{seconds}`: the seconds have a sign and are given in microseconds. Used for mpc.py:21-26. -/
structure Tod where
  hours : Int
  minutes : Int
  negative : Bool
  micros : Nat
  deriving DecidableEq, Repr

/-- The hours and, in float64, the rest of the day in hours. mpc.py:22, 23, 24. -/
def hoursOf (f : ℚ) : Int × ℚ := let x := fl (24 * f); (⌊x⌋, fl (x - ⌊x⌋))

/-- The minutes: `int(60 * ((24 * fractional_day) - hours))`. mpc.py:24. -/
def minutesOf (y : ℚ) : Int := ⌊fl (60 * y)⌋

/-- The seconds. mpc.py:25. -/
def secondsOf (y : ℚ) (m : Int) : ℚ := fl (3600 * fl (y - fl (m / 60)))

/-- The time of day. `{:09.6f}` writes the nearest multiple of a microsecond, and the sign also of a number that is rounded to
zero. mpc.py:21-26. `int` of numbers that are not negative is the floor. -/
def tod (f : ℚ) : Tod :=
  let y := (hoursOf f).2
  let m := minutesOf y
  let s := secondsOf y m
  ⟨(hoursOf f).1, m, decide (s < 0), (rne (|s| * 10 ^ 6)).toNat⟩

/-- The fields of the text handed to astropy. Used for mpc.py:15-26. -/
structure Civil where
  year : Int
  month : Nat
  day : Nat
  tod : Option Tod
  deriving DecidableEq, Repr

/-- `_unpack_mpc_date` up to the call of astropy. mpc.py:15-26. -/
def unpack (s : List Char) : Except PyErr Civil :=
  match s with
  | [] => .error .indexError
  | c :: rest =>
    match digit32 c, int2 (rest.take 2) with
    | some century, some yy =>
      match rest.drop 2 with
      | [] => .error .indexError
      | mc :: rest =>
        match digit32 mc, rest with
        | none, _ => .error .valueError
        | some _, [] => .error .indexError
        | some month, dc :: frac =>
          match digit32 dc with
          | none => .error .valueError
          | some day =>
            match frac with
            | [] => .ok ⟨century * 100 + yy, month, day, none⟩
            | frac =>
              match frac.mapM digit10 with
              | none => .error .valueError
              | some ds => .ok ⟨century * 100 + yy, month, day, some (tod (fl (fraction ds)))⟩
    | _, _ => .error .valueError

/-- `convert_mpc_packed_dates`. mpc.py:31-51. -/
def convert (l : List (List Char)) : Except PyErr (List Civil) := l.mapM unpack

/-- astropy's reading of a time of day, by contract: the fields must be in their ranges, where 60 seconds are the next minute (a
warning only), and a minus sign is not accepted. The result is in microseconds. Called in mpc.py:28. -/
def Tod.read (t : Tod) : Option Int :=
  if t.hours ≤ 23 ∧ t.minutes ≤ 59 ∧ t.negative = false then
    some (3600000000 * t.hours + 60000000 * t.minutes + t.micros)
  else none

end Verif.Dates
