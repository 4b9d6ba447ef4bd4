import Verif.Basic

/-!
# MPC designations: model of `src/adam_core/utils/mpc.py`

Python strings are lists of characters. Simplification throughout: the digit tests and `int()` cover ASCII; Unicode
decimal digits and Unicode white space are not modelled, nor CPython's 4300 digit limit for `int()`.
-/

namespace Verif.Mpc

/-- Used for mpc.py:4. -/
abbrev Str := List Char

/-- `BASE62`. mpc.py:4. -/
def BASE62 : Str := "0123456789ABCDEFGHIJKLMNOPQRSTUVWXYZabcdefghijklmnopqrstuvwxyz".toList

/-- `BASE62[n]`, raising IndexError outside the table. mpc.py:4 (indexing at 95, 100, 157, 173). The code never indexes
with a negative number. -/
def b62 (n : Nat) : Except PyErr Char :=
  match BASE62[n]? with
  | some c => .ok c
  | none => .error .indexError

/-- `BASE62_MAP[c]`, raising KeyError. mpc.py:5. -/
def b62Map (c : Char) : Except PyErr Nat :=
  match BASE62.idxOf? c with
  | some i => .ok i
  | none => .error .keyError

/-- `str.isdecimal` on ASCII text. Used for mpc.py:107-176. -/
def isDecimal (s : Str) : Bool := !s.isEmpty && s.all Char.isDigit

/-- ASCII white space removed by `int()`. Used for mpc.py:54-104. -/
def isSpace (c : Char) : Bool := c = ' ' || c = '\t' || c = '\n' || c = '\r' || c = '\x0b' || c = '\x0c'

/-- Strip white space at both ends, as `int()` does. Used for mpc.py:54-104. -/
def strip (s : Str) : Str := ((s.dropWhile isSpace).reverse.dropWhile isSpace).reverse

/-- The digits of an `int()` literal: single underscores allowed between digits. `prev` says the previous character was
a digit. Used for mpc.py:54-104. -/
def digitsGo (acc : Nat) (prev : Bool) : Str → Option Nat
  | [] => if prev then some acc else none
  | c :: cs =>
    if c.isDigit then digitsGo (acc * 10 + (c.toNat - 48)) true cs
    else if c = '_' && prev then digitsGo acc false cs
    else none

/-- Optional sign, then digits. Used for mpc.py:54-104. -/
def literal : Str → Option Int
  | '-' :: ds => (digitsGo 0 false ds).map fun n : Nat => -Int.ofNat n
  | '+' :: ds => (digitsGo 0 false ds).map Int.ofNat
  | ds => (digitsGo 0 false ds).map Int.ofNat

/-- `int(s)` for a text `s`: optional white space, sign, digits. ValueError otherwise. Used for mpc.py:54-104. -/
def pyInt (s : Str) : Except PyErr Int :=
  match literal (strip s) with
  | some n => .ok n
  | none => .error .valueError

/-- `str(n)` for a natural number. Used for mpc.py:271-324. -/
def dec (n : Nat) : Str := Nat.toDigits 10 n

/-- `str(n)` for an integer. Used for mpc.py:167-173. -/
def decInt (n : Int) : Str := if n < 0 then '-' :: dec n.natAbs else dec n.natAbs

/-- `s.zfill(w)` for an unsigned text. Used for mpc.py:54-104. -/
def zfill (w : Nat) (s : Str) : Str := List.replicate (w - s.length) '0' ++ s

/-- `"{:0w}".format(n)`: zeros go between the sign and the digits. Used for mpc.py:54-104. -/
def fmt0 (w : Nat) (n : Int) : Str := if n < 0 then '-' :: zfill (w - 1) (dec n.natAbs) else zfill w (dec n.natAbs)

/-- The `while x` loop of `pack_numbered_designation`, digits appended low first. mpc.py:98-101. -/
def b62Low (x : Nat) : Str :=
  if _h : x = 0 then []
  else
    match BASE62[x % 62]? with
    | some c => c :: b62Low (x / 62)
    | none => []
termination_by x
decreasing_by omega

/-- `pack_numbered_designation`. mpc.py:54-104. -/
def packNumbered (d : Str) : Except PyErr Str := do
  let number ← pyInt d
  if number > 15396335 then throw .valueError
  if number ≤ 99999 then return fmt0 5 number
  else if number ≥ 100000 ∧ number ≤ 619999 then
    let c ← b62 (number / 10000).toNat
    return c :: fmt0 4 (number % 10000)
  else
    let x := (number - 620000).toNat
    return '~' :: zfill 4 (b62Low x).reverse

/-- The cycle count part of `pack_provisional_designation`. mpc.py:167-173. -/
def packCycle (cycle : Str) : Except PyErr Str :=
  if cycle.length > 0 then do
    let cycleInt ← pyInt cycle
    if cycleInt ≤ 99 then return zfill 2 (decInt cycleInt)
    else
      let c ← b62 (cycleInt / 10).toNat
      return c :: decInt (cycleInt % 10)
  else .ok ['0', '0']

/-- `pack_provisional_designation`. mpc.py:107-176. -/
def packProvisional (d : Str) : Except PyErr Str := do
  if d.length < 6 then throw .valueError
  if !isDecimal (d.take 3) then throw .valueError
  if d[4]? ≠ some ' ' then throw .valueError
  if d.contains '-' then throw .valueError
  let century ← pyInt (d.take 2)
  let c ← b62 century.toNat
  let year := c :: (d.drop 2).take 2
  let letter1 ← match d[5]? with | some c => pure c | none => throw .indexError
  let letter2 ← match d[6]? with | some c => pure c | none => throw .indexError
  let cycle := d.drop 7
  if letter1 = 'I' ∨ letter1 = 'Z' then throw .valueError
  if isDecimal [letter1] || isDecimal [letter2] then throw .valueError
  let cyclePf ← packCycle cycle
  return year ++ [letter1] ++ cyclePf ++ [letter2]

/-- `pack_survey_designation`. mpc.py:179-218. -/
def packSurvey (d : Str) : Except PyErr Str := do
  let number := d.take 4
  let survey := d.drop 5
  if survey = "P-L".toList then return "PLS".toList ++ zfill 4 number
  else if survey.take 2 = "T-".toList then
    match survey[2]? with
    | none => throw .indexError
    | some k =>
      if k = '1' ∨ k = '2' ∨ k = '3' then return ['T', k, 'S'] ++ zfill 4 number
      else throw .valueError
  else throw .valueError

/-- `try: return f() except ValueError: pass`. Used for mpc.py:221-268. -/
def tryValue (x : Except PyErr Str) (next : Except PyErr Str) : Except PyErr Str :=
  match x with
  | .error .valueError => next
  | r => r

/-- `pack_mpc_designation`. mpc.py:221-268. -/
def packMpc (d : Str) : Except PyErr Str :=
  tryValue (packNumbered d) (tryValue (packProvisional d) (tryValue (packSurvey d) (.error .valueError)))

/-- The loop over `enumerate(number_pf)`; the power of a character is the number of characters after it.
mpc.py:311-313. -/
def b62Sum : Str → Except PyErr Nat
  | [] => .ok 0
  | c :: cs => do
    let v ← b62Map c
    let r ← b62Sum cs
    return v * 62 ^ cs.length + r

/-- `unpack_numbered_designation`. mpc.py:271-324. -/
def unpackNumbered (d : Str) : Except PyErr Str := do
  if isDecimal d then return decInt (← pyInt d)
  else
    match d with
    | [] => throw .indexError
    | c :: rest =>
      if c = '~' then return dec (620000 + (← b62Sum rest))
      else
        let v ← b62Map c
        let n ← pyInt rest
        return decInt ((v : Int) * 10000 + n)

/-- `unpack_provisional_designation`. mpc.py:327-379. -/
def unpackProvisional (d : Str) : Except PyErr Str :=
  match d with
  | [c0, y1, y2, letter1, cycle1, cycle2, letter2] => do
    if !isDecimal [y1] || !isDecimal [y2] then throw .valueError
    let v ← b62Map c0
    let y ← pyInt [y1, y2]
    let year := decInt ((v : Int) * 100 + y)
    if isDecimal [letter1] || isDecimal [letter2] then throw .valueError
    let n1 ← b62Map cycle1
    let n2 ← b62Map cycle2
    let number := n1 * 10 + n2
    let numberStr := if number = 0 then [] else dec number
    return year ++ [' ', letter1, letter2] ++ numberStr
  | _ => throw .valueError

/-- `unpack_survey_designation`. mpc.py:382-422. The four accepted prefixes are written out one by one. -/
def unpackSurvey (d : Str) : Except PyErr Str := do
  let number ← pyInt ((d.drop 3).take 5)
  let s := d.take 3
  if s = "PLS".toList then return decInt number ++ [' '] ++ "P-L".toList
  else if s = "T1S".toList then return decInt number ++ [' '] ++ "T-1".toList
  else if s = "T2S".toList then return decInt number ++ [' '] ++ "T-2".toList
  else if s = "T3S".toList then return decInt number ++ [' '] ++ "T-3".toList
  else throw .valueError

/-- `unpack_mpc_designation`. mpc.py:425-473. -/
def unpackMpc (d : Str) : Except PyErr Str :=
  tryValue (unpackNumbered d) (tryValue (unpackProvisional d) (tryValue (unpackSurvey d) (.error .valueError)))

end Verif.Mpc
