import Verif.Time.Model

/-!
# Timestamps in 64-bit integers

`Verif/Time/Model.lean` computes with integers of any size. The columns of a `Timestamp` are `int64`: numpy's and
pyarrow's unchecked kernels reduce modulo 2^64, `pc.add_checked` raises. This file models those operations of
`src/adam_core/time/time.py` as they are.
-/

namespace Verif.Time

open Verif

/-- The signed 64-bit integer with the same residue modulo 2^64: what numpy and pyarrow's unchecked kernels leave.
Used for time.py:98-101. -/
def wrap64 (x : Int) : Int := (x + 9223372036854775808) % 18446744073709551616 - 9223372036854775808

/-- Is the value a signed 64-bit integer? Used for time.py:402. -/
def fits64 (x : Int) : Bool := -9223372036854775808 ≤ x && x < 9223372036854775808

/-- One entry of the array `key` returns: `days * _NANOS_IN_DAY + nanos` in numpy `int64`. time.py:98-101. -/
def Row.key64 (r : Row) : Int := wrap64 (wrap64 (r.days * NANOS_IN_DAY) + r.nanos)

/-- `key`. time.py:88-101. -/
def TS.key64 (env : Env) (t : TS) (scale : Option String := some "tdb") : Except PyErr (List Int) :=
  if t.rows.length = 0 then .ok []
  else match scale with
    | none => .ok (t.rows.map Row.key64)
    | some s => match t.rescale env s with
      | .error e => .error e
      | .ok t' => .ok (t'.rows.map Row.key64)

/-- `signature` of the entries of `key`: count, first, last, and the sum in `int64` without its sign bit.
time.py:103-117. -/
def signature64 (keys : List Int) : Nat × Int × Int × Int :=
  match keys with
  | [] => (0, 0, 0, 0)
  | k :: ks => (keys.length, k, (k :: ks).getLastD 0,
      wrap64 (keys.foldl (fun a b => wrap64 (a + b)) 0) % 9223372036854775808)

/-- The per-row body of `add_nanos` after the range check: a checked sum, then one carry or borrow with unchecked
kernels. time.py:402-421. -/
def Row.addNanos64 (r : Row) (n : Int) : Except PyErr Row :=
  let nanos := r.nanos + n
  if fits64 nanos then
    if nanos ≥ NANOS_IN_DAY then .ok ⟨wrap64 (r.days + 1), wrap64 (nanos - NANOS_IN_DAY)⟩
    else if nanos < 0 then .ok ⟨wrap64 (r.days - 1), wrap64 (nanos + NANOS_IN_DAY)⟩
    else .ok ⟨r.days, nanos⟩
  else .error .arrowInvalid

/-- All rows, or the first failure. Used for time.py:402. -/
def addRows64 : List Row → List Int → Except PyErr (List Row)
  | r :: rs, n :: ns => match r.addNanos64 n with
    | .error e => .error e
    | .ok r' => match addRows64 rs ns with
      | .error e => .error e
      | .ok rs' => .ok (r' :: rs')
  | _, _ => .ok []

/-- `add_nanos`. time.py:373-424. -/
def TS.addNanos64 (t : TS) (nanos : Arg Int) (checkRange : Bool := true) : Except PyErr TS :=
  if checkRange && !(nanos.all inAddRange) then .error .valueError
  else match nanos.expand t.rows.length with
    | .error e => .error e
    | .ok ns => match addRows64 t.rows ns with
      | .error e => .error e
      | .ok rows => .ok { t with rows := rows }

/-- `add_seconds`, `add_millis` and `add_micros` of whole numbers of seconds (`unit` 10⁹), milliseconds (10⁶) or
microseconds (10³): `pc.multiply` does not check for overflow, and `pc.round` leaves integers. time.py:426-482. -/
def TS.addUnits64 (t : TS) (unit : Int) (x : Arg Int) : Except PyErr TS :=
  t.addNanos64 (x.map fun v => wrap64 (v * unit))

/-- `add_days`. time.py:484-494. -/
def TS.addDays64 (t : TS) (d : Arg Int) : Except PyErr TS :=
  match d.expand t.rows.length with
  | .error e => .error e
  | .ok ds => .ok { t with rows := List.zipWith (fun r d => ⟨wrap64 (r.days + d), r.nanos⟩) t.rows ds }

/-- The per-row body of `difference_scalar` and `difference`. time.py:547-570, 580-600. -/
def Row.diff64 (a b : Row) : Int × Int :=
  let days1 := wrap64 (a.days - b.days)
  let nanos1 := wrap64 (a.nanos - b.nanos)
  if nanos1 ≥ NANOS_IN_DAY then (wrap64 (days1 + 1), wrap64 (nanos1 - NANOS_IN_DAY))
  else if nanos1 < 0 then (wrap64 (days1 - 1), wrap64 (nanos1 + NANOS_IN_DAY))
  else (days1, nanos1)

end Verif.Time
