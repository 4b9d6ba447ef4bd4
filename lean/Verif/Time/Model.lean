import Verif.Basic
import Mathlib.Algebra.Order.Floor.Ring
import Mathlib.Data.Rat.Floor

/-!
# Model of `adam_core.time.Timestamp`

Source: `/repo/src/adam_core/time/time.py`.

A `Timestamp` table is a scale string and a list of rows. `int64` is `Int` (no overflow). `float64` values are exact
rationals. Nulls are not modelled.
-/

namespace Verif.Time

open Verif

/-- One row of the table: `days` and `nanos` columns. time.py:69-77. -/
structure Row where
  days : Int
  nanos : Int
  deriving DecidableEq, Repr

/-- A `Timestamp` table: the `scale` attribute and its rows. time.py:69-77. -/
structure TS where
  scale : String
  rows : List Row
  deriving DecidableEq, Repr

/-- `_NANOS_IN_DAY`. time.py:58. -/
def NANOS_IN_DAY : Int := 86_400_000_000_000

/-- `_TAI_TT_NS_CORRECTION`. time.py:60. -/
def TAI_TT_NS : Int := 32_184_000_000

/-- pyarrow integer `divide` truncates toward zero. Used by `micros`, `millis`, `seconds`, time.py:79-86. -/
def arrowDiv (a b : Int) : Int := Int.tdiv a b

/-- `micros`. time.py:79-80. -/
def Row.micros (r : Row) : Int := arrowDiv r.nanos 1_000
/-- `millis`. time.py:82-83. -/
def Row.millis (r : Row) : Int := arrowDiv r.nanos 1_000_000
/-- `seconds`. time.py:85-86. -/
def Row.seconds (r : Row) : Int := arrowDiv r.nanos 1_000_000_000

/-- One entry of `key(scale=None)`. time.py:98-101. -/
def Row.key (r : Row) : Int := r.days * NANOS_IN_DAY + r.nanos

/-- numpy/pyarrow/Python rounding to nearest, ties to even, on exact rationals (`pc.round`, `np.round`, `round`).
Used for time.py:426-444. -/
def roundHalfEven (x : ℚ) : Int :=
  let f := ⌊x⌋
  let r := x - f
  if r < 1 / 2 then f
  else if 1 / 2 < r then f + 1
  else if f % 2 = 0 then f else f + 1

/-- The per-row body of `add_nanos` after the range check: one carry or one borrow. time.py:402-421. -/
def Row.addNanosRaw (r : Row) (n : Int) : Row :=
  let nanos := r.nanos + n
  if nanos ≥ NANOS_IN_DAY then ⟨r.days + 1, nanos - NANOS_IN_DAY⟩
  else if nanos < 0 then ⟨r.days - 1, nanos + NANOS_IN_DAY⟩
  else ⟨r.days, nanos⟩

/-- The range check of `add_nanos` on one value. time.py:389-400. -/
def inAddRange (n : Int) : Bool := -NANOS_IN_DAY ≤ n && n < NANOS_IN_DAY

/-- An argument that is either one scalar or one value per row. time.py:373-424 and siblings. -/
inductive Arg (α : Type) where
  | scalar (a : α)
  | array (as : List α)
  deriving Repr

/-- Broadcasting of a scalar or array argument against `n` rows; pyarrow rejects a length mismatch. Used for time.py:373-424. -/
def Arg.expand {α : Type} (n : Nat) : Arg α → Except PyErr (List α)
  | .scalar a => .ok (List.replicate n a)
  | .array as => if as.length = n then .ok as else .error .arrowInvalid

/-- Map over an argument (elementwise kernels such as `pc.multiply`, `pc.round`). Used for time.py:426-444. -/
def Arg.map {α β : Type} (f : α → β) : Arg α → Arg β
  | .scalar a => .scalar (f a)
  | .array as => .array (as.map f)

/-- Does every value of the argument pass the test? `pc.all(...).as_py()` of time.py:394-399, scalar test of time.py:391. `pc.all` of
no values is null (its `min_count` is 1), and `not None` is true. -/
def Arg.all {α : Type} (p : α → Bool) : Arg α → Bool
  | .scalar a => p a
  | .array as => !as.isEmpty && as.all p

/-- `add_nanos`. time.py:373-424. The range check covers the whole argument before anything is computed. -/
def TS.addNanos (t : TS) (nanos : Arg Int) (checkRange : Bool := true) : Except PyErr TS :=
  if checkRange && !(nanos.all inAddRange) then .error .valueError
  else match nanos.expand t.rows.length with
    | .error e => .error e
    | .ok ns => .ok { t with rows := List.zipWith Row.addNanosRaw t.rows ns }

/-- `add_seconds`. time.py:426-444. Seconds may be fractional. -/
def TS.addSeconds (t : TS) (s : Arg ℚ) : Except PyErr TS :=
  t.addNanos (s.map fun x => roundHalfEven (x * 1_000_000_000))

/-- `add_millis`. time.py:446-463. -/
def TS.addMillis (t : TS) (s : Arg ℚ) : Except PyErr TS :=
  t.addNanos (s.map fun x => roundHalfEven (x * 1_000_000))

/-- `add_micros`. time.py:465-482. -/
def TS.addMicros (t : TS) (s : Arg ℚ) : Except PyErr TS :=
  t.addNanos (s.map fun x => roundHalfEven (x * 1_000))

/-- `add_days`. time.py:484-494. -/
def TS.addDays (t : TS) (d : Arg Int) : Except PyErr TS :=
  match d.expand t.rows.length with
  | .error e => .error e
  | .ok ds => .ok { t with rows := List.zipWith (fun r d => ⟨r.days + d, r.nanos⟩) t.rows ds }

/-- The integer day part and truncated nanosecond part of a fractional day count. time.py:508-515.
The cast with `allow_float_truncate` of a non-negative value is the floor. -/
def splitFractionalDays (x : ℚ) : Int × Int :=
  let day := ⌊x⌋
  let nanoPart := x - day
  (day, ⌊nanoPart * NANOS_IN_DAY⌋)

/-- `add_fractional_days`. time.py:496-516. -/
def TS.addFractionalDays (t : TS) (x : Arg ℚ) : Except PyErr TS :=
  match t.addDays (x.map fun v => (splitFractionalDays v).1) with
  | .error e => .error e
  | .ok t' => t'.addNanos (x.map fun v => (splitFractionalDays v).2)

/-- `rounded` on one row for a supported precision, `none` for an unsupported one. time.py:192-203. -/
def Row.rounded (r : Row) (precision : String) : Option Row :=
  if precision = "ns" then some r
  else if precision = "us" then some { r with nanos := r.micros * 1_000 }
  else if precision = "ms" then some { r with nanos := r.millis * 1_000_000 }
  else if precision = "s" then some { r with nanos := r.seconds * 1_000_000_000 }
  else none

/-- Is the precision string accepted by `rounded` and `equals`? time.py:192-203, 217-226. -/
def precisionOk (precision : String) : Bool :=
  precision = "ns" || precision = "us" || precision = "ms" || precision = "s"

/-- `rounded`. time.py:192-203. -/
def TS.rounded (t : TS) (precision : String) : Except PyErr TS :=
  if precisionOk precision then .ok { t with rows := t.rows.filterMap (·.rounded precision) }
  else .error .valueError

/-- The per-row body of `difference_scalar` and `difference`: `(days2, nanos2)`. time.py:547-570, 580-600. -/
def Row.diff (a b : Row) : Int × Int :=
  let days1 := a.days - b.days
  let nanos1 := a.nanos - b.nanos
  if nanos1 ≥ NANOS_IN_DAY then (days1 + 1, nanos1 - NANOS_IN_DAY)
  else if nanos1 < 0 then (days1 - 1, nanos1 + NANOS_IN_DAY)
  else (days1, nanos1)

/-- `difference_scalar`. time.py:518-570. -/
def TS.differenceScalar (t : TS) (b : Row) : List (Int × Int) := t.rows.map (·.diff b)

/-- `difference`. time.py:572-600. pyarrow rejects different lengths unless one side has length one (broadcast of a
length-one array is also rejected by `pc.subtract`, so only equal lengths pass). -/
def TS.difference (t o : TS) : Except PyErr (List (Int × Int)) :=
  if t.scale ≠ o.scale then .error .valueError
  else if t.rows.length ≠ o.rows.length then .error .arrowInvalid
  else .ok (List.zipWith Row.diff t.rows o.rows)

/-- `max_deviation` chosen by `equals_scalar`/`equals_array`. time.py:217-226, 243-252. -/
def maxDeviation (precision : String) : Option Int :=
  if precision = "ns" then some 0
  else if precision = "us" then some 999
  else if precision = "ms" then some 999_999
  else if precision = "s" then some 999_999_999
  else none

/-- `_duration_arrays_within_tolerance` on one pair. time.py:786-806. -/
def withinTolerance (d : Int × Int) (dev : Int) : Bool :=
  if dev = 0 then d.1 = 0 && d.2 = 0
  else (d.1 = 0 && (d.2.natAbs : Int) < dev)
    || (d.1 = -1 && (d.2.natAbs : Int) ≥ 86_400_000_000_000 - dev)

/-- `equals_scalar`. time.py:213-227. -/
def TS.equalsScalar (t : TS) (b : Row) (precision : String) : Except PyErr (List Bool) :=
  match maxDeviation precision with
  | none => .error .valueError
  | some dev => .ok ((t.differenceScalar b).map (withinTolerance · dev))

/-- `equals_array`. time.py:229-252. -/
def TS.equalsArray (t o : TS) (precision : String) : Except PyErr (List Bool) :=
  if t.scale ≠ o.scale then .error .valueError
  else if t.rows.length ≠ o.rows.length then .error .valueError
  else match t.difference o with
    | .error e => .error e
    | .ok ds => match maxDeviation precision with
      | none => .error .valueError
      | some dev => .ok (ds.map (withinTolerance · dev))

/-- `equals`. time.py:205-211. -/
def TS.equals (t o : TS) (precision : String) : Except PyErr (List Bool) :=
  if t.scale ≠ o.scale then .error .valueError
  else match o.rows with
    | [b] => t.equalsScalar b precision
    | _ => t.equalsArray o precision

/-- `pc.max` of a column: null for an empty one. Used at time.py:265, 269. -/
def colMax : List Int → Option Int
  | [] => none
  | x :: xs => some (xs.foldl max x)

/-- `pc.min` of a column. Used at time.py:285, 289. -/
def colMin : List Int → Option Int
  | [] => none
  | x :: xs => some (xs.foldl min x)

/-- `max`. time.py:254-272. The empty table has no row 0 to return and raises. -/
def TS.max (t : TS) : Except PyErr Row :=
  match colMax (t.rows.map Row.days) with
  | none => .error .indexError
  | some maxDay =>
    match colMax ((t.rows.filter fun r => r.days = maxDay).map Row.nanos) with
    | none => .error .indexError
    | some maxNanos =>
      match t.rows.filter fun r => r.days = maxDay && r.nanos = maxNanos with
      | [] => .error .indexError
      | r :: _ => .ok r

/-- `min`. time.py:274-292. -/
def TS.min (t : TS) : Except PyErr Row :=
  match colMin (t.rows.map Row.days) with
  | none => .error .indexError
  | some minDay =>
    match colMin ((t.rows.filter fun r => r.days = minDay).map Row.nanos) with
    | none => .error .indexError
    | some minNanos =>
      match t.rows.filter fun r => r.days = minDay && r.nanos = minNanos with
      | [] => .error .indexError
      | r :: _ => .ok r

/-- `from_mjd` on one value, exact arithmetic. time.py:170-178. -/
def fromMjd (mjd : ℚ) : Row :=
  let days := ⌊mjd⌋
  let frac := mjd - days
  ⟨days, roundHalfEven (frac * NANOS_IN_DAY)⟩

/-- `from_jd`. time.py:180-182. -/
def fromJd (jd : ℚ) : Row := fromMjd (jd - 4800001 / 2)

/-- `from_et`. time.py:184-186. -/
def fromEt (et : ℚ) : Row := fromMjd (et / 86400)

/-- `mjd`. time.py:133-134, 188-190. -/
def Row.mjd (r : Row) : ℚ := r.days + r.nanos / NANOS_IN_DAY

/-- `jd`. time.py:136-137. -/
def Row.jd (r : Row) : ℚ := r.mjd + 4800001 / 2

/-- `et` of a row that is already in TDB. time.py:139-145. -/
def Row.et (r : Row) : ℚ := (r.mjd - 103089 / 2) * 86400

/-- The common part of `from_astropy` and `_from_astropy_scalar`: `divmod(jd1 - 2400000.5, 1)`, add `jd2`, one borrow,
one carry; returns the whole days and the remainder. time.py:310-320, 342-352. -/
def astropySplit (jd1 jd2 : ℚ) : Int × ℚ :=
  let x := jd1 - 4800001 / 2
  let days := ⌊x⌋
  let rem := x - days + jd2
  let (days, rem) := if rem < 0 then (days - 1, rem + 1) else (days, rem)
  if rem ≥ 1 then (days + 1, rem - 1) else (days, rem)

/-- `from_astropy` for array values: a nanosecond count of a full day is carried. time.py:294-334. -/
def fromAstropyArray (jd1 jd2 : ℚ) : Row :=
  let (days, rem) := astropySplit jd1 jd2
  let nanos := roundHalfEven (rem * 86400 * 1_000_000_000)
  if nanos = 86400 * 1_000_000_000 then ⟨days + 1, 0⟩ else ⟨days, nanos⟩

/-- `_from_astropy_scalar`: the same without the full-day carry. time.py:336-359. -/
def fromAstropyScalar (jd1 jd2 : ℚ) : Row :=
  let (days, rem) := astropySplit jd1 jd2
  ⟨days, roundHalfEven (rem * 86400 * 1_000_000_000)⟩

/-- External knowledge used by `rescale`, all as functions of an instant in nanoseconds:
`utctai u` is the rounded correction UTC→TAI that ERFA's `utctai` gives at UTC instant `u`;
`taiutc a` the rounded correction TAI→UTC of ERFA's `taiutc` at TAI instant `a` (`_leap_seconds_correction`,
time.py:657-675); `tdb t` the truncated TT→TDB correction at instant `t` (`_tt_tdb_correction(True, ·)`,
time.py:628-655, which negates it for `positive=False`); `astropy` the whole-row conversion that
`rescale_astropy` delegates to (time.py:611-626). -/
structure Env where
  utctai : Int → Int
  taiutc : Int → Int
  tdb : Int → Int
  astropy : String → String → Row → Row

/-- The set `SCALES`. time.py:45-51. -/
def knownScale (s : String) : Bool := s = "tai" || s = "tt" || s = "ut1" || s = "utc" || s = "tdb"

/-- `rescale_astropy`. time.py:611-626. -/
def TS.rescaleAstropy (env : Env) (t : TS) (s : String) : Except PyErr TS :=
  if t.scale = s then .ok t
  else if knownScale s then .ok ⟨s, t.rows.map (env.astropy t.scale s)⟩
  else .error .valueError

/-- `_leap_seconds_correction(erfa.taiutc, correction)`: ERFA is fed the instant shifted by `correction`.
time.py:657-675. -/
def Row.leapTaiUtc (env : Env) (r : Row) (correction : Int) : Int := env.taiutc (r.key + correction)

/-- `_leap_seconds_correction(erfa.utctai, correction)`. time.py:657-675. -/
def Row.leapUtcTai (env : Env) (r : Row) (correction : Int) : Int := env.utctai (r.key + correction)

/-- `_tt_tdb_correction(positive, correction)`. time.py:628-655. -/
def Row.ttTdb (env : Env) (r : Row) (positive : Bool) (correction : Int) : Int :=
  let delta := env.tdb (r.key + correction)
  if positive then delta else -delta

/-- The `correction` computed by `rescale` for one row, `none` when no branch assigns it. time.py:705-745. -/
def Row.correction (env : Env) (old new : String) (r : Row) : Option Int :=
  if old = "tt" then
    if new = "tai" then some (-TAI_TT_NS)
    else if new = "utc" then some (r.leapTaiUtc env 0 - TAI_TT_NS)
    else if new = "tdb" then some (r.ttTdb env true 0)
    else none
  else if old = "utc" then
    let correction := r.leapUtcTai env 0
    if new = "tt" then some (correction + TAI_TT_NS)
    else if new = "tdb" then
      some (correction + (r.ttTdb env true (correction + TAI_TT_NS) + TAI_TT_NS))
    else some correction
  else if old = "tai" then
    if new = "tt" then some TAI_TT_NS
    else if new = "tdb" then some (r.ttTdb env true TAI_TT_NS + TAI_TT_NS)
    else if new = "tai" then some 0
    else if new = "utc" then some (r.leapTaiUtc env 0)
    else none
  else if old = "tdb" then
    if new = "tt" then some (r.ttTdb env false 0)
    else if new = "tai" then some (r.ttTdb env false 0 - TAI_TT_NS)
    else if new = "utc" then
      let c := r.ttTdb env false 0 - TAI_TT_NS
      some (c + r.leapTaiUtc env c)
    else none
  else none

/-- Does some branch of `rescale` assign `correction`? Decides the final `if correction is not None`, which does not
depend on the rows. time.py:703-753. -/
def correctionAssigned (old new : String) : Bool :=
  (Row.correction ⟨fun _ => 0, fun _ => 0, fun _ => 0, fun _ _ r => r⟩ old new ⟨0, 0⟩).isSome

/-- `rescale`. time.py:677-753. -/
def TS.rescale (env : Env) (t : TS) (s : String) : Except PyErr TS :=
  if t.scale = s then .ok t
  else if t.scale = "ut1" || s = "ut1" then t.rescaleAstropy env s
  else if correctionAssigned t.scale s then
    .ok ⟨s, t.rows.map fun r => match r.correction env t.scale s with
      | some c => r.addNanosRaw c
      | none => r⟩
  else .error .valueError

/-- `key`. time.py:88-101. -/
def TS.key (env : Env) (t : TS) (scale : Option String := some "tdb") : Except PyErr (List Int) :=
  if t.rows.length = 0 then .ok []
  else match scale with
    | none => .ok (t.rows.map Row.key)
    | some s => match t.rescale env s with
      | .error e => .error e
      | .ok t' => .ok (t'.rows.map Row.key)

/-- A step of a computation on one timestamp table, for history properties. Used for time.py:192-203, 373-516. -/
inductive Op where
  | nanos (n : Arg Int)
  | micros (x : Arg ℚ)
  | millis (x : Arg ℚ)
  | seconds (x : Arg ℚ)
  | days (d : Arg Int)
  | fractionalDays (x : Arg ℚ)
  | rounded (precision : String)

/-- Execute one step. Used for time.py:192-203, 373-516. -/
def TS.step (t : TS) : Op → Except PyErr TS
  | .nanos n => t.addNanos n
  | .micros x => t.addMicros x
  | .millis x => t.addMillis x
  | .seconds x => t.addSeconds x
  | .days d => t.addDays d
  | .fractionalDays x => t.addFractionalDays x
  | .rounded p => t.rounded p

/-- Execute a sequence of steps, stopping at the first exception. Used for time.py:192-203, 373-516. -/
def TS.run (t : TS) : List Op → Except PyErr TS
  | [] => .ok t
  | op :: ops => match t.step op with
    | .error e => .error e
    | .ok t' => t'.run ops

end Verif.Time
