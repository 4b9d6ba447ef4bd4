import Verif.Time.Model
import Verif.F64

/-! # Timestamps as float64 numbers (`src/adam_core/time/time.py`)

`mjd`, `jd`, `et` and back, and the additions of float64 amounts, with every float64 operation rounded (`F64.fl`: to nearest, ties to even, 53 bits). `Verif/Time/Model.lean` has the
same functions in exact arithmetic. A float64 is a rational here; infinities, NaN and subnormals are left out, and `int64` is `Int`. The
conversion of an `int64` to a float64 is rounded, too. -/

namespace Verif.Time

open Verif F64

/-- `fractional_days`. time.py:188-190. -/
def Row.fraction64 (r : Row) : ℚ := fl (fl r.nanos / NANOS_IN_DAY)

/-- `mjd`. time.py:133-134. -/
def Row.mjd64 (r : Row) : ℚ := fl (fl r.days + r.fraction64)

/-- `jd`. time.py:136-137. -/
def Row.jd64 (r : Row) : ℚ := fl (r.mjd64 + 4800001 / 2)

/-- `et` of a row that is already in TDB. time.py:139-145. -/
def Row.et64 (r : Row) : ℚ := fl (fl (r.mjd64 - 103089 / 2) * 86400)

/-- `from_mjd` on one value. time.py:170-178. The floor of a float64 and the rounding to an integer are exact. -/
def fromMjd64 (mjd : ℚ) : Row :=
  let days := ⌊mjd⌋
  let frac := fl (mjd - days)
  ⟨days, roundHalfEven (fl (frac * NANOS_IN_DAY))⟩

/-- `from_jd`. time.py:180-182. -/
def fromJd64 (jd : ℚ) : Row := fromMjd64 (fl (jd - 4800001 / 2))

/-- `from_et`. time.py:184-186. -/
def fromEt64 (et : ℚ) : Row := fromMjd64 (fl (et / 86400))

/-- `add_seconds` of float64 seconds. time.py:426-444. -/
def TS.addSeconds64 (t : TS) (s : Arg ℚ) : Except PyErr TS :=
  t.addNanos (s.map fun x => roundHalfEven (fl (x * 1_000_000_000)))

/-- `add_millis` of float64 milliseconds. time.py:446-463. -/
def TS.addMillis64 (t : TS) (s : Arg ℚ) : Except PyErr TS :=
  t.addNanos (s.map fun x => roundHalfEven (fl (x * 1_000_000)))

/-- `add_micros` of float64 microseconds. time.py:465-482. -/
def TS.addMicros64 (t : TS) (s : Arg ℚ) : Except PyErr TS :=
  t.addNanos (s.map fun x => roundHalfEven (fl (x * 1_000)))

/-- The day part and the truncated nanoseconds of a float64 number of days. time.py:508-515. The floor is exact; the subtraction and the
product are rounded. -/
def splitFractionalDays64 (x : ℚ) : Int × Int :=
  let day := ⌊x⌋
  let nanoPart := fl (x - day)
  (day, ⌊fl (nanoPart * NANOS_IN_DAY)⌋)

/-- `add_fractional_days` of float64 days. time.py:496-516. -/
def TS.addFractionalDays64 (t : TS) (x : Arg ℚ) : Except PyErr TS :=
  match t.addDays (x.map fun v => (splitFractionalDays64 v).1) with
  | .error e => .error e
  | .ok t' => t'.addNanos (x.map fun v => (splitFractionalDays64 v).2)

end Verif.Time
