import Verif.Time.Float

/-! # Durations with float64 rounding

Differences of MJDs, as taken by `src/adam_core/dynamics/propagation.py`, `src/adam_core/missions/porkchop.py` and
`src/adam_core/orbit_determination/evaluate.py`. Every float64 operation is rounded (`F64.fl`). -/

namespace Verif.Time

open Verif F64

/-- The time to propagate over, or the time of flight, in days. propagation.py:67, 147-148 (rows in TDB), porkchop.py:406-412, 499-501. -/
def days64 (a b : Row) : ℚ := fl (b.mjd64 - a.mjd64)

/-- The arc length of the observations in days. evaluate.py:113-117. -/
def TS.arcLength64 (t : TS) : Except PyErr ℚ :=
  match t.max, t.min with
  | .ok last, .ok first => .ok (days64 first last)
  | .error e, _ => .error e
  | _, .error e => .error e

end Verif.Time
