import Verif.Time.Leap
import Verif.F64

/-! # Leap-second corrections with float64 rounding (`src/adam_core/time/time.py`)

As `leapSecondsCorrection` of `Verif/Time/Leap.lean`, with every float64 operation of the code rounded (`F64.fl`). The two numbers the ERFA
converter returns are arguments. -/

namespace Verif.Time

open Verif F64

/-- The two numbers handed to ERFA: Julian day and fraction, for a row with `total` nanoseconds, the `correction` included. time.py:668-669. -/
def erfaDate64 (days total : Int) : ℚ × ℚ := (fl (days + 2400000 : Int), fl (fl (fl total / NANOS_IN_DAY) + 1 / 2))

/-- The rest of `_leap_seconds_correction`, from what ERFA returned. time.py:670-675. -/
def leapSecondsCorrection64 (days total : Int) (newDays newFrac : ℚ) : Int :=
  let (oldDays, oldFrac) := erfaDate64 days total
  let delta := fl (fl (fl (newDays - oldDays) + fl (newFrac - oldFrac)) * NANOS_IN_DAY)
  roundHalfEven (fl (delta * fl (1 / 1_000_000_000))) * 1_000_000_000

end Verif.Time
