import Verif.Time.Model
import Verif.F64

/-! # Timestamps from astropy with float64 rounding (`src/adam_core/time/time.py`)

As `astropySplit`, `fromAstropyArray` and `fromAstropyScalar` of `Verif/Time/Model.lean`, with every float64 operation rounded (`F64.fl`). An
astropy time is its two float64 numbers `jd1` and `jd2`; what astropy does to them is not modelled. -/

namespace Verif.Time

open Verif F64

/-- The common part of `from_astropy` and `_from_astropy_scalar`. time.py:310-320, 342-352. `divmod(y, 1)` is the floor and the rounded rest. -/
def astropySplit64 (jd1 jd2 : ℚ) : Int × ℚ :=
  let y := fl (jd1 - 4800001 / 2)
  let days := ⌊y⌋
  let rem := fl (fl (y - days) + jd2)
  let (days, rem) := if rem < 0 then (days - 1, fl (rem + 1)) else (days, rem)
  if rem ≥ 1 then (days + 1, fl (rem - 1)) else (days, rem)

/-- `from_astropy` for array values. time.py:294-334. -/
def fromAstropyArray64 (jd1 jd2 : ℚ) : Row :=
  let (days, rem) := astropySplit64 jd1 jd2
  let nanos := roundHalfEven (fl (fl (rem * 86400) * 1_000_000_000))
  if nanos = 86400 * 1_000_000_000 then ⟨days + 1, 0⟩ else ⟨days, nanos⟩

/-- `_from_astropy_scalar`. time.py:336-359. -/
def fromAstropyScalar64 (jd1 jd2 : ℚ) : Row :=
  let (days, rem) := astropySplit64 jd1 jd2
  ⟨days, roundHalfEven (fl (fl (rem * 86400) * 1_000_000_000))⟩

end Verif.Time
