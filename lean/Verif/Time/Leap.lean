import Verif.Time.RescaleLemmas

/-!
# ERFA's UTC and TAI conversions as `rescale` uses them

`_leap_seconds_correction` (time.py:657-675) hands ERFA a Julian date, subtracts, and rounds to whole seconds. ERFA's
`utctai` and `taiutc` are modelled here from 1972 on, where TAI - UTC is a whole number of seconds that changes only at
the end of a day (the drifting UTC of 1960-1971 is not modelled). A day that ends in a leap second is 86401 s long, and
ERFA's Julian date for UTC spreads the extra second evenly over that day. Floating point is exact.
-/

namespace Verif.Time

/-- The seconds a UTC day is longer than 86400 s: TAI - UTC tomorrow minus TAI - UTC today. ERFA's `dleap`, behind
time.py:671. -/
def leapOf (dat : Int → Int) (day : Int) : Int := dat (day + 1) - dat day

/-- `erfa.utctai` on modified Julian dates: the fraction of the day is stretched to the length of the day and TAI - UTC
at the start of the day is added. Called by time.py:657-675 through time.py:716. `dat d` is TAI - UTC in seconds at
0h UTC of day `d`. -/
def erfaUtcTai (dat : Int → Int) (q : ℚ) : ℚ :=
  let day := ⌊q⌋
  let fd := q - day
  let fd := fd * ((86400 + leapOf dat day) / 86400)
  day + fd + dat day / 86400

/-- `erfa.taiutc`: three rounds of adjusting a guess by the error of its TAI. Called by time.py:657-675 through
time.py:710, 736, 744. -/
def erfaTaiUtc (dat : Int → Int) (a : ℚ) : ℚ :=
  let step := fun u : ℚ => u + (a - erfaUtcTai dat u)
  step (step (step a))

/-- `_leap_seconds_correction` for the instant `i` (nanoseconds since MJD 0, the `correction` already added): the
difference made by the converter, rounded to whole seconds. time.py:657-675. -/
def leapSecondsCorrection (converter : ℚ → ℚ) (i : Int) : Int :=
  let old : ℚ := i / NANOS_IN_DAY
  let delta := (converter old - old) * NANOS_IN_DAY
  roundHalfEven (delta / 1_000_000_000) * 1_000_000_000

/-- What `rescale` runs on: ERFA with the leap seconds `dat` and the TDB series of the code. `astropy` (only consulted
for UT1) stays arbitrary. time.py:628-753. -/
noncomputable def erfaEnv (dat : Int → Int) (astropy : String → String → Row → Row) : Env where
  utctai := leapSecondsCorrection (erfaUtcTai dat)
  taiutc := leapSecondsCorrection (erfaTaiUtc dat)
  tdb := tdbSeries
  astropy := astropy

/-- The leap seconds of 2015-07-01 and 2017-01-01 (MJD 57204 and 57754), an instance of the table ERFA holds for
time.py:671. -/
def recentDat (d : Int) : Int := if d < 57204 then 35 else if d < 57754 then 36 else 37

end Verif.Time
