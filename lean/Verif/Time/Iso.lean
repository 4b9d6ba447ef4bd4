import Verif.Time.Leap

/-!
# ISO 8601 texts of timestamps

`to_iso8601` prints astropy's `isot`, `from_iso8601` reads it (time.py:153-168). Astropy delegates to ERFA's `d2dtf` and
`dtf2d`, modelled here with exact arithmetic. A text is represented by its fields; the calendar date is represented by
its MJD, and the layout of the digits is left to astropy, as is the rejection of texts that are not ISO 8601.
-/

namespace Verif.Time

/-- The fields of a text such as `2016-12-31T23:59:60.500`: the date as MJD, and the clock reading.
time.py:159, 168. -/
structure Iso where
  day : Int
  hour : Int
  minute : Int
  second : Int
  milli : Int
deriving DecidableEq, Repr

/-- The seconds by which ERFA lengthens a day: only in the scale UTC. Behind time.py:159, 168. -/
def extraSecond (dat : Int → Int) (scale : String) (day : Int) : Int :=
  if scale = "utc" then leapOf dat day else 0

/-- `erfa.d2tf` with three decimals: the milliseconds of a fraction of a day, rounded to nearest (`ERFA_DNINT`).
Behind time.py:159. -/
def milliseconds (fd : ℚ) : Int := ⌊fd * 86400 * 1000 + 1 / 2⌋

/-- `erfa.d2dtf` with three decimals, on an MJD: the fraction is stretched on a leap-second day; a reading of 24 hours
becomes the next day or the second numbered 60. Behind time.py:159. -/
def d2dtf (dat : Int → Int) (scale : String) (q : ℚ) : Iso :=
  let day := ⌊q⌋
  let fd := q - day
  let leap := extraSecond dat scale day
  let fd := if leap ≠ 0 then fd + fd * leap / 86400 else fd
  let a := milliseconds fd
  let hour := a / 3600000
  let minute := a % 3600000 / 60000
  let second := a % 60000 / 1000
  let milli := a % 1000
  if 23 < hour then
    if leap = 0 then ⟨day + 1, 0, 0, 0, milli⟩
    else if 0 < second then ⟨day + 1, 0, 0, 0, milli⟩
    else ⟨day, 23, 59, 60, milli⟩
  else ⟨day, hour, minute, second, milli⟩

/-- `erfa.dtf2d`: the MJD of a clock reading, whose seconds may have any decimals; a leap-second day is 86401 s long.
Behind time.py:168. -/
def dtf2d (dat : Int → Int) (scale : String) (day hour minute : Int) (sec : ℚ) : ℚ :=
  day + (60 * (60 * hour + minute) + sec) / (86400 + extraSecond dat scale day)

/-- `to_astropy` (time.py:361-371) of a row, as an MJD. -/
def Row.toAstropy (r : Row) : ℚ := r.days + (r.nanos : ℚ) / NANOS_IN_DAY

/-- One entry of `to_iso8601`. time.py:153-159. -/
def Row.toIso (dat : Int → Int) (scale : String) (r : Row) : Iso := d2dtf dat scale r.toAstropy

/-- `to_iso8601`: the empty table gives the empty list. time.py:153-159. -/
def TS.toIso (dat : Int → Int) (t : TS) : List Iso := t.rows.map (Row.toIso dat t.scale)

/-- `from_astropy` of the array of astropy times with these MJDs: astropy keeps a Julian date as the nearest whole number
and a remainder of at most a half. time.py:294-334. -/
def fromAstropyMjd (q : ℚ) : Row :=
  let jd := q + 4800001 / 2
  fromAstropyArray ⌊jd + 1 / 2⌋ (jd - ⌊jd + 1 / 2⌋)

/-- One entry of `from_iso8601`, with the scale UTC unless another is given. time.py:161-168. -/
def fromIso (dat : Int → Int) (scale : String) (c : Iso) : Row :=
  fromAstropyMjd (dtf2d dat scale c.day c.hour c.minute (c.second + c.milli / 1000))

/-- `from_iso8601`. time.py:161-168. -/
def TS.fromIso (dat : Int → Int) (scale : String) (cs : List Iso) : TS := ⟨scale, cs.map (Verif.Time.fromIso dat scale)⟩

end Verif.Time
