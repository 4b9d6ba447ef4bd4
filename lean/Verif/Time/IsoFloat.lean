import Verif.Time.Iso
import Verif.Time.Float

/-! # Times in ADES texts

`ADES_to_string` (`src/adam_core/observations/ades.py`) writes the float64 MJD of a time, through astropy, with three decimals of the seconds
unless told otherwise. -/

namespace Verif.Time

open Verif F64

/-- The text of an observation's time, of a row in UTC, without the Z. ades.py:273-284. astropy keeps the MJD without error, and the arithmetic of ERFA's
`d2dtf` is exact here. -/
def Row.adesTime (dat : Int → Int) (r : Row) : Iso := d2dtf dat "utc" r.mjd64

end Verif.Time
