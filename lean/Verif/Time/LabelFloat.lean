import Verif.Time.Float

/-! # Times of propagated orbits with float64 rounding -/

namespace Verif.Time

open Verif F64

/-- The time of a propagated orbit for a requested time in TDB: it passes through the float64 MJD. propagation.py:148, 259. -/
def Row.label64 (r : Row) : Row := fromMjd64 r.mjd64

/-- The times of the orbits that `propagate_2body` returns for `n` orbits and times in TDB, without workers. propagation.py:148, 163 (`np.tile`), 259. -/
def TS.propagated64 (n : Nat) (t : TS) : TS := ⟨"tdb", (List.replicate n (t.rows.map Row.label64)).flatten⟩

end Verif.Time
