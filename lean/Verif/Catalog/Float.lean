import Verif.Catalog.Model
import Verif.Time.Float

/-! # Middles of exposures with float64 rounding -/

namespace Verif.Catalog

open Verif Time F64

/-- The times of `SourceCatalog.observers(exposure_midpoint=True)` for start times and durations, each operation rounded to float64.
source_catalog.py:216-226. `pc.round` rounds ties to even. -/
def sourceMidpoints64 (start : TS) (durations : List ℚ) : Except PyErr TS :=
  start.addNanos (.array (durations.map fun d => roundHalfEven (fl (fl (d / 2) * 1_000_000_000))))

/-- `Exposures.midpoint`, the division and `add_seconds` rounded to float64. exposures.py:76-80. -/
def midpoints64 (start : TS) (durations : List ℚ) : Except PyErr TS := start.addSeconds64 (.array (durations.map fun d => fl (d / 2)))

end Verif.Catalog
