import Verif.Traj.Model
import Verif.Time.Float

/-! # Piecewise trajectories with times as they are stored

`src/adam_core/orbits/trajectory.py`: the times are rows of days and nanoseconds (in TDB), and what is compared are their float64 MJDs. -/

namespace Verif.Traj

open Verif Sched Time

/-- A segment with its times as stored. Used for trajectory.py:41-47. -/
structure RowSeg (I R : Type) where
  object : I
  start : Row
  stop : Row
  epoch : Row
  rest : R
deriving DecidableEq

variable {I R : Type} [DecidableEq I]

/-- The segment with the MJDs that the code compares. trajectory.py:54-75. The rows are already in TDB. -/
def RowSeg.seg64 (s : RowSeg I R) : Seg I (RowSeg I R) := ⟨s.object, s.start.mjd64, s.stop.mjd64, s.epoch.mjd64, s⟩

/-- `validate_coverage`. trajectory.py:85-116. -/
def validate64 (t : List (RowSeg I R)) : Except PyErr (List (RowSeg I R)) :=
  match validate (t.map RowSeg.seg64) with
  | .error e => .error e
  | .ok t' => .ok (t'.map Seg.rest)

/-- `segment_for` with the MJD of a row in TDB. trajectory.py:118-151. -/
def segmentFor64 (t : List (RowSeg I R)) (time : Row) (object : Option I) : Except PyErr (Option (RowSeg I R)) :=
  match segmentFor (t.map RowSeg.seg64) time.mjd64 object with
  | .error e => .error e
  | .ok s => .ok (s.map Seg.rest)

end Verif.Traj
