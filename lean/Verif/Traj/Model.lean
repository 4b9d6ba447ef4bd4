import Verif.Sched.Model
import Mathlib.Data.Rat.Defs
import Mathlib.Algebra.Order.Field.Rat

/-! # Piecewise trajectories

`src/adam_core/orbits/trajectory.py`. Times are the TDB MJD the code compares (finite numbers; the conversion of the three
time columns to TDB is not part of this model). -/

namespace Verif.Traj

open Verif Sched

/-- A segment: object, coverage window, anchor epoch, the rest. Used for trajectory.py:77-83. -/
structure Seg (I R : Type) where
  object : I
  start : ℚ
  stop : ℚ
  epoch : ℚ
  rest : R
deriving DecidableEq

variable {I R : Type} [DecidableEq I]

/-- `object_ids`: distinct ids in first-seen order. trajectory.py:77-83. -/
def objectIds (t : List (Seg I R)) : List I := uniq (t.map Seg.object)

/-- `np.any(s[1:] < e[:-1])`. trajectory.py:112. -/
def anyOverlap (t : List (Seg I R)) : Bool := ((t.drop 1).zip t).any fun p => decide (p.1.start < p.2.stop)

/-- `validate_coverage`. trajectory.py:85-116. The table itself is returned. -/
def validate (t : List (Seg I R)) : Except PyErr (List (Seg I R)) :=
  if t.any fun s => decide (s.stop ≤ s.start) then .error .valueError
  else if t.any fun s => decide (s.epoch < s.start) || decide (s.stop < s.epoch) then .error .valueError
  else if (objectIds t).any fun o => anyOverlap (sortBy Seg.start (t.filter fun s => decide (s.object = o))) then
    .error .valueError
  else .ok t

/-- `segment_for`. trajectory.py:118-151. `none` for the object is `object_id=None`. -/
def segmentFor (t : List (Seg I R)) (time : ℚ) (object : Option I) : Except PyErr (Option (Seg I R)) :=
  let pick (traj : List (Seg I R)) : Except PyErr (Option (Seg I R)) :=
    match traj.filter fun s => decide (s.start ≤ time) && decide (time < s.stop) with
    | [] => .ok none
    | [s] => .ok (some s)
    | _ => .error .valueError
  match object with
  | some o => pick (t.filter fun s => decide (s.object = o))
  | none => if 1 < (objectIds t).length then .error .valueError else pick t

end Verif.Traj
