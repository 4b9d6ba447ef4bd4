import Verif.Sched.Model
import Verif.Tri.Model
import Verif.Units.Model

/-! # Orbit Ephemeris Messages

`src/adam_core/orbits/oem_io.py`. The `oem` package is modelled by what the code relies on: a saved message is read back
with the same metadata, states and covariances, and the 21 numbers of a covariance are the lower triangle, row by row, of a
symmetric matrix. Times are read back exactly (the text form of an epoch is not modelled). Arithmetic is exact; a covariance
is either all NaN (`none`) or a matrix of numbers. -/

namespace Verif.Oem

open Verif Sched

/-- `frame_map` of `_adam_to_oem_frame`. oem_io.py:161-164. -/
def frameMap : List (String × String) := [("equatorial", "EME2000"), ("itrf93", "ITRF-93")]

/-- `frame_map` of `_oem_to_adam_frame`. oem_io.py:193-196. -/
def frameUnmap : List (String × String) := [("EME2000", "equatorial"), ("ITRF-93", "itrf93")]

/-- `center_map` of `_adam_to_oem_center`. oem_io.py:225-245. -/
def centerMap : List (String × String) :=
  [("SOLAR_SYSTEM_BARYCENTER", "SOLAR SYSTEM BARYCENTER"), ("MERCURY_BARYCENTER", "MERCURY BARYCENTER"),
   ("VENUS_BARYCENTER", "VENUS BARYCENTER"), ("EARTH_MOON_BARYCENTER", "EARTH BARYCENTER"),
   ("MARS_BARYCENTER", "MARS BARYCENTER"), ("JUPITER_BARYCENTER", "JUPITER BARYCENTER"),
   ("SATURN_BARYCENTER", "SATURN BARYCENTER"), ("URANUS_BARYCENTER", "URANUS BARYCENTER"),
   ("NEPTUNE_BARYCENTER", "NEPTUNE BARYCENTER"), ("SUN", "SUN"), ("MERCURY", "MERCURY"), ("VENUS", "VENUS"),
   ("EARTH", "EARTH"), ("MOON", "MOON"), ("MARS", "MARS"), ("JUPITER", "JUPITER"), ("SATURN", "SATURN"),
   ("URANUS", "URANUS"), ("NEPTUNE", "NEPTUNE")]

/-- `center_map` of `_oem_to_adam_center`. oem_io.py:272-292. -/
def centerUnmap : List (String × String) :=
  [("SOLAR SYSTEM BARYCENTER", "SOLAR_SYSTEM_BARYCENTER"), ("MERCURY BARYCENTER", "MERCURY_BARYCENTER"),
   ("VENUS BARYCENTER", "VENUS_BARYCENTER"), ("EARTH BARYCENTER", "EARTH_MOON_BARYCENTER"),
   ("MARS BARYCENTER", "MARS_BARYCENTER"), ("JUPITER BARYCENTER", "JUPITER_BARYCENTER"),
   ("SATURN BARYCENTER", "SATURN_BARYCENTER"), ("URANUS BARYCENTER", "URANUS_BARYCENTER"),
   ("NEPTUNE BARYCENTER", "NEPTUNE_BARYCENTER"), ("SUN", "SUN"), ("MERCURY", "MERCURY"), ("VENUS", "VENUS"),
   ("EARTH", "EARTH"), ("MOON", "MOON"), ("MARS", "MARS"), ("JUPITER", "JUPITER"), ("SATURN", "SATURN"),
   ("URANUS", "URANUS"), ("NEPTUNE", "NEPTUNE")]

/-- A dictionary lookup that raises ValueError for a missing key. Used for oem_io.py:142-171. -/
def look (m : List (String × String)) (k : String) : Except PyErr String :=
  match m.lookup k with
  | some v => .ok v
  | none => .error .valueError

/-- `_adam_to_oem_frame`. oem_io.py:142-171. -/
def toOemFrame (f : String) : Except PyErr String := look frameMap f

/-- `_oem_to_adam_frame`. oem_io.py:174-203. -/
def fromOemFrame (f : String) : Except PyErr String := look frameUnmap f

/-- `_adam_to_oem_center`. oem_io.py:206-250. -/
def toOemCenter (c : String) : Except PyErr String := look centerMap c

/-- `_oem_to_adam_center`, after `center.upper()`. oem_io.py:253-300. Upper-casing is that of ASCII letters. -/
def fromOemCenter (c : String) : Except PyErr String := look centerUnmap c.toUpper

variable {K T : Type} [Field K] [LinearOrder T]

/-- A row of an orbit table. Used for oem_io.py:348-395. -/
structure Row (K T : Type) where
  object : Option String
  time : T
  values : Fin 6 → K
  cov : Option (Fin 6 → Fin 6 → K)
  origin : String

/-- A segment of a message: metadata, states and covariances in km. Used for oem_io.py:348-395. -/
structure Segment (K T : Type) where
  object : String
  center : String
  frame : String
  states : List (T × (Fin 6 → K))
  covs : List (T × String × List K)

/-- The numbers written for a covariance. Used for oem_io.py:348-395. -/
def lowerOf (m : Fin 6 → Fin 6 → K) : List K :=
  (Tri.tril 6 0).map fun p => m (Fin.ofNat 6 p.1) (Fin.ofNat 6 p.2)

/-- The matrix the `oem` package makes of the numbers. Used for oem_io.py:557-570. -/
def matrixOf (l : List K) (i j : Fin 6) : K :=
  if j ≤ i then l.getD (i.1 * (i.1 + 1) / 2 + j.1) 0 else l.getD (j.1 * (j.1 + 1) / 2 + i.1) 0

/-- Writing the rows once they are in the frame `frame`. oem_io.py:348-395. `unit` holds the unit constants. -/
def writeRows (unit : Units.Consts K) (object frame : String) (rows : List (Row K T)) : Except PyErr (Segment K T) :=
  let sorted := sortBy Row.time rows
  match toOemFrame frame with
  | .error e => .error e
  | .ok f =>
    match sorted.head? with
    | none => .error .indexError
    | some first =>
      match toOemCenter first.origin with
      | .error e => .error e
      | .ok c =>
        .ok ⟨object, c, f, sorted.map fun r => (r.time, Units.stateToKm unit r.values),
          sorted.filterMap fun r => r.cov.map fun m => (r.time, f, lowerOf (Units.covToKm unit m))⟩

/-- `orbit_to_oem`. oem_io.py:303-407. `rotate` is the transformation of a state and covariance to the equatorial frame.
The message has one segment. -/
def toOem (unit : Units.Consts K) (rotate : Row K T → Row K T) (rows : List (Row K T)) : Except PyErr (List (Segment K T)) :=
  if (uniq (rows.map Row.object)).length ≠ 1 then .error .assertionError
  else if rows.any fun r => r.object.isNone then .error .assertionError
  else
    match rows.head? with
    | none => .error .indexError
    | some first =>
      match writeRows unit (first.object.getD "") "equatorial" (rows.map rotate) with
      | .error e => .error e
      | .ok s => .ok [s]

/-- `orbit_to_oem_propagated`. oem_io.py:410-517. `propagate` stands for the propagator: the rows for the orbits at the
times. -/
def toOemPropagated (unit : Units.Consts K) (rotate : Row K T → Row K T)
    (propagate : List (Row K T) → List T → Except PyErr (List (Row K T))) (rows : List (Row K T)) (times : List T) :
    Except PyErr (List (Segment K T)) :=
  if (uniq (rows.map Row.object)).length ≠ 1 then .error .assertionError
  else if rows.any fun r => r.object.isNone then .error .assertionError
  else
    match rows.head? with
    | none => .error .indexError
    | some first =>
      if times.length ≠ (uniq times).length then .error .assertionError
      else
        match propagate rows times with
        | .error e => .error e
        | .ok states =>
          match writeRows unit (first.object.getD "") "equatorial" (states.map rotate) with
          | .error e => .error e
          | .ok s => .ok [s]

/-- The last covariance with the epoch of the state and the frame of the segment. oem_io.py:557-570. -/
def covFor (unit : Units.Consts K) (s : Segment K T) (time : T) : Option (Fin 6 → Fin 6 → K) :=
  (s.covs.reverse.find? fun c => decide (c.1 = time) && decide (c.2.1 = s.frame)).map fun c =>
    Units.covToAu unit (matrixOf c.2.2)

/-- One state of a segment as a row, with its frame. oem_io.py:547-591. -/
def readState (unit : Units.Consts K) (s : Segment K T) (st : T × (Fin 6 → K)) : Except PyErr (String × Row K T) :=
  match fromOemFrame s.frame with
  | .error e => .error e
  | .ok f =>
    match fromOemCenter s.center with
    | .error e => .error e
    | .ok o => .ok (f, ⟨some s.object, st.1, Units.stateToAu unit st.2, covFor unit s st.1, o⟩)

/-- `orbit_from_oem`: states of all segments in order; the first failure raises. oem_io.py:520-595. Concatenating rows of
different frames is an error of the table library that is left out. -/
def fromOem (unit : Units.Consts K) : List (Segment K T) → Except PyErr (List (String × Row K T))
  | [] => .ok []
  | s :: l =>
    match gather (readState unit s) s.states with
    | .error e => .error e
    | .ok rows =>
      match fromOem unit l with
      | .error e => .error e
      | .ok rest => .ok (rows ++ rest)

end Verif.Oem
