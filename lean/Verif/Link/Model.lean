import Verif.Sched.Model
import Verif.Time.Model

/-! # Model of links by time

`Ephemeris.link_to_observers` (`src/adam_core/orbits/ephemeris.py:28-102`) and `Timestamp.link` (`src/adam_core/time/time.py:755-783`).
A row is a time and an observatory code; `Timestamp.link` is the case of a single code. `quivr.MultiKeyLinkage` is taken to hold,
for every key that occurs in either table, the rows of both tables with that key; that is quivr's documented behaviour and not
part of the repository. The change of time scale is an arbitrary function on times. -/

namespace Verif.Link

open Verif Verif.Sched Verif.Time

variable {C : Type} [DecidableEq C]

/-- A row of either table. Used for orbits/ephemeris.py:63-75. -/
structure Tagged (C : Type) where
  time : Time.Row
  code : C
  deriving DecidableEq

/-- An entry of the linkage: key, rows of the left and of the right table. Used for orbits/ephemeris.py:76. -/
structure Entry (C : Type) where
  key : Tagged C
  left : List (Tagged C)
  right : List (Tagged C)

/-- The key of a row: its rounded time and its code. orbits/ephemeris.py:63-75, time.py:778-782. -/
def keyOf (p : String) (r : Tagged C) : Option (Tagged C) := (r.time.rounded p).map fun t => ⟨t, r.code⟩

/-- The linkage over the keys of both tables. orbits/ephemeris.py:76, time.py:783. -/
def linkage (p : String) (left right : List (Tagged C)) : List (Entry C) :=
  (uniq (left.filterMap (keyOf p) ++ right.filterMap (keyOf p))).map fun k =>
    ⟨k, left.filter fun r => decide (keyOf p r = some k), right.filter fun r => decide (keyOf p r = some k)⟩

/-- `link_to_observers`: the observers in the scale of the ephemeris, the linkage, and whether the warning is issued.
orbits/ephemeris.py:58-102. `conv` changes the scale, if the scales differ. -/
def linkToObservers (p : String) (conv : Option (Time.Row → Time.Row)) (eph obs : List (Tagged C)) :
    Except PyErr (List (Entry C) × Bool) :=
  let obs := match conv with
    | none => obs
    | some f => obs.map fun o => { o with time := f o.time }
  if precisionOk p then
    let l := linkage p eph obs
    .ok (l, decide ((uniq obs).length ≠ l.length))
  else .error .valueError

/-- `Timestamp.link`. time.py:755-783. -/
def link (p : String) (conv : Option (Time.Row → Time.Row)) (a b : List Time.Row) : Except PyErr (List (Entry Unit)) :=
  let b := match conv with
    | none => b
    | some f => b.map f
  if precisionOk p then .ok (linkage p (a.map fun t => ⟨t, ()⟩) (b.map fun t => ⟨t, ()⟩)) else .error .valueError

end Verif.Link
