import Verif.Basic
import Verif.Mpc.Model
import Verif.Sched.Model
import Verif.Chunk.Model
import Mathlib.Data.List.Lex
import Mathlib.Data.Prod.Lex
import Mathlib.Data.Char
import Mathlib.Algebra.Order.Field.Rat

/-! # Queries to JPL Horizons

`src/adam_core/orbits/query/horizons.py`. The server (with astroquery) is an oracle: what it answers to a request may also depend on
the number of the request. Julian dates are rationals; the conversions of times are functions (module `Time`). -/

namespace Verif.Horizons

open Verif Sched

/-- Used for horizons.py:68, 124, 179. -/
abbrev Str := List Char

/-- `f"{i:05d}"`. horizons.py:68, 124, 179. -/
def orbitId (i : Nat) : Str := Mpc.zfill 5 (Mpc.dec i)

/-- The types of coordinates. horizons.py:294, 326, 362, 396-398. -/
inductive Kind
  | cartesian | keplerian | cometary | unknown
  deriving DecidableEq

/-- A request: vectors or elements, object, epochs and centre. Used for horizons.py:57-69, 113-125. -/
structure Request (O L : Type) where
  elements : Bool
  object : O
  epochs : List ℚ
  location : L

/-- A row of an answer: `datetime_jd`, `targetname` and the rest. Used for horizons.py:57-69, 113-125. -/
structure Answer (N X : Type) where
  jd : ℚ
  name : N
  state : X

/-- A row with the id of its object. Used for horizons.py:57-69, 113-125. -/
structure Tagged (N X : Type) where
  id : Str
  row : Answer N X

/-- A row of the result. Used for horizons.py:303-322, 334-358, 370-392. -/
structure Orbit (T N Y : Type) where
  id : Str
  object : N
  time : T
  origin : Str
  state : Y
  deriving DecidableEq

/-- Result and requests sent. Used for horizons.py:57-69, 113-125. -/
structure Run (R Q : Type) where
  result : Except PyErr R
  sent : List Q

/-- The loop over the objects with their numbers. horizons.py:57-69, 113-125. -/
def askAll {O L N X : Type} (server : Nat → Request O L → Except PyErr (List (Answer N X))) (make : O → Request O L) :
    List (O × Nat) → List (Request O L) → Run (List (Tagged N X)) (Request O L)
  | [], sent => ⟨.ok [], sent⟩
  | (o, i) :: rest, sent =>
    match server sent.length (make o) with
    | .error e => ⟨.error e, sent ++ [make o]⟩
    | .ok rows =>
      let more := askAll server make rest (sent ++ [make o])
      match more.result with
      | .error e => ⟨.error e, more.sent⟩
      | .ok tagged => ⟨.ok (rows.map (fun r => ⟨orbitId i, r⟩) ++ tagged), more.sent⟩

/-- The order of the rows of one batch. horizons.py:72-76, 128-132. -/
def batchKey {N X : Type} (r : Tagged N X) : Str ×ₗ ℚ := toLex (r.id, r.row.jd)

/-- `_get_horizons_vectors` and `_get_horizons_elements`: epochs are Julian dates for vectors and modified Julian dates for elements.
horizons.py:21-77, 80-133. `pd.concat` refuses an empty list. -/
def batch {O L T N X : Type} (server : Nat → Request O L → Except PyErr (List (Answer N X))) (elements : Bool) (jd : T → ℚ)
    (location : L) (objects : List O) (times : List T) (sent : List (Request O L)) : Run (List (Tagged N X)) (Request O L) :=
  let make := fun o => ⟨elements, o, times.map fun t => if elements then jd t - 4800001 / 2 else jd t, location⟩
  let all := askAll server make objects.zipIdx sent
  match all.result with
  | .error e => ⟨.error e, all.sent⟩
  | .ok rows => if objects.isEmpty then ⟨.error .valueError, all.sent⟩ else ⟨.ok (sortBy batchKey rows), all.sent⟩

/-- What the query uses: the Julian date (TDB) of a time, the time of a Julian date, and the Cartesian state of an answer.
Used for horizons.py:303-322, 334-358, 370-392. -/
structure World (T X Y : Type) where
  jd : T → ℚ
  stamp : ℚ → T
  cartesian : Kind → X → Y

/-- The table of one batch; the origin is always the Sun. horizons.py:303-322, 334-358, 370-392. -/
def orbitsOf {T N X Y : Type} (w : World T X Y) (kind : Kind) (rows : List (Tagged N X)) : List (Orbit T N Y) :=
  rows.map fun r => ⟨r.id, r.row.name, w.stamp r.row.jd, "SUN".toList, w.cartesian kind r.row.state⟩

/-- The loop over the batches; later batches come first. horizons.py:292-398. -/
def batches {O L T N X Y : Type} (w : World T X Y) (server : Nat → Request O L → Except PyErr (List (Answer N X))) (kind : Kind)
    (location : L) (objects : List O) :
    List (List T) → List (Orbit T N Y) → List (Request O L) → Run (List (Orbit T N Y)) (Request O L)
  | [], total, sent => ⟨.ok total, sent⟩
  | times :: rest, total, sent =>
    if kind = .unknown then ⟨.error .valueError, sent⟩
    else
      let b := batch server (decide (kind ≠ .cartesian)) w.jd location objects times sent
      match b.result with
      | .error e => ⟨.error e, b.sent⟩
      | .ok rows => batches w server kind location objects rest (orbitsOf w kind rows ++ total) b.sent

/-- `query_horizons`. horizons.py:249-405. -/
def query {O L T N X Y : Type} [LinearOrder T] (w : World T X Y) (server : Nat → Request O L → Except PyErr (List (Answer N X)))
    (kind : Kind) (location : L) (objects : List O) (times : List T) : Run (List (Orbit T N Y)) (Request O L) :=
  if times.isEmpty then ⟨.error .assertionError, []⟩
  else
    match Chunk.iterateChunks (sortBy id times) 50 with
    | .error e => ⟨.error e, []⟩
    | .ok chunks =>
      let all := batches w server kind location objects chunks [] []
      match all.result with
      | .error e => ⟨.error e, all.sent⟩
      | .ok rows => ⟨.ok (sortBy Orbit.time rows), all.sent⟩

/-! ## Ephemerides -/

/-- A row of an answer: right ascension, declination, light time in minutes, phase angle. Used for horizons.py:164-183. -/
structure EphAnswer (N : Type) where
  jd : ℚ
  name : N
  ra : ℚ
  dec : ℚ
  lightMinutes : ℚ
  alpha : ℚ

/-- A row with the id of its object and the code of the observatory. Used for horizons.py:164-183. -/
structure EphTagged (N : Type) where
  id : Str
  code : Str
  row : EphAnswer N

/-- A row of the result. Used for horizons.py:194-246. -/
structure Eph (T N : Type) where
  id : Str
  object : N
  lightTime : ℚ
  alpha : ℚ
  time : T
  lon : ℚ
  lat : ℚ
  origin : Str
  frame : Str

/-- The loop over the objects: `insert` of the column of times needs as many rows as times. horizons.py:164-183. -/
def ephAll {O N : Type} (server : Str → O → List ℚ → Except PyErr (List (EphAnswer N))) (code : Str) (epochs : List ℚ) :
    List (O × Nat) → Except PyErr (List (EphTagged N))
  | [] => .ok []
  | (o, i) :: rest =>
    match server code o epochs with
    | .error e => .error e
    | .ok rows =>
      if rows.length ≠ epochs.length then .error .valueError
      else
        match ephAll server code epochs rest with
        | .error e => .error e
        | .ok more => .ok (rows.map (fun r => ⟨orbitId i, code, r⟩) ++ more)

/-- The order of the rows. horizons.py:186-190, 225-229. -/
def ephKey {N : Type} (r : EphTagged N) : Str ×ₗ ℚ ×ₗ Str := toLex (r.id, toLex (r.row.jd, r.code))

/-- `_get_horizons_ephemeris`. horizons.py:136-191. -/
def ephOne {O N : Type} (server : Str → O → List ℚ → Except PyErr (List (EphAnswer N))) (code : Str) (objects : List O)
    (epochs : List ℚ) : Except PyErr (List (EphTagged N)) :=
  match ephAll server code epochs objects.zipIdx with
  | .error e => .error e
  | .ok rows => if objects.isEmpty then .error .valueError else .ok (sortBy ephKey rows)

/-- The loop over the observatories. horizons.py:215-222. -/
def ephCodes {O N : Type} (server : Str → O → List ℚ → Except PyErr (List (EphAnswer N))) (objects : List O)
    (epochsOf : Str → List ℚ) : List Str → Except PyErr (List (EphTagged N))
  | [] => .ok []
  | code :: rest =>
    match ephOne server code objects (epochsOf code) with
    | .error e => .error e
    | .ok rows =>
      match ephCodes server objects epochsOf rest with
      | .error e => .error e
      | .ok more => .ok (rows ++ more)

/-- `query_horizons_ephemeris`; an observer is a code and a time, `jd` the Julian date in UTC. horizons.py:194-246. The codes are taken
in order (`iterate_codes`, observers/observers.py:225-237). -/
def queryEph {O T N : Type} (server : Str → O → List ℚ → Except PyErr (List (EphAnswer N))) (jd : T → ℚ) (stamp : ℚ → T)
    (objects : List O) (observers : List (Str × T)) : Except PyErr (List (Eph T N)) :=
  let codes := sortBy id (uniq (observers.map Prod.fst))
  let epochsOf := fun code => (observers.filter fun p => decide (p.1 = code)).map fun p => jd p.2
  match ephCodes server objects epochsOf codes with
  | .error e => .error e
  | .ok rows =>
    if codes.isEmpty then .error .valueError
    else .ok ((sortBy ephKey rows).map fun r =>
      ⟨r.id, r.row.name, r.row.lightMinutes / 1440, r.row.alpha, stamp r.row.jd, r.row.ra, r.row.dec, r.code,
        "ecliptic".toList⟩)

end Verif.Horizons
