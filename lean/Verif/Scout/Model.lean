import Verif.Obs80.Model
import Mathlib.Algebra.Order.Field.Rat

/-! # Queries to JPL Scout

`src/adam_core/orbits/query/scout.py`. The server is an oracle: what happens to a request may depend on the object and on the number
of the request, counted over the whole call. `get_scout_objects` (a table of the summary, without any mapping of errors) is not
modelled. -/

namespace Verif.Scout

open Verif Obs80

/-- Used for scout.py:139-145. -/
abbrev Str := List Char

/-! ## One request with retries -/

/-- What happens to one request: JSON; a `requests.RequestException`, with the status of its response if it has one; any other
exception. A body that is no JSON is `failed none`: the exception of `response.json()` is a `RequestException` without response.
Used for scout.py:77-87. -/
inductive Reply (J : Type) where
  | json (j : J)
  | failed (status : Option Nat)
  | foreign

/-- How `_request_scout_json` fails: with the exception of the last request, a foreign exception, or because `time.sleep` does not
take negative numbers. Used for scout.py:109-127. -/
inductive Fail where
  | request (status : Option Nat)
  | foreign
  | badDelay
deriving DecidableEq

/-- The end of a call: its result, the requests sent, the pauses made. Used for scout.py:77-87. -/
structure Run (J : Type) where
  result : Except Fail J
  requests : Nat
  pauses : List ℚ

/-- `status is None or status == 429 or status >= 500`. scout.py:84. -/
def retryable : Option Nat → Bool
  | none => true
  | some s => decide (s = 429) || decide (500 ≤ s)

/-- The loop from attempt `k` on, `n` attempts in all. scout.py:77-87. -/
def loop {J : Type} (delay : ℚ) (reply : Nat → Reply J) (n : Nat) : Nat → Nat → List ℚ → Run J
  | 0, k, pauses => ⟨.error .foreign, k, pauses⟩
  | fuel + 1, k, pauses =>
    match reply k with
    | .json j => ⟨.ok j, k + 1, pauses⟩
    | .foreign => ⟨.error .foreign, k + 1, pauses⟩
    | .failed s =>
      if !retryable s || decide (n ≤ k + 1) then ⟨.error (.request s), k + 1, pauses⟩
      else if delay < 0 then ⟨.error .badDelay, k + 1, pauses⟩
      else loop delay reply n fuel (k + 1) (pauses ++ [delay * 2 ^ k])

/-- `_request_scout_json`. scout.py:67-88. `maxAttempts` is after `int`. The exception after the loop is never reached. -/
def request {J : Type} (maxAttempts : Int) (delay : ℚ) (reply : Nat → Reply J) : Run J :=
  loop delay reply (max 1 maxAttempts).toNat (max 1 maxAttempts).toNat 0 []

/-! ## One object -/

/-- A JSON value that goes into a text column: null, text, or something else with what `str` makes of it.
Used for scout.py:173-183. -/
inductive Field where
  | null
  | text (s : Str)
  | other (shown : Str)
deriving DecidableEq

/-- `str(value)`. Used for scout.py:173-183. -/
def shown : Field → Str
  | .null => "None".toList
  | .text s => s
  | .other s => s

/-- What `int` makes of "nObs": null, a number, a `TypeError` or `ValueError`, or another exception (infinity).
Used for scout.py:397-403. -/
inductive Count where
  | null
  | number (n : Int)
  | unreadable
  | escapes

/-- A JSON object. `error`: what `str` makes of its "error" entry, if that is true; `signature`: version and source, if it is an
object; `file`: "fileMPC", if it is text, as its lines and its hash; `rows`: "data" of "orbits", if they are a list in an object.
Used for scout.py:100-170. -/
structure Obj (C : Type) where
  error : Option Str
  signature : Option (Field × Field)
  file : Option (List Str × Str)
  count : Count
  lastRun : Field
  rows : Option (List (List C))

/-- The payload. Used for scout.py:100-170. -/
inductive Payload (C : Type) where
  | notObject
  | object (o : Obj C)

/-- The exceptions: the four classes of the module, and everything else. scout.py:27-64. -/
inductive Err where
  | notFound
  | unavailable
  | query
  | response
  | escaped
deriving DecidableEq

/-- The class attributes `http_status` and `retryable`. scout.py:31-32, 50, 57-58. -/
def httpStatus : Err → Nat
  | .notFound => 404
  | .unavailable => 503
  | _ => 502

/-- Used for scout.py:32, 58. -/
def canRetry : Err → Bool
  | .unavailable => true
  | _ => false

/-- `token in text`. Used for scout.py:134-169. -/
def within (token : Str) : Str → Bool
  | [] => token.isEmpty
  | c :: s => token.isPrefixOf (c :: s) || within token s

/-- scout.py:139-145. -/
def goneTokens : List Str :=
  ["not found".toList, "no object".toList, "does not exist".toList, "unknown object".toList, "invalid designation".toList]

/-- scout.py:153-160. -/
def busyTokens : List Str :=
  ["temporar".toList, "service unavailable".toList, "timeout".toList, "try again".toList, "rate limit".toList,
   "internal server".toList]

/-- The exception for an "error" entry; `fold` is `casefold`. scout.py:134-169. -/
def classify (fold : Str → Str) (detail : Str) : Err :=
  if goneTokens.any fun t => within t (fold detail) then .notFound
  else if busyTokens.any fun t => within t (fold detail) then .unavailable
  else .response

/-- The exception for a failed request. scout.py:109-127. -/
def mapFail : Fail → Err
  | .request s =>
    if s = some 404 then .notFound else if retryable s then .unavailable else .query
  | .foreign => .escaped
  | .badDelay => .escaped

/-- `_request_scout_object_json`, after the request. scout.py:100-170. -/
def readPayload {C : Type} (fold : Str → Str) : Except Fail (Payload C) → Except Err (Obj C)
  | .error f => .error (mapFail f)
  | .ok .notObject => .error .response
  | .ok (.object o) =>
    match o.error with
    | some d => .error (classify fold d)
    | none => .ok o

/-- `_require_scout_signature`. scout.py:173-183. -/
def needSignature {C : Type} (o : Obj C) : Except Err (Field × Field) :=
  match o.signature with
  | none => .error .response
  | some s => if shown s.1 = "1.3".toList then .ok s else .error .response

/-! ## Orbits -/

/-- What the cells of the answer mean: whether a value fits the column, which number a text is. Used for scout.py:493-502. -/
structure Cells (C V : Type) where
  fits : Nat → C → Bool
  number : C → Option V

/-- The elements of a sample, with both times as Julian dates, and its number. Used for scout.py:303-342. -/
structure Sample (C V : Type) where
  idx : C
  epoch : V
  e : V
  q : V
  tp : V
  raan : V
  ap : V
  i : V

/-- A row of the answer of `query_scout`: orbit and variant id are the text of the sample's number. The change to Cartesian
coordinates (module `Kep`) and of the times is applied to `sample`. Used for scout.py:303-342. -/
structure Variant (I C V : Type) where
  object : I
  orbit : C
  variant : C
  sample : Sample C V

/-- `list(map(list, zip(*rows)))`: columns up to the length of the shortest row. Used for scout.py:479-503. -/
def columns {C : Type} (rows : List (List C)) : List (List C) :=
  match (rows.map List.length).min? with
  | none => []
  | some m => (List.range m).map fun k => rows.filterMap fun r => r[k]?

/-- `pa.Table.from_arrays` and `ScoutOrbit.from_pyarrow`: fifteen columns, each of values that fit. scout.py:493-502. -/
def table {C V : Type} (cells : Cells C V) (cols : List (List C)) : Except Err (List (List C)) :=
  if cols.length = 15 then
    if (cols.zipIdx).all fun p => p.1.all fun c => cells.fits p.2 c then .ok cols else .error .response
  else .error .response

/-- One column as numbers; `pc.cast` raises outside the `try`. scout.py:319-326. -/
def castColumn {C V : Type} (cells : Cells C V) (col : List C) : Except Err (List V) :=
  if col.all fun c => (cells.number c).isSome then .ok (col.filterMap cells.number) else .error .escaped

/-- Row `k` of a table with these columns. Used for scout.py:303-342. -/
def rowAt {I C V : Type} (object : I) (ids : List C) (epoch e q tp raan ap i : List V) (k : Nat) : Option (Variant I C V) :=
  match ids[k]?, epoch[k]?, e[k]?, q[k]?, tp[k]?, raan[k]?, ap[k]?, i[k]? with
  | some c, some t, some e, some q, some tp, some raan, some ap, some i => some ⟨object, c, c, ⟨c, t, e, q, tp, raan, ap, i⟩⟩
  | _, _, _, _, _, _, _, _ => none

/-- `scout_orbits_to_variant_orbits` for the columns. scout.py:303-342. The order of the columns is that of the fields: idx, epoch,
ec, qr, tp, om, w, inc. -/
def toVariants {I C V : Type} (cells : Cells C V) (object : I) (cols : List (List C)) : Except Err (List (Variant I C V)) := do
  let q ← castColumn cells (cols.getD 3 [])
  let e ← castColumn cells (cols.getD 2 [])
  let i ← castColumn cells (cols.getD 7 [])
  let raan ← castColumn cells (cols.getD 5 [])
  let ap ← castColumn cells (cols.getD 6 [])
  let tp ← castColumn cells (cols.getD 4 [])
  let epoch ← castColumn cells (cols.getD 1 [])
  let ids := cols.getD 0 []
  .ok ((List.range ids.length).filterMap (rowAt object ids epoch e q tp raan ap i))

/-- The rows of an answer. scout.py:480-491. -/
def needRows {C : Type} (o : Obj C) : Except Err (List (List C)) :=
  match o.rows with
  | none => .error .response
  | some [] => .error .notFound
  | some rows => .ok rows

/-- What `query_scout` makes of one answer. scout.py:479-503. -/
def orbitsOf {I C V : Type} (cells : Cells C V) (object : I) (o : Obj C) : Except Err (List (Variant I C V)) := do
  let _ ← needSignature o
  let rows ← needRows o
  let cols ← table cells (columns rows)
  toVariants cells object cols

/-! ## Observations -/

/-- A row of `ScoutObservations`. observations/obs80.py:46-63. -/
structure ObsRow where
  object : Str
  solutionDate : Option Str
  declared : Option Int
  hash : Str
  count : Nat
  version : Option Str
  source : Option Str
  index : Nat
  obs : Obs

/-- A value of a text column; anything but text and null is refused. Used for scout.py:371-434. -/
def textCell : Field → Except Err (Option Str)
  | .null => .ok none
  | .text s => .ok (some s)
  | .other _ => .error .escaped

/-- "nObs". scout.py:397-403; the column takes 64-bit integers (scout.py:420). -/
def declaredCount : Count → Except Err (Option Int)
  | .null => .ok none
  | .unreadable => .ok none
  | .escapes => .error .escaped
  | .number n => if -2 ^ 63 ≤ n ∧ n < 2 ^ 63 then .ok (some n) else .error .escaped

/-- The observations of the file, of the object asked for. scout.py:373-395. -/
def snapshot {C : Type} (object : Str) (o : Obj C) : Except Err (List Obs × Str) :=
  match o.file with
  | none => .error .response
  | some (lines, hash) =>
    if lines.all fun l => decide (Mpc.strip l = []) then .error .response
    else
      match readFile true lines with
      | .malformed _ => .error .response
      | .escaped _ => .error .escaped
      | .rows obs =>
        if obs.isEmpty then .error .response
        else if obs.any fun r => decide (r.designation ≠ object) then .error .response
        else .ok (obs, hash)

/-- What `query_scout_observations` makes of one answer. scout.py:371-434. An "nObs" that `int` does not take is only seen after
the file. -/
def observationsOf {C : Type} (object : Str) (o : Obj C) : Except Err (List ObsRow) := do
  let s ← needSignature o
  let f ← snapshot object o
  let n ← declaredCount o.count
  let date ← textCell o.lastRun
  let version ← textCell s.1
  let source ← textCell s.2
  .ok (f.1.zipIdx.map fun p => ⟨object, date, n, f.2, f.1.length, version, source, p.2, p.1⟩)

/-! ## All objects -/

/-- The end of a query: rows or exception, and the object of every request sent, in order. Used for scout.py:359-437, 467-506. -/
structure Query (I R : Type) where
  result : Except Err (List R)
  sent : List I

/-- The loop over the objects; `reply` gets the object and the number of the request. scout.py:359-437, 467-506. -/
def queryFrom {I C R : Type} (fold : Str → Str) (maxAttempts : Int) (delay : ℚ) (reply : I → Nat → Reply (Payload C))
    (rowsOf : I → Obj C → Except Err (List R)) : List I → List R → List I → Query I R
  | [], acc, sent => ⟨.ok acc, sent⟩
  | a :: rest, acc, sent =>
    let run := request maxAttempts delay fun k => reply a (sent.length + k)
    let sent := sent ++ List.replicate run.requests a
    match readPayload fold run.result with
    | .error e => ⟨.error e, sent⟩
    | .ok o =>
      match rowsOf a o with
      | .error e => ⟨.error e, sent⟩
      | .ok rows => queryFrom fold maxAttempts delay reply rowsOf rest (acc ++ rows) sent

/-- `query_scout`. scout.py:440-506. -/
def queryScout {C V : Type} (fold : Str → Str) (maxAttempts : Int) (delay : ℚ) (cells : Cells C V)
    (reply : Str → Nat → Reply (Payload C)) (ids : List Str) : Query Str (Variant Str C V) :=
  queryFrom fold maxAttempts delay reply (orbitsOf cells) ids [] []

/-- `query_scout_observations`. scout.py:345-437. -/
def queryObservations {C : Type} (fold : Str → Str) (maxAttempts : Int) (delay : ℚ) (reply : Str → Nat → Reply (Payload C))
    (ids : List Str) : Query Str ObsRow :=
  queryFrom fold maxAttempts delay reply observationsOf ids [] []

end Verif.Scout
