import Verif.Sched.Model
import Mathlib.Data.Rat.Defs
import Mathlib.Algebra.Order.Field.Rat
import Mathlib.Algebra.BigOperators.Fin

/-! # Small-Body Database queries

`src/adam_core/orbits/query/sbdb.py`. Network answers are an oracle: an arbitrary answer for every object and attempt.
JSON decoding and the Cartesian conversion of the elements are a function of the payload (`parse`). -/

namespace Verif.Sbdb

open Verif Sched

/-! ## Covariance matrices -/

/-- The assignments of `_convert_SBDB_covariances` in the order of the code: target entry, source entry.
sbdb.py:61-105. A chained assignment `a = b = x` sets `a` first. -/
def assignments : List ((Fin 6 × Fin 6) × (Fin 6 × Fin 6)) :=
  [((0, 0), (1, 1)),
   ((1, 0), (0, 1)), ((0, 1), (0, 1)),
   ((2, 0), (5, 1)), ((0, 2), (5, 1)),
   ((3, 0), (3, 1)), ((0, 3), (3, 1)),
   ((4, 0), (4, 1)), ((0, 4), (4, 1)),
   ((5, 0), (2, 1)), ((0, 5), (2, 1)),
   ((1, 1), (0, 0)),
   ((2, 1), (5, 0)), ((1, 2), (5, 0)),
   ((3, 1), (3, 0)), ((1, 3), (3, 0)),
   ((4, 1), (4, 0)), ((1, 4), (4, 0)),
   ((5, 1), (2, 0)), ((1, 5), (2, 0)),
   ((2, 2), (5, 5)),
   ((3, 2), (3, 5)), ((2, 3), (3, 5)),
   ((4, 2), (4, 5)), ((2, 4), (4, 5)),
   ((5, 2), (2, 5)), ((2, 5), (2, 5)),
   ((3, 3), (3, 3)),
   ((4, 3), (4, 3)), ((3, 4), (4, 3)),
   ((5, 3), (2, 3)), ((3, 5), (2, 3)),
   ((4, 4), (4, 4)),
   ((5, 4), (2, 4)), ((4, 5), (2, 4)),
   ((5, 5), (2, 2))]

/-- `_convert_SBDB_covariances` for one matrix: zeros, then the assignments. sbdb.py:45-107. Entries are any type with a
zero (float64, NaN included). -/
def convert {K : Type} [Zero K] (m : Fin 6 → Fin 6 → K) : Fin 6 → Fin 6 → K :=
  assignments.foldl (fun (a : Fin 6 → Fin 6 → K) e => fun i j => if (i, j) = e.1 then m e.2.1 e.2.2 else a i j) (fun _ _ => 0)

/-! ## One request with retries -/

/-- What happens to one request. Used for sbdb.py:311-339. -/
inductive Answer (P : Type) where
  | payload (p : P)
  | timeout
  | connection
  | http (status : Option Nat)
  | other
deriving DecidableEq

/-- Which exception `_sbdb_api_get_json` raises. Used for sbdb.py:311-339. -/
inductive Failure where
  | badArgument
  | http (status : Option Nat)
  | other
  | exhausted
deriving DecidableEq

/-- `min(8.0, 0.5 * 2**attempt)`. sbdb.py:336. -/
def backoff (attempt : Nat) : ℚ := min 8 (2 ^ attempt / 2)

/-- The outcome of a call: payload or exception, the number of requests sent, the seconds slept. Used for sbdb.py:311-339. -/
structure Fetch (P : Type) where
  result : Except Failure P
  requests : Nat
  slept : ℚ

/-- `status is not None and (status >= 500 or status == 429)`. sbdb.py:327. -/
def transient : Option Nat → Bool
  | none => false
  | some s => decide (500 ≤ s) || decide (s = 429)

/-- The retry loop from attempt `k` on. sbdb.py:311-339. -/
def attempts {P : Type} (answer : Nat → Answer P) : Nat → Nat → ℚ → Fetch P
  | 0, k, slept => ⟨.error .exhausted, k, slept⟩
  | fuel + 1, k, slept =>
    match answer k with
    | .payload p => ⟨.ok p, k + 1, slept⟩
    | .timeout => attempts answer fuel (k + 1) (slept + backoff k)
    | .connection => attempts answer fuel (k + 1) (slept + backoff k)
    | .http s => if transient s then attempts answer fuel (k + 1) (slept + backoff k) else ⟨.error (.http s), k + 1, slept⟩
    | .other => ⟨.error .other, k + 1, slept⟩

/-- `_sbdb_api_get_json`. sbdb.py:280-339. `blank` says the stripped id is empty. -/
def getJson {P : Type} (blank : Bool) (timeout : ℚ) (maxAttempts : Int) (answer : Nat → Answer P) : Fetch P :=
  if blank then ⟨.error .badArgument, 0, 0⟩
  else if timeout ≤ 0 then ⟨.error .badArgument, 0, 0⟩
  else if maxAttempts ≤ 0 then ⟨.error .badArgument, 0, 0⟩
  else attempts answer maxAttempts.toNat 0 0

/-! ## Concurrent requests -/

/-- `results[i] = res`. Used for sbdb.py:652-656. -/
def setAt {P : Type} (results : List (Option P)) (i : Nat) (p : P) : List (Option P) := results.set i (some p)

/-- The loop over `as_completed`: the first failing future raises. sbdb.py:652-656. -/
def collect {P : Type} (fetch : Nat → Except PyErr P) : List Nat → List (Option P) → Except PyErr (List (Option P))
  | [], results => .ok results
  | i :: rest, results =>
    match fetch i with
    | .error e => .error e
    | .ok p => collect fetch rest (setAt results i p)

/-- The final pass over the results. sbdb.py:658-663. -/
def unwrap {P : Type} : List (Option P) → Except PyErr (List P)
  | [] => .ok []
  | none :: _ => .error .runtimeError
  | some p :: l =>
    match unwrap l with
    | .error e => .error e
    | .ok ps => .ok (p :: ps)

/-- The task submitted for index `i`. sbdb.py:646-653. -/
def requestAt {I P : Type} (fetch : I → Except PyErr P) (ids : List I) (i : Nat) : Except PyErr P :=
  match ids[i]? with
  | some a => fetch a
  | none => .error .indexError

/-- `_get_sbdb_payloads_new`. sbdb.py:615-663. All futures are submitted at once and complete in the order given by
`pick`. `fetch` is the outcome of the request for an object. -/
def getPayloads {I P : Type} (pick : Nat → Nat) (fetch : I → Except PyErr P) (maxConcurrent : Int) (ids : List I) :
    Except PyErr (List P) :=
  if maxConcurrent ≤ 0 then .error .valueError
  else if ids.isEmpty then .ok []
  else
    let done := (runAll never pick (List.range ids.length)).done
    match collect (requestAt fetch ids) done
        (List.replicate ids.length none) with
    | .error e => .error e
    | .ok results => unwrap results

/-! ## Tables -/

/-- A payload: whether it has an "object" entry, and the rest. Used for sbdb.py:485-612. -/
structure Payload (X : Type) where
  found : Bool
  body : X

/-- The orbit id of a row: the running number or the id asked for. Used for sbdb.py:485-612. -/
inductive OrbitId (I : Type) where
  | number (n : Nat)
  | input (i : I)
deriving DecidableEq

/-- `_orbits_from_sbdb_payloads`: rows in order, the first failing payload raises. sbdb.py:485-612. The comparison of the
lengths is left out: both callers pass equally long lists. -/
def toRows {I X R : Type} (parse : X → Except PyErr R) : Nat → List (Payload X) → Except PyErr (List (OrbitId I × R))
  | _, [] => .ok []
  | n, p :: l =>
    if !p.found then .error .notFound
    else
      match parse p.body with
      | .error e => .error e
      | .ok r =>
        match toRows parse (n + 1) l with
        | .error e => .error e
        | .ok rs => .ok ((.number n, r) :: rs)

/-- `orbits.set_column("orbit_id", ids)`. Used for sbdb.py:666-733. -/
def setIds {I R : Type} (ids : List I) (rows : List (OrbitId I × R)) : List (OrbitId I × R) :=
  (ids.zip rows).map fun p => (.input p.1, p.2.2)

/-- `query_sbdb_new`. sbdb.py:666-733. -/
def query {I X R : Type} (pick : Nat → Nat) (fetch : I → Except PyErr (Payload X)) (parse : X → Except PyErr R)
    (maxConcurrent : Int) (allowMissing fromInput : Bool) (ids : List I) : Except PyErr (List (OrbitId I × R)) :=
  match getPayloads pick fetch maxConcurrent ids with
  | .error e => .error e
  | .ok payloads =>
    if allowMissing then
      let kept := (ids.zip payloads).filter fun p => p.2.found
      if kept.isEmpty then .ok []
      else
        match toRows parse 0 (kept.map Prod.snd) with
        | .error e => .error e
        | .ok rows => .ok (if fromInput then setIds (kept.map Prod.fst) rows else rows)
    else
      match toRows parse 0 payloads with
      | .error e => .error e
      | .ok rows => .ok (if fromInput then setIds ids rows else rows)

/-! ## Physical parameters -/

/-- Python's `a or b` for an optional float: the second operand when the first is None or zero. Used for sbdb.py:429-452. -/
def pyOr (a b : Option ℚ) : Option ℚ :=
  match a with
  | none => b
  | some v => if v = 0 then b else some v

/-- An entry of `phys_par`: name, value and sigma (`none`: missing or not a number). NaN is not modelled.
Used for sbdb.py:439-443. -/
structure Par (N : Type) where
  name : N
  value : Option ℚ
  sigma : Option ℚ

/-- `by_name[name]`: the last entry of that name. sbdb.py:439-443. -/
def byName {N : Type} [DecidableEq N] (l : List (Par N)) (n : N) : Option (Par N) := l.reverse.find? fun p => decide (p.name = n)

/-- The names looked up. Used for sbdb.py:429-452. -/
inductive Name where
  | H
  | Hmag
  | G
  | other (n : Nat)
deriving DecidableEq

/-- `_sbdb_phys_par_from_payload`: H, its sigma, G, its sigma. sbdb.py:429-452. -/
def physPar (l : List (Par Name)) : Option ℚ × Option ℚ × Option ℚ × Option ℚ :=
  (pyOr ((byName l .H).bind Par.value) ((byName l .Hmag).bind Par.value),
   pyOr ((byName l .H).bind Par.sigma) ((byName l .Hmag).bind Par.sigma),
   (byName l .G).bind Par.value, (byName l .G).bind Par.sigma)

end Verif.Sbdb
