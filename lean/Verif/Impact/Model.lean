import Verif.Sched.Model
import Mathlib.Algebra.Order.Ring.Rat

/-! # Model of the impact bookkeeping

Source: adam_core/dynamics/impacts.py. The collision detection of a propagator is an arbitrary function; times are exact
rationals (MJD), all in one time scale. -/

namespace Verif.Impact

open Verif Sched

/-- A variant orbit: orbit id, variant id, the rest of the row. Used for impacts.py:320-362. -/
structure Variant (I S : Type) where
  orbit : I
  variant : I
  state : S
deriving DecidableEq

/-- A collision event: orbit id, variant id, condition id, time. impacts.py:85-100. -/
structure Event (I : Type) where
  orbit : I
  variant : I
  cond : String
  time : ℚ
deriving DecidableEq

/-- A collision condition: its id and the rest (object, distance, stopping condition). impacts.py:65-73. -/
structure Cond (X : Type) where
  id : String
  what : X
deriving DecidableEq

/-- A row of `ImpactProbabilities`. The standard deviation is represented by its square. impacts.py:53-62. -/
structure Row (I : Type) where
  cond : String
  orbit : I
  impacts : Nat
  variants : Nat
  prob : ℚ
  mean : Option ℚ
  stddevSq : Option ℚ
  first : Option ℚ
  last : Option ℚ
deriving DecidableEq

/-- `Timestamp.min()` of a non-empty column. Used for impacts.py:320-362. -/
def minT : List ℚ → Option ℚ
  | [] => none
  | x :: l => some (l.foldl min x)

/-- `Timestamp.max()` of a non-empty column. Used for impacts.py:320-362. -/
def maxT : List ℚ → Option ℚ
  | [] => none
  | x :: l => some (l.foldl max x)

/-- `np.mean`. Used for impacts.py:320-362. -/
def mean (l : List ℚ) : ℚ := l.sum / l.length

/-- The square of `np.std`. Used for impacts.py:320-362. -/
def stddevSq (l : List ℚ) : ℚ := mean (l.map fun x => (x - mean l) ^ 2)

/-- The row of one orbit and one condition. impacts.py:320-362. -/
def row {I S : Type} [DecidableEq I] (variants : List (Variant I S)) (events : List (Event I)) (o : I) (c : String) :
    Row I :=
  let count := (variants.filter fun v => v.orbit = o).length
  let hits := (events.filter fun e => e.orbit = o).filter fun e => e.cond = c
  let ts := hits.map Event.time
  { cond := c, orbit := o, impacts := hits.length, variants := count, prob := (hits.length : ℚ) / count
    mean := if 0 < hits.length then some (mean ts) else none
    stddevSq := if 0 < hits.length then some (stddevSq ts) else none
    first := if 0 < hits.length then minT ts else none
    last := if 0 < hits.length then maxT ts else none }

/-- The condition used by `calculate_impact_probabilities` when none is given. impacts.py:306-312. -/
def defaultConds {X : Type} (earth : X) : List (Cond X) := [⟨"Default", earth⟩]

/-- The accumulator: a table once there is a row. impacts.py:317, 364-367. -/
def appendRow {β : Type} (acc : Option (List β)) (r : β) : Option (List β) :=
  match acc with
  | none => some [r]
  | some rows => some (rows ++ [r])

/-- `calculate_impact_probabilities`. impacts.py:287-369. The accumulator is `none` until the first row is appended. -/
def probabilities {I S X : Type} [DecidableEq I] (earth : X) (variants : List (Variant I S)) (events : List (Event I))
    (conds : Option (List (Cond X))) : Option (List (Row I)) :=
  let cs := conds.getD (defaultConds earth)
  let pairs := (uniq (variants.map Variant.orbit)).flatMap fun o => cs.map fun c => (o, c.id)
  pairs.foldl (fun acc p => appendRow acc (row variants events p.1 p.2)) none

/-- The conditions `detect_collisions` uses when none are given. impacts.py:172-178. -/
def detectConds {X : Type} (earth : X) (conds : Option (List (Cond X))) : List (Cond X) := conds.getD [⟨"Earth", earth⟩]

/-- `detect_collisions`. impacts.py:129-228. `detect` is the propagator's `_detect_collisions`: the propagated rows and
the events. With workers every chunk is submitted at once and the results are concatenated in completion order; the
final restoring of origin and frame is not modelled. Concatenating no chunks (no orbits) fails with ValueError. -/
def detectCollisions {I S X : Type} (earth : X)
    (detect : List (Variant I S) → List (Cond X) → Except PyErr (List (Variant I S) × List (Event I))) (pick : Nat → Nat)
    (variants : List (Variant I S)) (conds : Option (List (Cond X))) (maxProc : Option Nat) (chunk : Int) :
    Except PyErr (List (Variant I S) × List (Event I)) :=
  let cs := detectConds earth conds
  if maxProc.all (fun n => decide (1 < n)) then
    match Chunk.iterateChunks (List.range variants.length) chunk with
    | .error e => .error e
    | .ok chunks =>
      match runTasks never pick (fun idx => detect (take variants idx) cs) chunks with
      | .error e => .error e
      | .ok results =>
        if results.isEmpty then .error .valueError
        else .ok (results.flatMap Prod.fst, results.flatMap Prod.snd)
  else detect variants cs

/-- The conditions `calculate_impacts` passes on when none are given. impacts.py:269-275. -/
def calcConds {X : Type} (earth : X) (conds : Option (List (Cond X))) : List (Cond X) := conds.getD [⟨"Default", earth⟩]

/-- `calculate_impacts` after the variants have been drawn. impacts.py:276-284; chunk size 100 by default (line 135). -/
def calculateImpacts {I S X : Type} (earth : X)
    (detect : List (Variant I S) → List (Cond X) → Except PyErr (List (Variant I S) × List (Event I))) (pick : Nat → Nat)
    (variants : List (Variant I S)) (conds : Option (List (Cond X))) (procs : Option Nat) :
    Except PyErr (List (Variant I S) × List (Event I)) :=
  detectCollisions earth detect pick variants (some (calcConds earth conds)) procs 100

end Verif.Impact
