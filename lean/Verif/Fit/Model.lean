import Verif.Sched.Model
import Mathlib.Algebra.Order.Ring.Rat
import Mathlib.Order.OrderDual

/-! # Model of the bookkeeping on fitted orbits and of the least-squares loop

Source: adam_core/orbit_determination/fitted_orbits.py, outliers.py, least_squares.py. -/

namespace Verif.Fit

open Verif Sched

/-! ## `assign_duplicate_observations` and `drop_duplicate_orbits` -/

/-- A fitted orbit: id, the three ranking columns, the state columns (time and six coordinates).
Used for fitted_orbits.py:32-38. -/
structure Orbit (I S : Type) where
  id : I
  numObs : Int
  arc : ℚ
  rchi2 : ℚ
  state : S
deriving DecidableEq

/-- A member row: orbit id, observation id, the rest. Used for fitted_orbits.py:48-60. -/
structure Member (I N R : Type) where
  orbit : I
  obs : N
  rest : R
deriving DecidableEq

/-- The sort key: most observations, then longest arc, then lowest reduced chi2. fitted_orbits.py:32-38. Numbers are
finite (NaN and null sort last in pyarrow and are not modelled). -/
def rank {I S : Type} (o : Orbit I S) : ℤᵒᵈ ×ₗ ℚᵒᵈ ×ₗ ℚ := toLex (OrderDual.toDual o.numObs, toLex (OrderDual.toDual o.arc, o.rchi2))

/-- The first orbit in sorted order among those an observation belongs to. fitted_orbits.py:48-60. -/
def best {I N R S : Type} [DecidableEq I] [DecidableEq N] (sorted : List (Orbit I S)) (members : List (Member I N R)) (b : N) :
    Option I :=
  (sorted.find? fun o => decide (o.id ∈ (members.filter fun m => m.obs = b).map Member.orbit)).map Orbit.id

/-- `assign_duplicate_observations`. fitted_orbits.py:12-77. The dictionary holds an entry for the observations that have
a best orbit, in order of first appearance. -/
def assign {I N R S : Type} [DecidableEq I] [DecidableEq N] (orbits : List (Orbit I S)) (members : List (Member I N R)) :
    List (Orbit I S) × List (Member I N R) :=
  let sorted := sortBy rank orbits
  let dict := (uniq (members.map Member.obs)).filterMap fun b => (best sorted members b).map fun o => (b, o)
  let kept := dict.foldl (fun ms (e : N × I) => ms.filter fun m => !(decide (m.obs = e.1) && decide (m.orbit ≠ e.2))) members
  (sorted.filter fun o => decide (o.id ∈ kept.map Member.orbit), kept)

/-- The rows of `table.drop_duplicates(subset, keep)`: one per distinct value of the subset, in order of first
appearance, namely the first or the last row with it (quivr groups by the subset and takes the first or last index).
Used for fitted_orbits.py:80-125. -/
def dropDuplicates {α K : Type} [DecidableEq K] (key : α → K) (keepLast : Bool) (l : List α) : List α :=
  (uniq (l.map key)).filterMap fun k =>
    if keepLast then (l.filter fun a => key a = k).getLast? else (l.filter fun a => key a = k).head?

/-- `drop_duplicate_orbits`. fitted_orbits.py:80-125. -/
def dropDuplicateOrbits {I N R S : Type} [DecidableEq I] [DecidableEq S] (keepLast : Bool) (orbits : List (Orbit I S))
    (members : List (Member I N R)) : List (Orbit I S) × List (Member I N R) :=
  let filtered := dropDuplicates Orbit.state keepLast orbits
  (filtered, members.filter fun m => decide (m.orbit ∈ filtered.map Orbit.id))

/-! ## `remove_lowest_probability_observation` -/

/-- A member with its residual: probability (`none`: null) and sum of squares of the finite residual components.
Used for outliers.py:46-98. -/
structure ResMember (I N : Type) where
  orbit : I
  obs : N
  prob : Option ℚ
  squares : ℚ
deriving DecidableEq

/-- `ndarray.argmax` of a non-empty list of keys: the row with the first maximum. Used for outliers.py:46-98. -/
def argmax {α : Type} (key : α → ℚ) : α → List α → α
  | a, [] => a
  | a, b :: l => if key a < key b then argmax key b l else argmax key a l

/-- `remove_lowest_probability_observation`. outliers.py:46-98. `obs` are the rows of `observations` (id and rest). -/
def removeLowest {I N X : Type} [DecidableEq I] [DecidableEq N] (members : List (ResMember I N)) (obs : List (N × X)) :
    Except PyErr (N × List (N × X)) :=
  if (uniq (members.map ResMember.orbit)).length ≠ 1 then .error .assertionError
  else if ¬ (members.all fun m => decide (m.obs ∈ obs.map Prod.fst)) then .error .assertionError
  else
    match (members.filterMap ResMember.prob).min? with
    | none => .error .indexError
    | some p =>
      match members.filter fun m => decide (m.prob = some p) with
      | [] => .error .indexError
      | w :: ws =>
        let worst := argmax ResMember.squares w ws
        let ids := (members.filter fun m => !decide (m.obs = worst.obs)).map ResMember.obs
        .ok (worst.obs, obs.filter fun o => decide (o.1 ∈ ids))

/-! ## `LeastSquares.least_squares` -/

/-- An orbit of the least-squares fit. Used for least_squares.py:265-372. -/
structure LsOrbit (I S : Type) where
  orbitId : I
  objectId : I
  state : S
deriving DecidableEq

/-- The comparisons on the RMS (float64 with NaN): below 1e-20, smaller, relative change below the tolerance.
Used for least_squares.py:265-372. -/
structure Cmp (V : Type) where
  tiny : V → Bool
  lt : V → V → Bool
  close : V → V → Bool

/-- How the loop ends: `orbit` is the value returned, `calls` the number of normal equations solved, `rms` the RMS of
the current orbit. Used for least_squares.py:265-372. -/
structure LsResult (I S V : Type) where
  orbit : Option (LsOrbit I S)
  calls : Nat
  rms : V
deriving DecidableEq

/-- The loop. least_squares.py:265-372. `update n o p` solves the normal equations of iteration `n` at orbit `o` with
step `p` and returns the corrected orbit and its RMS, or raises (singular matrix); its ids are replaced by those of the
initial orbit (least_squares.py:339-341). The fuel is `max_iterations` minus the iterations done. -/
def lsLoop {I S V : Type} (cmp : Cmp V) (update : Nat → LsOrbit I S → ℚ → Except PyErr (LsOrbit I S × V))
    (init : LsOrbit I S) (mult : ℚ) : Nat → Nat → LsOrbit I S → V → ℚ → Except PyErr (LsResult I S V)
  | 0, it, o, rms, _ => .ok ⟨some o, it, rms⟩
  | fuel + 1, it, o, rms, p =>
    if cmp.tiny rms then .ok ⟨some o, it, rms⟩
    else
      match update (it + 1) o p with
      | .error e => .error e
      | .ok (o', rms') =>
        let o'' : LsOrbit I S := { o' with objectId := init.objectId, orbitId := init.orbitId }
        if cmp.lt rms' rms then
          if cmp.close rms rms' then .ok ⟨some o'', it + 1, rms'⟩
          else lsLoop cmp update init mult fuel (it + 1) o'' rms' p
        else if cmp.close rms rms' then .ok ⟨some o, it + 1, rms⟩
        else if 1 / 10 ^ 12 < p then lsLoop cmp update init mult fuel (it + 1) o rms (p * mult)
        else if 1 < it + 1 then .ok ⟨some o, it + 1, rms⟩
        else .ok ⟨none, it + 1, rms⟩

/-- `least_squares` with `max_iterations` iterations. least_squares.py:187-372. -/
def leastSquares {I S V : Type} (cmp : Cmp V) (update : Nat → LsOrbit I S → ℚ → Except PyErr (LsOrbit I S × V))
    (init : LsOrbit I S) (rms0 : V) (frac mult : ℚ) (maxIter : Nat) : Except PyErr (LsResult I S V) :=
  lsLoop cmp update init mult maxIter 0 init rms0 frac

end Verif.Fit
