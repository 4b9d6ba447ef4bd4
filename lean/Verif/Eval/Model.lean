import Verif.Sched.Model
import Mathlib.Algebra.Order.Ring.Rat
import Mathlib.Algebra.Field.Basic

/-! # Model of `evaluate_orbits`

Source: adam_core/orbit_determination/evaluate.py, coordinates/residuals.py (`calculate_reduced_chi2`). Predictions and
residuals are arbitrary functions; numbers are exact, in any field (times are rationals). -/

namespace Verif.Eval

open Verif Sched

/-- An input orbit: id and the rest. Used for propagator.py:337-549, 754-763. -/
structure Orb (I S : Type) where
  id : I
  state : S

/-- An observation: id, time and observatory of its observer, measured coordinates, and their time (MJD).
Used for propagator.py:337-549, 754-763. -/
structure Obs (I N Y : Type) where
  id : N
  time : ℤ ×ₗ ℤ
  code : I
  coord : Y
  mjd : ℚ

/-- A row of the ephemeris: orbit, time, observatory, predicted coordinates. Used for propagator.py:337-549, 754-763. -/
structure Eph (I Z : Type) where
  orbit : I
  time : ℤ ×ₗ ℤ
  code : I
  pred : Z

/-- What a residual reports to the statistics. Used for residuals.py:408-426. -/
structure Res (K : Type) where
  chi2 : K
  dof : Int
deriving DecidableEq

/-- A row of `FittedOrbitMembers`. Used for evaluate.py:30-137. -/
structure Member (I N R : Type) where
  orbit : I
  obs : N
  res : R
  outlier : Bool
deriving DecidableEq

/-- A row of `FittedOrbits`. `chi2` is null (NaN) when nothing was summed, `reduced` when the degrees of freedom cancel
or nothing was summed. Used for evaluate.py:30-137. -/
structure Fitted (I S K : Type) where
  id : I
  state : S
  arc : Option ℚ
  numObs : Nat
  chi2 : Option K
  reduced : Option K

/-- The ephemeris of a propagator with one process: orbits by id, observers sorted by time and code.
propagator.py:337-549, 754-763; this is the row order proved for the generic implementation in C28. -/
def ephemeris {I S N Y Z : Type} [LinearOrder I] (predict : S → ℤ ×ₗ ℤ → I → Z) (orbits : List (Orb I S))
    (observations : List (Obs I N Y)) : List (Eph I Z) :=
  (sortBy Orb.id orbits).flatMap fun o =>
    (sortBy (fun b : Obs I N Y => toLex (b.time, b.code)) observations).map fun b =>
      ⟨o.id, b.time, b.code, predict o.state b.time b.code⟩

/-- `table.apply_mask(mask)`. Used for evaluate.py:30-137. -/
def applyMask {α : Type} (l : List α) (mask : List Bool) : List α := ((l.zip mask).filter Prod.snd).map Prod.fst

/-- `calculate_reduced_chi2`. residuals.py:408-426. -/
def reducedChi2 {K : Type} [Field K] (rs : List (Res K)) (parameters : Int) : Option K :=
  if (rs.map Res.dof).sum - parameters = 0 then none
  else some ((rs.map Res.chi2).sum / (((rs.map Res.dof).sum - parameters : Int) : K))

/-- Difference of the latest and earliest time. evaluate.py:114-117. -/
def arcLength (ts : List ℚ) : Option ℚ :=
  match ts with
  | [] => none
  | t :: l => some (l.foldl max t - l.foldl min t)

/-- `evaluate_orbits`. evaluate.py:30-137. `Residuals.calculate` acts row by row (`res`) on the stacked observations and
the ephemeris; its length test is the ValueError. Repeated orbit ids fail the assertion; with no orbits the stacking of
an empty list raises ValueError. A missing outlier list is an empty one: the mask is then all true (evaluate.py:97-99).
When every observation is ignored the code asks an empty column for its extreme times; here the arc is `none`. -/
def evaluate {I S N Y Z K : Type} [Field K] [LinearOrder I] [DecidableEq N] (predict : S → ℤ ×ₗ ℤ → I → Z) (res : Y → Z → Res K)
    (orbits : List (Orb I S)) (observations : List (Obs I N Y)) (parameters : Int) (ignore : List N) :
    Except PyErr (List (Fitted I S K) × List (Member I N (Res K))) :=
  if orbits.length ≠ (uniq (orbits.map Orb.id)).length then .error .assertionError
  else if orbits.isEmpty then .error .valueError
  else
    let eph := ephemeris predict orbits observations
    let sorted := sortBy Orb.id orbits
    let stacked := (List.replicate orbits.length observations).flatten
    if eph.length ≠ 1 ∧ eph.length ≠ stacked.length then .error .valueError
    else
      let residuals := List.zipWith (fun (b : Obs I N Y) (e : Eph I Z) => res b.coord e.pred) stacked eph
      let mask := observations.map fun b => !decide (b.id ∈ ignore)
      let included := applyMask observations mask
      let fitted := sorted.map fun o =>
        let rs := applyMask (applyMask residuals (eph.map fun e => decide (e.orbit = o.id))) mask
        { id := o.id, state := o.state, arc := arcLength (included.map Obs.mjd), numObs := included.length
          chi2 := if rs.isEmpty then none else some (rs.map Res.chi2).sum
          reduced := if rs.isEmpty then none else reducedChi2 rs parameters }
      let outliers := (List.replicate orbits.length (mask.map not)).flatten
      let members := List.zipWith (fun (e : Eph I Z) (x : (Obs I N Y × Res K) × Bool) =>
        ({ orbit := e.orbit, obs := x.1.1.id, res := x.1.2, outlier := x.2 } : Member I N (Res K))) eph
          ((stacked.zip residuals).zip outliers)
      .ok (fitted, members)

end Verif.Eval
