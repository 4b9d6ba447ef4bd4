import Verif.Basic
import Verif.Resid.Model

/-! # Model of one iteration of `LeastSquares.least_squares` (`src/adam_core/orbit_determination/least_squares.py`)

The ephemeris of a state is an arbitrary function `predict` to lists of spherical coordinates, one for every observation. Real numbers
are exact; NaN and infinities are `none`. -/

namespace Verif.Lsq.Step

open Verif Resid

/-- Spherical coordinates: distance, right ascension, declination and their rates. Used for least_squares.py:83-100. -/
abbrev Coord := Resid.Vec 6

/-- `_residual_columns` of one row: right ascension and declination. least_squares.py:83-100. -/
noncomputable def columns (v w : Coord) : Option ℝ × Option ℝ := (residual .spherical v w 1, residual .spherical v w 2)

/-- The perturbation of coordinate `i`. least_squares.py:141-146. -/
noncomputable def step (x : Fin 6 → ℝ) (delta : ℝ) (i : Fin 6) : ℝ :=
  if |x i * delta| < 1 / 10 ^ 20 then (if i.val < 3 then 1 else 1 / 100) * delta else x i * delta

/-- `_update_orbit`: the values of the perturbed orbit. least_squares.py:60. -/
def shifted (x : Fin 6 → ℝ) (i : Fin 6) (d : ℝ) : Fin 6 → ℝ := fun k => x k + if k = i then d else 0

/-- Division of a column by a number; by zero it gives NaN or infinity. least_squares.py:157-166. -/
noncomputable def over (d : ℝ) (c : Option ℝ × Option ℝ) : Option ℝ × Option ℝ :=
  if d = 0 then (none, none) else (c.1.map (· / d), c.2.map (· / d))

/-- `_compute_partials`, the column of coordinate `i`: one pair for every observation. least_squares.py:135-168. -/
noncomputable def partials (central : Bool) (predict : (Fin 6 → ℝ) → List Coord) (nominal : List Coord) (x : Fin 6 → ℝ) (delta : ℝ)
    (i : Fin 6) : List (Option ℝ × Option ℝ) :=
  let d := step x delta i
  if central then
    List.zipWith (fun p m => over (2 * d) (columns p m)) (predict (shifted x i d)) (predict (shifted x i (-d)))
  else List.zipWith (fun p n => over d (columns p n)) (predict (shifted x i d)) nominal

/-- What an observation adds to the normal equations: partial derivatives, residuals and weights of its two components.
Used for least_squares.py:286-295. -/
structure Term where
  a : Matrix (Fin 2) (Fin 6) ℝ
  b : Fin 2 → ℝ
  w : Fin 2 → ℝ

/-- `ATWA` and `ATWb`. least_squares.py:286-295. -/
def accumulate (terms : List Term) : Matrix (Fin 6) (Fin 6) ℝ × (Fin 6 → ℝ) :=
  terms.foldl (fun acc t => (acc.1 + t.a.transpose * Matrix.diagonal t.w * t.a, acc.2 + (t.a.transpose * Matrix.diagonal t.w).mulVec t.b))
    (0, 0)

/-- The corrected state and its covariance. least_squares.py:286-308. A singular matrix raises LinAlgError, a ValueError. -/
noncomputable def correct (x : Fin 6 → ℝ) (terms : List Term) : Except PyErr ((Fin 6 → ℝ) × Matrix (Fin 6) (Fin 6) ℝ) :=
  open Classical in
  if IsUnit (accumulate terms).1 then
    .ok (x + ((accumulate terms).1⁻¹).mulVec (accumulate terms).2, (accumulate terms).1⁻¹)
  else .error .valueError

/-- `_rms` of residuals and weights. least_squares.py:170-185. -/
noncomputable def rms (terms : List Term) : ℝ :=
  Real.sqrt ((terms.map fun t => ∑ j, t.b j ^ 2 * t.w j).sum / (terms.length * 2))

end Verif.Lsq.Step
