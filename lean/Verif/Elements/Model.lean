import Verif.OrbitClass.Model
import Mathlib.Analysis.SpecialFunctions.Trigonometric.Basic
import Mathlib.Analysis.SpecialFunctions.Sqrt

/-! # Derived elements of Keplerian and cometary tables

The properties `a`, `q`, `Q`, `p`, `P` and `n` of `src/adam_core/coordinates/keplerian.py:76-200` and
`src/adam_core/coordinates/cometary.py:80-202`, with the functions of `src/adam_core/dynamics/kepler.py:13-135`. The stored
elements are finite numbers and the gravitational parameter is positive; arithmetic is exact, with the infinities and NaN (`none`)
that a division by zero brings. -/

namespace Verif.Elements

open Verif.OrbitClass

/-- `calc_period`. dynamics/kepler.py:13-30. -/
noncomputable def period (a : F) (mu : ℝ) : F :=
  match a with
  | none => none
  | some x => if x < 0 then some ⊤ else if x = ⊤ then some ⊤ else num (2 * Real.pi * √(x.toReal ^ 3 / mu))

/-- `calc_semi_latus_rectum`: an infinity times zero is NaN. dynamics/kepler.py:97-114. -/
noncomputable def semiLatus (a : F) (e : ℝ) : F :=
  match a with
  | none => none
  | some x => if (x = ⊤ ∨ x = ⊥) ∧ 1 - e ^ 2 = 0 then none else some (x * ((1 - e ^ 2 : ℝ) : EReal))

/-- `np.degrees(calc_mean_motion(...))`. dynamics/kepler.py:118-135, keplerian.py:176-184, cometary.py:180-186. -/
noncomputable def meanMotion (a : F) (mu : ℝ) : F :=
  match a with
  | none => none
  | some x => if x = ⊤ ∨ x = ⊥ then num 0 else if x = 0 then some ⊤
    else num (√(mu / |x.toReal| ^ 3) * (180 / Real.pi))

/-- What a table says about one orbit besides its eccentricity. Used for keplerian.py:76-184. -/
structure Derived where
  a : F
  q : F
  Q : F
  p : F
  P : F
  n : F

/-- A Keplerian row. keplerian.py:76-184. -/
noncomputable def ofKeplerian (a e mu : ℝ) : Derived :=
  ⟨num a, periapsis a e, apoapsis (num a) e, semiLatus (num a) e, period (num a) mu, meanMotion (num a) mu⟩

/-- A cometary row. cometary.py:80-186. -/
noncomputable def ofCometary (q e mu : ℝ) : Derived :=
  let a := semiMajorAxis q e
  ⟨a, num q, apoapsis a e, semiLatus a e, period a mu, meanMotion a mu⟩

end Verif.Elements
