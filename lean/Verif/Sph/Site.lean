import Verif.Sph.Model

/-! # Longitudes and latitudes of observatories (observers/observers.py)

Exact real arithmetic; NaN is `none`. Names of observatories are left out: they are carried along. -/

namespace Verif.Sph.Site

open Real

/-- A row of `ObservatoryParallaxCoefficients`: degrees, and lengths in equatorial radii. observers.py:24-29. -/
structure Coefficients where
  longitude : Option ℝ
  cosPhi : Option ℝ
  sinPhi : Option ℝ

/-- `E_EARTH`. observers.py:21. -/
noncomputable def eEarth (a b : ℝ) : ℝ := √(1 - (b / a) ^ 2)

/-- The arctangent of a quotient divided by `d > 0`, as numpy takes it: a nonzero number over 0 is infinite, 0 over 0 is NaN. (A zero cosine is
taken as positive.) observers.py:52-58. -/
noncomputable def arctanQuot (s c d : ℝ) : Option ℝ :=
  if c = 0 then
    if s = 0 then none else if 0 < s then some (π / 2) else some (-(π / 2))
  else some (arctan (s / c / d))

/-- A row of `lon_lat`. observers.py:31-63. -/
noncomputable def lonLat (a b : ℝ) (r : Coefficients) : Option ℝ × Option ℝ :=
  match r.longitude with
  | none => (none, none)
  | some l =>
    let lat := r.sinPhi.bind fun s => r.cosPhi.bind fun c => arctanQuot s c (1 - eEarth a b ^ 2)
    (some (if l > 180 then l - 360 else l), lat.map fun x => x * (180 / π))

/-- `timezone`: `timezoneAt` is the library's answer, or its error, for a longitude and latitude. It is asked for every row, also for those
whose answer is then replaced. observers.py:65-83. -/
noncomputable def timezone {Z : Type} (timezoneAt : Option ℝ → Option ℝ → Except PyErr Z) (noneText : Z) (a b : ℝ) :
    List Coefficients → Except PyErr (List Z)
  | [] => .ok []
  | r :: rest => do
    let p := lonLat a b r
    let tz ← timezoneAt p.1 p.2
    let out ← timezone timezoneAt noneText a b rest
    .ok ((if p.1.isSome then tz else noneText) :: out)

end Verif.Sph.Site
