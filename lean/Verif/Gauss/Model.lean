import Verif.Basic
import Verif.V3

/-! # Initial orbits from three observations (orbit_determination/gauss.py, gibbs.py, herrick_gibbs.py)

Numbers are exact reals instead of float64. The compiled helpers raise ZeroDivisionError when they divide by zero, and so do the
divisions of their results (Python floats); divisions of NumPy numbers by zero give an infinity or NaN instead, and a velocity with
such a component is `none` here. -/

namespace Verif.Gauss

open Classical Verif V3

/-- `MU`. constants.py:49. -/
noncomputable def MU : ℝ := 0.29591220828411956e-03

/-- `C`. constants.py:11, 13, 47. -/
noncomputable def C : ℝ := 299792.458 / 149597870.700 * 86400

/-- `_calcV`. gauss.py:33-39. -/
def calcV (u1 u2 u3 : V3) : ℝ := dot (cross u1 u2) u3

/-- `_calcA`. gauss.py:42-47. -/
noncomputable def calcA (q1 q2 q3 u1 u3 : V3) (t31 t32 t21 : ℝ) : ℝ :=
  norm q2 ^ 3 * dot (cross u1 u3) (add (sub (smul t32 q1) (smul t31 q2)) (smul t21 q3))

/-- `_calcB`. gauss.py:50-59. -/
noncomputable def calcB (q1 q3 u1 u3 : V3) (t31 t32 t21 mu : ℝ) : ℝ :=
  mu / 6 * t32 * t21 * dot (cross u1 u3) (add (smul (t31 + t32) q1) (smul (t31 + t21) q3))

/-- `_calcLambdas`. gauss.py:62-67. -/
noncomputable def calcLambdas (r2 t31 t32 t21 mu : ℝ) : Except PyErr (ℝ × ℝ) :=
  if t31 = 0 ∨ r2 = 0 then .error .zeroDivision
  else .ok (t32 / t31 * (1 + mu / (6 * r2 ^ 3) * (t31 ^ 2 - t32 ^ 2)), t21 / t31 * (1 + mu / (6 * r2 ^ 3) * (t31 ^ 2 - t21 ^ 2)))

/-- `_calcRhos`. gauss.py:70-86. -/
noncomputable def calcRhos (l1 l3 : ℝ) (q1 q2 q3 u1 u2 u3 : V3) (v : ℝ) : Except PyErr (V3 × V3 × V3) :=
  let n := sub (add (smul (-l1) q1) q2) (smul l3 q3)
  if l1 * v = 0 ∨ v = 0 ∨ l3 * v = 0 then .error .zeroDivision
  else .ok (smul (dot n (cross u2 u3) / (l1 * v)) u1, smul (dot n (cross u1 u3) / v) u2, smul (dot n (cross u1 u2) / (l3 * v)) u3)

/-- `approxLangrangeCoeffs` with `mu` left at its default. gauss.py:89-94. -/
noncomputable def approxLagrange (r dt : ℝ) : ℝ × ℝ :=
  (1 - 1 / 2 * MU / r ^ 3 * dt ^ 2, dt - 1 / 6 * MU / r ^ 3 * dt ^ 2)

/-- `calcGauss`. gauss.py:97-149. -/
noncomputable def calcGauss (r1 r2 r3 : V3) (t1 t2 t3 : ℝ) : Except PyErr (Option V3) :=
  if norm r2 = 0 then .error .zeroDivision
  else
    let c1 := approxLagrange (norm r2) (t1 - t2)
    let c3 := approxLagrange (norm r2) (t3 - t2)
    if c1.1 * c3.2 - c3.1 * c1.2 = 0 then .error .zeroDivision
    else .ok (some (smul (1 / (c1.1 * c3.2 - c3.1 * c1.2)) (add (smul (-c3.1) r1) (smul c1.1 r3))))

/-- `N` of Gibbs' method. gibbs.py:55. -/
noncomputable def gibbsN (r1 r2 r3 : V3) : V3 :=
  add (add (smul (norm r1) (cross r2 r3)) (smul (norm r2) (cross r3 r1))) (smul (norm r3) (cross r1 r2))

/-- `D` of Gibbs' method. gibbs.py:57. -/
def gibbsD (r1 r2 r3 : V3) : V3 := add (add (cross r1 r2) (cross r2 r3)) (cross r3 r1)

/-- `S` of Gibbs' method. gibbs.py:59. -/
noncomputable def gibbsS (r1 r2 r3 : V3) : V3 :=
  add (add (smul (norm r2 - norm r3) r1) (smul (norm r3 - norm r1) r2)) (smul (norm r1 - norm r2) r3)

/-- `calcGibbs`: the Sun's gravitational parameter is the only one it knows. gibbs.py:10-64. -/
noncomputable def calcGibbs (r1 r2 r3 : V3) : Option V3 :=
  let n := gibbsN r1 r2 r3
  let d := gibbsD r1 r2 r3
  if norm n = 0 ∨ norm d = 0 ∨ norm r2 = 0 then none
  else
    let l := Real.sqrt (MU / norm n / norm d)
    some (add (smul (l / norm r2) (cross d r2)) (smul l (gibbsS r1 r2 r3)))

/-- `calcHerrickGibbs`. herrick_gibbs.py:10-62. -/
noncomputable def calcHerrickGibbs (r1 r2 r3 : V3) (t1 t2 t3 : ℝ) : Option V3 :=
  let t31 := t3 - t1
  let t32 := t3 - t2
  let t21 := t2 - t1
  if t31 = 0 ∨ t32 = 0 ∨ t21 = 0 ∨ norm r1 = 0 ∨ norm r2 = 0 ∨ norm r3 = 0 then none
  else some (add (add
    (smul (-t32 * (1 / (t21 * t31) + MU / (12 * norm r1 ^ 3))) r1)
    (smul ((t32 - t21) * (1 / (t21 * t32) + MU / (12 * norm r2 ^ 3))) r2))
    (smul (t21 * (1 / (t32 * t31) + MU / (12 * norm r3 ^ 3))) r3))

/-- An initial orbit: epoch and heliocentric ecliptic state. Used for gauss.py:268-312, 316-318. -/
structure Iorbit where
  epoch : ℝ
  r : V3
  v : V3

/-- The coefficients of the polynomial in the heliocentric distance, highest degree first. gauss.py:245-257. -/
noncomputable def poly (c0 h0 q2 cosE : ℝ) : List ℝ :=
  [c0 ^ 2, 0, -(q2 ^ 2) * (h0 ^ 2 + 2 * c0 * h0 * cosE + c0 ^ 2), 0, 0, 2 * q2 ^ 5 * (h0 + c0 * cosE), 0, 0, -(q2 ^ 8)]

/-- The velocity by the method asked for. gauss.py:284-293. -/
noncomputable def velocity (method : String) (r1 r2 r3 : V3) (t1 t2 t3 : ℝ) : Except PyErr (Option V3) :=
  if method = "gauss" then calcGauss r1 r2 r3 t1 t2 t3
  else if method = "gibbs" then .ok (calcGibbs r1 r2 r3)
  else if method = "herrick+gibbs" then .ok (calcHerrickGibbs r1 r2 r3 t1 t2 t3)
  else .error .valueError

/-- The three observations: unit vectors towards the object, positions of the observer, times.
Used for gauss.py:268-312, 316-318. -/
structure Obs where
  u1 : V3
  u2 : V3
  u3 : V3
  q1 : V3
  q2 : V3
  q3 : V3
  t1 : ℝ
  t2 : ℝ
  t3 : ℝ

/-- The body of the loop over the roots: `none`, no orbit from this root. A velocity that is not finite passes the comparisons or not,
and is removed at the end if it does. gauss.py:268-312, 316-318. -/
noncomputable def candidate (method : String) (lightTime : Bool) (mu : ℝ) (o : Obs) (r : ℝ) : Except PyErr (Option Iorbit) :=
  match calcLambdas r (o.t3 - o.t1) (o.t3 - o.t2) (o.t2 - o.t1) mu with
  | .error e => .error e
  | .ok l =>
    match calcRhos l.1 l.2 o.q1 o.q2 o.q3 o.u1 o.u2 o.u3 (calcV o.u1 o.u2 o.u3) with
    | .error e => .error e
    | .ok rho =>
      if dot rho.2.1 o.u2 < 0 then .ok none
      else
        match velocity method (add o.q1 rho.1) (add o.q2 rho.2.1) (add o.q3 rho.2.2) o.t1 o.t2 o.t3 with
        | .error e => .error e
        | .ok none => .ok none
        | .ok (some v) =>
          let r2 := add o.q2 rho.2.1
          if norm v ≥ C then .ok none
          else if norm r2 > 300 ∨ norm v > 1 then .ok none
          else .ok (some ⟨if lightTime then o.t2 - norm (sub r2 o.q2) / C else o.t2, r2, v⟩)

/-- The loop over the roots. gauss.py:265-312. -/
noncomputable def candidates (method : String) (lightTime : Bool) (mu : ℝ) (o : Obs) : List ℝ → Except PyErr (List Iorbit)
  | [] => .ok []
  | r :: rs =>
    match candidate method lightTime mu o r with
    | .error e => .error e
    | .ok c =>
      match candidates method lightTime mu o rs with
      | .error e => .error e
      | .ok l => .ok (c.toList ++ l)

/-- `gaussIOD`. `roots` stands for `numpy.roots`: real and imaginary parts of the roots. The transformation of the angles to unit
vectors of the ecliptic frame is not repeated here. `none` stands for the empty array that is returned instead of an orbit table. With
the observer at the Sun the angle is NaN, and `numpy.roots` raises LinAlgError, a ValueError. gauss.py:152-337. -/
noncomputable def gaussIOD (roots : List ℝ → List (ℝ × ℝ)) (method : String) (lightTime : Bool) (mu : ℝ) (o : Obs) :
    Except PyErr (Option (List Iorbit)) :=
  let t31 := o.t3 - o.t1
  let t32 := o.t3 - o.t2
  let t21 := o.t2 - o.t1
  let a := calcA o.q1 o.q2 o.q3 o.u1 o.u3 t31 t32 t21
  let b := calcB o.q1 o.q3 o.u1 o.u3 t31 t32 t21 mu
  let v := calcV o.u1 o.u2 o.u3
  if b = 0 then .error .zeroDivision
  else if norm o.q2 = 0 then .error .valueError
  else
    let cosE := dot o.q2 o.u2 / norm o.q2
    let c0 := v * t31 * norm o.q2 ^ 4 / b
    let h0 := -a / b
    let rs := ((roots (poly c0 h0 (norm o.q2) cosE)).filter fun z => decide (z.2 = 0 ∧ 0 ≤ z.1)).map Prod.fst
    if rs.length = 0 then .ok none
    else
      match candidates method lightTime mu o rs with
      | .error e => .error e
      | .ok l => .ok (some l)

end Verif.Gauss
