import Verif.V3
import Verif.Basic
import Mathlib.Analysis.SpecialFunctions.Trigonometric.Inverse
import Mathlib.Analysis.SpecialFunctions.Arsinh
import Mathlib.Analysis.SpecialFunctions.Pow.Real

/-! # Lambert's problem (dynamics/lambert.py)

Numbers are exact reals instead of float64. A division by zero gives zero here and an infinity or NaN there; the theorems about
the velocities hold for whatever number the iteration ends with. NaN velocities are `none`. -/

namespace Verif.Lambert

open Classical

/-- One pass of the loop of `_hyp2f1b`: the term and the sum. lambert.py:31-38. -/
noncomputable def hypStep (x : ℝ) (p : ℝ × ℝ) (i : Nat) : ℝ × ℝ :=
  let term := p.1 * (3 + i) * (1 + i) / (5 / 2 + i) * x / (i + 1)
  (term, p.2 + term)

/-- `_hyp2f1b` for an argument below 1 (from 1 on it is infinite; `hyp_argument` shows that it is called with arguments below 1).
lambert.py:25-53. -/
noncomputable def hyp2f1b (x : ℝ) : ℝ := ((List.range 100).foldl (hypStep x) (1, 1)).2

/-- `_compute_y`. lambert.py:57-59. -/
noncomputable def computeY (x ll : ℝ) : ℝ := √(1 - ll ^ 2 * (1 - x ^ 2))

/-- `_compute_psi`. lambert.py:63-80. -/
noncomputable def computePsi (x y ll : ℝ) : ℝ :=
  if x < 1 then Real.arccos (max (-1) (min 1 (x * y + ll * (1 - x ^ 2))))
  else if x > 1 then Real.arsinh ((y - x * ll) * √(x ^ 2 - 1))
  else 0

/-- `use_small_M`. lambert.py:102. -/
def useSmall (x : ℝ) (M : Nat) : Prop := M = 0 ∧ √0.6 < x ∧ x < √1.4

/-- The time of flight before `T0` is subtracted. lambert.py:84-103. -/
noncomputable def timeOfFlight (x y ll : ℝ) (M : Nat) : ℝ :=
  if useSmall x M then
    let eta := y - ll * x
    let s1 := (1 - ll - x * eta) * 0.5
    let q := 4 / 3 * hyp2f1b s1
    (eta ^ 3 * q + 4 * ll * eta) * 0.5
  else ((computePsi x y ll + M * Real.pi) / √|1 - x ^ 2| - x + ll * y) / (1 - x ^ 2)

/-- `_tof_equation_y`. lambert.py:84-106. -/
noncomputable def tofEquationY (x y T0 ll : ℝ) (M : Nat) : ℝ := timeOfFlight x y ll M - T0

/-- `_tof_equation`. lambert.py:110-113. -/
noncomputable def tofEquation (x T0 ll : ℝ) (M : Nat) : ℝ := tofEquationY x (computeY x ll) T0 ll M

/-- `_tof_equation_p`. lambert.py:117-119. -/
noncomputable def tofEquationP (x y T ll : ℝ) : ℝ := (3 * T * x - 2 + 2 * ll ^ 3 * x / y) / (1 - x ^ 2)

/-- `_tof_equation_p2`. lambert.py:123-125. -/
noncomputable def tofEquationP2 (x y T dT ll : ℝ) : ℝ :=
  (3 * T + 5 * x * dT + 2 * (1 - ll ^ 2) * ll ^ 3 / y ^ 3) / (1 - x ^ 2)

/-- `_tof_equation_p3`. lambert.py:129-131. -/
noncomputable def tofEquationP3 (x y dT ddT ll : ℝ) : ℝ :=
  (7 * x * ddT + 8 * dT - 6 * (1 - ll ^ 2) * ll ^ 5 * x / y ^ 5) / (1 - x ^ 2)

/-- `_initial_guess`. lambert.py:135-172. -/
noncomputable def initialGuess (T ll : ℝ) (M : Nat) (lowPath : Bool) : ℝ :=
  let T0 := Real.arccos ll + ll * √(1 - ll ^ 2) + M * Real.pi
  let T1 := 2 * (1 - ll ^ 3) / 3
  let single :=
    if T ≥ T0 then (T0 / T) ^ ((2 : ℝ) / 3) - 1
    else if T < T1 then 5 / 2 * T1 / T * (T1 - T) / (1 - ll ^ 5) + 1
    else Real.exp (Real.log 2 * Real.log (T / T0) / Real.log (T1 / T0)) - 1
  let a := ((M * Real.pi + Real.pi) / (8 * T)) ^ ((2 : ℝ) / 3)
  let b := ((8 * T) / (M * Real.pi)) ^ ((2 : ℝ) / 3)
  let x0l := (a - 1) / (a + 1)
  let x0r := (b - 1) / (b + 1)
  if M = 0 then single else if lowPath then max x0l x0r else min x0l x0r

/-- One Householder step. lambert.py:179-209. -/
noncomputable def householderStep (p0 T0 ll : ℝ) (M : Nat) : ℝ :=
  let y := computeY p0 ll
  let fval := tofEquationY p0 y T0 ll M
  let T := fval + T0
  let fder := tofEquationP p0 y T ll
  let fder2 := tofEquationP2 p0 y T fder ll
  let fder3 := tofEquationP3 p0 y fder fder2 ll
  let num := fder ^ 2 - fval * fder2 / 2
  let den := fder * (fder ^ 2 - fval * fder2) + fder3 * fval ^ 2 / 6
  let safe : ℝ := if |den| < 1e-15 then (SignType.sign den : ℝ) * 1e-15 else den
  let delta := fval * (num / safe)
  let maxStep := max 0.1 |p0|
  p0 - max (-maxStep) (min maxStep delta)

/-- The while loop of `_householder`, from the state `(p0, p)`; the fuel is the number of iterations left. lambert.py:211-231. -/
noncomputable def householderLoop (T0 ll : ℝ) (M : Nat) (atol rtol : ℝ) : Nat → ℝ → ℝ → ℝ
  | 0, _, p => p
  | fuel + 1, p0, p =>
    if |p - p0| < rtol * |p0| + atol then p else householderLoop T0 ll M atol rtol fuel p (householderStep p T0 ll M)

/-- `_householder`. lambert.py:176-231. -/
noncomputable def householder (p0 T0 ll : ℝ) (M : Nat) (atol rtol : ℝ) (maxiter : Nat) : ℝ :=
  householderLoop T0 ll M atol rtol maxiter p0 (p0 * 1.1 + 0.01)

/-- One Halley step. lambert.py:272-283. -/
noncomputable def halleyStep (p0 T0 ll : ℝ) : ℝ :=
  let y := computeY p0 ll
  let fder := tofEquationP p0 y T0 ll
  let fder2 := tofEquationP2 p0 y T0 fder ll
  let fder3 := tofEquationP3 p0 y fder fder2 ll
  p0 - 2 * fder * fder2 / (2 * fder2 ^ 2 - fder * fder3)

/-- `_halley`. lambert.py:269-292. -/
noncomputable def halley (T0 ll atol rtol : ℝ) : Nat → ℝ → ℝ
  | 0, p0 => p0
  | fuel + 1, p0 =>
    if |halleyStep p0 T0 ll - p0| ≥ rtol * |p0| + atol then halley T0 ll atol rtol fuel (halleyStep p0 T0 ll) else p0

/-- The second result of `_compute_T_min`. lambert.py:235-265. -/
noncomputable def computeTMin (ll : ℝ) (M : Nat) (maxiter : Nat) (atol rtol : ℝ) : ℝ :=
  if |ll - 1| < 1e-10 then tofEquation 0 0 ll M
  else if M = 0 then 0
  else tofEquation (halley (tofEquation 0.1 0 ll M) ll atol rtol maxiter 0.1) 0 ll M

/-- `M_max`. lambert.py:300-314. -/
noncomputable def mMax (ll T : ℝ) (maxiter : Nat) (atol rtol : ℝ) : ℤ :=
  let m := ⌊T / Real.pi⌋
  let T00 := Real.arccos |ll| + |ll| * √(1 - ll ^ 2)
  if T < T00 + m * Real.pi ∧ m > 0 then if T < computeTMin ll m.toNat maxiter atol rtol then m - 1 else m else m

/-- `_find_xy`. lambert.py:296-333. -/
noncomputable def findXY (ll T : ℝ) (M maxiter : Nat) (atol rtol : ℝ) (lowPath : Bool) : Option (ℝ × ℝ) :=
  if |ll| < 1 ∧ (M : ℤ) ≤ mMax ll T maxiter atol rtol then
    let x := householder (initialGuess T ll M lowPath) T ll M atol rtol maxiter
    some (x, computeY x ll)
  else none

/-- What is computed from the two positions. Used for lambert.py:382-414. -/
structure Geometry where
  cNorm : ℝ
  r1Norm : ℝ
  r2Norm : ℝ
  s : ℝ
  ir1 : V3
  ir2 : V3
  ll : ℝ
  it1 : V3
  it2 : V3

/-- The first part of `izzo_lambert`. lambert.py:382-414. -/
noncomputable def geometry (r1 r2 : V3) (prograde : Bool) : Geometry :=
  let cNorm := V3.norm (V3.sub r2 r1)
  let r1Norm := V3.norm r1
  let r2Norm := V3.norm r2
  let s := (r1Norm + r2Norm + cNorm) * 0.5
  let ir1 := V3.smul (1 / r1Norm) r1
  let ir2 := V3.smul (1 / r2Norm) r2
  let ih := V3.cross ir1 ir2
  let ih := V3.smul (1 / (if V3.norm ih > 0 then V3.norm ih else 1)) ih
  let ll := √(1 - min 1 (cNorm / s))
  let ll := ll * (if ih.z < 0 then -1 else 1)
  let it1 := if ih.z < 0 then V3.cross ir1 ih else V3.cross ih ir1
  let it2 := if ih.z < 0 then V3.cross ir2 ih else V3.cross ih ir2
  let ll := if prograde then ll else -ll
  let it1 := if prograde then it1 else V3.smul (-1) it1
  let it2 := if prograde then it2 else V3.smul (-1) it2
  ⟨cNorm, r1Norm, r2Norm, s, ir1, ir2, ll, it1, it2⟩

/-- The last part of `izzo_lambert`. lambert.py:429-440. -/
noncomputable def velocities (mu : ℝ) (g : Geometry) (x y : ℝ) : V3 × V3 :=
  let gamma := √(mu * g.s / 2)
  let rho := (g.r1Norm - g.r2Norm) / g.cNorm
  let sigma := √(1 - rho ^ 2)
  let vr1 := gamma * ((g.ll * y - x) - rho * (g.ll * y + x)) / g.r1Norm
  let vr2 := -gamma * ((g.ll * y - x) + rho * (g.ll * y + x)) / g.r2Norm
  let vt1 := gamma * sigma * (y + g.ll * x) / g.r1Norm
  let vt2 := gamma * sigma * (y + g.ll * x) / g.r2Norm
  (V3.add (V3.smul vr1 g.ir1) (V3.smul vt1 g.it1), V3.add (V3.smul vr2 g.ir2) (V3.smul vt2 g.it2))

/-- `izzo_lambert`. lambert.py:337-450. -/
noncomputable def izzoLambert (r1 r2 : V3) (tof mu : ℝ) (M : Nat) (prograde lowPath : Bool) (maxiter : Nat) (atol rtol : ℝ) :
    Option (V3 × V3) :=
  let g := geometry r1 r2 prograde
  let T := √(2 * mu / g.s ^ 3) * tof
  match findXY g.ll T M maxiter atol rtol lowPath with
  | none => none
  | some (x, y) => some (velocities mu g x y)

end Verif.Lambert
