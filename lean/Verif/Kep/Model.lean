import Verif.V3
import Verif.Basic
import Mathlib.Analysis.SpecialFunctions.Trigonometric.Inverse
import Mathlib.Analysis.SpecialFunctions.Complex.Arg
import Mathlib.Analysis.SpecialFunctions.Trigonometric.Arctan
import Mathlib.Analysis.SpecialFunctions.Artanh
import Mathlib.Analysis.SpecialFunctions.Pow.Real

/-! # Keplerian elements (dynamics/kepler.py, dynamics/barker.py, coordinates/transform.py)

Numbers are exact reals instead of float64. `none` is NaN (or, for the apoapsis distance and the period, infinity); it appears
where the code divides by zero or leaves the domain of an inverse function. -/

namespace Verif.Kep

open Real Classical

/-! ### anomalies -/

/-- `x % m` for positive `m`. Used for kepler.py:171, 180, 189. -/
noncomputable def pyMod (x m : ℝ) : ℝ := x - m * ⌊x / m⌋

/-- `jnp.arctan2(y, x)`. Used for kepler.py:170-175. -/
noncomputable def arctan2 (y x : ℝ) : ℝ := Complex.arg ⟨x, y⟩

/-- `nu_`. kepler.py:171, 180, 189. -/
noncomputable def wrapNu (nu : ℝ) : ℝ := if nu ≥ 2 * π then pyMod nu (2 * π) else nu

/-- `jnp.where(M < 0.0, M + 2 * jnp.pi, M)`. kepler.py:174, 183, 192. -/
noncomputable def lift (m : ℝ) : ℝ := if m < 0 then m + 2 * π else m

/-- `_calc_elliptical_anomalies`. kepler.py:170-175. -/
noncomputable def ellipticalAnomalies (nu e : ℝ) : ℝ × ℝ :=
  let nu' := wrapNu nu
  let E := arctan2 (√(1 - e ^ 2) * sin nu') (e + cos nu')
  (E, lift (E - e * sin E))

/-- `_calc_hyperbolic_anomalies`; no value where the tangent or its `arctanh` has none. kepler.py:179-184. -/
noncomputable def hyperbolicAnomalies (nu e : ℝ) : Option (ℝ × ℝ) :=
  let nu' := wrapNu nu
  let x := √((e - 1) / (e + 1)) * tan (nu' / 2)
  if cos (nu' / 2) = 0 ∨ ¬ |x| < 1 then none
  else
    let H := 2 * artanh x
    some (H, lift (e * sinh H - H))

/-- `_calc_parabolic_anomalies`. kepler.py:188-193. -/
noncomputable def parabolicAnomalies (nu : ℝ) : ℝ × ℝ :=
  let nu' := wrapNu nu
  let D := arctan (nu' / 2)
  (D, lift (D + D ^ 3 / 3))

/-- `calc_mean_anomaly`. kepler.py:139-166. -/
noncomputable def calcMeanAnomaly (nu e : ℝ) : Option ℝ :=
  if e < 1 then some (ellipticalAnomalies nu e).2
  else if e > 1 then (hyperbolicAnomalies nu e).map Prod.snd
  else some (parabolicAnomalies nu).2

/-- The loop state of `solve_kepler`: the anomaly, `ratio`, `iterations`. kepler.py:227-231. -/
structure Iter where
  x : ℝ
  ratio : ℝ
  iterations : Nat

/-- One Newton-Raphson step for a function `f` with derivative `fp`. kepler.py:242-253, 265-276. -/
noncomputable def step (f fp : ℝ → ℝ) (p : Iter) : Iter := ⟨p.x - f p.x / fp p.x, f p.x / fp p.x, p.iterations + 1⟩

/-- `lax.while_loop`, which executes the body at most `fuel` times. kepler.py:280-284, 290, 293-297. -/
noncomputable def loop (f fp : ℝ → ℝ) (tol : ℝ) (maxIter : Nat) : Nat → Iter → Iter
  | 0, p => p
  | fuel + 1, p => if |p.ratio| > tol ∧ p.iterations ≤ maxIter then loop f fp tol maxIter fuel (step f fp p) else p

/-- The Newton-Raphson iteration of `solve_kepler` from the mean anomaly. kepler.py:227-304. -/
noncomputable def iterate (f fp : ℝ → ℝ) (m : ℝ) (maxIter : Nat) (tol : ℝ) : Iter :=
  loop f fp tol maxIter (maxIter + 1) ⟨m, 1e15, 0⟩

/-- `f` and `fp` of the elliptic case. kepler.py:242-243. -/
noncomputable def ellF (e m E : ℝ) : ℝ := E - e * sin E - m
/-- Used for kepler.py:288-304. -/
noncomputable def ellFp (e E : ℝ) : ℝ := 1 - e * cos E

/-- `f` and `fp` of the hyperbolic case. kepler.py:265-266. -/
noncomputable def hypF (e m F : ℝ) : ℝ := e * sinh F - F - m
/-- Used for kepler.py:288-304. -/
noncomputable def hypFp (e F : ℝ) : ℝ := e * cosh F - 1

/-- The last Newton-Raphson state of `solve_kepler`. kepler.py:288-304. -/
noncomputable def solveIter (e m : ℝ) (maxIter : Nat) (tol : ℝ) : Iter :=
  if e < 1 then iterate (ellF e m) (ellFp e) m maxIter tol
  else if e > 1 then iterate (hypF e m) (hypFp e) m maxIter tol
  else ⟨m, 1e15, 0⟩

/-- `solve_barker`. barker.py:8-33. -/
noncomputable def solveBarker (m : ℝ) : ℝ :=
  2 * arctan ((3 * m + √((3 * m) ^ 2 + 1)) ^ ((1 : ℝ) / 3) - (3 * m + √((3 * m) ^ 2 + 1)) ^ (-(1 : ℝ) / 3))

/-- The true anomaly before it is wrapped. kepler.py:306-326. -/
noncomputable def rawNu (e m x : ℝ) : ℝ :=
  if e < 1 then 2 * arctan2 (√(1 + e) * sin (x / 2)) (√(1 - e) * cos (x / 2))
  else if e > 1 then 2 * arctan (√(e + 1) * sinh (x / 2) / (√(e - 1) * cosh (x / 2)))
  else solveBarker m

/-- The wrap to `[0, 2π)`. kepler.py:329-330. -/
noncomputable def wrapTrue (nu : ℝ) : ℝ :=
  let nu := if nu < 0 then nu + 2 * π else nu
  if nu ≥ 2 * π then pyMod nu (2 * π) else nu

/-- `solve_kepler`. kepler.py:197-331. -/
noncomputable def solveKepler (e m : ℝ) (maxIter : Nat) (tol : ℝ) : ℝ :=
  wrapTrue (rawNu e m (solveIter e m maxIter tol).x)

/-- `calc_mean_motion`. kepler.py:118-135. -/
noncomputable def calcMeanMotion (a mu : ℝ) : ℝ := √(mu / |a| ^ 3)

/-! ### elements to states -/

/-- `FLOAT_TOLERANCE`. transform.py:94. -/
noncomputable def tolerance : ℝ := 1e-15

/-- `(e > (1.0 - FLOAT_TOLERANCE)) & (e < (1.0 + FLOAT_TOLERANCE))`. transform.py:687, 694, 708, 923. -/
def parabolic (e : ℝ) : Prop := e > 1 - tolerance ∧ e < 1 + tolerance

noncomputable instance (e : ℝ) : Decidable (parabolic e) := by unfold parabolic; infer_instance

/-- `jnp.radians`. Used for transform.py:864-987. -/
noncomputable def radians (x : ℝ) : ℝ := x * (π / 180)

/-- `jnp.degrees`. Used for transform.py:1355-1448. -/
noncomputable def degrees (x : ℝ) : ℝ := x * (180 / π)

/-- `P3 @ P2 @ P1 @ w` for angles in radians. transform.py:943-975. -/
noncomputable def rotate (i raan ap : ℝ) (w : V3) : V3 :=
  let w1 : V3 := ⟨cos ap * w.x + -sin ap * w.y + 0 * w.z, sin ap * w.x + cos ap * w.y + 0 * w.z, 0 * w.x + 0 * w.y + 1 * w.z⟩
  let w2 : V3 := ⟨1 * w1.x + 0 * w1.y + 0 * w1.z, 0 * w1.x + cos i * w1.y + -sin i * w1.z, 0 * w1.x + sin i * w1.y + cos i * w1.z⟩
  ⟨cos raan * w2.x + -sin raan * w2.y + 0 * w2.z, sin raan * w2.x + cos raan * w2.y + 0 * w2.z, 0 * w2.x + 0 * w2.y + 1 * w2.z⟩

/-- The part of `_keplerian_to_cartesian_p` after the true anomaly, for angles in radians. transform.py:930-987. -/
noncomputable def stateOfNu (mu p e i raan ap nu : ℝ) : V3 × V3 :=
  (rotate i raan ap ⟨p * cos nu / (1 + e * cos nu), p * sin nu / (1 + e * cos nu), 0⟩,
   rotate i raan ap ⟨-√(mu / p) * sin nu, √(mu / p) * (e + cos nu), 0⟩)

/-- Six numbers, the last four in degrees: size, eccentricity, inclination, node, argument of periapsis, mean anomaly.
Used for transform.py:864-987. -/
structure Six where
  size : ℝ
  e : ℝ
  i : ℝ
  raan : ℝ
  ap : ℝ
  m : ℝ

/-- The true anomaly of `_keplerian_to_cartesian_p`. transform.py:922-928. -/
noncomputable def trueAnomaly (e m : ℝ) (maxIter : Nat) (tol : ℝ) : ℝ :=
  if parabolic e then solveBarker m else solveKepler e m maxIter tol

/-- `_keplerian_to_cartesian_p`. transform.py:864-987. -/
noncomputable def keplerianToCartesianP (k : Six) (mu : ℝ) (maxIter : Nat) (tol : ℝ) : V3 × V3 :=
  stateOfNu mu k.size k.e (radians k.i) (radians k.raan) (radians k.ap) (trueAnomaly k.e (radians k.m) maxIter tol)

/-- `_keplerian_to_cartesian_a`; no value for parabolic orbits. transform.py:1000-1070. -/
noncomputable def keplerianToCartesianA (k : Six) (mu : ℝ) (maxIter : Nat) (tol : ℝ) : Option (V3 × V3) :=
  if parabolic k.e then none
  else some (keplerianToCartesianP { k with size := k.size * (1 - k.e ^ 2) } mu maxIter tol)

/-- `keplerian_to_cartesian`: the checks, then every row. A row without a value is a row of NaN. The chunks of rows are those of
C19 and are left out, but for the concatenation of no chunks at all, which is a ValueError. transform.py:1165-1263. -/
noncomputable def keplerianToCartesian (rows : List Six) (mu : ℝ) (maxIter : Nat) (tol : ℝ) : Except PyErr (List (Option (V3 × V3))) :=
  if ∃ k ∈ rows, k.e > 1 + tolerance ∧ k.size > 0 then Except.error .valueError
  else if ∃ k ∈ rows, k.e < 1 - tolerance ∧ k.size < 0 then Except.error .valueError
  else if rows = [] then Except.error .valueError
  else Except.ok (rows.map fun k => keplerianToCartesianA k mu maxIter tol)

/-- `_keplerian_to_cartesian_q`. transform.py:1083-1153. -/
noncomputable def keplerianToCartesianQ (k : Six) (mu : ℝ) (maxIter : Nat) (tol : ℝ) : V3 × V3 :=
  keplerianToCartesianP { k with size := if parabolic k.e then 2 * k.size else k.size / (1 - k.e) * (1 - k.e ^ 2) } mu maxIter tol

/-- `_cometary_to_cartesian`; the last number of the argument is the time of periapsis passage. transform.py:1355-1448. -/
noncomputable def cometaryToCartesian (k : Six) (t0 mu : ℝ) (maxIter : Nat) (tol : ℝ) : V3 × V3 :=
  let n := if parabolic k.e then √(mu / (2 * k.size ^ 3)) else √(mu / |k.size / (1 - k.e)| ^ 3)
  let dtp := k.m - t0
  let m := if dtp > 0 then 2 * π - dtp * n else -dtp * n
  keplerianToCartesianQ { k with m := degrees m } mu maxIter tol

/-! ### states to elements -/

/-- `jnp.arccos(x / y)`. Used for transform.py:633-681. -/
noncomputable def acosDiv (x y : ℝ) : Option ℝ := if y = 0 ∨ ¬ |x / y| ≤ 1 then none else some (arccos (x / y))

/-- The thirteen numbers of `_cartesian_to_keplerian`; angles in degrees. Used for transform.py:563-747. -/
structure Elements where
  a : Option ℝ
  p : ℝ
  q : ℝ
  Q : Option ℝ
  e : ℝ
  i : Option ℝ
  raan : Option ℝ
  ap : Option ℝ
  m : Option ℝ
  nu : Option ℝ
  n : ℝ
  P : Option ℝ
  tp : Option ℝ

/-- `e_vec`. transform.py:648. -/
noncomputable def eVec (mu : ℝ) (r v : V3) : V3 :=
  let u := V3.sub (V3.smul (V3.norm v ^ 2 - mu / V3.norm r) r) (V3.smul (V3.dot r v) v)
  ⟨u.x / mu, u.y / mu, u.z / mu⟩

/-- The four angles in radians: inclination, node, argument of periapsis, true anomaly. transform.py:633-681. -/
structure Angles where
  i : Option ℝ
  raan : Option ℝ
  ap : Option ℝ
  nu : Option ℝ

/-- The vector that points to the ascending node. transform.py:642. -/
def nodeVec (h : V3) : V3 := V3.cross ⟨0, 0, 1⟩ h

/-- The angles of `_cartesian_to_keplerian`. The test that sets the node of flat orbits to zero is false for NaN.
transform.py:633-681. -/
noncomputable def anglesOf (mu : ℝ) (r v : V3) : Angles :=
  let h := V3.cross r v
  let n := nodeVec h
  let ev := eVec mu r v
  let e := V3.norm ev
  let i := acosDiv h.z (V3.norm h)
  let raan := (acosDiv n.x (V3.norm n)).map fun x => if n.y < 0 then 2 * π - x else x
  let raan := match i with
    | some i => if i < tolerance ∨ |i - 2 * π| < tolerance then some 0 else raan
    | none => raan
  let ap := (acosDiv (V3.dot n ev) (V3.norm n * e)).map fun x => if ev.z < 0 then 2 * π - x else x
  let ap := if |e| < tolerance then some 0 else ap
  let nu := (acosDiv (V3.dot ev r) (e * V3.norm r)).map fun x => if V3.dot r v < 0 then 2 * π - x else x
  ⟨i, raan, ap, nu⟩

/-- `_cartesian_to_keplerian`. transform.py:563-747. -/
noncomputable def cartesianToKeplerian (r v : V3) (t0 mu : ℝ) : Elements :=
  let sme := V3.norm v ^ 2 / 2 - mu / V3.norm r
  let h := V3.cross r v
  let e := V3.norm (eVec mu r v)
  let p := V3.norm h ^ 2 / mu
  let g := anglesOf mu r v
  let a := mu / (-2 * sme)
  let q := if parabolic e then p / 2 else a * (1 - e)
  let m := g.nu.bind fun nu => calcMeanAnomaly nu e
  let n := if parabolic e then √(mu / (2 * q ^ 3)) else calcMeanMotion a mu
  let P := if e < 1 - tolerance then some (2 * π / n) else none
  let tp := m.map fun m => t0 + (if m > π ∧ e < 1 - tolerance then 2 * π / n - m / n else -m / n)
  { a := if parabolic e then none else some a, p := p, q := q, Q := if e < 1 then some (a * (1 + e)) else none, e := e,
    i := g.i.map degrees, raan := g.raan.map degrees, ap := g.ap.map degrees, m := m.map degrees, nu := g.nu.map degrees,
    n := degrees n, P := P, tp := tp }

/-- `_cartesian_to_keplerian6`. transform.py:760-796. -/
noncomputable def six (k : Elements) : Option Six :=
  match k.a, k.i, k.raan, k.ap, k.m with
  | some a, some i, some raan, some ap, some m => some ⟨a, k.e, i, raan, ap, m⟩
  | _, _, _, _, _ => none

/-- `_cartesian_to_cometary`. transform.py:1267-1302. -/
noncomputable def cometary (k : Elements) : Option Six :=
  match k.i, k.raan, k.ap, k.tp with
  | some i, some raan, some ap, some tp => some ⟨k.q, k.e, i, raan, ap, tp⟩
  | _, _, _, _ => none

end Verif.Kep
