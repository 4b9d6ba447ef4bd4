import Verif.Basic
import Verif.Eval.Model
import Mathlib.LinearAlgebra.Matrix.NonsingularInverse
import Mathlib.Analysis.SpecialFunctions.Pow.Real

/-! # Model of `fit_least_squares` (`src/adam_core/orbit_determination/differential_correction.py`)

Predictions (`predict`), residuals (`res`) and the minimiser of scipy (`solver`) are arbitrary functions. Real numbers are
exact. `evaluate_orbits` is the model of `Verif.Eval`. -/

namespace Verif.Lsq

open Verif Eval

/-- Time scales. Used for differential_correction.py:56, 178. -/
inductive Scale
  | tdb
  | utc
  | tt
  deriving DecidableEq

/-- Origins of coordinates: the Sun or any other. Used for differential_correction.py:57, 182. -/
inductive Center
  | sun
  | other (n : Nat)
  deriving DecidableEq

/-- Reference frames. Used for differential_correction.py:58, 183. -/
inductive Frame
  | ecliptic
  | equatorial
  deriving DecidableEq

/-- Cartesian coordinates of one orbit: values, time as MJD with its scale, origin, frame, covariance (`none`: missing or NaN).
Used for differential_correction.py:48-60, 168-185. The time is an exact number of days: the rounding of `mjd()` and `from_mjd` is
not modelled here (it is in `Verif.Time`). -/
structure State where
  values : Fin 6 → ℝ
  mjd : ℚ
  scale : Scale
  center : Center
  frame : Frame
  cov : Option (Matrix (Fin 6) (Fin 6) ℝ)

/-- Keyword arguments of `scipy.optimize.least_squares`. Used for differential_correction.py:127-148. -/
inductive Key
  | xtol
  | ftol
  | gtol
  | jac
  | xScale
  | bounds
  | args
  | other (n : Nat)
  deriving DecidableEq

/-- Values of keyword arguments. `unbounded` is the pair of arrays of infinities. Used for differential_correction.py:127-148. -/
inductive Value
  | number (q : ℚ)
  | text (s : String)
  | unbounded
  | other (n : Nat)
  deriving DecidableEq

/-- A dictionary. Used for differential_correction.py:127-148. -/
abbrev Kwargs := List (Key × Value)

/-- `if key not in kwargs: kwargs[key] = value`. differential_correction.py:128-142. -/
def setDefault (kwargs : Kwargs) (key : Key) (value : Value) : Kwargs :=
  if kwargs.any fun e => decide (e.1 = key) then kwargs else kwargs ++ [(key, value)]

/-- The keyword arguments passed on. differential_correction.py:127-148. The warning about `args` is not modelled. -/
def options (kwargs : Kwargs) : Kwargs :=
  let kwargs := setDefault kwargs .xtol (.number (1 / 10 ^ 12))
  let kwargs := setDefault kwargs .ftol (.number (1 / 10 ^ 12))
  let kwargs := setDefault kwargs .gtol (.number (1 / 10 ^ 12))
  let kwargs := setDefault kwargs .jac (.text "2-point")
  let kwargs := setDefault kwargs .xScale (.text "jac")
  let kwargs := setDefault kwargs .bounds .unbounded
  kwargs.filter fun e => !decide (e.1 = .args)

/-- What the minimiser returns: the state, the rows of the Jacobian (one for every residual), the number of evaluations, whether it
succeeded and its status. Used for differential_correction.py:151-157, 197-201. -/
structure Solution where
  x : Fin 6 → ℝ
  jac : List (Fin 6 → ℝ)
  nfev : Nat
  success : Bool
  status : Int

/-- The outside world. `predict` is the ephemeris of a propagator, `res` the residual of one observation, `solver` is
`scipy.optimize.least_squares`: it gets the function, the first state and the keyword arguments.
Used for differential_correction.py:61-64, 151. -/
structure Env (I N Y Z : Type) where
  predict : State → ℤ ×ₗ ℤ → I → Z
  res : Y → Z → Res ℝ
  solver : ((Fin 6 → ℝ) → Except PyErr (List ℝ)) → (Fin 6 → ℝ) → Kwargs → Except PyErr Solution

/-- The orbit whose residuals are computed: heliocentric ecliptic, in TDB, without covariance. differential_correction.py:48-60. -/
def trial (state : Fin 6 → ℝ) (mjd : ℚ) : State := ⟨state, mjd, .tdb, .sun, .ecliptic, none⟩

/-- `residual_function`. differential_correction.py:21-70. The id of the orbit is random in the code and not used; here it is any id.
The comparison of origins of tables without rows raises ValueError (residuals.py:211-214). -/
noncomputable def residualFunction {I N Y Z : Type} [LinearOrder I] (E : Env I N Y Z) (id : I) (mjd : ℚ)
    (observations : List (Obs I N Y)) (state : Fin 6 → ℝ) : Except PyErr (List ℝ) :=
  if observations.isEmpty then .error .valueError
  else .ok (List.zipWith (fun (b : Obs I N Y) (e : Eph I Z) => Real.sqrt (E.res b.coord e.pred).chi2) observations
    (ephemeris E.predict [⟨id, trial state mjd⟩] observations))

/-- The observations that are not to be ignored. differential_correction.py:115-119. -/
def included {I N Y : Type} [DecidableEq N] (observations : List (Obs I N Y)) (ignore : Option (List N)) : List (Obs I N Y) :=
  match ignore with
  | some l => applyMask observations (observations.map fun b => !decide (b.id ∈ l))
  | none => observations

/-- `jac.T @ jac`. differential_correction.py:157. -/
def normal (jac : List (Fin 6 → ℝ)) : Matrix (Fin 6) (Fin 6) ℝ := Matrix.of fun i j => (jac.map fun r => r i * r j).sum

/-- `np.linalg.inv` of it, NaN when it is singular. differential_correction.py:156-164. In exact arithmetic; rounding can make a
singular matrix look regular. -/
noncomputable def covariance (jac : List (Fin 6 → ℝ)) : Option (Matrix (Fin 6) (Fin 6) ℝ) :=
  open Classical in if IsUnit (normal jac) then some (normal jac)⁻¹ else none

/-- The orbit that is evaluated and returned. differential_correction.py:153-155, 166-185. -/
noncomputable def solved (o : State) (s : Solution) : State := ⟨s.x, o.mjd, .tdb, o.center, o.frame, covariance s.jac⟩

/-- A row of the returned `FittedOrbits`. Used for differential_correction.py:197-201. -/
structure FitRow (I : Type) where
  fitted : Fitted I State ℝ
  iterations : Nat
  success : Bool
  status : Int

/-- A row of the returned `FittedOrbitMembers`. Used for differential_correction.py:202-204. -/
structure MemberRow (I N : Type) where
  member : Member I N (Res ℝ)
  solution : Bool

/-- `fit_least_squares`. differential_correction.py:73-206. The object id is part of what `id` stands for. -/
noncomputable def fit {I N Y Z : Type} [LinearOrder I] [DecidableEq N] (E : Env I N Y Z) (orbits : List (Orb I State))
    (observations : List (Obs I N Y)) (ignore : Option (List N)) (kwargs : Kwargs) :
    Except PyErr (List (FitRow I) × List (MemberRow I N)) :=
  match orbits with
  | [o] =>
    match E.solver (residualFunction E o.id o.state.mjd (included observations ignore)) o.state.values (options kwargs) with
    | .error e => .error e
    | .ok s =>
      match evaluate E.predict E.res [⟨o.id, solved o.state s⟩] observations 6 (ignore.getD []) with
      | .error e => .error e
      | .ok (fitted, members) =>
        .ok (fitted.map fun f => ⟨f, s.nfev, s.success, s.status⟩, members.map fun m => ⟨m, !m.outlier⟩)
  | _ => .error .assertionError

end Verif.Lsq
