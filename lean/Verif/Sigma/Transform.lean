import Verif.Sigma.Model
import Mathlib.Analysis.Calculus.FDeriv.Basic

/-! # Transformation of covariances by sampling and by derivatives (coordinates/covariances.py, coordinates/jacobian.py)

Exact reals. Dimensions are at least two where numpy would otherwise drop an axis. -/

namespace Verif.Sigma.Transform

open Verif.Sigma Matrix

variable {D E : Nat}

/-! ### sampling -/

/-- The mean of a table of numbers, column by column. Used for covariances.py:444. -/
noncomputable def rowMean (xs : List (Vec E)) : Vec E := (1 / (xs.length : ℝ)) • xs.sum

/-- `np.cov(samples.T)`: sums of products divided by the number of rows less one; NaN for fewer than two rows. covariances.py:444. -/
noncomputable def npCov (xs : List (Vec E)) : Option (Mat E) :=
  if xs.length ≤ 1 then none
  else some (Matrix.of fun i j => (xs.map fun x => (x - rowMean xs) i * (x - rowMean xs) j).sum / (xs.length - 1))

/-- The loop over the rows, from row `k` on: `entropy k` is the state of the random generator when that row is drawn, as no seed is passed.
For at least two samples per row. covariances.py:440-444. -/
noncomputable def samplingLoop {σ : Type} (rvs : Vec D → Mat D → Nat → σ → List (Vec D)) (func : List (Vec D) → List (Vec E)) (numSamples : Nat)
    (entropy : Nat → σ) : Nat → List (Vec D × {c : Mat D // c.IsHermitian}) → Except PyErr (List (Option (Mat E)))
  | _, [] => .ok []
  | k, (x, c) :: rest => do
    let s ← sampleRandom rvs (entropy k) x c.1 c.2 numSamples none 1e-15
    let out ← samplingLoop rvs func numSamples entropy (k + 1) rest
    .ok (npCov (func s.samples) :: out)

/-- `transform_covariances_sampling`. Rows are paired by `zip`; `np.stack` of nothing is a ValueError. covariances.py:413-447. -/
noncomputable def transformSampling {σ : Type} (rvs : Vec D → Mat D → Nat → σ → List (Vec D)) (func : List (Vec D) → List (Vec E))
    (numSamples : Nat) (entropy : Nat → σ) (coords : List (Vec D)) (covs : List {c : Mat D // c.IsHermitian}) :
    Except PyErr (List (Option (Mat E))) :=
  match samplingLoop rvs func numSamples entropy 0 (coords.zip covs) with
  | .error e => .error e
  | .ok [] => .error .valueError
  | .ok out => .ok out

/-! ### derivatives -/

/-- The matrix of derivatives that `jax.jacfwd` gives where the function is differentiable. jacobian.py:53. -/
noncomputable def jacfwd (f : Vec D → Vec E) (x : Vec D) : Matrix (Fin E) (Fin D) ℝ := fun i j => fderiv ℝ f x (Pi.single j 1) i

/-- A value of a keyword argument: an array of rows, or one value. Used for jacobian.py:61. -/
inductive Value (A : Type)
  | rows (xs : List A)
  | one (a : A)

/-- What row `k` of `vmap` gets: the entry of a mapped argument, the whole of one that is not mapped. jacobian.py:55-61. -/
def Value.at {A : Type} (k : Nat) : Bool × Value A → Option (Value A)
  | (true, .rows xs) => (xs[k]?).map .one
  | (true, .one _) => none
  | (false, v) => some v

/-- A mapped argument has one entry for each of the `n` rows. jacobian.py:55-61. -/
def Value.fits {A : Type} (n : Nat) : Bool × Value A → Bool
  | (true, .rows xs) => xs.length == n
  | (true, .one _) => false
  | (false, _) => true

/-- A function of a row and further positional arguments, of which some must be given. Used for jacobian.py:12-68. -/
structure Func (A : Type) (D E : Nat) where
  required : Nat
  total : Nat
  run : List (Value A) → Vec D → Vec E

/-- `calc_jacobian`: the keyword arguments are passed by position, in the order in which they were written; their names are not looked at.
`mapped` says for the row argument and each further one whether it is mapped over; the row argument must be. An array of no rows is
refused by `vmap` only if another mapped one has rows. jacobian.py:12-68. -/
noncomputable def calcJacobian {A : Type} (f : Func A D E) (coords : List (Vec D)) (mapped : List Bool) (kwargs : List (List Char × Value A)) :
    Except PyErr (List (Matrix (Fin E) (Fin D) ℝ)) :=
  let args := kwargs.map (·.2)
  if mapped.length ≠ args.length + 1 ∨ mapped.head? ≠ some true then .error .valueError
  else if ¬ ((mapped.tail.zip args).all (Value.fits coords.length)) then .error .valueError
  else if args.length < f.required ∨ f.total < args.length then .error .typeError
  else .ok ((coords.zipIdx).map fun p => jacfwd (f.run ((mapped.tail.zip args).filterMap (Value.at p.2))) p.1)

/-- `transform_covariances_jacobian`, for as many covariances as rows. covariances.py:450-478. -/
noncomputable def transformJacobian {A : Type} (f : Func A D E) (coords : List (Vec D)) (covs : List (Mat D)) (mapped : List Bool)
    (kwargs : List (List Char × Value A)) : Except PyErr (List (Mat E)) :=
  match calcJacobian f coords mapped kwargs with
  | .error e => .error e
  | .ok js => if js.length ≠ covs.length then .error .valueError else .ok (List.zipWith (fun (J : Matrix (Fin E) (Fin D) ℝ) C => J * C * Jᵀ) js covs)

/-- A call of `transform_covariances_jacobian` in the library: the parameters of the function after the first, with whether they have a default;
`in_axes`, whether mapped; the names of the keyword arguments. Used for covariances.py:450-478. -/
structure Call where
  name : List Char
  params : List (List Char × Bool)
  mapped : List Bool
  kwargs : List (List Char)
  deriving DecidableEq

/-- keplerian.py:218-227; transform.py:1000-1005. -/
def keplerianToCartesian : Call :=
  ⟨"_keplerian_to_cartesian_a".toList, [("mu".toList, false), ("max_iter".toList, true), ("tol".toList, true)], [true, true, false, false],
    ["mu".toList, "max_iter".toList, "tol".toList]⟩
/-- keplerian.py:266-274; transform.py:760-764. -/
def cartesianToKeplerian : Call :=
  ⟨"_cartesian_to_keplerian6".toList, [("t0".toList, false), ("mu".toList, false)], [true, true, true], ["t0".toList, "mu".toList]⟩
/-- cometary.py:229-239; transform.py:1355-1361. -/
def cometaryToCartesian : Call :=
  ⟨"_cometary_to_cartesian".toList, [("t0".toList, false), ("mu".toList, false), ("max_iter".toList, true), ("tol".toList, true)],
    [true, true, true, false, false], ["t0".toList, "mu".toList, "max_iter".toList, "tol".toList]⟩
/-- cometary.py:288-296; transform.py:1267-1271. -/
def cartesianToCometary : Call :=
  ⟨"_cartesian_to_cometary".toList, [("t0".toList, false), ("mu".toList, false)], [true, true, true], ["t0".toList, "mu".toList]⟩
/-- spherical.py:144-146; transform.py:435-437. -/
def sphericalToCartesian : Call := ⟨"_spherical_to_cartesian".toList, [], [true], []⟩
/-- spherical.py:179-181; transform.py:298-300. -/
def cartesianToSpherical : Call := ⟨"_cartesian_to_spherical".toList, [], [true], []⟩
/-- dynamics/propagation.py:227-238, 30-37. -/
def propagate : Call :=
  ⟨"_propagate_2body".toList, [("t0".toList, false), ("t1".toList, false), ("mu".toList, false), ("max_iter".toList, true), ("tol".toList, true)],
    [true, true, true, true, false, false], ["t0".toList, "t1".toList, "mu".toList, "max_iter".toList, "tol".toList]⟩
/-- dynamics/ephemeris.py:586-599, 49-58. -/
def ephemeris : Call :=
  ⟨"_generate_ephemeris_2body".toList, [("observation_time".toList, false), ("observer_coordinates".toList, false), ("mu".toList, false),
      ("lt_tol".toList, true), ("max_iter".toList, true), ("tol".toList, true), ("stellar_aberration".toList, true)],
    [true, true, true, true, false, false, false, false],
    ["observation_times".toList, "observer_coordinates".toList, "mu".toList, "lt_tol".toList, "max_iter".toList, "tol".toList,
      "stellar_aberration".toList]⟩
/-- geodetics.py:138-140; transform.py:98-104. -/
def cartesianToGeodetic : Call :=
  ⟨"_cartesian_to_geodetic".toList, [("a".toList, false), ("f".toList, false), ("max_iter".toList, true), ("tol".toList, true)], [true], []⟩

/-- All calls of `transform_covariances_jacobian` in the library. Used for covariances.py:450-478. -/
def libraryCalls : List Call :=
  [keplerianToCartesian, cartesianToKeplerian, cometaryToCartesian, cartesianToCometary, sphericalToCartesian, cartesianToSpherical, propagate,
    ephemeris, cartesianToGeodetic]

/-- The function of a call, with the number of arguments it needs and takes. Used for covariances.py:476. -/
def Call.func {A : Type} (c : Call) (run : List (Value A) → Vec D → Vec E) : Func A D E :=
  ⟨(c.params.filter fun p => !p.2).length, c.params.length, run⟩

end Verif.Sigma.Transform
