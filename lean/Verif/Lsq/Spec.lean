import Verif.Lsq.Model
import Mathlib.Analysis.Calculus.Deriv.Basic
import Mathlib.LinearAlgebra.Matrix.PosDef

/-! # Specification vocabulary for least-squares fits -/

namespace Verif.Lsq.Spec

open Verif Eval

/-- chi2 of an observation for an orbit: against the prediction at its own time and observatory. -/
def chi2 {I N Y Z : Type} (E : Env I N Y Z) (s : State) (b : Obs I N Y) : ℝ := (E.res b.coord (E.predict s b.time b.code)).chi2

/-- The number `x` at epoch `mjd` read as a heliocentric ecliptic state in TDB, without covariance. -/
def heliocentric (x : Fin 6 → ℝ) (mjd : ℚ) : State where
  values := x
  mjd := mjd
  scale := .tdb
  center := .sun
  frame := .ecliptic
  cov := none

/-- The observations a fit may use. -/
def used {I N Y : Type} [DecidableEq N] (observations : List (Obs I N Y)) (ignore : Option (List N)) : List (Obs I N Y) :=
  observations.filter fun b => decide (b.id ∉ ignore.getD [])

/-- `row` is the gradient of `f` at `x`: the derivative along every direction is the scalar product with it. -/
def Gradient (f : (Fin 6 → ℝ) → ℝ) (x row : Fin 6 → ℝ) : Prop :=
  ∀ v : Fin 6 → ℝ, HasDerivAt (fun t : ℝ => f fun k => x k + t * v k) (∑ k, row k * v k) 0

/-- The rows of the Jacobian are the gradients of the residuals of the observations used. -/
def Jacobian {I N Y Z : Type} (E : Env I N Y Z) (mjd : ℚ) (obs : List (Obs I N Y)) (s : Solution) : Prop :=
  List.Forall₂ (fun b row => Gradient (fun x => Real.sqrt (chi2 E (heliocentric x mjd) b)) s.x row) obs s.jac

/-- How the residual of an observation on the sky depends on the state: its components, their derivatives (one row per component)
and the weights. -/
structure Sky (m : Nat) where
  residual : (Fin 6 → ℝ) → Fin m → ℝ
  slope : Matrix (Fin m) (Fin 6) ℝ
  weight : Matrix (Fin m) (Fin m) ℝ

/-- `k` describes observation `b` at `x`: chi2 is the weighted square of the residual, which is not zero at `x`. -/
structure Describes {I N Y Z : Type} {m : Nat} (E : Env I N Y Z) (mjd : ℚ) (x : Fin 6 → ℝ) (k : Sky m) (b : Obs I N Y) : Prop where
  weight : k.weight.PosSemidef
  chi2 : ∀ y, chi2 E (heliocentric y mjd) b = ∑ i, ∑ j, k.residual y i * k.weight i j * k.residual y j
  slope : ∀ i, Gradient (fun y => k.residual y i) x (k.slope i)
  positive : 0 < Spec.chi2 E (heliocentric x mjd) b

/-- The normal matrix of weighted least squares. -/
def information {m : Nat} (l : List (Sky m)) : Matrix (Fin 6) (Fin 6) ℝ := (l.map fun k => k.slope.transpose * k.weight * k.slope).sum

end Verif.Lsq.Spec
