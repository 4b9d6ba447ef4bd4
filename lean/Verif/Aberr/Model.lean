import Verif.Univ.Model
import Verif.Basic

/-! # Light time and stellar aberration (dynamics/aberrations.py)

Numbers are exact reals instead of float64; `none` is NaN. The two-body propagator `_propagate_2body` is a parameter `prop`:
the loop is the same whatever it computes; `addLightTime2body` puts the model of C35 in its place. -/

namespace Verif.Aberr

open Classical

/-- A position and a velocity. Used for aberrations.py:100-101. -/
abbrev State := V3 × V3

/-- `C`, the speed of light in au per day. src/adam_core/constants.py:47. -/
noncomputable def lightSpeed : ℝ := 299792.458 / 149597870.700 * 86400

/-- The loop variables `p`: the orbit, the epoch, the light time, its last change, the number of iterations.
aberrations.py:100-101. -/
structure Loop where
  orbit : State
  t0 : ℝ
  lt : ℝ
  dlt : ℝ
  iterations : Nat

/-- `_iterate_light_time`. The orbit that is propagated is the argument of the function, not the loop variable; the two epochs
given to the propagator are the loop variable and what it becomes. aberrations.py:63-92. -/
noncomputable def iterate (prop : State → ℝ → ℝ → State) (orbit : State) (observer : V3) (p : Loop) : Loop :=
  let rho := V3.norm (V3.sub p.orbit.1 observer)
  let lt := rho / lightSpeed
  let dlt := |lt - p.lt|
  let t1 := p.t0 - lt
  ⟨prop orbit p.t0 t1, t1, lt, dlt, p.iterations + 1⟩

/-- `lax.while_loop(_while_condition, _iterate_light_time, p)`. The first argument bounds the number of rounds; it is
`max_lt_iter`, after which the condition is false. aberrations.py:95-102. -/
noncomputable def loop (prop : State → ℝ → ℝ → State) (orbit : State) (observer : V3) (ltTol : ℝ) (maxLtIter : Nat) :
    Nat → Loop → Loop
  | 0, p => p
  | fuel + 1, p =>
    if p.dlt > ltTol ∧ p.iterations < maxLtIter then
      loop prop orbit observer ltTol maxLtIter fuel (iterate prop orbit observer p)
    else p

/-- `_add_light_time`: the orbit and the light time, NaN unless the loop converged before its last round.
aberrations.py:16-112. -/
noncomputable def addLightTime (prop : State → ℝ → ℝ → State) (orbit : State) (t0 : ℝ) (observer : V3) (ltTol : ℝ)
    (maxLtIter : Nat) : State × Option ℝ :=
  let p := loop prop orbit observer ltTol maxLtIter maxLtIter ⟨orbit, t0, 1e30, 1e30, 0⟩
  (p.orbit, if p.dlt > ltTol ∨ p.iterations ≥ maxLtIter then none else some p.lt)

/-- `_add_light_time` with the two-body propagator. aberrations.py:16-112, propagation.py:30-74. -/
noncomputable def addLightTime2body (mu : ℝ) (orbit : State) (t0 : ℝ) (observer : V3) (ltTol : ℝ) (maxIter : Nat) (tol : ℝ)
    (maxLtIter : Nat) : State × Option ℝ :=
  addLightTime (fun s a b => Univ.propagate mu s a b maxIter tol) orbit t0 observer ltTol maxLtIter

/-- One row of `add_stellar_aberration`, from the state of the object and of the observer. No value where it divides by zero
or takes the square root of a negative number. aberrations.py:176-223. -/
noncomputable def addStellarAberration (orbit observer : State) : Option V3 :=
  let topo := V3.sub orbit.1 observer.1
  let gamma := V3.smul (1 / lightSpeed) observer.2
  let betaInv := Real.sqrt (1 - V3.norm gamma ^ 2)
  let delta := V3.norm topo
  let rho := V3.smul (1 / delta) topo
  let rhoDotGamma := V3.dot rho gamma
  if delta = 0 ∨ 1 - V3.norm gamma ^ 2 < 0 ∨ 1 + rhoDotGamma = 0 then none
  else
    some (V3.smul delta (V3.smul (1 / (1 + rhoDotGamma))
      (V3.add (V3.add (V3.smul betaInv rho) gamma) (V3.smul (1 / (1 + betaInv)) (V3.smul rhoDotGamma gamma)))))

end Verif.Aberr
