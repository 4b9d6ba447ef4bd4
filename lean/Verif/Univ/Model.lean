import Verif.V3
import Mathlib.Analysis.SpecialFunctions.Trigonometric.Basic

/-! # Two-body propagation with universal variables (dynamics/stumpff.py, chi.py, lagrange.py, propagation.py)

Numbers are exact reals instead of float64; a division by zero gives zero here and an infinity or NaN there, so the theorems keep
to positive gravitational parameters and non-zero positions. -/

namespace Verif.Univ

/-- The six Stumpff functions at a point. Used for stumpff.py:14-28. -/
structure Stumpff where
  c0 : ℝ
  c1 : ℝ
  c2 : ℝ
  c3 : ℝ
  c4 : ℝ
  c5 : ℝ

/-- `_positive_psi`. stumpff.py:14-28. -/
noncomputable def positivePsi (psi : ℝ) : Stumpff :=
  let s := Real.sqrt psi
  let c0 := Real.cos s
  let c1 := Real.sin s / s
  let c2 := (1 - c0) / psi
  let c3 := (1 - c1) / psi
  let c4 := (1 / 2 - c2) / psi
  let c5 := (1 / 6 - c3) / psi
  ⟨c0, c1, c2, c3, c4, c5⟩

/-- `_negative_psi`. stumpff.py:32-46. -/
noncomputable def negativePsi (psi : ℝ) : Stumpff :=
  let s := Real.sqrt (-psi)
  let c0 := Real.cosh s
  let c1 := Real.sinh s / s
  let c2 := (1 - c0) / psi
  let c3 := (1 - c1) / psi
  let c4 := (1 / 2 - c2) / psi
  let c5 := (1 / 6 - c3) / psi
  ⟨c0, c1, c2, c3, c4, c5⟩

/-- `_null_psi`. stumpff.py:50-59. -/
noncomputable def nullPsi : Stumpff := ⟨1, 1, 1 / 2, 1 / 6, 1 / 24, 1 / 120⟩

/-- `calc_stumpff`. stumpff.py:63-89. -/
noncomputable def calcStumpff (psi : ℝ) : Stumpff :=
  if psi > 0 then positivePsi psi else if psi < 0 then negativePsi psi else nullPsi

/-- `alpha`. chi.py:77, lagrange.py:78. -/
noncomputable def alpha (mu : ℝ) (r v : V3) : ℝ := -(V3.norm v ^ 2) / mu + 2 / V3.norm r

/-- `r_mag * rv_mag / sqrt_mu`, a factor in both `f` and `fp`. chi.py:73, 104, 110. -/
noncomputable def sigma (mu : ℝ) (r v : V3) : ℝ := V3.norm r * (V3.dot r v / V3.norm r) / Real.sqrt mu

/-- The loop state: `chi`, the Stumpff functions, `ratio`, `iterations`. chi.py:82-87. -/
structure Loop where
  chi : ℝ
  c : Stumpff
  ratio : ℝ
  iterations : Nat

/-- `f`. chi.py:103-108. -/
noncomputable def keplerF (mu : ℝ) (r v : V3) (dt : ℝ) (chi : ℝ) : ℝ :=
  let c := calcStumpff (alpha mu r v * chi ^ 2)
  sigma mu r v * chi ^ 2 * c.c2 + (1 - alpha mu r v * V3.norm r) * chi ^ 3 * c.c3 + V3.norm r * chi - Real.sqrt mu * dt

/-- `fp`. chi.py:109-113. -/
noncomputable def keplerFp (mu : ℝ) (r v : V3) (chi : ℝ) : ℝ :=
  let c := calcStumpff (alpha mu r v * chi ^ 2)
  sigma mu r v * chi * (1 - alpha mu r v * chi ^ 2 * c.c3) + (1 - alpha mu r v * V3.norm r) * chi ^ 2 * c.c2 + V3.norm r

/-- `_chi_newton_raphson`: the Stumpff functions kept are those of the `chi` before the step. chi.py:91-128. -/
noncomputable def newton (mu : ℝ) (r v : V3) (dt : ℝ) (p : Loop) : Loop :=
  let ratio := keplerF mu r v dt p.chi / keplerFp mu r v p.chi
  ⟨p.chi - ratio, calcStumpff (alpha mu r v * p.chi ^ 2), ratio, p.iterations + 1⟩

/-- `lax.while_loop`: the body is executed at most `fuel` times. chi.py:130-137. -/
noncomputable def loop (mu : ℝ) (r v : V3) (dt tol : ℝ) (maxIter : Nat) : Nat → Loop → Loop
  | 0, p => p
  | fuel + 1, p => if |p.ratio| > tol ∧ p.iterations ≤ maxIter then loop mu r v dt tol maxIter fuel (newton mu r v dt p) else p

/-- `calc_chi`; the loop ends when `iterations` exceeds `max_iter`, so `max_iter + 1` steps of fuel are all it can use.
chi.py:28-146. -/
noncomputable def calcChi (mu : ℝ) (r v : V3) (dt : ℝ) (maxIter : Nat) (tol : ℝ) : Loop :=
  loop mu r v dt tol maxIter (maxIter + 1) ⟨Real.sqrt mu * |alpha mu r v| * dt, ⟨0, 0, 0, 0, 0, 0⟩, 1e15, 0⟩

/-- The Lagrange coefficients. Used for lagrange.py:69-93. -/
structure Lagrange where
  f : ℝ
  g : ℝ
  fDot : ℝ
  gDot : ℝ

/-- `calc_lagrange_coefficients` after `calc_chi`. lagrange.py:69-93. -/
noncomputable def lagrange (mu : ℝ) (r v : V3) (dt chi : ℝ) (c : Stumpff) : Lagrange :=
  let f := 1 - chi ^ 2 / V3.norm r * c.c2
  let g := dt - 1 / Real.sqrt mu * chi ^ 3 * c.c3
  let rNew := V3.norm (V3.add (V3.smul f r) (V3.smul g v))
  ⟨f, g, Real.sqrt mu / (V3.norm r * rNew) * (alpha mu r v * chi ^ 3 * c.c3 - chi), 1 - chi ^ 2 / rNew * c.c2⟩

/-- `apply_lagrange_coefficients`. lagrange.py:97-128. -/
def applyLagrange (r v : V3) (l : Lagrange) : V3 × V3 :=
  (V3.add (V3.smul l.f r) (V3.smul l.g v), V3.add (V3.smul l.fDot r) (V3.smul l.gDot v))

/-- `_propagate_2body`. propagation.py:30-74. -/
noncomputable def propagate (mu : ℝ) (s : V3 × V3) (t0 t1 : ℝ) (maxIter : Nat) (tol : ℝ) : V3 × V3 :=
  let dt := t1 - t0
  let p := calcChi mu s.1 s.2 dt maxIter tol
  applyLagrange s.1 s.2 (lagrange mu s.1 s.2 dt p.chi p.c)

end Verif.Univ
