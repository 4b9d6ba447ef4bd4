import Verif.Rot.Model

/-! # What a fit is asked to be -/

namespace Verif.Rot

/-- The magnitude a model with coefficients `c` gives an observation: fixed terms and harmonics of the frequency `f`. -/
noncomputable def modelMag (nFixed : Nat) (f : ℝ) (order : Nat) (c : List ℝ) (q : Pt) : ℝ :=
  ((List.range nFixed).map fun j => q.fixed.getD j 0 * c.getD j 0).sum +
  ((List.range order).map fun h : Nat =>
    Real.cos ((h + 1 : ℝ) * (2 * Real.pi * f * q.t)) * c.getD (nFixed + 2 * h) 0 +
    Real.sin ((h + 1 : ℝ) * (2 * Real.pi * f * q.t)) * c.getD (nFixed + 2 * h + 1) 0).sum

/-- The weight of an observation. -/
noncomputable def Problem.weight (p : Problem) (q : Pt) : ℝ := if p.weighted then q.w else 1

/-- The quantity to be minimised: weighted squares of the residuals, and the penalties for the two coefficients of the phase angle. -/
noncomputable def objective (p : Problem) (f : ℝ) (order : Nat) (kept : List Pt) (c : List ℝ) : ℝ :=
  (kept.map fun q => p.weight q * (q.y - modelMag p.nFixed f order c q) ^ 2).sum +
  p.priors.1.2 * (p.priors.1.1 - c.getD (p.nFixed - 2) 0) ^ 2 + p.priors.2.2 * (p.priors.2.1 - c.getD (p.nFixed - 1) 0) ^ 2

/-- `lstsq` does its work: for a matrix with rows (at least one) of length `n` it returns `n` numbers that no others beat. -/
def LeastSquares (lstsq : List (List ℝ) → List ℝ → List ℝ) : Prop :=
  ∀ (n : Nat) (a : List (List ℝ)) (b : List ℝ), a ≠ [] → a.length = b.length → (∀ row ∈ a, row.length = n) →
    (lstsq a b).length = n ∧
    ∀ x : List ℝ, x.length = n →
      (List.zipWith (fun row y => (y - dot row (lstsq a b)) ^ 2) a b).sum ≤ (List.zipWith (fun row y => (y - dot row x) ^ 2) a b).sum

/-- A design as `_build_fixed_design` makes it, with weights that are not negative. -/
structure Problem.Ok (p : Problem) : Prop where
  two : 2 ≤ p.nFixed
  rows : ∀ q ∈ p.points, q.fixed.length = p.nFixed
  weights : ∀ q ∈ p.points, 0 ≤ p.weight q
  priors : 0 ≤ p.priors.1.2 ∧ 0 ≤ p.priors.2.2

/-- The scatter of residuals `r` with weights: the root of the weighted mean square, for `n` observations and `df` degrees of freedom. -/
noncomputable def scatter (p : Problem) (f : ℝ) (order : Nat) (kept : List Pt) (c : List ℝ) : ℝ :=
  Real.sqrt ((if p.weighted then (p.points.length : ℝ) / (kept.map Pt.w).sum else 1) *
    (kept.map fun q => p.weight q * (q.y - modelMag p.nFixed f order c q) ^ 2).sum / ((kept.length : ℝ) - (p.nFixed + 2 * order)))

end Verif.Rot
