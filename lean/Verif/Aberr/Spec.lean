import Mathlib.Analysis.InnerProductSpace.PiL2

/-! # What light time and aberration are -/

namespace Verif.Aberr

/-- Space. -/
abbrev E3 := EuclideanSpace ℝ (Fin 3)

/-- Light that reaches `observer` at time `t` left the body, which moves along `p`, a time `lt` before. -/
def IsLightTime (c : ℝ) (p : ℝ → E3) (observer : E3) (t lt : ℝ) : Prop := 0 ≤ lt ∧ c * lt = ‖p (t - lt) - observer‖

/-- The body is nowhere faster than `v`. -/
def SpeedAtMost (v : ℝ) (p : ℝ → E3) : Prop := ∀ s t, ‖p s - p t‖ ≤ v * |s - t|

/-- The direction `u'`, seen by an observer who moves with velocity `γ` (in units of the speed of light), of what an observer
at rest sees in the direction `u`: both are unit vectors in a common plane with `γ`, on the same side of it, and the cosines
of their angles with the velocity are related by Einstein's formula `cos θ' = (cos θ + β) / (1 + β cos θ)`. -/
def Aberrated (γ u u' : E3) : Prop :=
  ‖u'‖ = 1 ∧ inner ℝ u' γ * (1 + inner ℝ u γ) = inner ℝ u γ + ‖γ‖ ^ 2 ∧ ∃ a b : ℝ, 0 < a ∧ u' = a • u + b • γ

end Verif.Aberr
