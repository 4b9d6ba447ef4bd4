import Mathlib.Analysis.InnerProductSpace.PiL2
import Mathlib.Analysis.Calculus.Deriv.Basic

/-! # What two-body motion is

Newton's equation of motion about a fixed centre of attraction, written with Mathlib's derivative. Nothing here refers to the
model. -/

namespace Verif.Univ

/-- Space. -/
abbrev E3 := EuclideanSpace ℝ (Fin 3)

/-- `p` is a motion with velocity `q` under the attraction `-μ x / |x|³`. -/
def IsMotion (mu : ℝ) (p q : ℝ → E3) : Prop :=
  ∀ t, HasDerivAt p (q t) t ∧ HasDerivAt q (-(mu / ‖p t‖ ^ 3) • p t) t

end Verif.Univ
