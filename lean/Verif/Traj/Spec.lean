import Verif.Traj.Model

/-! # Specification vocabulary for trajectories -/

namespace Verif.Traj.Spec

/-- The half-open window contains the time. -/
def Covers {I R : Type} (s : Seg I R) (time : ℚ) : Prop := s.start ≤ time ∧ time < s.stop

/-- Rows at different positions of the same object share no time, every window is non-empty and contains its epoch
(end included). -/
structure Valid {I R : Type} (t : List (Seg I R)) : Prop where
  window : ∀ s ∈ t, s.start < s.stop
  epoch : ∀ s ∈ t, s.start ≤ s.epoch ∧ s.epoch ≤ s.stop
  apart : t.Pairwise fun a b => a.object = b.object → ∀ time, ¬ (Covers a time ∧ Covers b time)

end Verif.Traj.Spec
