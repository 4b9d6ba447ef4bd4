import Verif.Impact.Model

/-! # Specification vocabulary for impacts -/

namespace Verif.Impact.Spec

variable {I S : Type} [DecidableEq I]

/-- The events are well kept: every event belongs to a variant of the table, no variant id is used twice within an orbit,
and no variant has two events for one condition. -/
structure WellKept (variants : List (Variant I S)) (events : List (Event I)) : Prop where
  known : ∀ e ∈ events, ∃ v ∈ variants, v.orbit = e.orbit ∧ v.variant = e.variant
  ids : variants.Pairwise fun a b => ¬ (a.orbit = b.orbit ∧ a.variant = b.variant)
  once : events.Pairwise fun a b => ¬ (a.orbit = b.orbit ∧ a.variant = b.variant ∧ a.cond = b.cond)

/-- The variant impacts under the condition. -/
def Impacts (events : List (Event I)) (c : String) (v : Variant I S) : Prop :=
  ∃ e ∈ events, e.orbit = v.orbit ∧ e.variant = v.variant ∧ e.cond = c

instance (events : List (Event I)) (c : String) (v : Variant I S) : Decidable (Impacts events c v) := by
  unfold Impacts; infer_instance

/-- Number of variants of an orbit, and of those that impact. -/
def total (variants : List (Variant I S)) (o : I) : Nat := variants.countP fun v => v.orbit = o
def hits (variants : List (Variant I S)) (events : List (Event I)) (o : I) (c : String) : Nat :=
  variants.countP fun v => v.orbit = o ∧ Impacts events c v

end Verif.Impact.Spec
