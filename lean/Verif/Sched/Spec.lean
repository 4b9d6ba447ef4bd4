import Verif.Sched.Model

/-! # Specification vocabulary for scheduling and propagation

Nothing here refers to the scheduler, to chunks or to the model's sort keys. -/

namespace Verif.Sched.Spec

open Verif

/-- Rows with the same key are the same row: the key decides the order completely. -/
def Coherent {α : Type} (same : α → α → Prop) (rows : List α) : Prop := ∀ a ∈ rows, ∀ b ∈ rows, same a b → a = b

/-- The order of propagated rows: by orbit id, then (for variants) by variant id, then by day, then by nanosecond. -/
def RowLe {I X C : Type} [LinearOrder I] (isVar : Bool) (a b : Row I X C) : Prop :=
  a.id < b.id ∨ a.id = b.id ∧
    ((isVar = true ∧ a.variant < b.variant) ∨ ((isVar = true → a.variant = b.variant) ∧
      ((ofLex a.time).1 < (ofLex b.time).1 ∨
        (ofLex a.time).1 = (ofLex b.time).1 ∧ (ofLex a.time).2 ≤ (ofLex b.time).2)))

/-- Two rows for the same orbit, (variant) and time. -/
def RowSame {I X C : Type} (isVar : Bool) (a b : Row I X C) : Prop :=
  a.id = b.id ∧ (isVar = true → a.variant = b.variant) ∧ a.time = b.time

/-- A variant row belongs to a row: same orbit id, same day, same millisecond of the day. -/
def Linked {I X C : Type} (v r : Row I X C) : Prop :=
  v.id = r.id ∧ (ofLex v.time).1 = (ofLex r.time).1 ∧ (ofLex v.time).2 / 1000000 = (ofLex r.time).2 / 1000000

instance {I X C : Type} [DecidableEq I] (v r : Row I X C) : Decidable (Linked v r) := by unfold Linked; infer_instance

/-- The order of ephemeris rows: orbit id, (variant id,) time, observatory code. -/
def EphLe {I Z : Type} [LinearOrder I] (isVar : Bool) (a b : Eph I Z) : Prop :=
  a.id < b.id ∨ a.id = b.id ∧
    ((isVar = true ∧ a.variant < b.variant) ∨ ((isVar = true → a.variant = b.variant) ∧
      (a.time < b.time ∨ a.time = b.time ∧ a.code ≤ b.code)))

/-- Two ephemeris rows for the same orbit, (variant,) time and observatory. -/
def EphSame {I Z : Type} (isVar : Bool) (a b : Eph I Z) : Prop :=
  a.id = b.id ∧ (isVar = true → a.variant = b.variant) ∧ a.time = b.time ∧ a.code = b.code

/-- What a user reads from a row of the two-body result: ids, physical parameters, state, time, origin and the covariance
as a matrix (a null covariance reads as NaN). -/
def view {I S T P O C : Type} (r : Row2 I S T P O C) : I × I × P × S × T × O × Option C :=
  (r.id, r.obj, r.phys, r.state, r.time, r.origin, match r.cov with | .null => none | .matrix m => m)

/-- A backend that treats orbits independently: on orbits it can handle it returns, in some order, exactly one row `f o t`
per orbit and time; with an orbit it cannot handle it raises. -/
structure Independent {I O S T R : Type} (backend : List (Orb I O S) → List T → Except PyErr (List R))
    (good : Orb I O S → Prop) (f : Orb I O S → T → R) : Prop where
  ok : ∀ os ts, (∀ o ∈ os, good o) → ∃ rows, backend os ts = .ok rows ∧ rows.Perm (os.flatMap fun o => ts.map (f o))
  bad : ∀ os ts o, o ∈ os → ¬ good o → ∃ e, backend os ts = .error e

end Verif.Sched.Spec
