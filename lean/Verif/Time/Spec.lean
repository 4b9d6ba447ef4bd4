import Verif.Time.Model
import Mathlib.Data.Real.Basic

/-!
# Specification vocabulary for timestamps

Nothing here refers to the model's arithmetic helpers; a row is read as an integer instant.
-/

namespace Verif.Time.Spec

open Verif.Time

/-- Nanoseconds in a day of 86400 s. -/
def DAY : Int := 86400 * 10 ^ 9

/-- The instant a row denotes: nanoseconds since MJD 0 in the row's scale. -/
def instant (r : Row) : Int := r.days * DAY + r.nanos

/-- A row as the class documents it: nanos since the start of the day. -/
def Normal (r : Row) : Prop := 0 ≤ r.nanos ∧ r.nanos < DAY

/-- Every row of a table is normalised. -/
def NormalTS (t : TS) : Prop := ∀ r ∈ t.rows, Normal r

/-- The value an argument supplies for row `i`. -/
def argAt {α : Type} : Arg α → Nat → Option α
  | .scalar a, _ => some a
  | .array as, i => as[i]?

/-- Length of a precision unit in nanoseconds. -/
def unit : String → Option Int
  | "ns" => some 1
  | "us" => some 1000
  | "ms" => some 1000000
  | "s" => some 1000000000
  | _ => none

/-- What one call must do to the instant `a` of row `i`, giving `b`. -/
def Moves (op : Op) (i : Nat) (a b : Int) : Prop :=
  match op with
  | .nanos n => ∃ v, argAt n i = some v ∧ b = a + v
  | .micros x => ∃ v, argAt x i = some v ∧ |((b - a : Int) : ℚ) - v * 1000| ≤ 1 / 2
  | .millis x => ∃ v, argAt x i = some v ∧ |((b - a : Int) : ℚ) - v * 1000000| ≤ 1 / 2
  | .seconds x => ∃ v, argAt x i = some v ∧ |((b - a : Int) : ℚ) - v * 1000000000| ≤ 1 / 2
  | .days d => ∃ v, argAt d i = some v ∧ b = a + v * DAY
  | .fractionalDays x => ∃ v, argAt x i = some v ∧
      (0 : ℚ) ≤ v * DAY - ((b - a : Int) : ℚ) ∧ v * DAY - ((b - a : Int) : ℚ) < 1
  | .rounded p => ∃ u, unit p = some u ∧ u ∣ b ∧ b ≤ a ∧ a < b + u

/-- What a sequence of calls must do to the instant of row `i`. -/
def Chain : List Op → Nat → Int → Int → Prop
  | [], _, a, b => a = b
  | op :: ops, i, a, b => ∃ c, Moves op i a c ∧ Chain ops i c b

/-- `a` is strictly earlier than `b` in calendar order: earlier day, or same day and earlier in the day. -/
def Earlier (a b : Row) : Prop := a.days < b.days ∨ (a.days = b.days ∧ a.nanos < b.nanos)

end Verif.Time.Spec
