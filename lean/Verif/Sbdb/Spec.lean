import Verif.Sbdb.Model
import Mathlib.Data.Fin.VecNotation

/-! # Specification vocabulary for SBDB queries -/

namespace Verif.Sbdb.Spec

/-- Position in SBDB's order (e, q, tp, node, peri, i) of the cometary elements (q, e, i, raan, ap, tp). -/
def position : Fin 6 → Fin 6 := ![1, 0, 5, 3, 4, 2]

/-- An answer after which another attempt is made: timeouts, lost connections, throttling and server errors. -/
def Retry {P : Type} : Answer P → Prop
  | .payload _ => False
  | .timeout => True
  | .connection => True
  | .http none => False
  | .http (some s) => s = 429 ∨ 500 ≤ s
  | .other => False

end Verif.Sbdb.Spec
