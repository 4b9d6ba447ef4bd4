import Verif.Lru.Model

/-! # Specification vocabulary for the LRU cache -/

namespace Verif.Lru.Spec

variable {K V : Type} [DecidableEq K]

/-- The value of the most recent put of `k` in a history, if there is one. -/
def lastPut (k : K) : List (Op K V) → Option V
  | [] => none
  | o :: os => match lastPut k os with
    | some v => some v
    | none => match o with
      | .put k' v => if k' = k then some v else none
      | .get _ => none

/-- The distinct keys other than `k` touched by a history. -/
def others (k : K) (h : List (Op K V)) : List K := (h.map Op.key).eraseDups.filter (· ≠ k)

end Verif.Lru.Spec
