import Verif.Joins.Model

/-! # Specification vocabulary for the row joins

Nothing here refers to key strings, sort orders, groups or index arrays of the model. -/

namespace Verif.Joins.Spec

open Verif

/-- Code, day and nanosecond are all there. -/
def Complete (k : KeyCols) : Prop := k.code ≠ none ∧ k.days ≠ none ∧ k.nanos ≠ none

/-- The observers identify themselves: complete rows, no (code, time) twice. -/
def Distinct (obs : List KeyCols) : Prop :=
  (∀ o ∈ obs, Complete o) ∧ ∀ (i j : Nat) (a : KeyCols), obs[i]? = some a → obs[j]? = some a → i = j

/-- The orbit table gives parameters `h`, `g` for the orbit id `i`. -/
def Gives {I V : Type} (orbits : List (OrbHG I V)) (i : I) (h g : V) : Prop :=
  ∃ o ∈ orbits, o.id = i ∧ o.H = some h ∧ o.G = some g

/-- No orbit id has two different pairs of parameters. -/
def Consistent {I V : Type} (orbits : List (OrbHG I V)) : Prop :=
  ∀ i h g h' g', Gives orbits i h g → Gives orbits i h' g' → h = h' ∧ g = g'

/-- The states returned for one observatory are, row by row, those of the requested times. -/
def RowsOf {C T S : Type} (stateOf : C → List T → Except PyErr (List S)) (g : C → T → S) : Prop :=
  ∀ c ts ss, stateOf c ts = .ok ss → ss = ts.map (g c)

/-- The times requested for one observatory, in the order of the request. -/
def timesOf {C T : Type} [DecidableEq C] (codes : List (Option C)) (times : List T) (c : C) : List T :=
  ((codes.zip times).filter fun p => decide (p.1 = some c)).map Prod.snd

end Verif.Joins.Spec
