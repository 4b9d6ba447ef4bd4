import Verif.Fit.Model

/-! # Specification vocabulary for fitted orbits -/

namespace Verif.Fit.Spec

/-- One orbit ranks at least as high as another: more observations, or as many and a longer arc, or as long and a
reduced chi2 not higher. -/
def AtLeastAsGood {I S : Type} (a b : Orbit I S) : Prop :=
  b.numObs < a.numObs ∨ a.numObs = b.numObs ∧ (b.arc < a.arc ∨ a.arc = b.arc ∧ a.rchi2 ≤ b.rchi2)

/-- `out` holds, for every observation, the rows of one of its orbits, and no orbit of it ranks higher. -/
structure Assigned {I N R S : Type} (orbits : List (Orbit I S)) (members : List (Member I N R))
    (orbits' : List (Orbit I S)) (members' : List (Member I N R)) : Prop where
  /-- Rows are only dropped, never reordered or invented. -/
  sub : members'.Sublist members
  /-- No observation keeps two orbits. -/
  one : ∀ m ∈ members', ∀ m' ∈ members', m.obs = m'.obs → m.orbit = m'.orbit
  /-- No observation is lost. -/
  kept : ∀ m ∈ members, ∃ m' ∈ members', m'.obs = m.obs
  /-- All rows of the winning orbit stay. -/
  whole : ∀ m ∈ members, ∀ m' ∈ members', m.obs = m'.obs → m.orbit = m'.orbit → m ∈ members'
  /-- The winner ranks highest among the orbits of the observation. -/
  highest : ∀ m ∈ members, ∀ m' ∈ members', m.obs = m'.obs → ∀ a ∈ orbits, ∀ b ∈ orbits, a.id = m'.orbit → b.id = m.orbit →
    AtLeastAsGood a b
  /-- The orbits left are those with a member, by rank. -/
  orbits : ∀ o, o ∈ orbits' ↔ o ∈ orbits ∧ ∃ m ∈ members', m.orbit = o.id
  ranked : orbits'.Pairwise AtLeastAsGood

/-- The candidates computed by a least-squares run: the n-th call's result, for the orbit and step it was given. -/
def Tried {I S V : Type} (update : Nat → LsOrbit I S → ℚ → Except PyErr (LsOrbit I S × V)) (calls : Nat)
    (o : LsOrbit I S) (v : V) : Prop :=
  ∃ n, 1 ≤ n ∧ n ≤ calls ∧ ∃ base p, update n base p = .ok (o, v)

end Verif.Fit.Spec
