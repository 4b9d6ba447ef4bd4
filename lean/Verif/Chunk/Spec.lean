import Verif.Basic

/-! # Specification vocabulary for chunking -/

namespace Verif.Chunk.Spec

/-- `pieces` cuts `l` into consecutive pieces: each non-empty with at most `c` elements, all but the last full. -/
structure Partition {α : Type} (l : List α) (c : Nat) (pieces : List (List α)) : Prop where
  concat : pieces.flatten = l
  nonempty : ∀ p ∈ pieces, p ≠ []
  bounded : ∀ p ∈ pieces, p.length ≤ c
  full : ∀ (k : Nat) (p : List α), pieces[k]? = some p → k + 1 < pieces.length → p.length = c

/-- A kernel that works row by row: as many results as rows and each result depends on its own row alone. -/
def Rowwise {α γ : Type} (F : List α → List γ) (f : α → γ) : Prop :=
  ∀ l, (F l).length = l.length ∧ ∀ (i : Nat) (a : α), l[i]? = some a → (F l)[i]? = some (f a)

/-- The same for a kernel of two arrays of equal length. -/
def Rowwise₂ {α β γ : Type} (F : List α → List β → List γ) (f : α → β → γ) : Prop :=
  ∀ l m, l.length = m.length →
    (F l m).length = l.length ∧ ∀ (i : Nat) (a : α) (b : β), l[i]? = some a → m[i]? = some b → (F l m)[i]? = some (f a b)

end Verif.Chunk.Spec
