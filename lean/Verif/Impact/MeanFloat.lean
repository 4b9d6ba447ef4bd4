import Verif.Time.Float

/-! # Mean impact times with float64 rounding -/

namespace Verif.Impact

open Verif Time F64

/-- An order of adding numbers up. NumPy adds in blocks and pairs that depend on the number of terms, so no order is assumed. Used for
impacts.py:333-336. -/
inductive Tree where
  | leaf (r : Time.Row)
  | node (a b : Tree)

/-- The terms, in order. Used for impacts.py:330-336. -/
def Tree.rows : Tree → List Time.Row
  | .leaf r => [r]
  | .node a b => a.rows ++ b.rows

/-- The number of additions a term takes part in, at most. Used for impacts.py:333-336. -/
def Tree.depth : Tree → Nat
  | .leaf _ => 0
  | .node a b => max a.depth b.depth + 1

/-- The sum of the MJDs, each addition rounded. impacts.py:330-336 (`np.mean`). -/
def Tree.sum64 : Tree → ℚ
  | .leaf r => r.mjd64
  | .node a b => fl (a.sum64 + b.sum64)

/-- The mean impact time of `calculate_impact_probabilities`. impacts.py:330-336. The number of terms is a float64. -/
def meanTime64 (t : Tree) : Time.Row := fromMjd64 (fl (t.sum64 / t.rows.length))

end Verif.Impact
