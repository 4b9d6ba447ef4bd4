import Mathlib.Data.Real.Basic

/-! # Scores of recovered periods (photometry/rotation/core.py)

Exact real arithmetic, with numbers that are finite and a true period that is not zero. -/

namespace Verif.Rot

/-- `relative_error_pct`. core.py:852-867. -/
noncomputable def relativeError (p t : ℝ) : ℝ := 100 * |p - t| / t

/-- `HARMONIC_FACTORS`. core.py:836-848. -/
noncomputable def factors : List ℝ := [1 / 4, 1 / 3, 1 / 2, 2 / 3, 3 / 4, 1, 4 / 3, 3 / 2, 2, 3, 4]

/-- `errors`. core.py:889. -/
noncomputable def harmonicError (p t f : ℝ) : ℝ := |p * f - t| / t

/-- The factor of `harmonic_adjusted_error_pct`: the first with the least error. core.py:888-890. -/
noncomputable def bestFactor (p t : ℝ) : ℝ :=
  factors.tail.foldl (fun b f => if harmonicError p t f < harmonicError p t b then f else b) (factors.headD 0)

/-- `harmonic_adjusted_error_pct`. core.py:870-891. -/
noncomputable def harmonicAdjusted (p t : ℝ) : ℝ × ℝ := (100 * harmonicError p t (bestFactor p t), bestFactor p t)

/-- `labels`. core.py:909-921. -/
noncomputable def buckets : List (ℝ × String) :=
  [(1, "1x"), (1 / 4, "1/4x"), (1 / 3, "1/3x"), (1 / 2, "1/2x"), (2 / 3, "2/3x"), (3 / 4, "3/4x"), (4 / 3, "4/3x"), (3 / 2, "3/2x"), (2, "2x"),
   (3, "3x"), (4, "4x")]

/-- `alias_bucket`. core.py:894-926. -/
noncomputable def aliasBucket (f : ℝ) : String :=
  match buckets.find? fun b => decide (|f - b.1| ≤ 1 / 20 * b.1) with
  | some b => b.2
  | none => "other"

/-- `within_tolerance`. core.py:929-949. -/
noncomputable def withinTolerance (p t tol : ℝ) : Bool := decide (relativeError p t ≤ tol * 100)

/-- `near_day_alias`. core.py:952-990. -/
noncomputable def nearDayAlias (p t tol : ℝ) : Bool :=
  if p ≤ 0 ∨ t ≤ 0 then false
  else
    let fRec := 24 / p
    let fTrue := 24 / t
    [1, 2].any fun n : ℝ => [fTrue + n, fTrue - n].any fun a => !decide (a ≤ 0) && decide (|fRec - a| / fTrue ≤ tol)

end Verif.Rot
