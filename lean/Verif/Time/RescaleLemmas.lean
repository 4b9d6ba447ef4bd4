import Verif.Time.RescaleSpec
import Verif.Time.Lemmas
import Mathlib.Analysis.SpecialFunctions.Trigonometric.Bounds
import Mathlib.Analysis.Real.Pi.Bounds

/-! Helper lemmas for time-scale conversion. -/

namespace Verif.Time

open Spec

theorem key_eq_instant (r : Row) : r.key = instant r := by
  simp only [Row.key, instant, DAY_eq, NANOS_eq]

/-- Truncation toward zero, `ndarray.astype(np.int64)`. -/
noncomputable def truncR (x : ℝ) : Int := if 0 ≤ x then ⌊x⌋ else ⌈x⌉

/-- The mean anomaly `g` of `_tt_tdb_correction` at the shifted instant `k` nanoseconds since MJD 0.
time.py:648-651. The day and nanosecond columns enter only through the instant, in exact arithmetic. -/
noncomputable def tdbAngle (k : ℝ) : ℝ :=
  (35999.050 * (((k / 86400000000000 - 51545) + 0.5) / 36525) + 357.528) * (Real.pi / 180)

/-- `delta` of `_tt_tdb_correction` before truncation. time.py:652. -/
noncomputable def tdbDelta (k : ℝ) : ℝ := Real.sin (tdbAngle k + 0.0167 * Real.sin (tdbAngle k)) * 1658000

/-- The correction in integer nanoseconds. time.py:655. -/
noncomputable def tdbSeries (k : Int) : Int := truncR (tdbDelta k)

theorem truncR_near {x y : ℝ} (h : |x - y| < 1) : |truncR x - truncR y| ≤ 1 := by
  rw [abs_lt] at h
  have key : (-1 : Int) ≤ truncR x - truncR y ∧ truncR x - truncR y ≤ 1 := by
    unfold truncR
    have fx := Int.floor_le x
    have fx' := Int.lt_floor_add_one x
    have fy := Int.floor_le y
    have fy' := Int.lt_floor_add_one y
    have cx := Int.le_ceil x
    have cx' := Int.ceil_lt_add_one x
    have cy := Int.le_ceil y
    have cy' := Int.ceil_lt_add_one y
    by_cases hx : 0 ≤ x <;> by_cases hy : 0 ≤ y <;> simp only [hx, hy, if_true, if_false]
    · have h1 : ⌊x⌋ < ⌊y⌋ + 2 := by exact_mod_cast (show (⌊x⌋ : ℝ) < ⌊y⌋ + 2 by linarith)
      have h2 : ⌊y⌋ < ⌊x⌋ + 2 := by exact_mod_cast (show (⌊y⌋ : ℝ) < ⌊x⌋ + 2 by linarith)
      omega
    · have h1 : ⌊x⌋ < 1 := by exact_mod_cast (show (⌊x⌋ : ℝ) < 1 by linarith)
      have h2 : -1 < ⌈y⌉ := by exact_mod_cast (show (-1 : ℝ) < ⌈y⌉ by linarith)
      have h3 : -1 < ⌊x⌋ := by exact_mod_cast (show (-1 : ℝ) < ⌊x⌋ by linarith)
      have h4 : ⌈y⌉ < 1 := by exact_mod_cast (show (⌈y⌉ : ℝ) < 1 by linarith)
      omega
    · have h1 : ⌊y⌋ < 1 := by exact_mod_cast (show (⌊y⌋ : ℝ) < 1 by linarith)
      have h2 : -1 < ⌈x⌉ := by exact_mod_cast (show (-1 : ℝ) < ⌈x⌉ by linarith)
      have h3 : -1 < ⌊y⌋ := by exact_mod_cast (show (-1 : ℝ) < ⌊y⌋ by linarith)
      have h4 : ⌈x⌉ < 1 := by exact_mod_cast (show (⌈x⌉ : ℝ) < 1 by linarith)
      omega
    · have h1 : ⌈x⌉ < ⌈y⌉ + 2 := by exact_mod_cast (show (⌈x⌉ : ℝ) < ⌈y⌉ + 2 by linarith)
      have h2 : ⌈y⌉ < ⌈x⌉ + 2 := by exact_mod_cast (show (⌈y⌉ : ℝ) < ⌈x⌉ + 2 by linarith)
      omega
  exact abs_le.mpr key

theorem truncR_bound {x : ℝ} {n : Int} (hn : 0 ≤ n) (h : |x| ≤ n) : |truncR x| ≤ n := by
  rw [abs_le] at h
  rw [abs_le]
  unfold truncR
  split
  · constructor
    · have : 0 ≤ ⌊x⌋ := Int.floor_nonneg.mpr (by assumption)
      omega
    · exact_mod_cast (show (⌊x⌋ : ℝ) ≤ n from le_trans (Int.floor_le x) h.2)
  · constructor
    · exact_mod_cast (show (-n : ℝ) ≤ ⌈x⌉ from le_trans h.1 (Int.le_ceil x))
    · exact Int.ceil_le.mpr h.2

theorem tdbSeries_bound (k : Int) : |tdbSeries k| ≤ 1658000 := by
  apply truncR_bound (by norm_num)
  unfold tdbDelta
  rw [abs_mul]
  have := Real.abs_sin_le_one (tdbAngle k + 0.0167 * Real.sin (tdbAngle k))
  push_cast
  rw [abs_of_pos (by norm_num : (0 : ℝ) < 1658000)]
  linarith

theorem tdbAngle_sub (a b : ℝ) : tdbAngle a - tdbAngle b =
    35999.050 / 86400000000000 / 36525 * (Real.pi / 180) * (a - b) := by
  unfold tdbAngle; ring

theorem tdbDelta_lip (a b : ℝ) (h : |a - b| ≤ 1658000) : |tdbDelta a - tdbDelta b| < 1 := by
  have e : |tdbDelta a - tdbDelta b| = |Real.sin (tdbAngle a + 0.0167 * Real.sin (tdbAngle a)) -
      Real.sin (tdbAngle b + 0.0167 * Real.sin (tdbAngle b))| * 1658000 := by
    unfold tdbDelta
    rw [← sub_mul, abs_mul, abs_of_pos (by norm_num : (0 : ℝ) < 1658000)]
  have h1 := Real.abs_sin_sub_sin_le (tdbAngle a + 0.0167 * Real.sin (tdbAngle a))
    (tdbAngle b + 0.0167 * Real.sin (tdbAngle b))
  have h2 := Real.abs_sin_sub_sin_le (tdbAngle a) (tdbAngle b)
  have h3 : |tdbAngle a + 0.0167 * Real.sin (tdbAngle a) - (tdbAngle b + 0.0167 * Real.sin (tdbAngle b))|
      ≤ |tdbAngle a - tdbAngle b| + 0.0167 * |Real.sin (tdbAngle a) - Real.sin (tdbAngle b)| := by
    have : tdbAngle a + 0.0167 * Real.sin (tdbAngle a) - (tdbAngle b + 0.0167 * Real.sin (tdbAngle b))
      = (tdbAngle a - tdbAngle b) + 0.0167 * (Real.sin (tdbAngle a) - Real.sin (tdbAngle b)) := by ring
    rw [this]
    refine (abs_add_le _ _).trans ?_
    rw [abs_mul, abs_of_pos (by norm_num : (0 : ℝ) < 0.0167)]
  have h4 : |tdbAngle a - tdbAngle b| ≤ 35999.050 / 86400000000000 / 36525 * (4 / 180) * 1658000 := by
    rw [tdbAngle_sub, abs_mul]
    have hp := Real.pi_pos
    have hp4 := Real.pi_lt_four
    rw [abs_of_nonneg (by positivity)]
    apply mul_le_mul _ h (abs_nonneg _) (by positivity)
    apply mul_le_mul_of_nonneg_left _ (by positivity)
    linarith
  rw [e]
  have h5 : (35999.050 / 86400000000000 / 36525 * (4 / 180) * 1658000 : ℝ) < 1 / 100000000 := by norm_num
  nlinarith [abs_nonneg (tdbAngle a - tdbAngle b)]

theorem tdbSeries_stable (k d : Int) (h : |d| ≤ 1658000) : |tdbSeries (k + d) - tdbSeries k| ≤ 1 := by
  apply truncR_near
  apply tdbDelta_lip
  push_cast
  rw [add_sub_cancel_left]
  exact_mod_cast h

end Verif.Time
