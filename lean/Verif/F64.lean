import Mathlib.Algebra.Order.Floor.Ring
import Mathlib.Data.Rat.Floor
import Mathlib.Algebra.Order.Field.Power
import Mathlib.Data.Nat.Log
import Mathlib.Tactic.Linarith
import Mathlib.Tactic.Positivity
import Mathlib.Tactic.FieldSimp

/-! # Rounding to binary64

Used where the rounding of float64 itself decides a claim. Round to nearest, ties to even, 53 significant bits;
overflow, subnormals, infinities and NaN are left out. -/

namespace Verif.F64

/-- The exponent of the leading bit of a positive rational. -/
def ilog2 (q : ℚ) : ℤ :=
  let e : ℤ := (Nat.log 2 q.num.natAbs : ℤ) - (Nat.log 2 q.den : ℤ)
  if (2 : ℚ) ^ e ≤ q then e else e - 1

/-- Nearest integer, ties to even. -/
def rne (q : ℚ) : ℤ :=
  let f := ⌊q⌋
  if q - f < 1 / 2 then f else if 1 / 2 < q - f then f + 1 else if f % 2 = 0 then f else f + 1

/-- The float64 nearest to a rational. -/
def fl (q : ℚ) : ℚ :=
  if q = 0 then 0 else let e := ilog2 |q| - 52; (rne (q / 2 ^ e) : ℚ) * 2 ^ e

theorem rne_error (q : ℚ) : |(rne q : ℚ) - q| ≤ 1 / 2 := by
  have h1 := Int.floor_le q
  have h2 := Int.lt_floor_add_one q
  unfold rne
  simp only
  split
  · rw [abs_le]; constructor <;> linarith
  · split
    · push_cast; rw [abs_le]; constructor <;> linarith
    · split
      · rw [abs_le]; constructor <;> linarith
      · push_cast; rw [abs_le]; constructor <;> linarith

theorem rne_nonneg {q : ℚ} (h : 0 ≤ q) : 0 ≤ rne q := by
  have h1 : 0 ≤ ⌊q⌋ := Int.floor_nonneg.mpr h
  unfold rne
  simp only
  split
  · exact h1
  · split
    · omega
    · split <;> omega

theorem rne_int (n : ℤ) : rne n = n := by
  unfold rne
  simp

theorem fl_nonneg {q : ℚ} (h : 0 ≤ q) : 0 ≤ fl q := by
  unfold fl
  split
  · exact le_refl _
  · have h1 : (0 : ℚ) < 2 ^ (ilog2 |q| - 52) := zpow_pos (by norm_num) _
    exact mul_nonneg (by exact_mod_cast rne_nonneg (div_nonneg h h1.le)) h1.le

theorem ilog2_le {q : ℚ} (h : 0 < q) : (2 : ℚ) ^ ilog2 q ≤ q := by
  unfold ilog2
  simp only
  split
  · assumption
  · have hn : (0 : ℤ) < q.num := Rat.num_pos.mpr h
    have hna : q.num.natAbs ≠ 0 := by omega
    have h1 : 2 ^ Nat.log 2 q.num.natAbs ≤ q.num.natAbs := Nat.pow_log_le_self 2 hna
    have h2 : q.den < 2 ^ (Nat.log 2 q.den + 1) := Nat.lt_pow_succ_log_self (by norm_num) _
    have h1' : (2 : ℚ) ^ Nat.log 2 q.num.natAbs ≤ q.num := by
      have : ((2 ^ Nat.log 2 q.num.natAbs : ℕ) : ℤ) ≤ q.num := by omega
      exact_mod_cast this
    have h2' : (q.den : ℚ) ≤ 2 ^ (Nat.log 2 q.den + 1) := by exact_mod_cast h2.le
    have hd : (0 : ℚ) < q.den := by exact_mod_cast q.den_pos
    have hq : q = (q.num : ℚ) / q.den := (Rat.num_div_den q).symm
    have : (2 : ℚ) ^ ((Nat.log 2 q.num.natAbs : ℤ) - Nat.log 2 q.den - 1) =
        2 ^ Nat.log 2 q.num.natAbs / 2 ^ (Nat.log 2 q.den + 1) := by
      rw [show ((Nat.log 2 q.num.natAbs : ℤ) - Nat.log 2 q.den - 1) =
        (Nat.log 2 q.num.natAbs : ℤ) - ((Nat.log 2 q.den + 1 : ℕ) : ℤ) by push_cast; ring, zpow_sub₀ (by norm_num),
        zpow_natCast, zpow_natCast]
    rw [this]
    conv_rhs => rw [hq]
    rw [div_le_div_iff₀ (by positivity) hd]
    calc _ ≤ (2 : ℚ) ^ Nat.log 2 q.num.natAbs * 2 ^ (Nat.log 2 q.den + 1) := by gcongr
      _ ≤ _ := by gcongr

/-- The relative error of a rounding is at most 2^-53. -/
theorem fl_error (q : ℚ) : |fl q - q| ≤ |q| / 2 ^ 53 := by
  unfold fl
  split
  · rename_i h; simp [h]
  · rename_i h
    simp only
    have hp : 0 < |q| := abs_pos.mpr h
    generalize he : ilog2 |q| - 52 = e
    have h1 : (0 : ℚ) < 2 ^ e := zpow_pos (by norm_num) _
    have h2 : (2 : ℚ) ^ e * 2 ^ 52 ≤ |q| := by
      have := ilog2_le hp
      rw [show ilog2 |q| = e + 52 by omega, zpow_add₀ (by norm_num)] at this
      exact_mod_cast this
    have h3 : (rne (q / 2 ^ e) : ℚ) * 2 ^ e - q = ((rne (q / 2 ^ e) : ℚ) - q / 2 ^ e) * 2 ^ e := by
      field_simp
    rw [h3, abs_mul, abs_of_pos h1]
    have h4 := rne_error (q / 2 ^ e)
    have h5 : |(rne (q / 2 ^ e) : ℚ) - q / 2 ^ e| * 2 ^ e ≤ 1 / 2 * 2 ^ e := by gcongr
    refine h5.trans ?_
    rw [le_div_iff₀ (by positivity)]
    calc (1 : ℚ) / 2 * 2 ^ e * 2 ^ 53 = 2 ^ e * 2 ^ 52 := by ring
      _ ≤ _ := h2

/-- 0.29 and 100 times it, as float64. -/
example : fl (29 / 100) = 5224175567749775 / 2 ^ 54 ∧ fl (100 * fl (29 / 100)) = 29 - 1 / 2 ^ 48 := by
  decide +kernel

end Verif.F64
