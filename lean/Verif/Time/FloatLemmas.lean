import Verif.Time.Float
import Verif.Time.LeapLemmas
import Mathlib.Tactic.Ring
import Mathlib.Tactic.NormNum
import Mathlib.Tactic.ByContra

/-! # Facts about rounding to binary64 -/

namespace Verif.F64

theorem ilog2_lt {q : ℚ} (h : 0 < q) : q < (2 : ℚ) ^ (ilog2 q + 1) := by
  unfold ilog2
  simp only
  have hn : (0 : ℤ) < q.num := Rat.num_pos.mpr h
  split
  · have h1 : q.num.natAbs < 2 ^ (Nat.log 2 q.num.natAbs + 1) := Nat.lt_pow_succ_log_self (by norm_num) _
    have h2 : 2 ^ Nat.log 2 q.den ≤ q.den := Nat.pow_log_le_self 2 q.den_pos.ne'
    have h1' : (q.num : ℚ) < 2 ^ (Nat.log 2 q.num.natAbs + 1) := by
      have : q.num < ((2 ^ (Nat.log 2 q.num.natAbs + 1) : ℕ) : ℤ) := by omega
      exact_mod_cast this
    have h2' : (2 : ℚ) ^ Nat.log 2 q.den ≤ q.den := by exact_mod_cast h2
    have hd : (0 : ℚ) < q.den := by exact_mod_cast q.den_pos
    have hq : q = (q.num : ℚ) / q.den := (Rat.num_div_den q).symm
    have : (2 : ℚ) ^ ((Nat.log 2 q.num.natAbs : ℤ) - Nat.log 2 q.den + 1) =
        2 ^ (Nat.log 2 q.num.natAbs + 1) / 2 ^ Nat.log 2 q.den := by
      rw [show ((Nat.log 2 q.num.natAbs : ℤ) - Nat.log 2 q.den + 1) =
        ((Nat.log 2 q.num.natAbs + 1 : ℕ) : ℤ) - (Nat.log 2 q.den : ℤ) by push_cast; ring, zpow_sub₀ (by norm_num),
        zpow_natCast, zpow_natCast]
    rw [this]
    conv_lhs => rw [hq]
    rw [div_lt_div_iff₀ hd (by positivity)]
    have hn' : (0 : ℚ) < q.num := by exact_mod_cast hn
    calc (q.num : ℚ) * 2 ^ Nat.log 2 q.den ≤ q.num * q.den := by gcongr
      _ < _ := by gcongr
  · rename_i hlt
    rw [sub_add_cancel]
    exact not_le.mp hlt

theorem ilog2_unique {q : ℚ} {k : ℤ} (h1 : (2 : ℚ) ^ k ≤ q) (h2 : q < 2 ^ (k + 1)) : ilog2 q = k := by
  have hq : 0 < q := lt_of_lt_of_le (zpow_pos (by norm_num) _) h1
  have a := ilog2_le hq
  have b := ilog2_lt hq
  have c : ilog2 q < k + 1 := (zpow_lt_zpow_iff_right₀ (by norm_num)).mp (a.trans_lt h2)
  have d : k < ilog2 q + 1 := (zpow_lt_zpow_iff_right₀ (by norm_num)).mp (h1.trans_lt b)
  omega

/-- A number with at most 53 significant bits is a float64. -/
theorem fl_exact {m e : ℤ} (h : |m| < 2 ^ 53) : fl (m * 2 ^ e) = m * 2 ^ e := by
  unfold fl
  split
  · rename_i h0; exact h0.symm
  rename_i h0
  simp only
  have hp := abs_pos.mpr h0
  have h2 : (0 : ℚ) < 2 ^ e := zpow_pos (by norm_num) _
  have hlt : |(m : ℚ) * 2 ^ e| < 2 ^ (53 + e) := by
    rw [abs_mul, abs_of_pos h2, zpow_add₀ (by norm_num)]
    have : |(m : ℚ)| < 2 ^ (53 : ℤ) := by exact_mod_cast h
    gcongr
  have hle : ilog2 |(m : ℚ) * 2 ^ e| - 52 ≤ e := by
    have := (zpow_lt_zpow_iff_right₀ (by norm_num : (1 : ℚ) < 2)).mp ((ilog2_le hp).trans_lt hlt)
    omega
  generalize ilog2 |(m : ℚ) * 2 ^ e| - 52 = i at *
  obtain ⟨n, rfl⟩ : ∃ n : ℕ, e = i + n := ⟨(e - i).toNat, by omega⟩
  have hi : (0 : ℚ) < 2 ^ i := zpow_pos (by norm_num) _
  have : (m : ℚ) * 2 ^ (i + (n : ℤ)) / 2 ^ i = ((m * 2 ^ n : ℤ) : ℚ) := by
    rw [zpow_add₀ (by norm_num), zpow_natCast]
    push_cast
    field_simp
  rw [this, rne_int, zpow_add₀ (by norm_num), zpow_natCast]
  push_cast
  ring

theorem fl_int {n : ℤ} (h : |n| < 2 ^ 53) : fl n = n := by
  have := fl_exact (e := 0) h
  simpa using this

theorem fl_zero : fl 0 = 0 := by simp [fl]

/-- The error of a rounding is at most half a unit in the last place. -/
theorem fl_ulp {q : ℚ} {k : ℤ} (h : |q| ≤ 2 ^ k) : |fl q - q| ≤ 2 ^ (k - 54) := by
  have hk : (0 : ℚ) < 2 ^ (k - 54) := zpow_pos (by norm_num) _
  rcases eq_or_ne q 0 with rfl | h0
  · rw [fl_zero, sub_zero, abs_zero]; exact hk.le
  rcases h.lt_or_eq with hlt | heq
  · have hp := abs_pos.mpr h0
    have h1 := (zpow_lt_zpow_iff_right₀ (by norm_num : (1 : ℚ) < 2)).mp ((ilog2_le hp).trans_lt hlt)
    unfold fl
    rw [if_neg h0]
    simp only
    generalize he : ilog2 |q| - 52 = e
    have h2 : (0 : ℚ) < 2 ^ e := zpow_pos (by norm_num) _
    have h3 : (rne (q / 2 ^ e) : ℚ) * 2 ^ e - q = ((rne (q / 2 ^ e) : ℚ) - q / 2 ^ e) * 2 ^ e := by field_simp
    rw [h3, abs_mul, abs_of_pos h2]
    have h4 := rne_error (q / 2 ^ e)
    have h5 : (2 : ℚ) ^ e ≤ 2 ^ (k - 53) := zpow_le_zpow_right₀ (by norm_num) (by omega)
    have h6 : (2 : ℚ) ^ (k - 53) = 2 * 2 ^ (k - 54) := by
      rw [show k - 53 = 1 + (k - 54) by ring, zpow_add₀ (by norm_num), zpow_one]
    calc _ ≤ 1 / 2 * (2 : ℚ) ^ e := by gcongr
      _ ≤ _ := by linarith
  · have : fl q = q := by
      have h1 : fl (((1 : ℤ) : ℚ) * 2 ^ k) = ((1 : ℤ) : ℚ) * 2 ^ k := fl_exact (by norm_num)
      have h2 : fl (((-1 : ℤ) : ℚ) * 2 ^ k) = ((-1 : ℤ) : ℚ) * 2 ^ k := fl_exact (by norm_num)
      push_cast at h1 h2
      rw [one_mul] at h1
      rw [neg_one_mul] at h2
      rcases abs_choice q with h | h
      · rw [h] at heq; rw [heq]; exact h1
      · rw [h] at heq
        rw [show q = -2 ^ k by linarith]; exact h2
    rw [this, sub_self, abs_zero]; exact hk.le

/-- The digits of a float64. -/
theorem digits {x : ℚ} (hx : fl x = x) {k : ℤ} (h1 : (2 : ℚ) ^ k ≤ |x|) (h2 : |x| < 2 ^ (k + 1)) : ∃ m : ℤ, x = m * 2 ^ (k - 52) := by
  have h0 : x ≠ 0 := by
    rintro rfl
    rw [abs_zero] at h1
    exact absurd h1 (not_le.mpr (zpow_pos (by norm_num) _))
  have he := ilog2_unique h1 h2
  unfold fl at hx
  rw [if_neg h0] at hx
  simp only at hx
  rw [he] at hx
  exact ⟨_, hx.symm⟩

theorem digits_log {x : ℚ} (hx : fl x = x) (h0 : x ≠ 0) : ∃ m : ℤ, x = m * 2 ^ (ilog2 |x| - 52) :=
  digits hx (ilog2_le (abs_pos.mpr h0)) (ilog2_lt (abs_pos.mpr h0))

/-- A number nearer than half a unit in the last place to a float64 inside its binade is rounded to it. -/
theorem fl_near {q : ℚ} {m k : ℤ} (h1 : (2 : ℚ) ^ k < |(m : ℚ) * 2 ^ (k - 52)|) (h2 : |(m : ℚ) * 2 ^ (k - 52)| < 2 ^ (k + 1))
    (h : |q - m * 2 ^ (k - 52)| < 2 ^ (k - 53)) : fl q = m * 2 ^ (k - 52) := by
  have hu : (0 : ℚ) < 2 ^ (k - 52) := zpow_pos (by norm_num) _
  have e1 : (2 : ℚ) ^ k = 2 ^ 52 * 2 ^ (k - 52) := by
    rw [show k = 52 + (k - 52) by ring, zpow_add₀ (by norm_num)]; norm_num
  have e2 : (2 : ℚ) ^ (k + 1) = 2 ^ 53 * 2 ^ (k - 52) := by
    rw [show k + 1 = 53 + (k - 52) by ring, zpow_add₀ (by norm_num)]; norm_num
  have e3 : (2 : ℚ) ^ (k - 52) = 2 * 2 ^ (k - 53) := by
    rw [show k - 52 = 1 + (k - 53) by ring, zpow_add₀ (by norm_num), zpow_one]
  rw [abs_mul, abs_of_pos hu, e1] at h1
  rw [abs_mul, abs_of_pos hu, e2] at h2
  have m1 : (2 : ℚ) ^ 52 < |(m : ℚ)| := lt_of_mul_lt_mul_right h1 hu.le
  have m2 : |(m : ℚ)| < (2 : ℚ) ^ 53 := lt_of_mul_lt_mul_right h2 hu.le
  have m1' : (2 : ℤ) ^ 52 + 1 ≤ |m| := by have : (2 : ℤ) ^ 52 < |m| := by exact_mod_cast m1
                                          omega
  have m2' : |m| + 1 ≤ (2 : ℤ) ^ 53 := by have : |m| < (2 : ℤ) ^ 53 := by exact_mod_cast m2
                                          omega
  have m1q : (2 : ℚ) ^ 52 + 1 ≤ |(m : ℚ)| := by exact_mod_cast m1'
  have m2q : |(m : ℚ)| + 1 ≤ (2 : ℚ) ^ 53 := by exact_mod_cast m2'
  have ha : |(|q| - |(m : ℚ)| * 2 ^ (k - 52))| < 2 ^ (k - 53) := by
    have := abs_abs_sub_abs_le q ((m : ℚ) * 2 ^ (k - 52))
    rw [abs_mul (m : ℚ), abs_of_pos hu] at this
    exact this.trans_lt h
  obtain ⟨a1, a2⟩ := abs_lt.mp ha
  have hq : ilog2 |q| = k := by
    apply ilog2_unique
    · rw [e1]
      have := mul_le_mul_of_nonneg_right m1q hu.le
      linarith
    · rw [e2]
      have := mul_le_mul_of_nonneg_right m2q hu.le
      linarith
  have hq0 : q ≠ 0 := by
    rintro rfl
    rw [abs_zero] at a1
    have := mul_le_mul_of_nonneg_right m1q hu.le
    nlinarith
  unfold fl
  rw [if_neg hq0]
  simp only
  rw [hq]
  congr 2
  have hr := rne_error (q / 2 ^ (k - 52))
  have hd : |q / 2 ^ (k - 52) - m| < 1 / 2 := by
    rw [show q / 2 ^ (k - 52) - (m : ℚ) = (q - m * 2 ^ (k - 52)) / 2 ^ (k - 52) by field_simp, abs_div, abs_of_pos hu, div_lt_iff₀ hu]
    linarith
  have : |((rne (q / 2 ^ (k - 52)) - m : ℤ) : ℚ)| < 1 := by
    push_cast
    obtain ⟨b1, b2⟩ := abs_le.mp hr
    obtain ⟨c1, c2⟩ := abs_lt.mp hd
    rw [abs_lt]; constructor <;> linarith
  have h3 : |rne (q / 2 ^ (k - 52)) - m| < 1 := by exact_mod_cast this
  have := Int.abs_lt_one_iff.mp h3
  omega

theorem rne_mono {x y : ℚ} (h : x ≤ y) : rne x ≤ rne y := Verif.Time.round_mono h

theorem fl_bounds {q : ℚ} {k : ℤ} (h1 : (2 : ℚ) ^ k ≤ q) (h2 : q < 2 ^ (k + 1)) : (2 : ℚ) ^ k ≤ fl q ∧ fl q ≤ 2 ^ (k + 1) := by
  have hk : (0 : ℚ) < 2 ^ k := zpow_pos (by norm_num) _
  have hq : 0 < q := hk.trans_le h1
  have hi : ilog2 |q| = k := by rw [abs_of_pos hq]; exact ilog2_unique h1 h2
  have hu : (0 : ℚ) < 2 ^ (k - 52) := zpow_pos (by norm_num) _
  have e1 : (2 : ℚ) ^ k = ((2 ^ 52 : ℤ) : ℚ) * 2 ^ (k - 52) := by
    rw [show k = 52 + (k - 52) by ring, zpow_add₀ (by norm_num)]; norm_num
  have e2 : (2 : ℚ) ^ (k + 1) = ((2 ^ 53 : ℤ) : ℚ) * 2 ^ (k - 52) := by
    rw [show k + 1 = 53 + (k - 52) by ring, zpow_add₀ (by norm_num)]; norm_num
  unfold fl
  rw [if_neg hq.ne']
  simp only
  rw [hi]
  constructor
  · have : (2 : ℤ) ^ 52 ≤ rne (q / 2 ^ (k - 52)) := by
      rw [← rne_int (2 ^ 52)]
      apply rne_mono
      rw [le_div_iff₀ hu, ← e1]; exact h1
    have : ((2 ^ 52 : ℤ) : ℚ) ≤ (rne (q / 2 ^ (k - 52)) : ℚ) := by exact_mod_cast this
    rw [e1]
    gcongr
  · have : rne (q / 2 ^ (k - 52)) ≤ (2 : ℤ) ^ 53 := by
      rw [← rne_int (2 ^ 53)]
      apply rne_mono
      rw [div_le_iff₀ hu, ← e2]; exact h2.le
    have : (rne (q / 2 ^ (k - 52)) : ℚ) ≤ ((2 ^ 53 : ℤ) : ℚ) := by exact_mod_cast this
    rw [e2]
    gcongr

theorem rne_neg (q : ℚ) : rne (-q) = -rne q := by
  unfold rne
  simp only
  rcases eq_or_ne (q - ⌊q⌋) 0 with h | h
  · have hq : q = (⌊q⌋ : ℚ) := by linarith
    rw [hq, show (-((⌊q⌋ : ℤ) : ℚ)) = ((-⌊q⌋ : ℤ) : ℚ) by push_cast; rfl, Int.floor_intCast, Int.floor_intCast]
    simp
  · have hf : ⌊-q⌋ = -⌊q⌋ - 1 := by
      rw [Int.floor_eq_iff]
      have h1 := Int.floor_le q
      have h2 := Int.lt_floor_add_one q
      push_cast
      constructor
      · linarith
      · have : (⌊q⌋ : ℚ) ≠ q := fun e => h (by linarith)
        have := lt_of_le_of_ne h1 this
        linarith
    rw [hf]
    push_cast
    split_ifs <;> first | omega | (exfalso; linarith)

theorem fl_neg (q : ℚ) : fl (-q) = -fl q := by
  unfold fl
  rcases eq_or_ne q 0 with rfl | h
  · simp
  · rw [if_neg h, if_neg (neg_ne_zero.mpr h)]
    simp only
    rw [abs_neg, neg_div, rne_neg]
    push_cast
    ring

theorem fl_pos {q : ℚ} (h : 0 < q) : 0 < fl q :=
  lt_of_lt_of_le (zpow_pos (by norm_num) _) (fl_bounds (ilog2_le h) (ilog2_lt h)).1

theorem fl_mono_pos {x y : ℚ} (hx : 0 < x) (h : x ≤ y) : fl x ≤ fl y := by
  have hy := hx.trans_le h
  have x1 := ilog2_le hx
  have x2 := ilog2_lt hx
  have y1 := ilog2_le hy
  have y2 := ilog2_lt hy
  have hle : ilog2 x < ilog2 y + 1 := (zpow_lt_zpow_iff_right₀ (by norm_num : (1 : ℚ) < 2)).mp ((x1.trans h).trans_lt y2)
  rcases (show ilog2 x = ilog2 y ∨ ilog2 x + 1 ≤ ilog2 y by omega) with he | he
  · unfold fl
    rw [if_neg hx.ne', if_neg hy.ne']
    simp only
    rw [abs_of_pos hx, abs_of_pos hy, he]
    have hu : (0 : ℚ) < 2 ^ (ilog2 y - 52) := zpow_pos (by norm_num) _
    have : rne (x / 2 ^ (ilog2 y - 52)) ≤ rne (y / 2 ^ (ilog2 y - 52)) := rne_mono (by gcongr)
    have : (rne (x / 2 ^ (ilog2 y - 52)) : ℚ) ≤ rne (y / 2 ^ (ilog2 y - 52)) := by exact_mod_cast this
    gcongr
  · exact (fl_bounds x1 x2).2.trans ((zpow_le_zpow_right₀ (by norm_num) he).trans (fl_bounds y1 y2).1)

/-- Rounding keeps the order. -/
theorem fl_mono {x y : ℚ} (h : x ≤ y) : fl x ≤ fl y := by
  rcases lt_trichotomy x 0 with hx | rfl | hx
  · rcases lt_or_ge y 0 with hy | hy
    · have := fl_mono_pos (neg_pos.mpr hy) (neg_le_neg h)
      rw [fl_neg, fl_neg] at this
      linarith
    · have := fl_pos (neg_pos.mpr hx)
      rw [fl_neg] at this
      have := fl_nonneg hy
      linarith
  · rw [fl_zero]; exact fl_nonneg h
  · exact fl_mono_pos hx h

theorem fl_le_of_le {x y : ℚ} (hy : fl y = y) (h : x ≤ y) : fl x ≤ y := hy ▸ fl_mono h

theorem le_fl_of_le {x y : ℚ} (hx : fl x = x) (h : x ≤ y) : x ≤ fl y := hx ▸ fl_mono h

/-- A rounded number is a float64. -/
theorem fl_fl (q : ℚ) : fl (fl q) = fl q := by
  have pos : ∀ q : ℚ, 0 < q → fl (fl q) = fl q := by
    intro q hq
    have hi1 := ilog2_le hq
    have hi2 := ilog2_lt hq
    obtain ⟨b1, b2⟩ := fl_bounds hi1 hi2
    rcases b2.lt_or_eq with hlt | heq
    · have e2 : (2 : ℚ) ^ (ilog2 q + 1) = ((2 ^ 53 : ℤ) : ℚ) * 2 ^ (ilog2 q - 52) := by
        rw [show ilog2 q + 1 = 53 + (ilog2 q - 52) by ring, zpow_add₀ (by norm_num)]; norm_num
      have hf : fl q = (rne (q / 2 ^ (ilog2 q - 52)) : ℚ) * 2 ^ (ilog2 q - 52) := by
        unfold fl
        rw [if_neg hq.ne', abs_of_pos hq]
      have hu : (0 : ℚ) < 2 ^ (ilog2 q - 52) := zpow_pos (by norm_num) _
      rw [hf, e2] at hlt
      have h1 := lt_of_mul_lt_mul_right hlt hu.le
      have h2 : rne (q / 2 ^ (ilog2 q - 52)) < 2 ^ 53 := by exact_mod_cast h1
      have h3 : 0 ≤ rne (q / 2 ^ (ilog2 q - 52)) := rne_nonneg (by positivity)
      rw [hf]
      exact fl_exact (by rw [abs_of_nonneg h3]; exact h2)
    · rw [heq]
      have := fl_exact (m := 1) (e := ilog2 q + 1) (by norm_num)
      simpa using this
  rcases lt_trichotomy q 0 with h | rfl | h
  · have := pos (-q) (by linarith)
    rw [fl_neg, fl_neg] at this
    linarith
  · rw [fl_zero, fl_zero]
  · exact pos q h

/-- Halving is exact. -/
theorem fl_half (q : ℚ) : fl (q / 2) = fl q / 2 := by
  have pos : ∀ q : ℚ, 0 < q → fl (q / 2) = fl q / 2 := by
    intro q hq
    have hi1 := ilog2_le hq
    have hi2 := ilog2_lt hq
    have hlog : ilog2 (q / 2) = ilog2 q - 1 := by
      apply ilog2_unique
      · rw [zpow_sub₀ (by norm_num), zpow_one]
        linarith
      · rw [show ilog2 q - 1 + 1 = (ilog2 q + 1) - 1 by ring, zpow_sub₀ (by norm_num), zpow_one]
        linarith
    have hq2 : 0 < q / 2 := by linarith
    have e : (2 : ℚ) ^ (ilog2 q - 1 - 52) = 2 ^ (ilog2 q - 52) / 2 := by
      rw [show ilog2 q - 1 - 52 = (ilog2 q - 52) - 1 by ring, zpow_sub₀ (by norm_num), zpow_one]
    unfold fl
    simp only
    rw [if_neg hq2.ne', if_neg hq.ne', abs_of_pos hq2, abs_of_pos hq, hlog, e]
    have hp : (0 : ℚ) < 2 ^ (ilog2 q - 52) := by positivity
    rw [show q / 2 / (2 ^ (ilog2 q - 52) / 2) = q / 2 ^ (ilog2 q - 52) by field_simp]
    ring
  rcases lt_trichotomy q 0 with h | h | h
  · have := pos (-q) (by linarith)
    rw [neg_div, fl_neg, fl_neg] at this
    linarith
  · subst h; simp [fl_zero]
  · exact pos q h

end Verif.F64
