import Verif.Dates.Model
import Mathlib.Tactic.NormNum

/-! # Error bounds for packed dates -/

namespace Verif.Dates

open Verif Verif.F64

/-- The absolute error of a rounding of a number of known size. -/
theorem fl_abs {q b : ℚ} (h : |q| ≤ b) : |fl q - q| ≤ b / 2 ^ 53 := (fl_error q).trans (by gcongr)

structure Bounds (dec : ℚ) (h m : Int) (s : ℚ) : Prop where
  h0 : 0 ≤ h
  m0 : 0 ≤ m
  hlo : (h : ℚ) ≤ 24 * dec + 1 / 10 ^ 14
  hhi : 24 * dec - 1 / 10 ^ 14 < h + 1
  mlo : (m : ℚ) ≤ 60 * (24 * dec - h) + 1 / 10 ^ 12
  mhi : 60 * (24 * dec - h) - 1 / 10 ^ 12 < m + 1
  sec : |3600 * (24 * dec - h - m / 60) - s| ≤ 1 / 10 ^ 10
  pos : 1 / 10 ^ 12 ≤ 1440 * dec - 60 * h - m → 0 ≤ s

theorem bounds {dec : ℚ} (h0 : 0 ≤ dec) (h1 : dec < 1) :
    Bounds dec (hoursOf (fl dec)).1 (minutesOf (hoursOf (fl dec)).2)
      (secondsOf (hoursOf (fl dec)).2 (minutesOf (hoursOf (fl dec)).2)) := by
  have e1 := fl_abs (q := dec) (b := 1) (by rw [abs_of_nonneg h0]; exact h1.le)
  have p1 := fl_nonneg h0
  simp only [hoursOf]
  generalize fl dec = f at *
  rw [abs_le] at e1
  have e2 := fl_abs (q := 24 * f) (b := 25) (by rw [abs_of_nonneg (by positivity)]; norm_num at e1; linarith)
  have p2 := fl_nonneg (q := 24 * f) (by positivity)
  generalize fl (24 * f) = x at *
  rw [abs_le] at e2
  have f1 := Int.floor_le x
  have f2 := Int.lt_floor_add_one x
  have f3 : 0 ≤ ⌊x⌋ := Int.floor_nonneg.mpr p2
  generalize ⌊x⌋ = h at *
  have e3 := fl_abs (q := x - h) (b := 1) (by rw [abs_of_nonneg (by linarith)]; linarith)
  have p3 := fl_nonneg (q := x - h) (by linarith)
  generalize fl (x - h) = y at *
  rw [abs_le] at e3
  simp only [minutesOf]
  have e4 := fl_abs (q := 60 * y) (b := 61) (by rw [abs_of_nonneg (by positivity)]; norm_num at e3; linarith)
  have p4 := fl_nonneg (q := 60 * y) (by positivity)
  generalize fl (60 * y) = w at *
  rw [abs_le] at e4
  have g1 := Int.floor_le w
  have g2 := Int.lt_floor_add_one w
  have g3 : 0 ≤ ⌊w⌋ := Int.floor_nonneg.mpr p4
  generalize ⌊w⌋ = m at *
  have m0 : (0 : ℚ) ≤ m := by exact_mod_cast g3
  simp only [secondsOf]
  have e5 := fl_abs (q := (m : ℚ) / 60) (b := 2)
    (by rw [abs_of_nonneg (by positivity)]; norm_num at e3 e4; linarith)
  generalize fl ((m : ℚ) / 60) = q at *
  rw [abs_le] at e5
  have e6 := fl_abs (q := y - q) (b := 1) (by rw [abs_le]; norm_num at e3 e4 e5; constructor <;> linarith)
  have p6 : 0 ≤ y - q → 0 ≤ fl (y - q) := fl_nonneg
  generalize fl (y - q) = z at *
  rw [abs_le] at e6
  have e7 := fl_abs (q := 3600 * z) (b := 61) (by rw [abs_le]; norm_num at e3 e4 e5 e6; constructor <;> linarith)
  have p7 : 0 ≤ 3600 * z → 0 ≤ fl (3600 * z) := fl_nonneg
  generalize fl (3600 * z) = s at *
  rw [abs_le] at e7
  norm_num at e1 e2 e3 e4 e5 e6 e7
  refine ⟨f3, g3, ?_, ?_, ?_, ?_, ?_, ?_⟩
  · norm_num; linarith
  · norm_num; linarith
  · norm_num; linarith
  · norm_num; linarith
  · rw [abs_le]; norm_num; constructor <;> linarith
  · intro hp
    apply p7
    apply mul_nonneg (by norm_num)
    apply p6
    norm_num at hp
    linarith

theorem fraction_eq (ds : List Nat) (h : ∀ d ∈ ds, d < 10) :
    ∃ k : ℕ, k < 10 ^ ds.length ∧ fraction ds = k / 10 ^ ds.length := by
  induction ds with
  | nil => exact ⟨0, by simp, by simp [fraction]⟩
  | cons d ds ih =>
    obtain ⟨k, hk, he⟩ := ih fun x hx => h x (List.mem_cons_of_mem _ hx)
    have hd := h d List.mem_cons_self
    refine ⟨d * 10 ^ ds.length + k, ?_, ?_⟩
    · rw [List.length_cons, pow_succ]
      have : (d + 1) * 10 ^ ds.length ≤ 10 * 10 ^ ds.length := Nat.mul_le_mul_right _ (by omega)
      nlinarith
    · rw [fraction, he, List.length_cons, pow_succ]
      push_cast
      field_simp

theorem fraction_nonneg (ds : List Nat) : 0 ≤ fraction ds := by
  induction ds with
  | nil => simp [fraction]
  | cons d ds ih => rw [fraction]; positivity

theorem fraction_lt_one (ds : List Nat) (h : ∀ d ∈ ds, d < 10) : fraction ds < 1 := by
  obtain ⟨k, hk, he⟩ := fraction_eq ds h
  rw [he, div_lt_one (by positivity)]
  exact_mod_cast hk

theorem ninth {K : ℕ} {n : ℤ} (hK : K < 100000000000000) (h : 9 * (K : ℤ) = 625000000000 * n) :
    ∃ j : ℕ, j < 160 ∧ (K : ℤ) = 625000000000 * j := by
  have hd : (9 : ℤ) ∣ n := by
    refine Int.dvd_of_dvd_mul_right_of_gcd_one (b := 625000000000) ⟨K, by linarith⟩ (by decide +kernel)
  obtain ⟨j, rfl⟩ := hd
  have hK' : (K : ℤ) < 100000000000000 := by exact_mod_cast hK
  have h0 : (0 : ℤ) ≤ K := by positivity
  have hj0 : 0 ≤ j := by linarith
  have hj1 : j < 160 := by linarith
  obtain ⟨i, rfl⟩ := Int.eq_ofNat_of_zero_le hj0
  exact ⟨i, by exact_mod_cast hj1, by linarith⟩

/-- With at most fourteen digits the fraction of the day is a whole number of minutes, or it is not close to one. -/
theorem whole_or_far (ds : List Nat) (h : ∀ d ∈ ds, d < 10) (hl : ds.length ≤ 14) :
    (∃ j : ℕ, j < 160 ∧ fraction ds = j / 160) ∨ ∀ n : ℤ, 160 / 10 ^ 14 ≤ |1440 * fraction ds - n| := by
  obtain ⟨k, hk, he⟩ := fraction_eq ds h
  obtain ⟨i, hi⟩ := Nat.exists_eq_add_of_le hl
  have h14 : (10 : ℚ) ^ 14 = 10 ^ ds.length * 10 ^ i := by rw [← pow_add, hi]
  have h14n : (10 : ℕ) ^ 14 = 10 ^ ds.length * 10 ^ i := by rw [← pow_add, hi]
  have he' : fraction ds = (k * 10 ^ i : ℕ) / 10 ^ 14 := by
    rw [he, h14]
    push_cast
    field_simp
  have hK : k * 10 ^ i < 10 ^ 14 := by
    rw [h14n]
    exact Nat.mul_lt_mul_of_pos_right hk (by positivity)
  generalize k * 10 ^ i = K at *
  by_cases hn : ∃ n : ℤ, 9 * (K : ℤ) = 625000000000 * n
  · obtain ⟨n, hn⟩ := hn
    left
    obtain ⟨j, hj, hK'⟩ := ninth (by norm_num at hK; exact hK) hn
    refine ⟨j, hj, ?_⟩
    have : (K : ℚ) = 625000000000 * (j : ℚ) := by exact_mod_cast hK'
    rw [he', this]
    ring
  · right
    intro n
    have hne : 9 * (K : ℤ) - 625000000000 * n ≠ 0 := fun hc => hn ⟨n, by linarith⟩
    have h1 : 1 ≤ |9 * (K : ℤ) - 625000000000 * n| := Int.one_le_abs hne
    have h2 : (1 : ℚ) ≤ |9 * (K : ℚ) - 625000000000 * n| := by exact_mod_cast h1
    have : 1440 * fraction ds - n = (9 * (K : ℚ) - 625000000000 * n) * (160 / 10 ^ 14) := by rw [he']; ring
    rw [this, abs_mul, abs_of_pos (by norm_num : (0 : ℚ) < 160 / 10 ^ 14)]
    have : (0 : ℚ) ≤ 160 / 10 ^ 14 := by norm_num
    nlinarith

end Verif.Dates
