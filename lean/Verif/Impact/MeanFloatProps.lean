import Verif.Impact.MeanFloat
import Verif.Time.LabelFloatProps

/-! # C206: mean impact times with float64 rounding -/

namespace Verif.Impact.MeanFloatProps

open Verif Time Time.Spec F64 Time.DurationFloatProps

/-- The mean of the instants of rows, in nanoseconds. -/
def exactMean (l : List Time.Row) : ℚ := (l.map fun r => ((instant r : ℤ) : ℚ)).sum / l.length

theorem mjd_bounds {r : Time.Row} (h : Modern r) (h2 : r.days < 2 ^ 16) :
    0 ≤ r.mjd64 ∧ |r.mjd64 * 86400000000000 - instant r| ≤ 315 - 3 / 10 := by
  obtain ⟨A, e, h1, -⟩ := mjd_units h
  have h1' : (2 ^ 52 : ℚ) ≤ A := by exact_mod_cast h1
  refine ⟨by rw [e]; positivity, ?_⟩
  have := FloatProps.C194_mjd (k := 16) (by norm_num) h.1 (by have := h.2.1; rw [abs_lt]; constructor <;> omega)
  rw [DAY_eq] at this
  have e2 : r.mjd64 * 86400000000000 - instant r = (r.mjd64 - ((instant r : ℤ) : ℚ) / ((86400000000000 : ℤ) : ℚ)) * 86400000000000 := by
    push_cast; ring
  rw [e2, abs_mul, abs_of_pos (by norm_num : (0 : ℚ) < 86400000000000)]
  have h3 := mul_le_mul_of_nonneg_right this (by norm_num : (0 : ℚ) ≤ 86400000000000)
  refine h3.trans ?_
  norm_num

theorem rows_ne (t : Tree) : 0 < t.rows.length := by
  induction t with
  | leaf r => simp [Tree.rows]
  | node a b ha hb => simp only [Tree.rows, List.length_append]; omega

theorem pow_le {n : ℕ} (h : n ≤ 2 ^ 40) : (1 + 1 / 2 ^ 53 : ℚ) ^ n ≤ 1 + 101 / 100 * n / 2 ^ 53 := by
  induction n with
  | zero => simp
  | succ n ih =>
    have ih := ih (by omega)
    have hn : (n : ℚ) ≤ 1099511627776 := by exact_mod_cast (by omega : n ≤ 1099511627776)
    rw [pow_succ]
    calc (1 + 1 / 2 ^ 53 : ℚ) ^ n * (1 + 1 / 2 ^ 53) ≤ (1 + 101 / 100 * n / 2 ^ 53) * (1 + 1 / 2 ^ 53) :=
          mul_le_mul_of_nonneg_right ih (by norm_num)
      _ ≤ _ := by push_cast; norm_num; linarith

theorem sum_near (t : Tree) (h : ∀ r ∈ t.rows, 0 ≤ r.mjd64) :
    0 ≤ (t.rows.map Row.mjd64).sum ∧
    |t.sum64 - (t.rows.map Row.mjd64).sum| ≤ ((1 + 1 / 2 ^ 53) ^ t.depth - 1) * (t.rows.map Row.mjd64).sum := by
  induction t with
  | leaf r =>
    have := h r (by simp [Tree.rows])
    simp [Tree.rows, Tree.sum64, Tree.depth, this]
  | node a b ha hb =>
    obtain ⟨pa, ea⟩ := ha fun r hr => h r (by simp [Tree.rows, hr])
    obtain ⟨pb, eb⟩ := hb fun r hr => h r (by simp [Tree.rows, hr])
    simp only [Tree.rows, Tree.sum64, Tree.depth, List.map_append, List.sum_append]
    generalize (a.rows.map Row.mjd64).sum = A at *
    generalize (b.rows.map Row.mjd64).sum = B at *
    refine ⟨by linarith, ?_⟩
    have hone : (1 : ℚ) ≤ 1 + 1 / 2 ^ 53 := by norm_num
    have ma : ((1 + 1 / 2 ^ 53 : ℚ)) ^ a.depth ≤ (1 + 1 / 2 ^ 53) ^ max a.depth b.depth := pow_le_pow_right₀ hone (le_max_left _ _)
    have mb : ((1 + 1 / 2 ^ 53 : ℚ)) ^ b.depth ≤ (1 + 1 / 2 ^ 53) ^ max a.depth b.depth := pow_le_pow_right₀ hone (le_max_right _ _)
    rw [pow_succ]
    generalize (1 + 1 / 2 ^ 53 : ℚ) ^ max a.depth b.depth = P at *
    have ea' : |a.sum64 - A| ≤ (P - 1) * A := ea.trans (mul_le_mul_of_nonneg_right (by linarith) pa)
    have eb' : |b.sum64 - B| ≤ (P - 1) * B := eb.trans (mul_le_mul_of_nonneg_right (by linarith) pb)
    have e1 : |a.sum64 + b.sum64 - (A + B)| ≤ (P - 1) * (A + B) := by
      have := abs_add_le (a.sum64 - A) (b.sum64 - B)
      rw [show a.sum64 - A + (b.sum64 - B) = a.sum64 + b.sum64 - (A + B) by ring] at this
      linarith
    have e2 := fl_error (a.sum64 + b.sum64)
    have e3 : |a.sum64 + b.sum64| ≤ P * (A + B) := by
      have := abs_sub_abs_le_abs_sub (a.sum64 + b.sum64) (A + B)
      rw [abs_of_nonneg (by linarith : 0 ≤ A + B)] at this
      linarith
    have e4 := abs_add_le (fl (a.sum64 + b.sum64) - (a.sum64 + b.sum64)) (a.sum64 + b.sum64 - (A + B))
    rw [show fl (a.sum64 + b.sum64) - (a.sum64 + b.sum64) + (a.sum64 + b.sum64 - (A + B)) = fl (a.sum64 + b.sum64) - (A + B) by ring] at e4
    have e5 : |a.sum64 + b.sum64| / 2 ^ 53 ≤ P * (A + B) / 2 ^ 53 := div_le_div_of_nonneg_right e3 (by positivity)
    calc |fl (a.sum64 + b.sum64) - (A + B)| ≤ P * (A + B) / 2 ^ 53 + (P - 1) * (A + B) := by linarith
      _ = _ := by ring

theorem sum_bounds (l : List Time.Row) (h : ∀ r ∈ l, Modern r ∧ r.days < 2 ^ 16) :
    |(l.map Row.mjd64).sum * 86400000000000 - (l.map fun r => ((instant r : ℤ) : ℚ)).sum| ≤ (315 - 3 / 10) * l.length ∧
    (l.map Row.mjd64).sum ≤ 65536 * l.length := by
  induction l with
  | nil => simp
  | cons r l ih =>
    obtain ⟨i1, i2⟩ := ih fun q hq => h q (by simp [hq])
    obtain ⟨hm, h2⟩ := h r (by simp)
    have hb := abs_le.mp (mjd_bounds hm h2).2
    have i1 := abs_le.mp i1
    have hr : r.mjd64 ≤ 65536 := by
      have a1 := hm.1.2
      have a2 : instant r ≤ 65536 * 86400000000000 := by
        unfold instant; rw [DAY_eq] at a1 ⊢; omega
      have e16 : fl (65536 : ℚ) = 65536 := by have := fl_int (n := 65536) (by norm_num); exact_mod_cast this
      unfold Row.mjd64
      apply fl_le_of_le e16
      have f1 := (FloatProps.fraction64_near (r := r) ⟨hm.1.1, hm.1.2.le⟩).2.1
      rw [fl_int (n := r.days) (by have := hm.2.1; rw [abs_of_nonneg (by omega)]; omega)]
      have : (r.days : ℚ) ≤ 65535 := by exact_mod_cast (by omega : r.days ≤ 65535)
      linarith
    simp only [List.map_cons, List.sum_cons, List.length_cons]
    push_cast
    refine ⟨?_, by linarith⟩
    rw [abs_le]
    constructor <;> linarith [hb.1, hb.2, i1.1, i1.2]

/-- C206. Whatever the order of adding, the mean of times up to 2038 is within 0.64 microseconds for every addition in a row and one more, and 0.32
microseconds, of the exact mean. -/
theorem C206_error (t : Tree) (h : ∀ r ∈ t.rows, Modern r ∧ r.days < 2 ^ 16) (hd : t.depth < 2 ^ 40) :
    |((instant (meanTime64 t) : ℤ) : ℚ) - exactMean t.rows| ≤ 640 * (t.depth + 1) + 320 := by
  obtain ⟨p, hs⟩ := sum_near t fun r hr => (mjd_bounds (h r hr).1 (h r hr).2).1
  obtain ⟨b1, b2⟩ := sum_bounds t.rows h
  have hn : (0 : ℚ) < t.rows.length := by exact_mod_cast rows_ne t
  have hp : ((1 + 1 / 2 ^ 53 : ℚ)) ^ (t.depth + 1) ≤ 1 + 101 / 100 * ((t.depth + 1 : ℕ) : ℚ) / 2 ^ 53 := pow_le (by omega)
  have hf := (FloatProps.C194_from_mjd (fl (t.sum64 / t.rows.length))).1
  unfold meanTime64 exactMean
  generalize ((instant (fromMjd64 (fl (t.sum64 / t.rows.length))) : ℤ) : ℚ) = R at *
  generalize (t.rows.map fun r => ((instant r : ℤ) : ℚ)).sum = I at *
  generalize (t.rows.map Row.mjd64).sum = S at *
  generalize (t.rows.length : ℚ) = n at *
  rw [DAY_eq] at hf
  push_cast at hf hp
  norm_num at hf
  -- the mean of the float64 sum
  have e1 : |t.sum64 / n - S / n| ≤ ((1 + 1 / 2 ^ 53) ^ t.depth - 1) * (S / n) := by
    rw [← sub_div, abs_div, abs_of_pos hn, mul_div_assoc']
    exact div_le_div_of_nonneg_right hs hn.le
  have q0 : 0 ≤ S / n := by positivity
  have q1 : S / n ≤ 65536 := by rw [div_le_iff₀ hn]; exact b2
  have e2 := fl_error (t.sum64 / n)
  rw [pow_succ] at hp
  generalize (1 + 1 / 2 ^ 53 : ℚ) ^ t.depth = P at *
  have e3 : |t.sum64 / n| ≤ P * (S / n) := by
    have := abs_sub_abs_le_abs_sub (t.sum64 / n) (S / n)
    rw [abs_of_nonneg q0] at this
    linarith
  have e5 : |t.sum64 / n| / 2 ^ 53 ≤ P * (S / n) / 2 ^ 53 := div_le_div_of_nonneg_right e3 (by positivity)
  have e4 := abs_add_le (fl (t.sum64 / n) - t.sum64 / n) (t.sum64 / n - S / n)
  rw [show fl (t.sum64 / n) - t.sum64 / n + (t.sum64 / n - S / n) = fl (t.sum64 / n) - S / n by ring] at e4
  have e6 : |fl (t.sum64 / n) - S / n| ≤ 101 / 100 * (t.depth + 1) / 2 ^ 53 * 65536 := by
    calc |fl (t.sum64 / n) - S / n| ≤ P * (S / n) / 2 ^ 53 + (P - 1) * (S / n) := by linarith
      _ = (P * (1 + 1 / 2 ^ 53) - 1) * (S / n) := by ring
      _ ≤ (101 / 100 * (t.depth + 1) / 2 ^ 53) * (S / n) := mul_le_mul_of_nonneg_right (by linarith) q0
      _ ≤ _ := mul_le_mul_of_nonneg_left q1 (by positivity)
  have b1' : |S / n * 86400000000000 - I / n| ≤ 315 - 3 / 10 := by
    rw [div_mul_eq_mul_div, ← sub_div, abs_div, abs_of_pos hn, div_le_iff₀ hn]
    exact b1
  have f1 := abs_le.mp hf
  have f2 := abs_le.mp e6
  have f3 := abs_le.mp b1'
  norm_num at f2
  rw [abs_le]
  constructor <;> linarith [f1.1, f1.2, f2.1, f2.2, f3.1, f3.2, (by positivity : (0 : ℚ) ≤ (t.depth : ℚ))]

/-- Three impacts, an hour apart. -/
example : let t : Tree := .node (.node (.leaf ⟨60000, 0⟩) (.leaf ⟨60000, 3600000000000⟩)) (.leaf ⟨60000, 7200000000000⟩)
    t.depth = 2 ∧ exactMean t.rows = 60000 * 86400000000000 + 3600000000000 ∧ meanTime64 t = ⟨60000, 3599999999790⟩ := by
  decide +kernel

/-- C206. The mean of one time, and of a time with itself, is the time through its MJD; the mean of two is between theirs. -/
theorem C206_two {a b : Time.Row} (ha : Modern a) (hb : Modern b) (hab : instant a ≤ instant b) :
    meanTime64 (.leaf a) = fromMjd64 a.mjd64 ∧ meanTime64 (.node (.leaf a) (.leaf a)) = fromMjd64 a.mjd64 ∧
    instant (fromMjd64 a.mjd64) ≤ instant (meanTime64 (.node (.leaf a) (.leaf b))) ∧
    instant (meanTime64 (.node (.leaf a) (.leaf b))) ≤ instant (fromMjd64 b.mjd64) := by
  have fa := (LabelFloatProps.modern_mjd ha).1
  have fb := (LabelFloatProps.modern_mjd hb).1
  have two : ∀ q : ℚ, fl (2 * q) = 2 * fl q := by
    intro q
    have := fl_half (2 * q)
    rw [show 2 * q / 2 = q by ring] at this
    linarith
  have hm := (FloatProps.C194_order (k := 17) (by norm_num) ha.1 hb.1 (LabelFloatProps.modern_lt ha) (LabelFloatProps.modern_lt hb)).1 hab
  have mean2 : ∀ r q : Time.Row, meanTime64 (.node (.leaf r) (.leaf q)) = fromMjd64 (fl (r.mjd64 + q.mjd64) / 2) := by
    intro r q
    show fromMjd64 (fl (fl (r.mjd64 + q.mjd64) / ((2 : ℕ) : ℚ))) = _
    rw [show ((2 : ℕ) : ℚ) = 2 by norm_num, fl_half, fl_fl]
  refine ⟨?_, ?_, ?_, ?_⟩
  · show fromMjd64 (fl (a.mjd64 / ((1 : ℕ) : ℚ))) = _
    rw [Nat.cast_one, div_one, fa]
  · rw [mean2, ← two_mul, two, fa, show 2 * a.mjd64 / 2 = a.mjd64 by ring]
  · rw [mean2]
    apply LabelFloatProps.fromMjd_mono
    have := fl_mono (show 2 * a.mjd64 ≤ a.mjd64 + b.mjd64 by linarith)
    rw [two, fa] at this
    linarith
  · rw [mean2]
    apply LabelFloatProps.fromMjd_mono
    have := fl_mono (show a.mjd64 + b.mjd64 ≤ 2 * b.mjd64 by linarith)
    rw [two, fb] at this
    linarith

/-- Two impacts, six hours apart. -/
example : Modern ⟨60000, 0⟩ ∧ Modern ⟨60000, 21600000000000⟩ ∧
    meanTime64 (.node (.leaf ⟨60000, 0⟩) (.leaf ⟨60000, 21600000000000⟩)) = ⟨60000, 10800000000000⟩ :=
  ⟨⟨⟨by decide, by decide⟩, by decide, by decide⟩, ⟨⟨by decide, by decide⟩, by decide, by decide⟩, by decide +kernel⟩

/-- C206. Not true: that the mean of equal times is that time, or its time through the MJD, or between the earliest and the latest. Three impacts at the
same microsecond have a mean 0.9 microseconds later. -/
theorem C206_equal_false : let r : Time.Row := ⟨60000, 1000⟩
    Modern r ∧ meanTime64 (.node (.node (.leaf r) (.leaf r)) (.leaf r)) = ⟨60000, 1886⟩ ∧ fromMjd64 r.mjd64 = ⟨60000, 1257⟩ :=
  ⟨⟨⟨by decide, by decide⟩, by decide, by decide⟩, by decide +kernel, by decide +kernel⟩

end Verif.Impact.MeanFloatProps
