import Verif.Time.DurationFloat
import Verif.Time.FloatProps
import Verif.Time.Props

/-! # C199: durations with float64 rounding -/

namespace Verif.Time.DurationFloatProps

open Verif F64 Spec

/-- A normalised row from 1948 to 2127. -/
def Modern (r : Row) : Prop := Normal r ∧ 2 ^ 15 ≤ r.days ∧ r.days ≤ 3 * 2 ^ 15 - 2

/-- The days from one row to another. -/
def exactDays (a b : Row) : ℚ := ((instant b - instant a : ℤ) : ℚ) / DAY

theorem mjd_units {r : Row} (h : Modern r) : ∃ A : ℤ, r.mjd64 = A * 2 ^ (-37 : ℤ) ∧ 2 ^ 52 ≤ A ∧ A < 3 * 2 ^ 52 := by
  obtain ⟨hr, h1, h2⟩ := h
  obtain ⟨f0, f1, _⟩ := FloatProps.fraction64_near (r := r) ⟨hr.1, hr.2.le⟩
  have ed : fl (r.days : ℚ) = r.days := fl_int (by rw [abs_of_nonneg (by omega)]; omega)
  have h1' : (2 ^ 15 : ℚ) ≤ r.days := by exact_mod_cast h1
  have h2' : (r.days : ℚ) ≤ 3 * 2 ^ 15 - 2 := by exact_mod_cast h2
  have g1 : fl (2 ^ 15 : ℚ) = 2 ^ 15 := by have := fl_int (n := 2 ^ 15) (by norm_num); exact_mod_cast this
  have g2 : fl (3 * 2 ^ 15 - 1 : ℚ) = 3 * 2 ^ 15 - 1 := by have := fl_int (n := 3 * 2 ^ 15 - 1) (by norm_num); exact_mod_cast this
  have hx : fl r.mjd64 = r.mjd64 := fl_fl _
  have l1 : 2 ^ 15 ≤ r.mjd64 := by unfold Row.mjd64; rw [ed]; exact le_fl_of_le g1 (by linarith)
  have l2 : r.mjd64 ≤ 3 * 2 ^ 15 - 1 := by unfold Row.mjd64; rw [ed]; exact fl_le_of_le g2 (by linarith)
  have l0 : 0 ≤ r.mjd64 := by linarith
  have : ∃ A : ℤ, r.mjd64 = A * 2 ^ (-37 : ℤ) := by
    rcases lt_or_ge r.mjd64 (2 ^ 16) with h | h
    · obtain ⟨m, hm⟩ := digits hx (k := 15) (by rw [abs_of_nonneg l0]; norm_num at l1 ⊢; linarith) (by rw [abs_of_nonneg l0]; norm_num at h ⊢; linarith)
      exact ⟨m, by simpa using hm⟩
    · obtain ⟨m, hm⟩ := digits hx (k := 16) (by rw [abs_of_nonneg l0]; norm_num at h ⊢; linarith) (by rw [abs_of_nonneg l0]; norm_num at l2 ⊢; linarith)
      exact ⟨2 * m, by rw [hm]; push_cast; norm_num; ring⟩
  obtain ⟨A, hA⟩ := this
  refine ⟨A, hA, ?_, ?_⟩
  · have : ((2 ^ 52 : ℤ) : ℚ) ≤ A := by norm_num at hA l1 ⊢; linarith
    exact_mod_cast this
  · have : (A : ℚ) < ((3 * 2 ^ 52 : ℤ) : ℚ) := by norm_num at hA l2 ⊢; linarith
    exact_mod_cast this

/-- The subtraction itself is exact. -/
theorem days_exact {a b : Row} (ha : Modern a) (hb : Modern b) : days64 a b = b.mjd64 - a.mjd64 := by
  obtain ⟨A, eA, a1, a2⟩ := mjd_units ha
  obtain ⟨B, eB, b1, b2⟩ := mjd_units hb
  unfold days64
  rw [eA, eB]
  have e : (B : ℚ) * 2 ^ (-37 : ℤ) - A * 2 ^ (-37 : ℤ) = ((B - A : ℤ) : ℚ) * 2 ^ (-37 : ℤ) := by push_cast; ring
  rw [e]
  exact fl_exact (by rw [abs_lt]; constructor <;> omega)

/-- C199. A duration from 1948 to 2127 is off by less than 1.3 microseconds, however long it is. -/
theorem C199_error {a b : Row} (ha : Modern a) (hb : Modern b) : |days64 a b - exactDays a b| ≤ 2 ^ (-36 : ℤ) + 2 ^ (-53 : ℤ) := by
  rw [days_exact ha hb]
  have bound : ∀ r : Row, Modern r → |r.days| < 2 ^ 17 := by
    intro r h
    obtain ⟨-, h1, h2⟩ := h
    rw [abs_lt]; constructor <;> omega
  have e1 := abs_le.mp (FloatProps.C194_mjd (k := 17) (by norm_num) ha.1 (bound a ha))
  have e2 := abs_le.mp (FloatProps.C194_mjd (k := 17) (by norm_num) hb.1 (bound b hb))
  have ed : exactDays a b = ((instant b : ℤ) : ℚ) / DAY - ((instant a : ℤ) : ℚ) / DAY := by unfold exactDays; push_cast; ring
  rw [ed]
  norm_num at e1 e2 ⊢
  rw [abs_le]
  constructor <;> linarith [e1.1, e1.2, e2.1, e2.2]

/-- C199. Durations up to 2038 are off by less than 0.64 microseconds. -/
theorem C199_error_2038 {a b : Row} (ha : Modern a) (hb : Modern b) (a2 : a.days < 2 ^ 16) (b2 : b.days < 2 ^ 16) :
    |days64 a b - exactDays a b| ≤ 2 ^ (-37 : ℤ) + 2 ^ (-53 : ℤ) := by
  rw [days_exact ha hb]
  have e1 := abs_le.mp (FloatProps.C194_mjd (k := 16) (by norm_num) ha.1 (by have := ha.2.1; rw [abs_lt]; constructor <;> omega))
  have e2 := abs_le.mp (FloatProps.C194_mjd (k := 16) (by norm_num) hb.1 (by have := hb.2.1; rw [abs_lt]; constructor <;> omega))
  have ed : exactDays a b = ((instant b : ℤ) : ℚ) / DAY - ((instant a : ℤ) : ℚ) / DAY := by unfold exactDays; push_cast; ring
  rw [ed]
  norm_num at e1 e2 ⊢
  rw [abs_le]
  constructor <;> linarith [e1.1, e1.2, e2.1, e2.2]

/-- C199. The duration from a time to itself is 0, of every row, and the one back is the negative. -/
theorem C199_zero_reverse (a b : Row) : days64 a a = 0 ∧ days64 b a = -days64 a b := by
  unfold days64
  rw [sub_self, fl_zero, ← fl_neg, neg_sub]
  exact ⟨rfl, rfl⟩

/-- C199. Durations add up, without error. -/
theorem C199_chain {a b c : Row} (ha : Modern a) (hb : Modern b) (hc : Modern c) :
    days64 a c = days64 a b + days64 b c ∧ fl (days64 a b + days64 b c) = days64 a c := by
  have e : days64 a b + days64 b c = days64 a c := by
    rw [days_exact ha hb, days_exact hb hc, days_exact ha hc]; ring
  refine ⟨e.symm, ?_⟩
  rw [e]
  exact fl_fl _

/-- C199. A later time never has a smaller duration, and one that is over 1.3 microseconds later has a larger one. -/
theorem C199_order {a b c : Row} (ha : Modern a) (hb : Modern b) (hc : Modern c) :
    (instant b ≤ instant c → days64 a b ≤ days64 a c) ∧ (instant a ≤ instant b → 0 ≤ days64 a b) ∧
    ((2 : ℚ) ^ (-36 : ℤ) + 2 ^ (-53 : ℤ) < exactDays b c → days64 a b < days64 a c) := by
  have bound : ∀ r : Row, Modern r → |r.days| < 2 ^ 17 := by
    intro r h
    obtain ⟨-, h1, h2⟩ := h
    rw [abs_lt]; constructor <;> omega
  have mono : ∀ {x y : Row}, Modern x → Modern y → instant x ≤ instant y → x.mjd64 ≤ y.mjd64 := fun hx hy h =>
    (FloatProps.C194_order (k := 17) (by norm_num) hx.1 hy.1 (bound _ hx) (bound _ hy)).1 h
  refine ⟨fun h => ?_, fun h => ?_, fun h => ?_⟩
  · rw [days_exact ha hb, days_exact ha hc]
    linarith [mono hb hc h]
  · rw [days_exact ha hb]
    linarith [mono ha hb h]
  · have e := abs_le.mp (C199_error hb hc)
    have := (C199_chain ha hb hc).1
    linarith [e.1]

/-- Rounding to the nearest integer commutes with the addition of an even integer. -/
theorem rne_add_even (q : ℚ) (n : ℤ) : rne (q + (2 * n : ℤ)) = rne q + 2 * n := by
  unfold rne
  simp only [Int.floor_add_intCast]
  have e : q + ((2 * n : ℤ) : ℚ) - ((⌊q⌋ + 2 * n : ℤ) : ℚ) = q - ⌊q⌋ := by push_cast; ring
  rw [e]
  have e2 : (⌊q⌋ + 2 * n) % 2 = ⌊q⌋ % 2 := by omega
  rw [e2]
  split
  · rfl
  · split
    · ring
    · split
      · rfl
      · ring

/-- Rounding from 2^15 to 2^16 is to a multiple of 2^-37. -/
theorem fl_binade {q : ℚ} (h1 : 2 ^ 15 ≤ q) (h2 : q < 2 ^ 16) : fl q = rne (q * 2 ^ 37) * 2 ^ (-37 : ℤ) := by
  unfold fl
  have h0 : 0 < q := by linarith
  rw [if_neg h0.ne']
  have : ilog2 |q| = 15 := by
    rw [abs_of_pos h0]
    exact ilog2_unique (by norm_num at h1 ⊢; exact h1) (by norm_num at h2 ⊢; exact h2)
  simp only [this]
  norm_num
  rw [div_div_eq_mul_div, div_one]

/-- C199. Up to 2038, times on different days but at the same time of day are exactly the number of days apart. -/
theorem C199_whole_days {a b : Row} (ha : Modern a) (hb : Modern b) (a2 : a.days < 2 ^ 16 - 1) (b2 : b.days < 2 ^ 16 - 1) (h : a.nanos = b.nanos) :
    days64 a b = ((b.days - a.days : ℤ) : ℚ) := by
  rw [days_exact ha hb]
  have hf : a.fraction64 = b.fraction64 := by unfold Row.fraction64; rw [h]
  obtain ⟨f0, f1, _⟩ := FloatProps.fraction64_near (r := a) ⟨ha.1.1, ha.1.2.le⟩
  have ea : fl (a.days : ℚ) = a.days := fl_int (by rw [abs_of_nonneg (by have := ha.2.1; omega)]; omega)
  have eb : fl (b.days : ℚ) = b.days := fl_int (by rw [abs_of_nonneg (by have := hb.2.1; omega)]; omega)
  have qa1 : (2 ^ 15 : ℚ) ≤ a.days := by exact_mod_cast ha.2.1
  have qb1 : (2 ^ 15 : ℚ) ≤ b.days := by exact_mod_cast hb.2.1
  have qa2 : (a.days : ℚ) ≤ 2 ^ 16 - 2 := by exact_mod_cast (by omega : a.days ≤ 2 ^ 16 - 2)
  have qb2 : (b.days : ℚ) ≤ 2 ^ 16 - 2 := by exact_mod_cast (by omega : b.days ≤ 2 ^ 16 - 2)
  unfold Row.mjd64
  rw [ea, eb, ← hf, fl_binade (by linarith) (by linarith), fl_binade (by linarith) (by linarith)]
  have e : ((b.days : ℚ) + a.fraction64) * 2 ^ 37 = ((a.days : ℚ) + a.fraction64) * 2 ^ 37 + ((2 * ((b.days - a.days) * 2 ^ 36) : ℤ) : ℚ) := by
    push_cast; ring
  rw [e, rne_add_even]
  push_cast
  norm_num
  ring

/-- C199. Not true: that times half a day apart are half a day apart in float64, so that equal durations are equal (from another time on the same
day, the duration is right); and that whole days are exact beyond 2038. -/
theorem C199_shift_false :
    (days64 ⟨59900, 35907614656433⟩ ⟨59900, 35907614656433 + 43200 * 10 ^ 9⟩ < 1 / 2 ∧ days64 ⟨59900, 0⟩ ⟨59900, 43200 * 10 ^ 9⟩ = 1 / 2) ∧
    days64 ⟨65535, 350⟩ ⟨65536, 350⟩ ≠ 1 := by
  decide +kernel

theorem instant_of_not_earlier {a b : Row} (ha : Normal a) (hb : Normal b) (h : ¬ Earlier a b) : instant b ≤ instant a := by
  have h1 := ha.1; have h2 := ha.2; have h3 := hb.1; have h4 := hb.2
  unfold Earlier at h
  unfold instant
  simp only [not_or, not_and, not_lt] at h
  rcases h.1.lt_or_eq with hd | hd
  · have : b.days + 1 ≤ a.days := hd
    rw [DAY_eq] at *
    omega
  · have := h.2 hd.symm
    rw [DAY_eq] at *
    omega

/-- C199. The arc length of observations from 1948 to 2127 is the longest duration between two of them, with the same error, and it is 0 for a
single observation; without observations the code raises. -/
theorem C199_arc (t : TS) (ht : ∀ r ∈ t.rows, Modern r) :
    (t.rows = [] → t.arcLength64 = .error .indexError) ∧
    (t.rows ≠ [] → ∃ first ∈ t.rows, ∃ last ∈ t.rows, t.arcLength64 = .ok (days64 first last) ∧
      (∀ r ∈ t.rows, instant first ≤ instant r ∧ instant r ≤ instant last) ∧
      (∀ r ∈ t.rows, ∀ s ∈ t.rows, days64 r s ≤ days64 first last) ∧ |days64 first last - exactDays first last| ≤ 2 ^ (-36 : ℤ) + 2 ^ (-53 : ℤ)) ∧
    (∀ r, t.rows = [r] → t.arcLength64 = .ok 0) := by
  have key : t.rows ≠ [] → ∃ first ∈ t.rows, ∃ last ∈ t.rows, t.arcLength64 = .ok (days64 first last) ∧
      (∀ r ∈ t.rows, instant first ≤ instant r ∧ instant r ≤ instant last) := by
    intro h
    obtain ⟨last, e1, m1, l1⟩ := Props.C06_max t h
    obtain ⟨first, e2, m2, l2⟩ := Props.C06_min t h
    refine ⟨first, m2, last, m1, ?_, fun r hr => ⟨?_, ?_⟩⟩
    · unfold TS.arcLength64
      rw [e1, e2]
    · exact instant_of_not_earlier (ht r hr).1 (ht _ m2).1 (l2 r hr)
    · exact instant_of_not_earlier (ht _ m1).1 (ht r hr).1 (l1 r hr)
  refine ⟨fun h => ?_, fun h => ?_, fun r h => ?_⟩
  · unfold TS.arcLength64 TS.max
    rw [h]
    rfl
  · obtain ⟨first, m1, last, m2, e, l⟩ := key h
    refine ⟨first, m1, last, m2, e, l, fun r hr s hs => ?_, C199_error (ht _ m1) (ht _ m2)⟩
    have h1 := (C199_order (ht r hr) (ht s hs) (ht _ m2)).1 (l s hs).2
    have h2 := (C199_chain (ht _ m1) (ht r hr) (ht _ m2)).1
    have h3 := (C199_order (ht _ m1) (ht r hr) (ht _ m2)).2.1 (l r hr).1
    linarith
  · obtain ⟨first, m1, last, m2, e, -⟩ := key (by rw [h]; simp)
    rw [h, List.mem_singleton] at m1 m2
    rw [e, m1, m2, (C199_zero_reverse r r).1]

/-- Two times that meet the hypotheses, with a rounded duration. -/
example : Modern ⟨59900, 35907614656433⟩ ∧ Modern ⟨98000, 7⟩ ∧ days64 ⟨59900, 35907614656433⟩ ⟨98000, 7⟩ ≠ exactDays ⟨59900, 35907614656433⟩ ⟨98000, 7⟩ :=
  ⟨⟨⟨by decide, by decide⟩, by decide, by decide⟩, ⟨⟨by decide, by decide⟩, by decide, by decide⟩, by decide +kernel⟩

example : days64 ⟨59900, 35907614656433⟩ ⟨60000, 35907614656433⟩ = 100 := by
  rw [C199_whole_days (a := ⟨59900, 35907614656433⟩) (b := ⟨60000, 35907614656433⟩) ⟨⟨by decide, by decide⟩, by decide, by decide⟩ ⟨⟨by decide, by decide⟩, by decide, by decide⟩ (by decide) (by decide) rfl]
  norm_num

/-- Three observations. -/
example : (⟨"utc", [⟨59901, 5⟩, ⟨59900, 7⟩, ⟨59905, 5⟩]⟩ : TS).arcLength64 = .ok (days64 ⟨59900, 7⟩ ⟨59905, 5⟩) := by
  decide +kernel

end Verif.Time.DurationFloatProps
