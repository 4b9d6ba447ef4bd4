import Verif.Viz.SampleFloat
import Verif.Viz.Props
import Verif.Spk.Type9
import Verif.Time.FloatProps

/-! # C198: sampling times with float64 rounding -/

namespace Verif.Viz.SampleFloatProps

open Verif F64

/-- A quotient of integers below an integer is rounded to a number below it. -/
theorem fl_div_lt {M H k : ℤ} (hH : 0 < H) (hM : |M| < 2 ^ 53) (hk : fl (k : ℚ) = k) (h : (M : ℚ) / H < k) : fl ((M : ℚ) / H) < k := by
  have hH' : (0 : ℚ) < H := by exact_mod_cast hH
  rcases (fl_le_of_le hk h.le).lt_or_eq with hlt | heq
  · exact hlt
  exfalso
  have h1 : (M : ℚ) < k * H := (div_lt_iff₀ hH').mp h
  have h2 : M < k * H := by exact_mod_cast h1
  have h3 : (M : ℚ) + 1 ≤ k * H := by exact_mod_cast (by omega : M + 1 ≤ k * H)
  have e := fl_error ((M : ℚ) / H)
  rw [heq, abs_of_nonneg (by linarith), abs_div, abs_of_pos hH'] at e
  have hM' : |(M : ℚ)| < 2 ^ 53 := by exact_mod_cast hM
  have e2 : |(M : ℚ)| / H / 2 ^ 53 < 1 / H := by
    rw [div_div, div_lt_div_iff₀ (by positivity) hH']
    nlinarith
  have e3 : 1 / (H : ℚ) ≤ k - M / H := by
    rw [div_le_iff₀ hH', sub_mul, div_mul_cancel₀ _ hH'.ne']
    linarith
  linarith

theorem quot_le {M H : ℤ} (hH : 0 < H) : |(M : ℚ) / H| ≤ |(M : ℚ)| := by
  have hH' : (1 : ℚ) ≤ H := by exact_mod_cast hH
  rw [abs_div, abs_of_pos (show (0 : ℚ) < H by linarith)]
  exact div_le_self (abs_nonneg _) hH'

theorem floor_fl {M H : ℤ} (hH : 0 < H) (hM : |M| < 2 ^ 52) : ⌊fl ((M : ℚ) / H)⌋ = ⌊(M : ℚ) / H⌋ := by
  have hM' : |(M : ℚ)| < 2 ^ 52 := by exact_mod_cast hM
  have hq := abs_le.mp ((quot_le hH).trans hM'.le)
  have f1 := Int.floor_le ((M : ℚ) / H)
  have f2 := Int.lt_floor_add_one ((M : ℚ) / H)
  have hb : |⌊(M : ℚ) / H⌋| ≤ 2 ^ 52 := by
    rw [abs_le]
    constructor
    · exact Int.le_floor.mpr (by push_cast; linarith)
    · have : ((⌊(M : ℚ) / H⌋ : ℤ) : ℚ) ≤ 2 ^ 52 := by linarith
      exact_mod_cast this
  have hb' := abs_le.mp hb
  rw [Int.floor_eq_iff]
  constructor
  · exact le_fl_of_le (fl_int (by omega)) f1
  · have := fl_div_lt (k := ⌊(M : ℚ) / H⌋ + 1) hH (hM.trans (by norm_num)) (fl_int (by rw [abs_lt]; constructor <;> omega)) (by push_cast; exact f2)
    push_cast at this
    exact this

theorem ceil_fl {M H : ℤ} (hH : 0 < H) (hM : |M| < 2 ^ 52) : ⌈fl ((M : ℚ) / H)⌉ = ⌈(M : ℚ) / H⌉ := by
  have := floor_fl (M := -M) hH (by rwa [abs_neg])
  push_cast at this
  rw [neg_div, fl_neg, Int.floor_neg, Int.floor_neg] at this
  omega

/-- The MJDs of 1948 to 2038 are multiples of 2^-37 days. -/
theorem mjd_grid {x : ℚ} (hx : fl x = x) (h1 : 2 ^ 15 ≤ x) (h2 : x < 2 ^ 16) : ∃ A : ℤ, x = A * 2 ^ (-37 : ℤ) ∧ 2 ^ 52 ≤ A ∧ A < 2 ^ 53 := by
  have h0 : 0 ≤ x := by linarith
  obtain ⟨m, hm⟩ := digits hx (k := 15) (by rw [abs_of_nonneg h0]; norm_num at h1 ⊢; linarith) (by rw [abs_of_nonneg h0]; norm_num at h2 ⊢; linarith)
  refine ⟨m, by simpa using hm, ?_, ?_⟩
  · have : ((2 ^ 52 : ℤ) : ℚ) ≤ m := by norm_num at hm h1 ⊢; linarith
    exact_mod_cast this
  · have : (m : ℚ) < ((2 ^ 53 : ℤ) : ℚ) := by norm_num at hm h2 ⊢; linarith
    exact_mod_cast this

theorem grid_fl {A : ℤ} (h : |A| < 2 ^ 53) : fl ((A : ℚ) * 2 ^ (-37 : ℤ)) = A * 2 ^ (-37 : ℤ) := fl_exact h

theorem grid_div (M H : ℤ) : ((M : ℚ) * 2 ^ (-37 : ℤ)) / (H * 2 ^ (-37 : ℤ)) = M / H := by
  rw [mul_div_mul_right]
  norm_num

/-- C198. From 1948 to 2038 the dates of a porkchop plot with a step of a whole number of days, or of any multiple of 2^-37 days, are computed
without error, so that what C152 says of them holds. -/
theorem C198_dates {a b : ℚ} {H : ℤ} (ha : fl a = a) (hb : fl b = b) (a1 : 2 ^ 15 ≤ a) (a2 : a < 2 ^ 16) (b1 : 2 ^ 15 ≤ b) (b2 : b < 2 ^ 16)
    (hH : 0 < H) : dates64 a b (H * 2 ^ (-37 : ℤ)) = dates a b (H * 2 ^ (-37 : ℤ)) := by
  obtain ⟨A, rfl, a3, a4⟩ := mjd_grid ha a1 a2
  obtain ⟨B, rfl, b3, b4⟩ := mjd_grid hb b1 b2
  unfold dates64 dates arange64 arange
  simp only
  have e : (B : ℚ) * 2 ^ (-37 : ℤ) - A * 2 ^ (-37 : ℤ) = ((B - A : ℤ) : ℚ) * 2 ^ (-37 : ℤ) := by push_cast; ring
  rw [e, grid_fl (by rw [abs_lt]; constructor <;> omega), grid_div, ceil_fl hH (by rw [abs_lt]; constructor <;> omega)]
  apply List.map_congr_left
  intro k hk
  rw [List.mem_range, Int.lt_toNat, Int.lt_ceil, lt_div_iff₀ (by exact_mod_cast hH)] at hk
  have hk' : (k : ℤ) * H < B - A := by exact_mod_cast hk
  rcases Nat.eq_zero_or_pos k with rfl | hk0
  · simp
  have hkH : H ≤ k * H := by nlinarith [(by exact_mod_cast hk0 : (1 : ℤ) ≤ k)]
  have e1 : (A : ℚ) * 2 ^ (-37 : ℤ) + H * 2 ^ (-37 : ℤ) = ((A + H : ℤ) : ℚ) * 2 ^ (-37 : ℤ) := by push_cast; ring
  have e2 : ((A + H : ℤ) : ℚ) * 2 ^ (-37 : ℤ) - A * 2 ^ (-37 : ℤ) = ((H : ℤ) : ℚ) * 2 ^ (-37 : ℤ) := by push_cast; ring
  have e3 : (k : ℚ) * ((H : ℚ) * 2 ^ (-37 : ℤ)) = ((k * H : ℤ) : ℚ) * 2 ^ (-37 : ℤ) := by push_cast; ring
  have e4 : (A : ℚ) * 2 ^ (-37 : ℤ) + ((k * H : ℤ) : ℚ) * 2 ^ (-37 : ℤ) = ((A + k * H : ℤ) : ℚ) * 2 ^ (-37 : ℤ) := by push_cast; ring
  rw [if_neg (by omega), e1, grid_fl (by rw [abs_lt]; constructor <;> omega), e2, grid_fl (by rw [abs_lt]; constructor <;> omega), e3,
    grid_fl (by rw [abs_lt]; constructor <;> omega), e4, grid_fl (by rw [abs_lt]; constructor <;> omega)]
  split
  · rename_i h1; subst h1; push_cast; ring
  · rfl

/-- C198. So is the number of states of an SPK file: it is that of exact arithmetic on the MJDs. -/
theorem C198_steps {a b : ℚ} {H : ℤ} (ha : fl a = a) (hb : fl b = b) (a1 : 2 ^ 15 ≤ a) (a2 : a < 2 ^ 16) (b1 : 2 ^ 15 ≤ b) (b2 : b < 2 ^ 16)
    (hH : 0 < H) : (numSteps64 a b (H * 2 ^ (-37 : ℤ))).toNat = (Spk.stepTimes a b (H * 2 ^ (-37 : ℤ))).length := by
  obtain ⟨A, rfl, a3, a4⟩ := mjd_grid ha a1 a2
  obtain ⟨B, rfl, b3, b4⟩ := mjd_grid hb b1 b2
  unfold numSteps64 Spk.stepTimes
  simp only [List.length_map, List.length_range]
  have e : (B : ℚ) * 2 ^ (-37 : ℤ) - A * 2 ^ (-37 : ℤ) = ((B - A : ℤ) : ℚ) * 2 ^ (-37 : ℤ) := by push_cast; ring
  have hBA : |B - A| < 2 ^ 52 := by rw [abs_lt]; constructor <;> omega
  rw [e, grid_fl (hBA.trans (by norm_num)), grid_div, ceil_fl hH hBA, floor_fl hH hBA]
  have : (0 ≤ fl (((B - A : ℤ) : ℚ) / H)) ↔ 0 ≤ ((B - A : ℤ) : ℚ) / H := by
    constructor
    · intro h
      by_contra hc
      have := fl_pos (neg_pos.mpr (not_le.mp hc))
      rw [fl_neg] at this
      linarith
    · exact fl_nonneg
  simp only [this]

/-- C198. In terms of the rows: up to 1.3 microseconds (2^-36 days), the states span at most the time asked for, and one more would exceed it. -/
theorem C198_span {r s : Time.Row} {H : ℤ} (hr : Time.Spec.Normal r) (hs : Time.Spec.Normal s) (r1 : 2 ^ 15 ≤ r.days) (r2 : r.days < 2 ^ 16 - 1)
    (s1 : 2 ^ 15 ≤ s.days) (s2 : s.days < 2 ^ 16 - 1) (hH : 0 < H) (hrs : r.mjd64 ≤ s.mjd64) :
    ((numSteps64 r.mjd64 s.mjd64 (H * 2 ^ (-37 : ℤ)) - 1 : ℤ) : ℚ) * (H * 2 ^ (-37 : ℤ)) ≤
      ((Time.Spec.instant s - Time.Spec.instant r : ℤ) : ℚ) / Time.Spec.DAY + 2 ^ (-36 : ℤ) ∧
    ((Time.Spec.instant s - Time.Spec.instant r : ℤ) : ℚ) / Time.Spec.DAY - 2 ^ (-36 : ℤ) <
      (numSteps64 r.mjd64 s.mjd64 (H * 2 ^ (-37 : ℤ)) : ℚ) * (H * 2 ^ (-37 : ℤ)) := by
  have bounds : ∀ q : Time.Row, Time.Spec.Normal q → 2 ^ 15 ≤ q.days → q.days < 2 ^ 16 - 1 →
      fl q.mjd64 = q.mjd64 ∧ 2 ^ 15 ≤ q.mjd64 ∧ q.mjd64 < 2 ^ 16 ∧
      |q.mjd64 - ((Time.Spec.instant q : ℤ) : ℚ) / Time.Spec.DAY| ≤ 2 ^ (-38 : ℤ) + 2 ^ (-54 : ℤ) := by
    intro q hq q1 q2
    have hm := Time.FloatProps.C194_mjd (k := 16) (by norm_num) hq (by rw [abs_of_nonneg (by omega)]; omega)
    obtain ⟨f0, f1, _⟩ := Time.FloatProps.fraction64_near (r := q) ⟨hq.1, hq.2.le⟩
    have ed : fl (q.days : ℚ) = q.days := fl_int (by rw [abs_of_nonneg (by omega)]; omega)
    have q1' : (2 ^ 15 : ℚ) ≤ q.days := by exact_mod_cast q1
    have q2' : (q.days : ℚ) ≤ 2 ^ 16 - 2 := by exact_mod_cast (by omega : q.days ≤ 2 ^ 16 - 2)
    have g1 : fl (2 ^ 15 : ℚ) = 2 ^ 15 := by have := fl_int (n := 2 ^ 15) (by norm_num); exact_mod_cast this
    have g2 : fl (2 ^ 16 - 1 : ℚ) = 2 ^ 16 - 1 := by have := fl_int (n := 2 ^ 16 - 1) (by norm_num); exact_mod_cast this
    refine ⟨fl_fl _, ?_, ?_, ?_⟩
    · unfold Time.Row.mjd64; rw [ed]; exact le_fl_of_le g1 (by linarith)
    · have : q.mjd64 ≤ 2 ^ 16 - 1 := by unfold Time.Row.mjd64; rw [ed]; exact fl_le_of_le g2 (by linarith)
      linarith
    · simpa using hm
  obtain ⟨ra, rb, rc, rd⟩ := bounds r hr r1 r2
  obtain ⟨sa, sb, sc, sd⟩ := bounds s hs s1 s2
  have hcount : numSteps64 r.mjd64 s.mjd64 (H * 2 ^ (-37 : ℤ)) = ⌊(s.mjd64 - r.mjd64) / (H * 2 ^ (-37 : ℤ))⌋ + 1 := by
    obtain ⟨A, hA, a3, a4⟩ := mjd_grid ra rb rc
    obtain ⟨B, hB, b3, b4⟩ := mjd_grid sa sb sc
    unfold numSteps64
    simp only
    have hnn : 0 ≤ fl (fl (s.mjd64 - r.mjd64) / (H * 2 ^ (-37 : ℤ))) := by
      apply fl_nonneg
      apply div_nonneg (fl_nonneg (by linarith))
      have : (0 : ℚ) < H := by exact_mod_cast hH
      positivity
    rw [if_pos hnn, hA, hB]
    have e : (B : ℚ) * 2 ^ (-37 : ℤ) - A * 2 ^ (-37 : ℤ) = ((B - A : ℤ) : ℚ) * 2 ^ (-37 : ℤ) := by push_cast; ring
    have hBA : |B - A| < 2 ^ 52 := by rw [abs_lt]; constructor <;> omega
    rw [e, grid_fl (hBA.trans (by norm_num)), grid_div, floor_fl hH hBA]
  have hh : (0 : ℚ) < H * 2 ^ (-37 : ℤ) := by
    have : (0 : ℚ) < H := by exact_mod_cast hH
    positivity
  rw [hcount]
  generalize (H : ℚ) * 2 ^ (-37 : ℤ) = h at *
  have p1 := Int.floor_le ((s.mjd64 - r.mjd64) / h)
  have p2 := Int.lt_floor_add_one ((s.mjd64 - r.mjd64) / h)
  rw [le_div_iff₀ hh] at p1
  rw [div_lt_iff₀ hh] at p2
  have ed : ((Time.Spec.instant s - Time.Spec.instant r : ℤ) : ℚ) / Time.Spec.DAY =
      ((Time.Spec.instant s : ℤ) : ℚ) / Time.Spec.DAY - ((Time.Spec.instant r : ℤ) : ℚ) / Time.Spec.DAY := by push_cast; ring
  rw [ed]
  have r' := abs_le.mp rd
  have s' := abs_le.mp sd
  norm_num at r' s'
  push_cast
  constructor
  · norm_num; linarith [r'.1, r'.2, s'.1, s'.2]
  · norm_num; linarith [r'.1, r'.2, s'.1, s'.2]

/-- C198. Not true: the states reach the end where the span is a whole number of steps. Twelve hours at the step of six hours can give two
states instead of three, and 0.1 days at a step of 0.1 days from MJD 59000 gives one instead of two. -/
theorem C198_steps_false :
    (numSteps64 (Time.Row.mjd64 ⟨59900, 35907614656433⟩) (Time.Row.mjd64 ⟨59900, 35907614656433 + 43200 * 10 ^ 9⟩) (1 / 4) = 2) ∧
    numSteps64 59000 (fl (590001 / 10)) (fl (1 / 10)) = 1 := by
  decide +kernel

/-- C198. Not true of steps that are no such multiples: that no date is the end (0.3 days at a step of 0.1 days from MJD 59000 give four dates, the
last one less than a microsecond before the end), and that the dates are the float64 numbers nearest to the exact ones (the tenth date is over a
microsecond before MJD 59000.9). -/
theorem C198_dates_false :
    ((dates64 59000 (fl (590003 / 10)) (fl (1 / 10))).map fun x => decide (fl (590003 / 10) - 1 / (86400 * 10 ^ 6) < x)) = [false, false, false, true] ∧
    ((dates64 59000 59001 (fl (1 / 10)))[9]?.map fun x => decide (x + 1 / (86400 * 10 ^ 6) < fl (590009 / 10))) = some true := by
  decide +kernel

/-- The default step of one day meets the hypotheses. -/
example : dates64 59000 (118007 / 2) 1 = [59000, 59001, 59002, 59003] := by
  have h := C198_dates (a := 59000) (b := 118007 / 2) (H := 2 ^ 37) (by decide +kernel) (by decide +kernel) (by norm_num) (by norm_num) (by norm_num)
    (by norm_num) (by norm_num)
  norm_num at h
  rw [h]
  decide +kernel

/-- Ten days, in steps of a quarter of a day, from a time with a fraction. -/
example : numSteps64 (Time.Row.mjd64 ⟨59900, 5⟩) (Time.Row.mjd64 ⟨59910, 5⟩) ((2 ^ 35 : ℤ) * 2 ^ (-37 : ℤ)) = 41 ∧
    (((numSteps64 (Time.Row.mjd64 ⟨59900, 5⟩) (Time.Row.mjd64 ⟨59910, 5⟩) ((2 ^ 35 : ℤ) * 2 ^ (-37 : ℤ)) - 1 : ℤ) : ℚ) * ((2 ^ 35 : ℤ) * 2 ^ (-37 : ℤ)) ≤
      ((Time.Spec.instant ⟨59910, 5⟩ - Time.Spec.instant ⟨59900, 5⟩ : ℤ) : ℚ) / Time.Spec.DAY + 2 ^ (-36 : ℤ)) :=
  ⟨by decide +kernel, (C198_span (r := ⟨59900, 5⟩) (s := ⟨59910, 5⟩) (H := 2 ^ 35) ⟨by decide, by decide⟩ ⟨by decide, by decide⟩ (by decide) (by decide)
    (by decide) (by decide) (by norm_num) (by decide +kernel)).1⟩

end Verif.Viz.SampleFloatProps
