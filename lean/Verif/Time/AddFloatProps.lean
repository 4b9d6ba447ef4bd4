import Verif.Time.Float
import Verif.Time.FloatLemmas
import Verif.Time.Lemmas
import Verif.Time.Spec

/-! # C195: adding float64 amounts to timestamps -/

namespace Verif.Time.AddFloatProps

open Verif F64 Spec

theorem round_eq {x : ℚ} {n : ℤ} (h : |x - n| < 1 / 2) : roundHalfEven x = n := by
  have h1 := abs_le.mp (roundHalfEven_near x)
  have h2 := abs_lt.mp h
  have a : ((roundHalfEven x - n : ℤ) : ℚ) < 1 := by push_cast; linarith [h1.1, h1.2, h2.1, h2.2]
  have b : (-1 : ℚ) < ((roundHalfEven x - n : ℤ) : ℚ) := by push_cast; linarith [h1.1, h1.2, h2.1, h2.2]
  have a' : roundHalfEven x - n < 1 := by exact_mod_cast a
  have b' : -1 < roundHalfEven x - n := by exact_mod_cast b
  omega

/-- A number of nanoseconds passes through a unit of 10^9, 10^6 or 10^3 nanoseconds and back. -/
theorem unit_back {u : ℤ} {k : ℤ} (hu : 0 < u) (hk : (86400000000001 : ℚ) / u ≤ 2 ^ k) (he : (u : ℚ) * 2 ^ (k - 54) ≤ 1 / 100)
    {n : ℤ} (hn : |n| ≤ 86400000000001) : roundHalfEven (fl (fl ((n : ℚ) / u) * u)) = n := by
  have hu' : (0 : ℚ) < u := by exact_mod_cast hu
  have hn' : |(n : ℚ)| ≤ 86400000000001 := by exact_mod_cast hn
  have e1 : |(n : ℚ) / u| ≤ 2 ^ k := by
    rw [abs_div, abs_of_pos hu']
    exact (div_le_div_of_nonneg_right hn' hu'.le).trans hk
  have h1 := fl_ulp e1
  have e2 : |fl ((n : ℚ) / u) * u - n| ≤ 1 / 100 := by
    have : fl ((n : ℚ) / u) * u - n = (fl ((n : ℚ) / u) - n / u) * u := by field_simp
    rw [this, abs_mul, abs_of_pos hu', mul_comm]
    exact (mul_le_mul_of_nonneg_left h1 hu'.le).trans he
  have b2 := abs_le.mp e2
  have bn := abs_le.mp hn'
  have h2 := fl_ulp (q := fl ((n : ℚ) / u) * u) (k := 47) (by
    rw [abs_le]; constructor <;> norm_num <;> linarith [b2.1, b2.2, bn.1, bn.2])
  apply round_eq
  have b3 := abs_le.mp h2
  norm_num at b3
  rw [abs_lt]
  constructor <;> linarith [b2.1, b2.2, b3.1, b3.2]

theorem unit_round_trip {u : ℤ} {k : ℤ} (hu : 0 < u) (hk : (86400000000001 : ℚ) / u ≤ 2 ^ k) (he : (u : ℚ) * 2 ^ (k - 54) ≤ 1 / 100) (n : ℤ) :
    (inAddRange (roundHalfEven (fl (fl ((n : ℚ) / u) * u))) = inAddRange n) ∧
    (inAddRange n = true → roundHalfEven (fl (fl ((n : ℚ) / u) * u)) = n) := by
  have hu' : (0 : ℚ) < u := by exact_mod_cast hu
  have mono : ∀ a b : ℤ, a ≤ b → roundHalfEven (fl (fl ((a : ℚ) / u) * u)) ≤ roundHalfEven (fl (fl ((b : ℚ) / u) * u)) := by
    intro a b h
    apply round_mono
    apply fl_mono
    apply mul_le_mul_of_nonneg_right _ hu'.le
    apply fl_mono
    apply div_le_div_of_nonneg_right _ hu'.le
    exact_mod_cast h
  rcases le_or_gt |n| 86400000000001 with h | h
  · rw [unit_back hu hk he h]; exact ⟨rfl, fun _ => rfl⟩
  · have hbad : inAddRange n = false := by
      rw [Bool.eq_false_iff]
      intro hc
      have := (inAddRange_iff n).mp hc
      rw [DAY_eq] at this
      rcases abs_cases n with ⟨e, _⟩ | ⟨e, _⟩ <;> omega
    refine ⟨?_, fun hc => by rw [hbad] at hc; cases hc⟩
    rw [hbad, Bool.eq_false_iff]
    intro hc
    have hr := (inAddRange_iff _).mp hc
    rw [DAY_eq] at hr
    rcases abs_cases n with ⟨e, _⟩ | ⟨e, _⟩
    · have := mono 86400000000001 n (by omega)
      rw [unit_back hu hk he (n := 86400000000001) (by norm_num)] at this
      omega
    · have := mono n (-86400000000001) (by omega)
      rw [unit_back hu hk he (n := -86400000000001) (by norm_num)] at this
      omega

theorem addNanos_same {t : TS} {f : ℤ → ℤ} (h : ∀ n, inAddRange (f n) = inAddRange n ∧ (inAddRange n = true → f n = n)) (a : Arg ℤ) :
    t.addNanos (a.map f) = t.addNanos a := by
  cases a with
  | scalar n =>
    obtain ⟨h1, h2⟩ := h n
    rcases Bool.eq_false_or_eq_true (inAddRange n) with hn | hn
    · simp only [Arg.map, h2 hn]
    · simp [TS.addNanos, Arg.map, Arg.all, h1, hn]
  | array as =>
    have hall : (as.map f).all inAddRange = as.all inAddRange := by
      rw [List.all_map]
      exact congrArg (as.all ·) (funext fun n => (h n).1)
    have hemp : (as.map f).isEmpty = as.isEmpty := by cases as <;> rfl
    rcases Bool.eq_false_or_eq_true (as.all inAddRange) with ha | ha
    · have : as.map f = as := by
        conv_rhs => rw [← List.map_id as]
        apply List.map_congr_left
        intro n hn
        exact (h n).2 (List.all_eq_true.mp ha n hn)
      simp only [Arg.map, this]
    · simp [TS.addNanos, Arg.map, Arg.all, hall, ha]

theorem argMap_map {α β γ : Type} (a : Arg α) (f : α → β) (g : β → γ) : (a.map f).map g = a.map (fun x => g (f x)) := by
  cases a <;> simp [Arg.map]

/-- C195. Any number of nanoseconds written in float64 seconds, milliseconds or microseconds is added exactly, and refused exactly when
`add_nanos` refuses it. -/
theorem C195_units_exact (t : TS) (a : Arg ℤ) :
    t.addSeconds64 (a.map fun n : ℤ => fl ((n : ℚ) / 1000000000)) = t.addNanos a ∧
    t.addMillis64 (a.map fun n : ℤ => fl ((n : ℚ) / 1000000)) = t.addNanos a ∧
    t.addMicros64 (a.map fun n : ℤ => fl ((n : ℚ) / 1000)) = t.addNanos a := by
  refine ⟨?_, ?_, ?_⟩
  · unfold TS.addSeconds64
    rw [argMap_map]
    exact addNanos_same (fun n => by simpa using unit_round_trip (u := 1000000000) (k := 17) (by norm_num) (by norm_num) (by norm_num) n) a
  · unfold TS.addMillis64
    rw [argMap_map]
    exact addNanos_same (fun n => by simpa using unit_round_trip (u := 1000000) (k := 27) (by norm_num) (by norm_num) (by norm_num) n) a
  · unfold TS.addMicros64
    rw [argMap_map]
    exact addNanos_same (fun n => by simpa using unit_round_trip (u := 1000) (k := 37) (by norm_num) (by norm_num) (by norm_num) n) a

/-- 0.1 s is not a float64, and 10^8 ns are added. -/
example : fl (1 / 10) ≠ 1 / 10 ∧ (⟨"utc", [⟨7, 86399950000000⟩]⟩ : TS).addSeconds64 (.scalar (fl (1 / 10))) = .ok ⟨"utc", [⟨8, 50000000⟩]⟩ := by
  decide +kernel

theorem nano_err {x : ℚ} {n : ℤ} (h : roundHalfEven (fl x) = n) (hr : -DAY ≤ n ∧ n < DAY) : |(n : ℚ) - x| ≤ 1 / 2 + 2 ^ (-7 : ℤ) := by
  rw [DAY_eq] at hr
  have h1 := abs_le.mp (roundHalfEven_near (fl x))
  rw [h] at h1
  have a1 : (-86400000000000 : ℚ) ≤ n := by exact_mod_cast hr.1
  have a2 : (n : ℚ) < 86400000000000 := by exact_mod_cast hr.2
  have f47 : fl (2 ^ 47) = 2 ^ 47 := by
    have := fl_int (n := 2 ^ 47) (by norm_num); exact_mod_cast this
  have fm47 : fl (-2 ^ 47) = -2 ^ 47 := by rw [fl_neg, f47]
  have hx : |x| ≤ 2 ^ (47 : ℤ) := by
    rw [abs_le]
    constructor
    · by_contra hc
      have hc' : x ≤ -2 ^ 47 := by have := not_le.mp hc; norm_num at this ⊢; linarith
      have := fl_le_of_le fm47 hc'
      norm_num at this; linarith [h1.1, h1.2]
    · by_contra hc
      have hc' : 2 ^ 47 ≤ x := by have := not_le.mp hc; norm_num at this ⊢; linarith
      have := le_fl_of_le f47 hc'
      norm_num at this; linarith [h1.1, h1.2]
  have h2 := abs_le.mp (fl_ulp hx)
  norm_num at h2
  rw [abs_le]
  constructor <;> norm_num <;> linarith [h1.1, h1.2, h2.1, h2.2]

theorem unit_err {t t' : TS} {f : ℚ → ℚ} {a : Arg ℚ} (ht : NormalTS t) (h : t.addNanos (a.map fun x => roundHalfEven (fl (f x))) = .ok t') :
    NormalTS t' ∧ ∀ (i : Nat) (r r' : Row), t.rows[i]? = some r → t'.rows[i]? = some r' →
      ∃ v, argAt a i = some v ∧ |((instant r' - instant r : Int) : ℚ) - f v| ≤ 1 / 2 + 2 ^ (-7 : ℤ) := by
  obtain ⟨_, _, h3, h4⟩ := addNanos_ok ht h
  refine ⟨h3, fun i r r' hr hr' => ?_⟩
  obtain ⟨v, hv, hi⟩ := h4 i r r' hr hr'
  have hrange : inAddRange v = true := by
    unfold TS.addNanos at h
    split at h
    · cases h
    · rename_i hc
      have hall : (a.map fun x => roundHalfEven (fl (f x))).all inAddRange = true := by simpa using hc
      exact argAll_at hall hv
  rw [argAt_map] at hv
  cases hx : argAt a i with
  | none => rw [hx] at hv; simp at hv
  | some w =>
    rw [hx] at hv
    simp only [Option.map_some, Option.some.injEq] at hv
    refine ⟨w, rfl, ?_⟩
    rw [hi, show instant r + v - instant r = v by ring]
    exact nano_err hv ((inAddRange_iff v).mp hrange)

/-- C195. Whatever float64 seconds, milliseconds or microseconds are accepted, every row moves by the amount to within 0.508 nanoseconds. -/
theorem C195_units_error (t t' : TS) (a : Arg ℚ) (ht : NormalTS t) :
    (t.addSeconds64 a = .ok t' → NormalTS t' ∧ ∀ (i : Nat) (r r' : Row), t.rows[i]? = some r → t'.rows[i]? = some r' →
      ∃ v, argAt a i = some v ∧ |((instant r' - instant r : Int) : ℚ) - v * 1000000000| ≤ 1 / 2 + 2 ^ (-7 : ℤ)) ∧
    (t.addMillis64 a = .ok t' → NormalTS t' ∧ ∀ (i : Nat) (r r' : Row), t.rows[i]? = some r → t'.rows[i]? = some r' →
      ∃ v, argAt a i = some v ∧ |((instant r' - instant r : Int) : ℚ) - v * 1000000| ≤ 1 / 2 + 2 ^ (-7 : ℤ)) ∧
    (t.addMicros64 a = .ok t' → NormalTS t' ∧ ∀ (i : Nat) (r r' : Row), t.rows[i]? = some r → t'.rows[i]? = some r' →
      ∃ v, argAt a i = some v ∧ |((instant r' - instant r : Int) : ℚ) - v * 1000| ≤ 1 / 2 + 2 ^ (-7 : ℤ)) :=
  ⟨fun h => unit_err ht h, fun h => unit_err ht h, fun h => unit_err ht h⟩

/-! ## Fractional days -/

theorem day_q : ((NANOS_IN_DAY : ℤ) : ℚ) = 86400000000000 := by unfold NANOS_IN_DAY; norm_num

theorem fl_one : fl 1 = 1 := by simpa using fl_int (n := 1) (by norm_num)

theorem fl_N : fl 86400000000000 = 86400000000000 := by
  have := fl_int (n := 86400000000000) (by norm_num); exact_mod_cast this

/-- The largest float64 below one, as a fraction of a day, is less than a day. -/
theorem fl_below : fl ((1 - 2 ^ (-53 : ℤ)) * 86400000000000) < 86400000000000 := by decide +kernel

theorem split_range (x : ℚ) : 0 ≤ (splitFractionalDays64 x).2 ∧ (splitFractionalDays64 x).2 ≤ DAY ∧
    (-(1 / 64) : ℚ) ≤ x * DAY - (((splitFractionalDays64 x).1 * DAY + (splitFractionalDays64 x).2 : Int) : ℚ) ∧
    x * DAY - (((splitFractionalDays64 x).1 * DAY + (splitFractionalDays64 x).2 : Int) : ℚ) < 1 + 1 / 64 := by
  have h1 := Int.floor_le x
  have h2 := Int.lt_floor_add_one x
  have hf0 : 0 ≤ x - ⌊x⌋ := by linarith
  have hg := fl_ulp (q := x - ⌊x⌋) (k := 0) (by rw [abs_of_nonneg hf0, zpow_zero]; linarith)
  have hg0 := fl_nonneg hf0
  have hg1 : fl (x - ⌊x⌋) ≤ 1 := fl_le_of_le fl_one (by linarith)
  have hp0 : 0 ≤ fl (x - ⌊x⌋) * 86400000000000 := by positivity
  have hp := fl_ulp (q := fl (x - ⌊x⌋) * 86400000000000) (k := 47) (by
    rw [abs_of_nonneg hp0]; norm_num [-Int.self_sub_floor]; linarith)
  have hq0 := fl_nonneg hp0
  have hq1 : fl (fl (x - ⌊x⌋) * 86400000000000) ≤ 86400000000000 := fl_le_of_le fl_N (by linarith)
  simp only [splitFractionalDays64, day_q, DAY_eq]
  generalize hF : fl (x - ⌊x⌋) = F at *
  generalize hP : fl (F * 86400000000000) = P at *
  have p1 := Int.floor_le P
  have p2 := Int.lt_floor_add_one P
  refine ⟨Int.floor_nonneg.mpr hq0, ?_, ?_, ?_⟩
  · have : ((⌊P⌋ : ℤ) : ℚ) ≤ 86400000000000 := p1.trans hq1
    exact_mod_cast this
  · have a := abs_le.mp hg
    have b := abs_le.mp hp
    norm_num [-Int.self_sub_floor] at a b
    push_cast
    linarith [a.1, a.2, b.1, b.2]
  · have a := abs_le.mp hg
    have b := abs_le.mp hp
    norm_num [-Int.self_sub_floor] at a b
    push_cast
    linarith [a.1, a.2, b.1, b.2]

/-- The float64 below one. -/
theorem le_pred {y : ℚ} (hy : fl y = y) (h : y < 1) : y ≤ 1 - 2 ^ (-53 : ℤ) := by
  rcases lt_or_ge y (1 / 2) with h2 | h2
  · norm_num; linarith
  · obtain ⟨m, hm⟩ := digits hy (k := -1) (by rw [abs_of_nonneg (by linarith)]; norm_num; linarith)
      (by rw [abs_of_nonneg (by linarith)]; norm_num; linarith)
    norm_num at hm
    rw [hm] at h ⊢
    have a : (m : ℚ) < 9007199254740992 := by linarith
    have a' : m < 9007199254740992 := by exact_mod_cast a
    have b : (m : ℚ) ≤ 9007199254740991 := by exact_mod_cast (by omega : m ≤ 9007199254740991)
    norm_num
    linarith

/-- The fraction of a float64 of absolute value one or more is a multiple of 2^-52. -/
theorem frac_big {x : ℚ} (hx : fl x = x) (h : 1 ≤ |x|) : x - ⌊x⌋ ≤ 1 - 2 ^ (-52 : ℤ) := by
  have h0 : x ≠ 0 := by rintro rfl; norm_num at h
  obtain ⟨m, hm⟩ := digits_log hx h0
  have hk : 0 ≤ ilog2 |x| := by
    have := ilog2_lt (abs_pos.mpr h0)
    have h3 : (2 : ℚ) ^ (0 : ℤ) < 2 ^ (ilog2 |x| + 1) := by rw [zpow_zero]; linarith
    have := (zpow_lt_zpow_iff_right₀ (by norm_num : (1 : ℚ) < 2)).mp h3
    omega
  obtain ⟨j, hj⟩ := Int.eq_ofNat_of_zero_le hk
  rw [hj] at hm
  have hm2 : x = ((m * 2 ^ j : ℤ) : ℚ) * (1 / 4503599627370496) := by
    conv_lhs => rw [hm]
    rw [zpow_sub₀ (by norm_num)]
    push_cast
    rw [zpow_natCast]
    norm_num
    ring
  generalize m * 2 ^ j = M at hm2
  have h2 := Int.lt_floor_add_one x
  generalize ⌊x⌋ = f at *
  have a : ((M - f * 4503599627370496 : ℤ) : ℚ) < 4503599627370496 := by push_cast; linarith
  have a' : M - f * 4503599627370496 < 4503599627370496 := by exact_mod_cast a
  have b : ((M - f * 4503599627370496 : ℤ) : ℚ) ≤ 4503599627370495 := by
    exact_mod_cast (by omega : M - f * 4503599627370496 ≤ 4503599627370495)
  push_cast at b
  norm_num
  linarith

/-- The nanoseconds make a full day exactly for the negative numbers of days that vanish beside one. -/
theorem full_iff {x : ℚ} (hx : fl x = x) : (splitFractionalDays64 x).2 = DAY ↔ -2 ^ (-54 : ℤ) ≤ x ∧ x < 0 := by
  have h1 := Int.floor_le x
  have h2 := Int.lt_floor_add_one x
  have hf0 : 0 ≤ x - ⌊x⌋ := by linarith
  have below : fl (x - ⌊x⌋) ≤ 1 - 2 ^ (-53 : ℤ) → (splitFractionalDays64 x).2 ≠ DAY := by
    intro h he
    simp only [splitFractionalDays64, day_q, DAY_eq] at he
    have a := Int.floor_le (fl (fl (x - ⌊x⌋) * 86400000000000))
    rw [he] at a
    have b : fl (fl (x - ⌊x⌋) * 86400000000000) ≤ fl ((1 - 2 ^ (-53 : ℤ)) * 86400000000000) :=
      fl_mono (mul_le_mul_of_nonneg_right h (by norm_num))
    have c := fl_below
    push_cast at a
    linarith
  constructor
  · intro h
    by_contra hc
    apply below _ h
    have hlt : fl (x - ⌊x⌋) < 1 := by
      by_contra hge
      have hg := abs_le.mp (fl_ulp (q := x - ⌊x⌋) (k := 0) (by rw [abs_of_nonneg hf0, zpow_zero]; linarith))
      have hfr : 1 - 2 ^ (-54 : ℤ) ≤ x - ⌊x⌋ := by
        have := hg.2
        have := not_lt.mp hge
        norm_num [-Int.self_sub_floor] at *
        linarith
      rcases le_or_gt 1 |x| with hb | hb
      · have := frac_big hx hb
        norm_num [-Int.self_sub_floor] at this hfr
        linarith
      · rcases le_or_gt 0 x with h0 | h0
        · have hxl : x < 1 := by rwa [abs_of_nonneg h0] at hb
          have hfz : ⌊x⌋ = 0 := Int.floor_eq_zero_iff.mpr ⟨h0, hxl⟩
          have := le_pred hx hxl
          rw [hfz] at hfr
          norm_num at this hfr
          linarith
        · have hxl : -1 < x := by rw [abs_of_neg h0] at hb; linarith
          have hfz : ⌊x⌋ = -1 := by
            rw [Int.floor_eq_iff]; push_cast; constructor <;> linarith
          rw [hfz] at hfr
          apply hc
          push_cast at hfr
          exact ⟨by linarith, h0⟩
    exact le_pred (fl_fl _) hlt
  · rintro ⟨ha, hb⟩
    have hfl : ⌊x⌋ = -1 := by
      rw [Int.floor_eq_iff]
      norm_num at ha ⊢
      constructor <;> linarith
    have e : fl (x - ((-1 : ℤ) : ℚ)) = 1 := by
      apply le_antisymm
      · exact fl_le_of_le fl_one (by push_cast; linarith)
      · have : fl (1 - 2 ^ (-54 : ℤ)) = 1 := by decide +kernel
        rw [← this]
        apply fl_mono
        push_cast; linarith
    simp only [splitFractionalDays64, day_q, DAY_eq, hfl, e, one_mul, fl_N]
    have : ((86400000000000 : ℤ) : ℚ) = 86400000000000 := by norm_num
    rw [← this, Int.floor_intCast]

theorem split_ok {x : ℚ} (hx : fl x = x) : inAddRange (splitFractionalDays64 x).2 = false ↔ -2 ^ (-54 : ℤ) ≤ x ∧ x < 0 := by
  rw [← full_iff hx, Bool.eq_false_iff, ne_eq, inAddRange_iff]
  obtain ⟨a, b, _, _⟩ := split_range x
  have : (0 : ℤ) < DAY := by rw [DAY_eq]; norm_num
  constructor
  · intro h
    by_contra hc
    exact h ⟨by omega, by omega⟩
  · intro h hc
    omega

/-- C195. `add_fractional_days` of float64 numbers of days, one number or one per row, raises `ValueError` if one of them is negative and at
least -2^-54 (4.8 picoseconds): its fraction is rounded to a full day. All other numbers are accepted. -/
theorem C195_fractional_refused (t : TS) (x : Arg ℚ) (hx : ∀ i v, argAt x i = some v → fl v = v)
    (hlen : ∀ as, x = .array as → as.length = t.rows.length ∧ as ≠ []) :
    (t.addFractionalDays64 x = .error .valueError ↔ ∃ i v, argAt x i = some v ∧ -2 ^ (-54 : ℤ) ≤ v ∧ v < 0) ∧
    ((∃ t', t.addFractionalDays64 x = .ok t') ↔ ¬ ∃ i v, argAt x i = some v ∧ -2 ^ (-54 : ℤ) ≤ v ∧ v < 0) := by
  have key : (x.map fun v => (splitFractionalDays64 v).2).all inAddRange = false ↔ ∃ i v, argAt x i = some v ∧ -2 ^ (-54 : ℤ) ≤ v ∧ v < 0 := by
    cases x with
    | scalar v =>
      show inAddRange (splitFractionalDays64 v).2 = false ↔ _
      rw [split_ok (hx 0 v rfl)]
      exact ⟨fun h => ⟨0, v, rfl, h⟩, fun ⟨_, w, hw, h⟩ => by cases hw; exact h⟩
    | array as =>
      obtain ⟨_, hne⟩ := hlen as rfl
      show (!(as.map fun v => (splitFractionalDays64 v).2).isEmpty && (as.map fun v => (splitFractionalDays64 v).2).all inAddRange) = false ↔ _
      have he : (as.map fun v => (splitFractionalDays64 v).2).isEmpty = false := by cases as <;> simp_all
      rw [he, Bool.not_false, Bool.true_and, List.all_map, List.all_eq_false]
      constructor
      · rintro ⟨v, hv, hb⟩
        obtain ⟨i, hi⟩ := List.mem_iff_getElem?.mp hv
        exact ⟨i, v, hi, (split_ok (hx i v hi)).mp (by simpa using hb)⟩
      · rintro ⟨i, v, hi, hb⟩
        exact ⟨v, List.mem_of_getElem? hi, by simpa using (split_ok (hx i v hi)).mpr hb⟩
  obtain ⟨t1, h1, hl⟩ : ∃ t1, t.addDays (x.map fun v => (splitFractionalDays64 v).1) = .ok t1 ∧ t1.rows.length = t.rows.length := by
    cases x with
    | scalar v => simp [TS.addDays, Arg.map, Arg.expand]
    | array as => simp [TS.addDays, Arg.map, Arg.expand, (hlen as rfl).1]
  obtain ⟨ns, h2⟩ : ∃ ns, (x.map fun v => (splitFractionalDays64 v).2).expand t1.rows.length = .ok ns := by
    cases x with
    | scalar v => simp [Arg.map, Arg.expand]
    | array as => simp [Arg.map, Arg.expand, (hlen as rfl).1, hl]
  rw [← key]
  unfold TS.addFractionalDays64 TS.addNanos
  rw [h1]
  simp only
  rcases Bool.eq_false_or_eq_true ((x.map fun v => (splitFractionalDays64 v).2).all inAddRange) with h | h
  · simp [h, h2]
  · simp [h]

/-- C195. When accepted, every row moves by the float64 number of days, truncated to nanoseconds, to within 1/64 nanosecond. -/
theorem C195_fractional_error (t t' : TS) (x : Arg ℚ) (ht : NormalTS t) (h : t.addFractionalDays64 x = .ok t') :
    t'.scale = t.scale ∧ t'.rows.length = t.rows.length ∧ NormalTS t' ∧
    ∀ (i : Nat) (r r' : Row), t.rows[i]? = some r → t'.rows[i]? = some r' →
      ∃ v, argAt x i = some v ∧ (-(1 / 64) : ℚ) ≤ v * DAY - ((instant r' - instant r : Int) : ℚ) ∧
        v * DAY - ((instant r' - instant r : Int) : ℚ) < 1 + 1 / 64 := by
  unfold TS.addFractionalDays64 at h
  split at h
  · cases h
  · rename_i t1 ht1
    obtain ⟨a1, a2, a3, a4⟩ := addDays_ok ht ht1
    obtain ⟨b1, b2, b3, b4⟩ := addNanos_ok a3 h
    refine ⟨b1.trans a1, b2.trans a2, b3, fun i r r' hr hr' => ?_⟩
    have hi : i < t1.rows.length := by
      rw [a2]; exact (List.getElem?_eq_some_iff.mp hr).1
    obtain ⟨v1, hv1, e1⟩ := a4 i r _ hr (List.getElem?_eq_getElem hi)
    obtain ⟨v2, hv2, e2⟩ := b4 i _ r' (List.getElem?_eq_getElem hi) hr'
    rw [argAt_map] at hv1 hv2
    cases hx : argAt x i with
    | none => rw [hx] at hv1; simp at hv1
    | some w =>
      rw [hx] at hv1 hv2
      simp only [Option.map_some, Option.some.injEq] at hv1 hv2
      refine ⟨w, rfl, ?_⟩
      obtain ⟨_, _, c3, c4⟩ := split_range w
      have : instant r' - instant r = (splitFractionalDays64 w).1 * DAY + (splitFractionalDays64 w).2 := by
        rw [e2, e1, ← hv1, ← hv2]; ring
      rw [this]
      exact ⟨c3, c4⟩

/-- C195. A number of nanoseconds of less than a day, written in float64 days, adds that number or one less. -/
theorem C195_fractional_nanos (t t' : TS) (n : ℤ) (ht : NormalTS t) (hn : 0 ≤ n ∧ n < DAY)
    (h : t.addFractionalDays64 (.scalar (fl ((n : ℚ) / DAY))) = .ok t') :
    ∀ (i : Nat) (r r' : Row), t.rows[i]? = some r → t'.rows[i]? = some r' →
      instant r' = instant r + n ∨ instant r' = instant r + n - 1 := by
  intro i r r' hr hr'
  obtain ⟨_, _, _, hm⟩ := C195_fractional_error t t' _ ht h
  obtain ⟨v, hv, h1, h2⟩ := hm i r r' hr hr'
  cases hv
  have hD : ((DAY : ℤ) : ℚ) = 86400000000000 := by rw [DAY_eq]; norm_num
  have n0 : (0 : ℚ) ≤ n := by exact_mod_cast hn.1
  have n1 : (n : ℚ) < 86400000000000 := by rw [← hD]; exact_mod_cast hn.2
  have hle : (n : ℚ) / 86400000000000 ≤ 1 := by rw [div_le_one (by norm_num)]; exact n1.le
  have h0 : (0 : ℚ) ≤ n / 86400000000000 := by positivity
  have hg := abs_le.mp (fl_ulp (q := (n : ℚ) / 86400000000000) (k := 0) (by rw [abs_of_nonneg h0]; simpa using hle))
  have e : (n : ℚ) / 86400000000000 * 86400000000000 = n := by field_simp
  rw [hD] at h1 h2
  generalize fl ((n : ℚ) / 86400000000000) = F at *
  norm_num at hg
  push_cast at h1 h2
  have u1 : ((instant r' - instant r : ℤ) : ℚ) < ((n + 1 : ℤ) : ℚ) := by push_cast; linarith [hg.1, hg.2]
  have u2 : ((n - 2 : ℤ) : ℚ) < ((instant r' - instant r : ℤ) : ℚ) := by push_cast; linarith [hg.1, hg.2]
  have v1 : instant r' - instant r < n + 1 := by exact_mod_cast u1
  have v2 : n - 2 < instant r' - instant r := by exact_mod_cast u2
  omega

/-- C195. Not true: `add_fractional_days` truncates, so that 1.2 days add a nanosecond less than 1.2 days, and 13 minutes one less than 13
minutes; seconds are rounded and do not. -/
theorem C195_fractional_exact_false :
    (⟨"utc", [⟨0, 0⟩]⟩ : TS).addFractionalDays64 (.scalar (fl (12 / 10))) = .ok ⟨"utc", [⟨1, 17279999999999⟩]⟩ ∧
    (⟨"utc", [⟨0, 0⟩]⟩ : TS).addFractionalDays64 (.scalar (fl (13 / 1440))) = .ok ⟨"utc", [⟨0, 779999999999⟩]⟩ ∧
    (⟨"utc", [⟨0, 0⟩]⟩ : TS).addSeconds64 (.scalar (fl 780)) = .ok ⟨"utc", [⟨0, 780000000000⟩]⟩ := by
  decide +kernel

/-- C195. Not true: adding a number of days and subtracting it again returns to the start; after 1.2 days there and back, a nanosecond is
missing. -/
theorem C195_fractional_back_false :
    (⟨"utc", [⟨5, 0⟩]⟩ : TS).addFractionalDays64 (.scalar (fl (12 / 10))) = .ok ⟨"utc", [⟨6, 17279999999999⟩]⟩ ∧
    (⟨"utc", [⟨6, 17279999999999⟩]⟩ : TS).addFractionalDays64 (.scalar (-fl (12 / 10))) = .ok ⟨"utc", [⟨4, 86399999999999⟩]⟩ := by
  decide +kernel

/-- The hypotheses of `C195_fractional_refused` are met on both sides: -2^-54 and -2^-53 are float64 numbers, one refused and one not. -/
example : fl (-2 ^ (-54 : ℤ)) = -2 ^ (-54 : ℤ) ∧ fl (-2 ^ (-53 : ℤ)) = -2 ^ (-53 : ℤ) ∧
    (⟨"utc", [⟨3, 5⟩]⟩ : TS).addFractionalDays64 (.scalar (-2 ^ (-54 : ℤ))) = .error .valueError ∧
    (⟨"utc", [⟨3, 5⟩]⟩ : TS).addFractionalDays64 (.scalar (-2 ^ (-53 : ℤ))) = .ok ⟨"utc", [⟨3, 4⟩]⟩ := by
  decide +kernel

end Verif.Time.AddFloatProps
