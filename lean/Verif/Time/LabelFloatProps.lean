import Verif.Time.LabelFloat
import Verif.Time.DurationFloatProps

/-! # C205: times of propagated orbits with float64 rounding -/

namespace Verif.Time.LabelFloatProps

open Verif F64 Spec DurationFloatProps

theorem modern_lt {r : Row} (h : Modern r) : |r.days| < 2 ^ 17 := by
  obtain ⟨-, h1, h2⟩ := h
  rw [abs_lt]; constructor <;> omega

theorem modern_mjd {r : Row} (h : Modern r) : fl r.mjd64 = r.mjd64 ∧ 64 ≤ |r.mjd64| := by
  refine ⟨fl_fl _, ?_⟩
  obtain ⟨A, e, h1, -⟩ := mjd_units h
  have h1' : (2 ^ 52 : ℚ) ≤ A := by exact_mod_cast h1
  rw [e, abs_of_nonneg (by positivity)]
  calc (64 : ℚ) ≤ 2 ^ 52 * 2 ^ (-37 : ℤ) := by norm_num
    _ ≤ _ := mul_le_mul_of_nonneg_right h1' (by positivity)

/-- C205. The time of a propagated orbit is within 629 ns of the requested one, 314 ns up to 2038. -/
theorem C205_error {r : Row} (h : Modern r) : |instant r.label64 - instant r| ≤ 629 ∧ (r.days < 2 ^ 16 → |instant r.label64 - instant r| ≤ 314) := by
  constructor
  · have h := FloatProps.C194_round_trip (k := 17) (by norm_num) h.1 (modern_lt h)
    have : |((instant r.label64 - instant r : ℤ) : ℚ)| < 630 := by
      refine h.trans_le ?_
      rw [DAY_eq]; norm_num
    have : |instant r.label64 - instant r| < 630 := by exact_mod_cast this
    omega
  · intro h2
    exact FloatProps.C194_round_trip_2038 h.1 (by have := h.2.1; rw [abs_lt]; constructor <;> omega)

/-- C205. It is normalised, has the MJD of the requested time, and as a requested time it is returned unchanged. -/
theorem C205_fixed {r : Row} (h : Modern r) : Normal r.label64 ∧ r.label64.mjd64 = r.mjd64 ∧ r.label64.label64 = r.label64 := by
  obtain ⟨h1, h2⟩ := modern_mjd h
  have e : r.label64.mjd64 = r.mjd64 := FloatProps.C194_exact h1 h2
  refine ⟨FloatProps.C194_normalised h1 (by linarith), e, ?_⟩
  unfold Row.label64 at e ⊢
  rw [e]

/-- C205. Propagating from or to the time of a propagated orbit is over the duration from or to the requested time, so durations of propagations that
continue one another add up without error. -/
theorem C205_durations {a b c : Row} (ha : Modern a) (hb : Modern b) (hc : Modern c) :
    days64 a b.label64 = days64 a b ∧ days64 b.label64 a = days64 b a ∧ days64 a b + days64 b.label64 c = days64 a c := by
  have e := (C205_fixed hb).2.1
  have e2 : days64 b.label64 c = days64 b c := by unfold days64; rw [e]
  refine ⟨by unfold days64; rw [e], by unfold days64; rw [e], ?_⟩
  rw [e2, ← (C199_chain ha hb hc).1]

theorem fromMjd_mono {x y : ℚ} (h : x ≤ y) : instant (fromMjd64 x) ≤ instant (fromMjd64 y) := by
  have hx := (FloatProps.C194_from_mjd x).2
  have hy := (FloatProps.C194_from_mjd y).2
  have dx : (fromMjd64 x).days = ⌊x⌋ := rfl
  have dy : (fromMjd64 y).days = ⌊y⌋ := rfl
  have hD : DAY = 86400000000000 := DAY_eq
  rcases (Int.floor_le_floor h).lt_or_eq with hl | hl
  · unfold instant
    have : ⌊x⌋ + 1 ≤ ⌊y⌋ := hl
    rw [dx, dy]
    have h1 := hx.2
    have h2 := hy.1
    nlinarith
  · have : (fromMjd64 x).nanos ≤ (fromMjd64 y).nanos := by
      show roundHalfEven (fl (fl (x - ⌊x⌋) * NANOS_IN_DAY)) ≤ roundHalfEven (fl (fl (y - ⌊y⌋) * NANOS_IN_DAY))
      apply round_mono
      apply fl_mono
      apply mul_le_mul_of_nonneg_right _ (by rw [FloatProps.day_q]; norm_num)
      apply fl_mono
      rw [hl]
      linarith
    unfold instant
    rw [dx, dy, hl]
    linarith

/-- C205. Times that are in order stay in order, and stay different if they are at least 1.3 microseconds apart. -/
theorem C205_order {a b : Row} (ha : Modern a) (hb : Modern b) :
    (instant a ≤ instant b → instant a.label64 ≤ instant b.label64) ∧ (instant a + 1300 ≤ instant b → instant a.label64 < instant b.label64) := by
  have ho := FloatProps.C194_order (k := 17) (by norm_num) ha.1 hb.1 (modern_lt ha) (modern_lt hb)
  refine ⟨fun h => fromMjd_mono (ho.1 h), fun h => ?_⟩
  have ea := abs_le.mp (C205_error ha).1
  have eb := abs_le.mp (C205_error hb).1
  omega

/-- C205. Times of day that are a multiple of a 2^16th of a day, such as midnight, noon and the quarters of a day, are kept. -/
theorem C205_exact {r : Row} (h : Modern r) {k : ℤ} (hk : r.nanos * 2 ^ 16 = k * DAY) : r.label64 = r := by
  have hD : DAY = 86400000000000 := DAY_eq
  have h0 := h.1.1
  have h1 := h.1.2
  have h2 := h.2.1
  have h3 := h.2.2
  have k0 : 0 ≤ k := by rw [hD] at hk h1; omega
  have k1 : k < 2 ^ 16 := by rw [hD] at hk h1; omega
  have hkq : (r.nanos : ℚ) * 2 ^ 16 = k * 86400000000000 := by rw [hD] at hk; exact_mod_cast hk
  have en : (r.nanos : ℚ) = k * 2 ^ (-16 : ℤ) * 86400000000000 := by norm_num; linarith
  have enN : fl (r.nanos : ℚ) = r.nanos := FloatProps.nanos_fl ⟨h0, h1.le⟩
  have ef : fl ((k : ℚ) * 2 ^ (-16 : ℤ)) = k * 2 ^ (-16 : ℤ) := fl_exact (by rw [abs_of_nonneg k0]; omega)
  have efr : r.fraction64 = k * 2 ^ (-16 : ℤ) := by
    unfold Row.fraction64
    rw [enN, FloatProps.day_q, en]
    rw [show (k : ℚ) * 2 ^ (-16 : ℤ) * 86400000000000 / 86400000000000 = k * 2 ^ (-16 : ℤ) by field_simp]
    exact ef
  have em : r.mjd64 = r.days + k * 2 ^ (-16 : ℤ) := by
    unfold Row.mjd64
    rw [efr, fl_int (n := r.days) (by rw [abs_of_nonneg (by omega)]; omega)]
    have := fl_exact (m := r.days * 2 ^ 16 + k) (e := -16) (by rw [abs_of_nonneg (by omega)]; omega)
    push_cast at this
    rw [show ((r.days : ℚ) * 65536 + k) * 2 ^ (-16 : ℤ) = r.days + k * 2 ^ (-16 : ℤ) by norm_num; ring] at this
    exact this
  have k0' : (0 : ℚ) ≤ k := by exact_mod_cast k0
  have k1' : (k : ℚ) < 2 ^ 16 := by exact_mod_cast k1
  have efl : ⌊r.mjd64⌋ = r.days := by
    rw [em, Int.floor_eq_iff]
    norm_num at k1' ⊢
    constructor <;> linarith
  unfold Row.label64 fromMjd64
  simp only
  rw [efl, em, add_sub_cancel_left, ef, FloatProps.day_q, ← en, enN]
  have : roundHalfEven (r.nanos : ℚ) = r.nanos := roundHalfEven_int r.nanos
  rw [this]

/-- 06:00 on MJD 60000. -/
example : Modern ⟨60000, 21600000000000⟩ ∧ (21600000000000 : ℤ) * 2 ^ 16 = 16384 * DAY :=
  ⟨⟨⟨by decide, by decide⟩, by decide, by decide⟩, by decide⟩

/-- C205. One row for every orbit and time, orbit by orbit, in TDB: the requested time through its MJD. -/
theorem C205_times (n : Nat) (t : TS) :
    (t.propagated64 n).scale = "tdb" ∧ (t.propagated64 n).rows.length = n * t.rows.length ∧
    ∀ (i j : Nat) (r : Row), i < n → t.rows[j]? = some r → ∃ q, (t.propagated64 n).rows[i * t.rows.length + j]? = some q ∧
      (Modern r → |instant q - instant r| ≤ 629) ∧ ∀ i' q', i' < n → (t.propagated64 n).rows[i' * t.rows.length + j]? = some q' → q' = q := by
  refine ⟨rfl, by simp [TS.propagated64], ?_⟩
  have key : ∀ (m : Nat) (l : List Row) (i j : Nat), i < m → j < l.length →
      ((List.replicate m l).flatten)[i * l.length + j]? = l[j]? := by
    intro m l
    induction m with
    | zero => intro i j hi; omega
    | succ m ih =>
      intro i j hi hj
      rw [List.replicate_succ, List.flatten_cons]
      cases i with
      | zero => rw [Nat.zero_mul, Nat.zero_add, List.getElem?_append_left hj]
      | succ i =>
        rw [List.getElem?_append_right (by nlinarith), show (i + 1) * l.length + j - l.length = i * l.length + j by
          rw [Nat.succ_mul]; omega]
        exact ih i j (by omega) hj
  intro i j r hi hr
  have hj : j < t.rows.length := by
    rw [List.getElem?_eq_some_iff] at hr; exact hr.1
  have e : ∀ i, i < n → (t.propagated64 n).rows[i * t.rows.length + j]? = some r.label64 := by
    intro i hi
    have := key n (t.rows.map Row.label64) i j hi (by simpa using hj)
    rw [List.length_map] at this
    show ((List.replicate n (t.rows.map Row.label64)).flatten)[i * t.rows.length + j]? = _
    rw [this, List.getElem?_map, hr]
    rfl
  refine ⟨_, e i hi, fun hm => (C205_error hm).1, ?_⟩
  intro i' q' hi' hq'
  rw [e i' hi'] at hq'
  exact (Option.some.inj hq').symm

/-- C205. Not true: that the times of propagated orbits are the requested ones, or that different times stay different. 01:00 on MJD 60000 is returned as
00:59:59.999999790, and so is the time one nanosecond later. -/
theorem C205_requested_false : Modern ⟨60000, 3600000000000⟩ ∧ (⟨60000, 3600000000000⟩ : Row).label64 = ⟨60000, 3599999999790⟩ ∧
    (⟨60000, 3600000000001⟩ : Row).label64 = ⟨60000, 3599999999790⟩ :=
  ⟨⟨⟨by decide, by decide⟩, by decide, by decide⟩, by decide +kernel, by decide +kernel⟩

end Verif.Time.LabelFloatProps
