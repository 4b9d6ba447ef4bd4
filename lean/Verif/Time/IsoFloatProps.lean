import Verif.Time.IsoFloat
import Verif.Time.IsoProps
import Verif.Time.DurationFloatProps

/-! # C202: times in ADES texts -/

namespace Verif.Time.IsoFloatProps

open Verif F64 Spec Props DurationFloatProps

/-- The clock reading of a count of milliseconds since MJD 0, on days of 86400 s. -/
def ofMillis (n : ℤ) : Iso :=
  ⟨n / 86400000, n % 86400000 / 3600000, n % 86400000 % 3600000 / 60000, n % 86400000 % 60000 / 1000, n % 86400000 % 1000⟩

theorem d2dtf_ordinary {dat : Int → Int} {scale : String} {q : ℚ} (h : extraSecond dat scale ⌊q⌋ = 0) :
    d2dtf dat scale q = ofMillis ⌊q * 86400000 + 1 / 2⌋ := by
  unfold d2dtf milliseconds
  simp only [h, ne_eq, not_true_eq_false, if_false, if_true]
  have f1 := Int.floor_le q
  have f2 := Int.lt_floor_add_one q
  have e : ⌊q * 86400000 + 1 / 2⌋ = ⌊q⌋ * 86400000 + ⌊(q - ⌊q⌋) * 86400 * 1000 + 1 / 2⌋ := by
    rw [← Int.floor_intCast_add]
    congr 1
    push_cast
    ring
  have a0 : 0 ≤ ⌊(q - ⌊q⌋) * 86400 * 1000 + 1 / 2⌋ := Int.floor_nonneg.mpr (by linarith)
  have a1 : ⌊(q - ⌊q⌋) * 86400 * 1000 + 1 / 2⌋ ≤ 86400000 := by
    have h1 := Int.floor_le ((q - ⌊q⌋) * 86400 * 1000 + 1 / 2)
    have : (⌊(q - ⌊q⌋) * 86400 * 1000 + 1 / 2⌋ : ℚ) < ((86400001 : ℤ) : ℚ) := by push_cast; linarith
    have : ⌊(q - ⌊q⌋) * 86400 * 1000 + 1 / 2⌋ < 86400001 := by exact_mod_cast this
    omega
  rw [e]
  generalize ⌊(q - ⌊q⌋) * 86400 * 1000 + 1 / 2⌋ = a at *
  generalize ⌊q⌋ = d at *
  unfold ofMillis
  split
  · have ha : a = 86400000 := by omega
    subst ha
    have e1 : (d * 86400000 + 86400000) / 86400000 = d + 1 := by omega
    have e2 : (d * 86400000 + 86400000) % 86400000 = 0 := by omega
    rw [e1, e2]
    norm_num
  · have e1 : (d * 86400000 + a) / 86400000 = d := by omega
    have e2 : (d * 86400000 + a) % 86400000 = a := by omega
    rw [e1, e2]

theorem d2dtf_midnight {dat : Int → Int} {scale : String} (d : ℤ) : d2dtf dat scale (d : ℚ) = ofMillis (d * 86400000) := by
  unfold d2dtf milliseconds ofMillis
  have e1 : d * 86400000 / 86400000 = d := by omega
  have e2 : d * 86400000 % 86400000 = 0 := by omega
  simp only [Int.floor_intCast, sub_self, zero_mul, zero_div, add_zero, ite_self, zero_add, e1, e2]
  have : ⌊(1 / 2 : ℚ)⌋ = 0 := by rw [Int.floor_eq_iff]; norm_num
  rw [this]
  norm_num

/-- The text is that of the millisecond nearest to the MJD. -/
theorem ades_millis {dat : Int → Int} (h : LeapTable dat) {r : Row} (hr : Modern r) (hd : dayLength dat "utc" r.days = 86400) :
    r.adesTime dat = ofMillis ⌊r.mjd64 * 86400000 + 1 / 2⌋ := by
  obtain ⟨f0, f1, _⟩ := FloatProps.fraction64_near (r := r) ⟨hr.1.1, hr.1.2.le⟩
  have l := hr.2.1
  have u := hr.2.2
  have ed : fl (r.days : ℚ) = r.days := fl_int (by rw [abs_of_nonneg (by omega)]; omega)
  have ed1 : fl ((r.days + 1 : ℤ) : ℚ) = (r.days + 1 : ℤ) := fl_int (by rw [abs_of_nonneg (by omega)]; omega)
  have q1 : (r.days : ℚ) ≤ r.mjd64 := by unfold Row.mjd64; rw [ed]; exact le_fl_of_le ed (by linarith)
  have q2 : r.mjd64 ≤ ((r.days + 1 : ℤ) : ℚ) := by unfold Row.mjd64; rw [ed]; exact fl_le_of_le ed1 (by push_cast; linarith)
  unfold Row.adesTime
  rcases q2.lt_or_eq with hlt | heq
  · apply d2dtf_ordinary
    have : ⌊r.mjd64⌋ = r.days := by
      rw [Int.floor_eq_iff]
      push_cast at hlt
      exact ⟨q1, hlt⟩
    rw [this, extra_eq h, hd]
    norm_num
  · rw [heq, d2dtf_midnight]
    congr 1
    symm
    rw [Int.floor_eq_iff]
    push_cast
    constructor <;> linarith

theorem clock_ofMillis (n : ℤ) : (ofMillis n).day * 86400000 + clock (ofMillis n) = n := by
  unfold ofMillis clock
  simp only
  omega

theorem mjd_near {r : Row} (hr : Modern r) : |r.mjd64 * 86400000 - ((instant r : ℤ) : ℚ) / 1000000| ≤ 629 / 1000000 := by
  have l := hr.2.1
  have u := hr.2.2
  have e := FloatProps.C194_mjd (k := 17) (by norm_num) hr.1 (by rw [abs_lt]; constructor <;> omega)
  rw [DAY_eq] at e
  have e' := abs_le.mp e
  norm_num at e' ⊢
  rw [abs_le]
  constructor <;> linarith [e'.1, e'.2]

/-- C202. The time of an observation from 1948 to 2127, on a day without a leap second, is written to within half a millisecond and 0.63 microseconds. -/
theorem C202_error (dat : Int → Int) (h : LeapTable dat) {r : Row} (hr : Modern r) (hd : dayLength dat "utc" r.days = 86400) :
    |((r.adesTime dat).day * DAY + clock (r.adesTime dat) * 10 ^ 6) - instant r| ≤ 500629 ∧ Reading dat "utc" (r.adesTime dat) := by
  rw [ades_millis h hr hd]
  have e := abs_le.mp (mjd_near hr)
  have f1 := Int.floor_le (r.mjd64 * 86400000 + 1 / 2)
  have f2 := Int.lt_floor_add_one (r.mjd64 * 86400000 + 1 / 2)
  generalize ⌊r.mjd64 * 86400000 + 1 / 2⌋ = n at *
  constructor
  · have c := clock_ofMillis n
    have : (ofMillis n).day * DAY + clock (ofMillis n) * 10 ^ 6 = n * 10 ^ 6 := by
      rw [DAY_eq]
      linarith
    rw [this]
    have k1 : ((n * 10 ^ 6 - instant r : ℤ) : ℚ) ≤ ((500629 : ℤ) : ℚ) := by push_cast; linarith [e.1, e.2]
    have k2 : ((-500629 : ℤ) : ℚ) ≤ ((n * 10 ^ 6 - instant r : ℤ) : ℚ) := by push_cast; linarith [e.1, e.2]
    rw [abs_le]
    exact ⟨by exact_mod_cast k2, by exact_mod_cast k1⟩
  · unfold Reading ofMillis
    simp only
    refine ⟨?_, ?_, ?_, ?_, ?_, ?_, ?_, Or.inl ?_⟩ <;> omega

/-- C202. A time that is a whole number of milliseconds is written exactly, and reading the text gives the row back. -/
theorem C202_millis (dat : Int → Int) (h : LeapTable dat) {r : Row} (hr : Modern r) (hd : dayLength dat "utc" r.days = 86400) (hm : 10 ^ 6 ∣ r.nanos) :
    (r.adesTime dat).day = r.days ∧ clock (r.adesTime dat) * 10 ^ 6 = r.nanos ∧ fromIso dat "utc" (r.adesTime dat) = r := by
  obtain ⟨k, hk⟩ := hm
  have e := abs_le.mp (mjd_near hr)
  have n0 := hr.1.1
  have n1 := hr.1.2
  rw [DAY_eq] at n1
  have hinst : instant r = (r.days * 86400000 + k) * 10 ^ 6 := by
    unfold instant
    rw [DAY_eq, hk]
    ring
  have hfloor : ⌊r.mjd64 * 86400000 + 1 / 2⌋ = r.days * 86400000 + k := by
    rw [hinst] at e
    push_cast at e
    rw [Int.floor_eq_iff]
    push_cast
    constructor <;> linarith [e.1, e.2]
  have htext := ades_millis h hr hd
  rw [hfloor] at htext
  have hsame : r.adesTime dat = r.toIso dat "utc" := by
    rw [htext]
    obtain ⟨g1, g2⟩ := toAstropy_floor r hr.1
    unfold Row.toIso
    rw [d2dtf_ordinary (by rw [g1, extra_eq h, hd]; norm_num)]
    congr 1
    symm
    have : r.toAstropy * 86400000 = ((r.days * 86400000 + k : ℤ) : ℚ) := by
      have : r.toAstropy = r.days + (r.nanos : ℚ) / 86400000000000 := by linarith
      rw [this, hk]
      push_cast
      ring
    rw [this, Int.floor_eq_iff]
    constructor <;> linarith
  refine ⟨?_, ?_, ?_⟩
  · rw [htext]
    unfold ofMillis
    simp only
    omega
  · rw [htext]
    unfold ofMillis clock
    simp only
    omega
  · rw [hsame]
    exact (C176_row_kept dat h "utc" r hr.1).2.2 hd ⟨k, hk⟩

theorem d2dtf_leap {dat : Int → Int} {scale : String} {q : ℚ} (h : extraSecond dat scale ⌊q⌋ = 1) (hl : dayLength dat scale ⌊q⌋ = 86401) :
    Reading dat scale (d2dtf dat scale q) ∧ ((d2dtf dat scale q).day = ⌊q⌋ ∧ clock (d2dtf dat scale q) = ⌊(q - ⌊q⌋) * 86401000 + 1 / 2⌋ ∨
      d2dtf dat scale q = ⟨⌊q⌋ + 1, 0, 0, 0, 0⟩ ∧ ⌊(q - ⌊q⌋) * 86401000 + 1 / 2⌋ = 86401000) := by
  have f1 := Int.floor_le q
  have f2 := Int.lt_floor_add_one q
  have e : (q - ⌊q⌋ + (q - ⌊q⌋) * ((1 : ℤ) : ℚ) / 86400) * 86400 * 1000 + 1 / 2 = (q - ⌊q⌋) * 86401000 + 1 / 2 := by
    push_cast
    ring
  have a0 : 0 ≤ ⌊(q - ⌊q⌋) * 86401000 + 1 / 2⌋ := Int.floor_nonneg.mpr (by linarith)
  have a1 : ⌊(q - ⌊q⌋) * 86401000 + 1 / 2⌋ ≤ 86401000 := by
    have h1 := Int.floor_le ((q - ⌊q⌋) * 86401000 + 1 / 2)
    have : (⌊(q - ⌊q⌋) * 86401000 + 1 / 2⌋ : ℚ) < ((86401001 : ℤ) : ℚ) := by push_cast; linarith
    have : ⌊(q - ⌊q⌋) * 86401000 + 1 / 2⌋ < 86401001 := by exact_mod_cast this
    omega
  unfold d2dtf milliseconds
  simp only [h, ne_eq, one_ne_zero, not_false_eq_true, if_true, if_false, e]
  generalize ⌊(q - ⌊q⌋) * 86401000 + 1 / 2⌋ = a at *
  generalize ⌊q⌋ = d at *
  unfold Reading clock
  split
  · split
    · have ha : a = 86401000 := by omega
      subst ha
      exact ⟨⟨by norm_num, by norm_num, by norm_num, by norm_num, by norm_num, by norm_num, by norm_num, Or.inl (by norm_num)⟩, Or.inr ⟨by norm_num, rfl⟩⟩
    · exact ⟨⟨by norm_num, by norm_num, by norm_num, by norm_num, by norm_num, by simp only; omega, by simp only; omega,
        Or.inr ⟨rfl, rfl, rfl, hl⟩⟩, Or.inl ⟨rfl, by simp only; omega⟩⟩
  · simp only
    refine ⟨⟨?_, ?_, ?_, ?_, ?_, ?_, ?_, Or.inl ?_⟩, Or.inl ⟨trivial, ?_⟩⟩ <;> omega

/-- C202. On a day that ends in a leap second the text is a clock reading of the day, the second numbered 60 included: that of the row's fraction of the
86401 s, to half a millisecond and 0.63 microseconds; or it is midnight of the next day. -/
theorem C202_leap (dat : Int → Int) (h : LeapTable dat) {r : Row} (hr : Modern r) (hd : dayLength dat "utc" r.days = 86401) :
    Reading dat "utc" (r.adesTime dat) ∧
      ((r.adesTime dat).day = r.days ∧ |(clock (r.adesTime dat) * 10 ^ 6 : ℚ) - (r.nanos : ℚ) * 86401 / 86400| ≤ 500630 ∨
        r.adesTime dat = ⟨r.days + 1, 0, 0, 0, 0⟩ ∧ 86401 * 10 ^ 9 - (r.nanos : ℚ) * 86401 / 86400 ≤ 500630) := by
  obtain ⟨f0, f1, _⟩ := FloatProps.fraction64_near (r := r) ⟨hr.1.1, hr.1.2.le⟩
  have l := hr.2.1
  have u := hr.2.2
  have ed : fl (r.days : ℚ) = r.days := fl_int (by rw [abs_of_nonneg (by omega)]; omega)
  have ed1 : fl ((r.days + 1 : ℤ) : ℚ) = (r.days + 1 : ℤ) := fl_int (by rw [abs_of_nonneg (by omega)]; omega)
  have q1 : (r.days : ℚ) ≤ r.mjd64 := by unfold Row.mjd64; rw [ed]; exact le_fl_of_le ed (by linarith)
  have q2 : r.mjd64 ≤ ((r.days + 1 : ℤ) : ℚ) := by unfold Row.mjd64; rw [ed]; exact fl_le_of_le ed1 (by push_cast; linarith)
  have near := abs_le.mp (mjd_near hr)
  have hinst : ((instant r : ℤ) : ℚ) = r.days * 86400000000000 + r.nanos := by
    unfold instant
    rw [DAY_eq]
    push_cast
    ring
  rw [hinst] at near
  unfold Row.adesTime
  rcases q2.lt_or_eq with hlt | heq
  · have hf : ⌊r.mjd64⌋ = r.days := by
      rw [Int.floor_eq_iff]
      push_cast at hlt
      exact ⟨q1, hlt⟩
    obtain ⟨k1, k2⟩ := d2dtf_leap (dat := dat) (scale := "utc") (q := r.mjd64) (by rw [hf, extra_eq h, hd]; norm_num) (by rw [hf, hd])
    refine ⟨k1, ?_⟩
    rw [hf] at k2
    have g1 := Int.floor_le ((r.mjd64 - r.days) * 86401000 + 1 / 2)
    have g2 := Int.lt_floor_add_one ((r.mjd64 - r.days) * 86401000 + 1 / 2)
    rcases k2 with ⟨d1, d2⟩ | ⟨d1, d2⟩
    · left
      refine ⟨d1, ?_⟩
      rw [d2, abs_le]
      constructor <;> linarith [near.1, near.2]
    · right
      refine ⟨d1, ?_⟩
      rw [d2] at g1
      push_cast at g1
      linarith [near.1, near.2]
  · rw [heq, d2dtf_midnight]
    rw [heq] at near
    push_cast at near
    have e : ofMillis ((r.days + 1) * 86400000) = ⟨r.days + 1, 0, 0, 0, 0⟩ := by
      unfold ofMillis
      have e1 : (r.days + 1) * 86400000 / 86400000 = r.days + 1 := by omega
      have e2 : (r.days + 1) * 86400000 % 86400000 = 0 := by omega
      rw [e1, e2]
      norm_num
    rw [e]
    refine ⟨by simp [Reading], Or.inr ⟨rfl, ?_⟩⟩
    linarith [near.1, near.2]

/-- C202. An observation that is not later than another is not written as later. -/
theorem C202_order (dat : Int → Int) (h : LeapTable dat) {a b : Row} (ha : Modern a) (hb : Modern b) (da : dayLength dat "utc" a.days = 86400)
    (db : dayLength dat "utc" b.days = 86400) (hab : instant a ≤ instant b) :
    (a.adesTime dat).day * DAY + clock (a.adesTime dat) * 10 ^ 6 ≤ (b.adesTime dat).day * DAY + clock (b.adesTime dat) * 10 ^ 6 := by
  rw [ades_millis h ha da, ades_millis h hb db, DAY_eq]
  have bound : ∀ {x : Row}, Modern x → |x.days| < 2 ^ 17 := fun hx => by
    have l := hx.2.1
    have u := hx.2.2
    rw [abs_lt]
    constructor <;> omega
  have hm := (FloatProps.C194_order (k := 17) (by norm_num) ha.1 hb.1 (bound ha) (bound hb)).1 hab
  have hf : ⌊a.mjd64 * 86400000 + 1 / 2⌋ ≤ ⌊b.mjd64 * 86400000 + 1 / 2⌋ := Int.floor_le_floor (by linarith)
  have ca := clock_ofMillis ⌊a.mjd64 * 86400000 + 1 / 2⌋
  have cb := clock_ofMillis ⌊b.mjd64 * 86400000 + 1 / 2⌋
  linarith

/-- C202 fails: a time 2.499999 ms into a day is written as 3 ms, and as 2 ms by `to_iso8601`. -/
theorem C202_nearest_false : ∃ r : Row, Modern r ∧ r = ⟨60000, 2499999⟩ ∧ dayLength recentDat "utc" r.days = 86400 ∧
    r.adesTime recentDat = ⟨60000, 0, 0, 0, 3⟩ ∧ r.toIso recentDat "utc" = ⟨60000, 0, 0, 0, 2⟩ :=
  ⟨⟨60000, 2499999⟩, ⟨⟨by decide, by decide⟩, by decide, by decide⟩, rfl, by decide, by decide +kernel, by decide +kernel⟩

/-- A whole number of milliseconds, and a time that is written as midnight of the next day. -/
example : Modern ⟨60000, 43200123000000⟩ ∧ dayLength recentDat "utc" 60000 = 86400 ∧ (10 ^ 6 : ℤ) ∣ 43200123000000 ∧
    Row.adesTime recentDat ⟨60000, 43200123000000⟩ = ⟨60000, 12, 0, 0, 123⟩ ∧
    Row.adesTime recentDat ⟨60000, 86399999900000⟩ = ⟨60001, 0, 0, 0, 0⟩ ∧ LeapTable recentDat ∧
    Modern ⟨57753, 86399500000000⟩ ∧ dayLength recentDat "utc" 57753 = 86401 ∧
    Row.adesTime recentDat ⟨57753, 86399500000000⟩ = ⟨57753, 23, 59, 60, 500⟩ :=
  ⟨⟨⟨by decide, by decide⟩, by decide, by decide⟩, by decide, by decide, by decide +kernel, by decide +kernel, recentDat_ok,
    ⟨⟨by decide, by decide⟩, by decide, by decide⟩, by decide, by decide +kernel⟩

end Verif.Time.IsoFloatProps
