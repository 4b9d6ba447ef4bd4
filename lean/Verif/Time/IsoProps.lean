import Verif.Time.Iso
import Verif.Time.LeapProps
import Verif.Time.Props

/-! # C176: ISO 8601 texts of timestamps -/

namespace Verif.Time.Props

open Verif Verif.Time Verif.Time.Spec

/-- The seconds of a day in a scale: 86401 on a UTC day that ends in a leap second. -/
def dayLength (dat : Int → Int) (scale : String) (day : Int) : Int :=
  if scale = "utc" ∧ dat (day + 1) = dat day + 1 then 86401 else 86400

/-- The milliseconds since midnight a clock reading states. -/
def clock (c : Iso) : Int := ((c.hour * 60 + c.minute) * 60 + c.second) * 1000 + c.milli

/-- A clock reading of its day: the seconds run to 59, and to 60 in the last minute of a leap-second day. -/
def Reading (dat : Int → Int) (scale : String) (c : Iso) : Prop :=
  0 ≤ c.hour ∧ c.hour ≤ 23 ∧ 0 ≤ c.minute ∧ c.minute ≤ 59 ∧ 0 ≤ c.second ∧ 0 ≤ c.milli ∧ c.milli ≤ 999 ∧
    (c.second ≤ 59 ∨ (c.hour = 23 ∧ c.minute = 59 ∧ c.second = 60 ∧ dayLength dat scale c.day = 86401))

theorem extra_eq {dat : Int → Int} (h : LeapTable dat) (scale : String) (day : Int) :
    extraSecond dat scale day = dayLength dat scale day - 86400 := by
  unfold extraSecond dayLength
  by_cases c : scale = "utc"
  · rcases h.step day with d | d <;> simp [c, d, leapOf]
  · simp [c]

theorem dayLength_cases (dat : Int → Int) (scale : String) (day : Int) :
    dayLength dat scale day = 86400 ∨ dayLength dat scale day = 86401 := by
  unfold dayLength; split_ifs <;> simp

theorem toAstropy_floor (r : Row) (hr : Normal r) :
    ⌊r.toAstropy⌋ = r.days ∧ r.toAstropy - r.days = (r.nanos : ℚ) / 86400000000000 := by
  obtain ⟨a, b⟩ := hr
  have b' : r.nanos < 86400000000000 := by simpa [DAY] using b
  have aq : (0 : ℚ) ≤ r.nanos := by exact_mod_cast a
  have bq : (r.nanos : ℚ) < 86400000000000 := by exact_mod_cast b'
  have e : r.toAstropy = r.days + (r.nanos : ℚ) / 86400000000000 := by
    simp only [Row.toAstropy, NANOS_IN_DAY]; push_cast; rfl
  have p : 0 ≤ (r.nanos : ℚ) / 86400000000000 := by positivity
  have q : (r.nanos : ℚ) / 86400000000000 < 1 := by rw [div_lt_one (by norm_num)]; exact bq
  constructor
  · rw [e, Int.floor_eq_iff]; constructor <;> linarith
  · rw [e]; ring

/-- The fields of a count of milliseconds that is a reading of the day, or the midnight that ends it. -/
theorem toIso_fields {dat : Int → Int} (h : LeapTable dat) (scale : String) (r : Row) (hr : Normal r) :
    ∃ a : Int, a = ⌊(r.nanos : ℚ) * dayLength dat scale r.days / 86400000000 + 1 / 2⌋ ∧
      0 ≤ a ∧ a ≤ dayLength dat scale r.days * 1000 ∧
      (a = dayLength dat scale r.days * 1000 → Row.toIso dat scale r = ⟨r.days + 1, 0, 0, 0, 0⟩) ∧
      (a < dayLength dat scale r.days * 1000 → (Row.toIso dat scale r).day = r.days ∧
        Reading dat scale (Row.toIso dat scale r) ∧ clock (Row.toIso dat scale r) = a) := by
  obtain ⟨f1, f2⟩ := toAstropy_floor r hr
  obtain ⟨ha, hb⟩ := hr
  have b' : r.nanos < 86400000000000 := by simpa [DAY] using hb
  have aq : (0 : ℚ) ≤ r.nanos := by exact_mod_cast ha
  have bq : (r.nanos : ℚ) ≤ 86399999999999 := by
    have : r.nanos ≤ 86399999999999 := by omega
    exact_mod_cast this
  set a := ⌊(r.nanos : ℚ) * dayLength dat scale r.days / 86400000000 + 1 / 2⌋ with hdef
  have unf : Row.toIso dat scale r =
      if 23 < a / 3600000 then
        if dayLength dat scale r.days - 86400 = 0 then ⟨r.days + 1, 0, 0, 0, a % 1000⟩
        else if 0 < a % 60000 / 1000 then ⟨r.days + 1, 0, 0, 0, a % 1000⟩
        else ⟨r.days, 23, 59, 60, a % 1000⟩
      else ⟨r.days, a / 3600000, a % 3600000 / 60000, a % 60000 / 1000, a % 1000⟩ := by
    simp only [Row.toIso, d2dtf, f1, f2, extra_eq h, milliseconds]
    have e : (if dayLength dat scale r.days - 86400 ≠ 0 then
        (r.nanos : ℚ) / 86400000000000 + (r.nanos : ℚ) / 86400000000000 * ((dayLength dat scale r.days - 86400 : Int) : ℚ) / 86400
        else (r.nanos : ℚ) / 86400000000000) * 86400 * 1000 + 1 / 2
        = (r.nanos : ℚ) * dayLength dat scale r.days / 86400000000 + 1 / 2 := by
      rcases dayLength_cases dat scale r.days with d | d <;> rw [d] <;> norm_num <;> ring
    rw [e, ← hdef]
  have a0 : 0 ≤ a := by
    rw [hdef]; apply Int.floor_nonneg.mpr
    rcases dayLength_cases dat scale r.days with d | d <;> rw [d] <;> push_cast <;> linarith
  have aU : a ≤ dayLength dat scale r.days * 1000 := by
    have : (a : ℚ) ≤ (r.nanos : ℚ) * dayLength dat scale r.days / 86400000000 + 1 / 2 := Int.floor_le _
    have : (a : ℚ) < ((dayLength dat scale r.days * 1000 + 1 : Int) : ℚ) := by
      rcases dayLength_cases dat scale r.days with d | d <;> rw [d] at this ⊢ <;> push_cast at this ⊢ <;> linarith
    have : a < dayLength dat scale r.days * 1000 + 1 := by exact_mod_cast this
    omega
  clear_value a
  refine ⟨a, rfl, a0, aU, ?_, ?_⟩
  · intro e
    rw [unf]
    rcases dayLength_cases dat scale r.days with d | d <;> rw [d] at e ⊢ <;> subst e <;> norm_num
  · intro lt
    rw [unf]
    rcases dayLength_cases dat scale r.days with d | d
    · rw [d] at lt
      rw [if_neg (by omega)]
      simp only [Reading, clock, d]
      refine ⟨trivial, ⟨?_, ?_, ?_, ?_, ?_, ?_, ?_, Or.inl ?_⟩, ?_⟩ <;> omega
    · rw [d] at lt ⊢
      by_cases c : 23 < a / 3600000
      · rw [if_pos c, if_neg (by omega), if_neg (by omega)]
        simp only [Reading, clock, d]
        refine ⟨trivial, ⟨?_, ?_, ?_, ?_, ?_, ?_, ?_, Or.inr ⟨trivial, trivial, trivial, trivial⟩⟩, ?_⟩ <;> omega
      · rw [if_neg c]
        simp only [Reading, clock]
        refine ⟨trivial, ⟨?_, ?_, ?_, ?_, ?_, ?_, ?_, Or.inl ?_⟩, ?_⟩ <;> omega

/-- C176: the text of a row is a clock reading of the scale's day, the millisecond nearest to the row's fraction of the
day, whatever the length of the day; what rounds to the end of the day is midnight of the next. -/
theorem C176_text (dat : Int → Int) (h : LeapTable dat) (scale : String) (r : Row) (hr : Normal r) :
    Reading dat scale (r.toIso dat scale) ∧
      ((r.toIso dat scale).day = r.days ∧
          |(clock (r.toIso dat scale) : ℚ) - (r.nanos : ℚ) / (DAY : Int) * (dayLength dat scale r.days * 1000 : Int)|
            ≤ 1 / 2 ∨
        r.toIso dat scale = ⟨r.days + 1, 0, 0, 0, 0⟩ ∧
          (dayLength dat scale r.days * 1000 : Int) - (r.nanos : ℚ) / (DAY : Int) * (dayLength dat scale r.days * 1000 : Int)
            ≤ 1 / 2) := by
  obtain ⟨a, ha, a0, aU, e1, e2⟩ := toIso_fields h scale r hr
  have f1 := Int.floor_le ((r.nanos : ℚ) * dayLength dat scale r.days / 86400000000 + 1 / 2)
  have f2 := Int.lt_floor_add_one ((r.nanos : ℚ) * dayLength dat scale r.days / 86400000000 + 1 / 2)
  rw [← ha] at f1 f2
  have e : (r.nanos : ℚ) / (DAY : Int) * (dayLength dat scale r.days * 1000 : Int)
      = (r.nanos : ℚ) * dayLength dat scale r.days / 86400000000 := by
    rw [DAY_eq]; push_cast; ring
  rw [e]
  rcases lt_or_eq_of_le aU with c | c
  · obtain ⟨d, v, k⟩ := e2 c
    refine ⟨v, Or.inl ⟨d, ?_⟩⟩
    rw [k, abs_le]
    constructor <;> linarith
  · have w := e1 c
    refine ⟨?_, Or.inr ⟨w, ?_⟩⟩
    · rw [w]; simp [Reading]
    · have c' : (a : ℚ) = ((dayLength dat scale r.days * 1000 : Int) : ℚ) := by exact_mod_cast c
      linarith

/-- C176: in every scale but UTC, and in UTC on days without a leap second, the text states the time of day of the row to
half a millisecond, also across midnight. -/
theorem C176_text_ordinary (dat : Int → Int) (h : LeapTable dat) (scale : String) (r : Row) (hr : Normal r)
    (hd : dayLength dat scale r.days = 86400) :
    |((r.toIso dat scale).day * DAY + clock (r.toIso dat scale) * 10 ^ 6) - instant r| ≤ 500000 := by
  obtain ⟨v, h1 | h1⟩ := C176_text dat h scale r hr
  · obtain ⟨d, k⟩ := h1
    rw [hd, DAY_eq, abs_le] at k
    push_cast at k
    have k1 : ((clock (r.toIso dat scale) * 1000000 - r.nanos : Int) : ℚ) ≤ (500000 : Int) := by
      push_cast; linarith [k.2]
    have k2 : ((-500000 : Int) : ℚ) ≤ ((clock (r.toIso dat scale) * 1000000 - r.nanos : Int) : ℚ) := by
      push_cast; linarith [k.1]
    have k1' := Int.cast_le.mp k1
    have k2' := Int.cast_le.mp k2
    rw [d]
    simp only [instant]
    rw [abs_le]
    norm_num
    constructor <;> linarith
  · obtain ⟨w, k⟩ := h1
    rw [hd, DAY_eq] at k
    push_cast at k
    have k1 : ((86400000000000 - r.nanos : Int) : ℚ) ≤ (500000 : Int) := by push_cast; linarith
    have k1' := Int.cast_le.mp k1
    obtain ⟨a, b⟩ := hr
    rw [DAY_eq] at b
    rw [w]
    simp only [instant, clock, DAY_eq]
    rw [abs_le]
    omega

theorem fromIso_near {dat : Int → Int} (h : LeapTable dat) (scale : String) (c : Iso) :
    Normal (fromIso dat scale c) ∧
      |((instant (fromIso dat scale c) : Int) : ℚ)
        - (c.day * (DAY : Int) + clock c * 86400000000 / (dayLength dat scale c.day : Int))| ≤ 1 / 2 := by
  set q := dtf2d dat scale c.day c.hour c.minute (c.second + c.milli / 1000) with hq
  have b : |q + 4800001 / 2 - ((⌊q + 4800001 / 2 + 1 / 2⌋ : Int) : ℚ)| ≤ 1 / 2 := by
    have f1 := Int.floor_le (q + 4800001 / 2 + 1 / 2)
    have f2 := Int.lt_floor_add_one (q + 4800001 / 2 + 1 / 2)
    rw [abs_le]; constructor <;> linarith
  have := C73_from_astropy_array ((⌊q + 4800001 / 2 + 1 / 2⌋ : Int) : ℚ)
    (q + 4800001 / 2 - ((⌊q + 4800001 / 2 + 1 / 2⌋ : Int) : ℚ)) b
  refine ⟨this.1, ?_⟩
  have k := this.2
  have e : (((⌊q + 4800001 / 2 + 1 / 2⌋ : Int) : ℚ) + (q + 4800001 / 2 - ((⌊q + 4800001 / 2 + 1 / 2⌋ : Int) : ℚ))
      - 4800001 / 2) * (DAY : Int)
      = c.day * (DAY : Int) + clock c * 86400000000 / (dayLength dat scale c.day : Int) := by
    have : (((⌊q + 4800001 / 2 + 1 / 2⌋ : Int) : ℚ) + (q + 4800001 / 2 - ((⌊q + 4800001 / 2 + 1 / 2⌋ : Int) : ℚ))
      - 4800001 / 2) = q := by ring
    rw [this, hq]
    unfold dtf2d clock
    rw [extra_eq h, DAY_eq]
    push_cast
    have nz : (dayLength dat scale c.day : ℚ) ≠ 0 := by
      rcases dayLength_cases dat scale c.day with d | d <;> rw [d] <;> norm_num
    have e2 : (86400 + ((dayLength dat scale c.day : ℚ) - 86400)) = dayLength dat scale c.day := by ring
    rw [e2]
    field_simp
    ring
  rw [e] at k
  exact k

theorem clock_range {dat : Int → Int} {scale : String} {c : Iso} (v : Reading dat scale c) :
    0 ≤ clock c ∧ clock c ≤ dayLength dat scale c.day * 1000 - 1 := by
  obtain ⟨h1, h2, h3, h4, h5, h6, h7, h8⟩ := v
  unfold clock
  rcases dayLength_cases dat scale c.day with d | d <;> rw [d] at h8 ⊢ <;> omega

/-- The row a reading gives is on the day of the reading. -/
theorem fromIso_row {dat : Int → Int} (h : LeapTable dat) (scale : String) (c : Iso) (v : Reading dat scale c) :
    Normal (fromIso dat scale c) ∧ (fromIso dat scale c).days = c.day ∧
      |((fromIso dat scale c).nanos : ℚ) - clock c * 86400000000 / (dayLength dat scale c.day : Int)| ≤ 1 / 2 := by
  obtain ⟨n, k⟩ := fromIso_near h scale c
  obtain ⟨r1, r2⟩ := clock_range v
  have r1q : (0 : ℚ) ≤ clock c := by exact_mod_cast r1
  have r2q : (clock c : ℚ) ≤ dayLength dat scale c.day * 1000 - 1 := by exact_mod_cast r2
  set r := fromIso dat scale c with hr
  clear_value r
  have lo : 0 ≤ (clock c : ℚ) * 86400000000 / (dayLength dat scale c.day : Int) := by
    rcases dayLength_cases dat scale c.day with d | d <;> rw [d] <;> positivity
  have hi : (clock c : ℚ) * 86400000000 / (dayLength dat scale c.day : Int) ≤ 86399999900000 := by
    rcases dayLength_cases dat scale c.day with d | d <;> rw [d] at r2q ⊢ <;> push_cast at r2q ⊢ <;>
      rw [div_le_iff₀ (by norm_num)] <;> linarith
  have hd : r.days = c.day := by
    rw [abs_le, DAY_eq] at k
    have l1 : ((c.day * 86400000000000 - 1 : Int) : ℚ) < (instant r : Int) := by push_cast at k ⊢; linarith [k.1]
    have u1 : ((instant r : Int) : ℚ) < ((c.day * 86400000000000 + 86400000000000 : Int) : ℚ) := by
      push_cast at k ⊢; linarith [k.2]
    have l2 := Int.cast_lt.mp l1
    have u2 := Int.cast_lt.mp u1
    unfold Normal at n
    simp only [instant, DAY_eq] at l2 u2 n
    omega
  refine ⟨n, hd, ?_⟩
  have e : (r.nanos : ℚ) - clock c * 86400000000 / (dayLength dat scale c.day : Int)
      = ((instant r : Int) : ℚ) - (c.day * (DAY : Int) + clock c * 86400000000 / (dayLength dat scale c.day : Int)) := by
    simp only [instant, hd]; push_cast; ring
  rw [e]
  exact k

/-- C176: reading a text and printing it again gives the same text, for every clock reading of every day, the leap second
included. -/
theorem C176_text_kept (dat : Int → Int) (h : LeapTable dat) (scale : String) (c : Iso) (v : Reading dat scale c) :
    (fromIso dat scale c).toIso dat scale = c := by
  obtain ⟨n, hd, k⟩ := fromIso_row h scale c v
  obtain ⟨r1, r2⟩ := clock_range v
  obtain ⟨a, ha, a0, aU, e1, e2⟩ := toIso_fields h scale _ n
  set r := fromIso dat scale c with hr
  clear_value r
  rw [hd] at ha aU e1 e2
  have hac : a = clock c := by
    rw [ha, Int.floor_eq_iff]
    rw [abs_le] at k
    have pos : (0 : ℚ) < (dayLength dat scale c.day : Int) := by
      rcases dayLength_cases dat scale c.day with d | d <;> rw [d] <;> norm_num
    have k1 : (clock c : ℚ) * 86400000000 / (dayLength dat scale c.day : Int) - 1 / 2 ≤ r.nanos := by linarith [k.1]
    have k2 : (r.nanos : ℚ) ≤ (clock c : ℚ) * 86400000000 / (dayLength dat scale c.day : Int) + 1 / 2 := by
      linarith [k.2]
    have m1 := mul_le_mul_of_nonneg_right k1 (le_of_lt pos)
    have m2 := mul_le_mul_of_nonneg_right k2 (le_of_lt pos)
    rw [sub_mul, div_mul_cancel₀ _ (ne_of_gt pos)] at m1
    rw [add_mul, div_mul_cancel₀ _ (ne_of_gt pos)] at m2
    rcases dayLength_cases dat scale c.day with d | d <;> rw [d] at m1 m2 ⊢ <;> push_cast at m1 m2 ⊢ <;>
      constructor <;> linarith
  obtain ⟨d, v', k'⟩ := e2 (by omega)
  rw [hac] at k'
  have dl : dayLength dat scale (r.toIso dat scale).day = dayLength dat scale c.day := by rw [d]
  obtain ⟨h1, h2, h3, h4, h5, h6, h7, h8⟩ := v
  obtain ⟨g1, g2, g3, g4, g5, g6, g7, g8⟩ := v'
  rw [dl] at g8
  generalize r.toIso dat scale = c' at *
  obtain ⟨d1, x1, y1, z1, w1⟩ := c
  obtain ⟨d2, x2, y2, z2, w2⟩ := c'
  simp only [clock] at *
  subst d
  have : x2 = x1 ∧ y2 = y1 ∧ z2 = z1 ∧ w2 = w1 := by omega
  obtain ⟨rfl, rfl, rfl, rfl⟩ := this
  rfl

/-- C176: printing a row and reading the text gives a normalised row at most half a millisecond away, on every day; and the
same row on a day of 86400 s if the row is a whole number of milliseconds. -/
theorem C176_row_kept (dat : Int → Int) (h : LeapTable dat) (scale : String) (r : Row) (hr : Normal r) :
    Normal (fromIso dat scale (r.toIso dat scale)) ∧
      |instant (fromIso dat scale (r.toIso dat scale)) - instant r| ≤ 500000 ∧
      (dayLength dat scale r.days = 86400 → 10 ^ 6 ∣ r.nanos → fromIso dat scale (r.toIso dat scale) = r) := by
  obtain ⟨v, cases⟩ := C176_text dat h scale r hr
  obtain ⟨n, hd, k⟩ := fromIso_row h scale _ v
  set c := r.toIso dat scale with hc
  set s := fromIso dat scale c with hs
  refine ⟨n, ?_, ?_⟩
  · rw [abs_le] at k
    rcases cases with ⟨d, m⟩ | ⟨w, m⟩
    · rw [d] at hd k
      rw [abs_le, DAY_eq] at m
      have b : |((s.nanos - r.nanos : Int) : ℚ)| < (500001 : Int) := by
        rw [abs_lt]
        push_cast
        rcases dayLength_cases dat scale r.days with dl | dl <;> rw [dl] at k m <;> push_cast at k m <;>
          constructor <;> linarith [k.1, k.2, m.1, m.2]
      have b' : |s.nanos - r.nanos| < 500001 := by exact_mod_cast b
      simp only [instant, hd]
      rw [abs_lt] at b'
      rw [abs_le]
      constructor <;> linarith
    · rw [w] at hd k
      simp only [clock] at k
      norm_num at k
      have z : s.nanos = 0 := by
        have k1 : ((-1 : Int) : ℚ) < s.nanos := by push_cast; linarith [k.1]
        have k2 : (s.nanos : ℚ) < (1 : Int) := by push_cast; linarith [k.2]
        have k1' := Int.cast_lt.mp k1
        have k2' := Int.cast_lt.mp k2
        omega
      have b : ((86400000000000 - r.nanos : Int) : ℚ) ≤ (500000 : Int) := by
        rw [DAY_eq] at m
        push_cast
        rcases dayLength_cases dat scale r.days with dl | dl <;> rw [dl] at m <;> push_cast at m <;> linarith
      have b' := Int.cast_le.mp b
      obtain ⟨a1, a2⟩ := hr
      rw [DAY_eq] at a2
      simp only at hd
      simp only [instant, hd, z, DAY_eq]
      rw [abs_le]
      omega
  · intro dl dv
    obtain ⟨x, hx⟩ := dv
    norm_num at hx
    have near := C176_text_ordinary dat h scale r hr dl
    rw [← hc] at near
    rcases cases with ⟨d, m⟩ | ⟨w, m⟩
    · rw [d] at near hd k
      rw [dl] at k
      have ck : clock c = x := by
        simp only [instant, hx] at near
        rw [abs_le] at near
        norm_num at near
        omega
      rw [ck] at k
      have z : s.nanos = r.nanos := by
        rw [hx]
        rw [abs_le] at k
        push_cast at k
        have k1 : ((1000000 * x - 1 : Int) : ℚ) < s.nanos := by push_cast; linarith [k.1]
        have k2 : (s.nanos : ℚ) < ((1000000 * x + 1 : Int) : ℚ) := by push_cast; linarith [k.2]
        have k1' := Int.cast_lt.mp k1
        have k2' := Int.cast_lt.mp k2
        omega
      have : s = ⟨s.days, s.nanos⟩ := rfl
      rw [this, hd, z]
    · exfalso
      rw [dl, DAY_eq] at m
      have b : ((86400000000000 - r.nanos : Int) : ℚ) ≤ (500000 : Int) := by push_cast at m ⊢; linarith
      have b' := Int.cast_le.mp b
      obtain ⟨a1, a2⟩ := hr
      rw [DAY_eq] at a2
      omega

/-- The TAI instant, in nanoseconds, of a UTC clock reading: the milliseconds since midnight UTC plus TAI - UTC. -/
def taiOf (dat : Int → Int) (c : Iso) : Int := c.day * DAY + clock c * 10 ^ 6 + dat c.day * 10 ^ 9

/-- C176: UTC texts taken to TAI: exact on days without a leap second, and within half a second on a day with one. -/
theorem C176_utc_text_to_tai (dat : Int → Int) (astropy) (h : LeapTable dat) (cs : List Iso)
    (v : ∀ c ∈ cs, Reading dat "utc" c) :
    ∃ t', (TS.fromIso dat "utc" cs).rescale (erfaEnv dat astropy) "tai" = .ok t' ∧ t'.rows.length = cs.length ∧
      ∀ (i : Nat) (c : Iso) (r' : Row), cs[i]? = some c → t'.rows[i]? = some r' →
        (dat (c.day + 1) = dat c.day → instant r' = taiOf dat c) ∧ |instant r' - taiOf dat c| ≤ 500000001 := by
  have norm : NormalTS (TS.fromIso dat "utc" cs) := by
    intro r hr
    simp only [TS.fromIso, List.mem_map] at hr
    obtain ⟨c, hc, rfl⟩ := hr
    exact (fromIso_row h "utc" c (v c hc)).1
  obtain ⟨t', e, s, l, n, f⟩ := C175_utc_to_tai dat astropy h (TS.fromIso dat "utc" cs) rfl norm
  refine ⟨t', e, by rw [l]; simp [TS.fromIso], ?_⟩
  intro i c r' hc hr'
  have hrow : (TS.fromIso dat "utc" cs).rows[i]? = some (fromIso dat "utc" c) := by
    simp [TS.fromIso, hc]
  have vc := v c (List.mem_of_getElem? hc)
  obtain ⟨f1, f2⟩ := f i _ r' hrow hr'
  obtain ⟨nr, hd, k⟩ := fromIso_row h "utc" c vc
  obtain ⟨r1, r2⟩ := clock_range vc
  set r := fromIso dat "utc" c with hr
  clear_value r
  rw [hd] at f1 f2
  rw [abs_le] at k
  rcases h.step c.day with d | d
  · have dl : dayLength dat "utc" c.day = 86400 := by simp [dayLength, d]
    rw [dl] at k
    push_cast at k
    have z : r.nanos = clock c * 1000000 := by
      have k1 : ((clock c * 1000000 - 1 : Int) : ℚ) < r.nanos := by push_cast; linarith [k.1]
      have k2 : (r.nanos : ℚ) < ((clock c * 1000000 + 1 : Int) : ℚ) := by push_cast; linarith [k.2]
      have k1' := Int.cast_lt.mp k1
      have k2' := Int.cast_lt.mp k2
      omega
    have ex : instant r' = taiOf dat c := by
      rw [f1 d]
      simp only [instant, taiOf, hd, z]
      norm_num
    refine ⟨fun _ => ex, ?_⟩
    rw [ex]
    simp
  · refine ⟨fun c' => by omega, ?_⟩
    have dl : dayLength dat "utc" c.day = 86401 := by simp [dayLength, d]
    rw [dl] at k r2
    push_cast at k
    have r1q : (0 : ℚ) ≤ clock c := by exact_mod_cast r1
    have r2q : (clock c : ℚ) ≤ 86400999 := by
      have : clock c ≤ 86400999 := by omega
      exact_mod_cast this
    obtain ⟨g1, g2, g3⟩ := f2 d
    have main : ∀ m : Int, (m = 0 ∧ r.nanos ≤ 43200000000000 ∨ m = 1 ∧ 43200000000000 ≤ r.nanos) →
        instant r' = instant r + (dat c.day + m) * 10 ^ 9 → |instant r' - taiOf dat c| ≤ 500000001 := by
      intro m hm e
      have b : |((instant r' - taiOf dat c : Int) : ℚ)| < (500000002 : Int) := by
        have e' : ((instant r' - taiOf dat c : Int) : ℚ) = r.nanos - clock c * 1000000 + m * 1000000000 := by
          rw [e]; simp only [instant, taiOf, hd]; push_cast; ring
        rw [e', abs_lt]
        rcases hm with ⟨rfl, hm⟩ | ⟨rfl, hm⟩
        · have hmq : (r.nanos : ℚ) ≤ 43200000000000 := by exact_mod_cast hm
          push_cast
          constructor <;> linarith [k.1, k.2]
        · have hmq : (43200000000000 : ℚ) ≤ r.nanos := by exact_mod_cast hm
          push_cast
          constructor <;> linarith [k.1, k.2]
      have b' : |instant r' - taiOf dat c| < 500000002 := by exact_mod_cast b
      omega
    rcases lt_trichotomy r.nanos (43200 * 10 ^ 9) with z | z | z
    · exact main 0 (Or.inl ⟨rfl, by norm_num at z; omega⟩) (by rw [g1 z]; ring)
    · obtain ⟨m, hm, -, e⟩ := g3 z
      norm_num at z
      rcases hm with rfl | rfl
      · exact main 0 (Or.inl ⟨rfl, by omega⟩) (by rw [e]; ring)
      · exact main 1 (Or.inr ⟨rfl, by omega⟩) (by rw [e])
    · exact main 1 (Or.inr ⟨rfl, by norm_num at z; omega⟩) (by rw [g2 z])

/-- C176 fails on a leap-second day: 2016-12-31T18:00:00 UTC is 18:00:36 TAI, and becomes 18:00:36.25 TAI. -/
theorem C176_utc_text_to_tai_false (astropy) :
    ∃ (c : Iso) (r' : Row), Reading recentDat "utc" c ∧ c = ⟨57753, 18, 0, 0, 0⟩ ∧
      (TS.fromIso recentDat "utc" [c]).rescale (erfaEnv recentDat astropy) "tai" = .ok ⟨"tai", [r']⟩ ∧
      taiOf recentDat c = instant ⟨57753, 64836000000000⟩ ∧ r' = ⟨57753, 64836250008680⟩ := by
  have e0 : fromIso recentDat "utc" ⟨57753, 18, 0, 0, 0⟩ = ⟨57753, 64799250008680⟩ := by
    obtain ⟨-, hd, k⟩ := fromIso_row recentDat_ok "utc" ⟨57753, 18, 0, 0, 0⟩ (by simp [Reading])
    generalize fromIso recentDat "utc" ⟨57753, 18, 0, 0, 0⟩ = r at hd k
    obtain ⟨d, m⟩ := r
    have dl : dayLength recentDat "utc" 57753 = 86401 := by decide
    simp only at hd k
    rw [dl, abs_le] at k
    norm_num [clock] at k
    have k1 : ((64799250008679 : Int) : ℚ) < m := by push_cast; linarith [k.1]
    have k2 : (m : ℚ) < (64799250008681 : Int) := by push_cast; linarith [k.2]
    have k1' := Int.cast_lt.mp k1
    have k2' := Int.cast_lt.mp k2
    have : m = 64799250008680 := by omega
    rw [hd, this]
  have e2 : leapSecondsCorrection (erfaUtcTai recentDat) 4989923999250008680 = 37000000000 := by decide +kernel
  refine ⟨⟨57753, 18, 0, 0, 0⟩, ⟨57753, 64836250008680⟩, by simp [Reading], rfl, ?_, by decide, rfl⟩
  simp [TS.fromIso, e0, TS.rescale, correctionAssigned, Row.correction, Row.leapUtcTai, Row.key, NANOS_IN_DAY, erfaEnv,
    e2, Row.addNanosRaw]

/-- C176 fails on a leap-second day: the UTC row that is 43200 s into 2016-12-31 prints as 12:00:00.500. -/
theorem C176_text_false : ∃ r : Row, Normal r ∧ r = ⟨57753, 43200 * 10 ^ 9⟩ ∧
    r.toIso recentDat "utc" = ⟨57753, 12, 0, 0, 500⟩ ∧ r.toIso recentDat "tai" = ⟨57753, 12, 0, 0, 0⟩ := by
  refine ⟨⟨57753, 43200000000000⟩, by simp [Normal, DAY], by norm_num, by decide +kernel, by decide +kernel⟩

/-- A row just before midnight prints as midnight; the leap second itself is a reading. -/
example : Row.toIso recentDat "utc" ⟨57752, 86399999900000⟩ = ⟨57753, 0, 0, 0, 0⟩ ∧
    Reading recentDat "utc" ⟨57753, 23, 59, 60, 500⟩ ∧ ¬ Reading recentDat "utc" ⟨57752, 23, 59, 60, 500⟩ ∧
    Row.toIso recentDat "utc" (fromIso recentDat "utc" ⟨57753, 23, 59, 60, 500⟩) = ⟨57753, 23, 59, 60, 500⟩ := by
  refine ⟨by decide +kernel, by simp [Reading, dayLength, recentDat], by simp [Reading, dayLength, recentDat],
    C176_text_kept recentDat recentDat_ok "utc" _ (by simp [Reading, dayLength, recentDat])⟩

end Verif.Time.Props
