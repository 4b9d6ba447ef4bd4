import Verif.Obs80.Lemmas

/-! # Property theorems: 80-column observations (C16, C17, C18, C75) -/

namespace Verif.Obs80.Props

open Verif.Obs80 Verif.Obs80.Spec
open Verif.Mpc (Str isSpace strip pyInt)

/-! ## C16: dates -/

theorem core_ok {y m d : Int} {f : ℚ} (hy : 1 ≤ y ∧ y ≤ 9999) (hv : ValidDate y m d) (hf0 : 0 ≤ f) (hf1 : f < 1)
    (hend : (y, m, d) = (9999, 12, 31) → f * 86400000000000 < 86400000000000 - 1 / 2) :
    obstimeCore y m (.fin (d + f)) =
      .ok (if Time.roundHalfEven (f * 86400000000000) = 86400000000000 then (mjdOf y m d + 1, 0)
        else (mjdOf y m d, Time.roundHalfEven (f * 86400000000000))) := by
  obtain ⟨h1, h2, h3, n, hn, h4⟩ := hv
  have e := monthLength_unique hn (daysInMonth_spec h1 h2)
  have hfl : ⌊(d : ℚ) + f⌋ = d := by
    rw [Int.floor_eq_iff]; constructor <;> linarith
  have hdim : daysInMonth y m ≤ 31 := by
    unfold daysInMonth; split
    · split <;> omega
    · split <;> omega
  unfold obstimeCore
  simp only [hfl]
  rw [show (d : ℚ) + f - d = f by ring, if_neg (by push Not; exact ⟨hf0, hf1⟩)]
  have hmk : mkDate y m d = .ok (y, m, d) := by
    unfold mkDate
    simp only
    rw [if_neg (by push Not; omega), if_pos (by omega)]
  rw [hmk]
  simp only
  split
  · rename_i hr
    rw [if_neg]
    rintro ⟨rfl, rfl, rfl⟩
    have h5 := hend rfl
    have h6 := Time.roundHalfEven_near (f * 86400000000000)
    rw [hr, abs_le] at h6
    push_cast at h6
    linarith [h6.2]
  · rfl

/-- Every date of the years 1 to 9999 written as year, month and decimal day is read as an instant whose nanosecond of
day is in range and which lies within half a nanosecond of the written one; the day number is the Modified Julian Day of
the calendar. The one date that cannot be represented, the last half nanosecond of 9999-12-31, is excluded. -/
theorem C16_date (ys ms ip fp : Str) (hys : Digits ys) (hms : Digits ms) (hip : Digits ip) (hfp : Digits fp)
    (nys : ys ≠ []) (nms : ms ≠ []) (nip : ip ≠ [])
    (hy : 1 ≤ digitsValue ys ∧ digitsValue ys ≤ 9999)
    (hv : ValidDate (digitsValue ys) (digitsValue ms) (digitsValue ip))
    (hend : ((digitsValue ys : Int), (digitsValue ms : Int), (digitsValue ip : Int)) = (9999, 12, 31) →
      (digitsValue fp : ℚ) / 10 ^ fp.length * DAY < DAY - 1 / 2) :
    ∃ N days nanos : Int,
      DayNumber (digitsValue ys, digitsValue ms, digitsValue ip) N ∧
      parseObstime (ys ++ ' ' :: (ms ++ ' ' :: (ip ++ '.' :: fp))) = .ok (days, nanos) ∧
      0 ≤ nanos ∧ nanos < DAY ∧
      |((days * DAY + nanos : Int) : ℚ) - (N + (digitsValue fp : ℚ) / 10 ^ fp.length) * DAY| ≤ 1 / 2 ∧
      (DAY - 1 / 2 ≤ (digitsValue fp : ℚ) / 10 ^ fp.length * DAY → (days, nanos) = (N + 1, 0)) := by
  obtain ⟨N, hN⟩ := reached_all hv
  have hNm := dayNumber_mjd hN
  simp only at hNm
  have sp : ∀ {s : Str}, Digits s → ∀ c ∈ s, isSpace c = false :=
    fun h c hc => Mpc.digit_not_space (digits_isDigit h c hc)
  have spd : ∀ c ∈ ip ++ '.' :: fp, isSpace c = false := by
    intro c hc
    rcases List.mem_append.mp hc with hc | hc
    · exact sp hip c hc
    · rcases List.mem_cons.mp hc with rfl | hc
      · decide
      · exact sp hfp c hc
  have hlt : digitsValue fp < 10 ^ fp.length := by
    rw [digitsValue_eq]
    exact ofDigits_lt (digits_isDigit hfp)
  have hf0 : (0 : ℚ) ≤ (digitsValue fp : ℚ) / 10 ^ fp.length := by positivity
  have hf1 : (digitsValue fp : ℚ) / 10 ^ fp.length < 1 := by
    rw [div_lt_one (by positivity)]; exact_mod_cast hlt
  generalize hF : (digitsValue fp : ℚ) / 10 ^ fp.length = f at *
  have hDq : ((DAY : Int) : ℚ) = 86400000000000 := by norm_num [DAY]
  have hD : DAY = 86400000000000 := by norm_num [DAY]
  rw [hDq] at *
  rw [hD]
  have hcore := core_ok (y := digitsValue ys) (m := digitsValue ms) (d := digitsValue ip) (f := f)
    (by exact_mod_cast hy) hv hf0 hf1 hend
  have hparse : parseObstime (ys ++ ' ' :: (ms ++ ' ' :: (ip ++ '.' :: fp)))
      = obstimeCore (digitsValue ys) (digitsValue ms) (.fin (((digitsValue ip : Nat) : Int) + f)) := by
    unfold parseObstime
    rw [strip_words nys (by simp) (sp hys) spd, tokens_three nys nms (by simp) (sp hys) (sp hms) spd]
    simp only
    rw [Mpc.pyInt_digits (digits_isDigit hys) nys, Mpc.pyInt_digits (digits_isDigit hms) nms,
      number_decimal hip nip hfp, hF, ← digitsValue_eq, ← digitsValue_eq]
    rfl
  rw [hparse, hcore]
  have hnear := Time.roundHalfEven_near (f * 86400000000000)
  generalize hR : Time.roundHalfEven (f * 86400000000000) = R at *
  have hn := abs_le.mp hnear
  have hR0 : 0 ≤ R := by
    have : (-1 : ℚ) < R := by linarith [hn.1, mul_nonneg hf0 (by norm_num : (0 : ℚ) ≤ 86400000000000)]
    have : (-1 : Int) < R := by exact_mod_cast this
    omega
  have hR1 : R ≤ 86400000000000 := by
    have : (R : ℚ) < 86400000000001 := by linarith [hn.2]
    have : R < 86400000000001 := by exact_mod_cast this
    omega
  by_cases hr : R = 86400000000000
  · refine ⟨N, N + 1, 0, hN, ?_, le_rfl, by norm_num, ?_, fun _ => rfl⟩
    · rw [if_pos hr, hNm]
    · subst hr
      push_cast at hn ⊢
      rw [abs_le]; constructor <;> linarith [hn.1, hn.2]
  · refine ⟨N, N, R, hN, ?_, hR0, by omega, ?_, ?_⟩
    · rw [if_neg hr, hNm]
    · push_cast
      rw [abs_le]; constructor <;> linarith [hn.1, hn.2]
    · intro hge
      exfalso
      have h1 : (R : ℚ) ≥ 86400000000000 - 1 := by linarith [hn.1]
      have h2 : R ≥ 86400000000000 - 1 := by exact_mod_cast h1
      have h3 : R = 86399999999999 := by omega
      subst h3
      have hfl : f * 86400000000000 = 86400000000000 - 1 / 2 := by
        push_cast at hn
        linarith [hn.2, hn.1]
      rw [hfl] at hR
      have : Time.roundHalfEven (86400000000000 - 1 / 2) = 86400000000000 := by
        unfold Time.roundHalfEven
        have : ⌊(86400000000000 - 1 / 2 : ℚ)⌋ = 86399999999999 := by
          rw [Int.floor_eq_iff]; norm_num
        simp only [this]
        norm_num
      rw [this] at hR
      omega

/-- The hypotheses are met by "2024 02 29.5". -/
example : ValidDate (digitsValue "2024".toList) (digitsValue "02".toList) (digitsValue "29".toList) ∧
    Digits "2024".toList ∧ Digits "5".toList ∧ digitsValue "2024".toList = 2024 := by
  refine ⟨⟨by decide, by decide, by decide, 29, ?_, by decide⟩, by unfold Digits; decide, by unfold Digits; decide, by decide⟩
  exact Or.inr (Or.inr (Or.inl ⟨by decide, Or.inl (by decide), rfl⟩))

/-- The day number of a date is unique, so the theorem above pins the result down. -/
theorem C16_day_number_unique {a : Int × Int × Int} {n n' : Int} (h : DayNumber a n) (h' : DayNumber a n') : n = n' :=
  (dayNumber_mjd h).trans (dayNumber_mjd h').symm

/-- Whatever text is accepted, the nanosecond of day is in range. -/
theorem C16_nanos_range (raw : Str) (days nanos : Int) (h : parseObstime raw = .ok (days, nanos)) :
    0 ≤ nanos ∧ nanos < DAY := by
  have hD : DAY = 86400000000000 := by norm_num [DAY]
  rw [hD]
  unfold parseObstime at h
  split at h
  · split at h
    · split at h
      · simp at h
      · rename_i q _
        unfold obstimeCore at h
        split at h
        · simp at h
        · simp at h
        · rename_i _ q _
          simp only at h
          split at h
          · simp at h
          · rename_i hfr
            push Not at hfr
            split at h
            · simp at h
            · simp at h
            · have hn := abs_le.mp (Time.roundHalfEven_near ((q - ⌊q⌋) * 86400000000000))
              split at h
              · split at h
                · simp at h
                · simp only [Except.ok.injEq, Prod.mk.injEq] at h
                  omega
              · rename_i hne
                simp only [Except.ok.injEq, Prod.mk.injEq] at h
                obtain ⟨-, rfl⟩ := h
                generalize Time.roundHalfEven ((q - ⌊q⌋) * 86400000000000) = R at *
                have a : (-1 : ℚ) < R := by
                  linarith [hn.1, mul_nonneg hfr.1 (by norm_num : (0 : ℚ) ≤ 86400000000000)]
                have b : (R : ℚ) < 86400000000001 := by linarith [hn.2]
                have a' : (-1 : Int) < R := by exact_mod_cast a
                have b' : R < 86400000000001 := by exact_mod_cast b
                omega
    · simp at h
  · simp at h

example : ∃ d n, parseObstime "1858 11 17.25".toList = .ok (d, n) := by
  obtain ⟨_, d, n, _, h, _⟩ := C16_date "1858".toList "11".toList "17".toList "25".toList
    (by unfold Digits; decide) (by unfold Digits; decide) (by unfold Digits; decide) (by unfold Digits; decide)
    (by decide) (by decide) (by decide) (by decide)
    ⟨by decide, by decide, by decide, 30, Or.inr (Or.inl ⟨by decide, rfl⟩), by decide⟩
    (by intro h; exact absurd h (by decide))
  exact ⟨d, n, h⟩

/-- A date outside the calendar is refused with the parser's own error: month out of range or day past the month. -/
theorem C16_rejects (y m : Int) (q : ℚ) (hy : |y| < 2147483648) (hm : |m| < 2147483648) (hq : |q| < 2147483647)
    (h : ¬ (1 ≤ y ∧ y ≤ 9999 ∧ ValidDate y m ⌊q⌋)) : obstimeCore y m (.fin q) = .error .obs80 := by
  rw [abs_lt] at hy hm hq
  have f1 : ⌊q⌋ ≤ 2147483647 := by
    have := Int.floor_le q
    have h2 : ((⌊q⌋ : Int) : ℚ) ≤ 2147483647 := by linarith
    exact_mod_cast h2
  have f2 : -2147483648 ≤ ⌊q⌋ := by
    rw [Int.le_floor]; push_cast; linarith
  unfold obstimeCore
  simp only
  split
  · rfl
  · have : mkDate y m ⌊q⌋ = .error .value := by
      unfold mkDate
      simp only
      rw [if_neg (by push Not; omega), if_neg]
      rintro ⟨a, b, c, d, e, g⟩
      exact h ⟨a, b, valid_of c d e g⟩
    rw [this]

/-- The hypotheses are met by 30 February. -/
example : ¬ (1 ≤ (2023 : Int) ∧ (2023 : Int) ≤ 9999 ∧ ValidDate 2023 2 ⌊(30 : ℚ)⌋) := by
  rintro ⟨_, _, _, _, _, n, hn, h⟩
  have : ⌊(30 : ℚ)⌋ = 30 := by norm_num
  rw [this] at h
  simp only [MonthLength, List.mem_cons, List.not_mem_nil, or_false] at hn
  omega

/-- The excluded instant: the last moment of 9999-12-31 escapes as an overflow instead of carrying. -/
theorem C16_last_day_overflows :
    obstimeCore 9999 12 (.fin (31 + (1 - 1 / 10 ^ 15))) = .error .overflow := by
  have hfl : ⌊(31 + (1 - 1 / 10 ^ 15) : ℚ)⌋ = 31 := by rw [Int.floor_eq_iff]; norm_num
  unfold obstimeCore
  simp only [hfl]
  rw [if_neg (by norm_num)]
  have hmk : mkDate 9999 12 31 = .ok (9999, 12, 31) := by decide
  rw [hmk]
  have hr : Time.roundHalfEven ((31 + (1 - 1 / 10 ^ 15) - ((31 : Int) : ℚ)) * 86400000000000) = 86400000000000 := by
    unfold Time.roundHalfEven
    have : ⌊((31 + (1 - 1 / 10 ^ 15) - ((31 : Int) : ℚ)) * 86400000000000 : ℚ)⌋ = 86399999999999 := by
      rw [Int.floor_eq_iff]; norm_num
    simp only [this]
    norm_num
  simp only [hr]
  simp

/-! ## C17: angles -/

/-- Value of a written second `ii.ff`. -/
def secondsOf (ip fp : Str) : ℚ := (digitsValue ip : ℚ) + (digitsValue fp : ℚ) / 10 ^ fp.length

theorem seconds_nonneg (ip fp : Str) : 0 ≤ secondsOf ip fp := by unfold secondsOf; positivity

theorem digits_noSpace {s : Str} (h : Digits s) : ∀ c ∈ s, isSpace c = false :=
  fun c hc => Mpc.digit_not_space (digits_isDigit h c hc)

theorem decimal_noSpace {ip fp : Str} (hip : Digits ip) (hfp : Digits fp) : ∀ c ∈ ip ++ '.' :: fp, isSpace c = false := by
  intro c hc
  rcases List.mem_append.mp hc with hc | hc
  · exact digits_noSpace hip c hc
  · rcases List.mem_cons.mp hc with rfl | hc
    · decide
    · exact digits_noSpace hfp c hc

/-- A written right ascension `hh mm ss.fff` inside its range is read as 15 (h + m/60 + s/3600) degrees. -/
theorem C17_ra (h m ip fp : Str) (hh : Digits h) (hm : Digits m) (hip : Digits ip) (hfp : Digits fp)
    (nh : h ≠ []) (nm : m ≠ []) (nip : ip ≠ [])
    (rh : digitsValue h < 24) (rm : digitsValue m < 60) (rs : secondsOf ip fp < 60) :
    parseRa (h ++ ' ' :: (m ++ ' ' :: (ip ++ '.' :: fp)))
      = .ok (15 * ((digitsValue h : ℚ) + (digitsValue m : ℚ) / 60 + secondsOf ip fp / 3600)) := by
  unfold parseRa
  rw [strip_words nh (by simp) (digits_noSpace hh) (decimal_noSpace hip hfp),
    tokens_three nh nm (by simp) (digits_noSpace hh) (digits_noSpace hm) (decimal_noSpace hip hfp)]
  simp only
  rw [number_int hh nh, number_int hm nm, number_decimal hip nip hfp]
  have h1 : (digitsValue h : ℚ) < 24 := by exact_mod_cast rh
  have h2 : (digitsValue m : ℚ) < 60 := by exact_mod_cast rm
  have h3 := seconds_nonneg ip fp
  change (if _ then _ else _) = _
  rw [if_pos ⟨by positivity, h1, by positivity, h2, h3, rs⟩]
  rfl

example : parseRa "23 59 59.5".toList = .ok (15 * (23 + 59 / 60 + 59.5 / 3600)) := by
  have e1 : digitsValue "23".toList = 23 := by decide
  have e2 : digitsValue "59".toList = 59 := by decide
  have e3 : digitsValue "5".toList = 5 := by decide
  have es : secondsOf "59".toList "5".toList = 59.5 := by
    unfold secondsOf; rw [e2, e3, show "5".toList.length = 1 from rfl]; norm_num
  have := C17_ra "23".toList "59".toList "59".toList "5".toList (by unfold Digits; decide) (by unfold Digits; decide)
    (by unfold Digits; decide) (by unfold Digits; decide) (by decide) (by decide) (by decide) (by decide) (by decide)
    (by rw [es]; norm_num)
  rw [e1, e2, es] at this
  exact this

/-- Outside its range a written right ascension is refused. -/
theorem C17_ra_rejects (h m ip fp : Str) (hh : Digits h) (hm : Digits m) (hip : Digits ip) (hfp : Digits fp)
    (nh : h ≠ []) (nm : m ≠ []) (nip : ip ≠ [])
    (hbad : 24 ≤ digitsValue h ∨ 60 ≤ digitsValue m ∨ 60 ≤ secondsOf ip fp) :
    parseRa (h ++ ' ' :: (m ++ ' ' :: (ip ++ '.' :: fp))) = .error .obs80 := by
  unfold parseRa
  rw [strip_words nh (by simp) (digits_noSpace hh) (decimal_noSpace hip hfp),
    tokens_three nh nm (by simp) (digits_noSpace hh) (digits_noSpace hm) (decimal_noSpace hip hfp)]
  simp only
  rw [number_int hh nh, number_int hm nm, number_decimal hip nip hfp]
  change (if _ then _ else _) = _
  rw [if_neg]
  rintro ⟨-, h1, -, h2, -, h3⟩
  have h1' : digitsValue h < 24 := by exact_mod_cast h1
  have h2' : digitsValue m < 60 := by exact_mod_cast h2
  have h3' : secondsOf ip fp < 60 := h3
  rcases hbad with hb | hb | hb
  · omega
  · omega
  · linarith

/-- A written declination keeps its sign on the whole value, so `-00 30 00` is half a degree south. -/
theorem C17_dec (sg : Char) (d m ip fp : Str) (hsg : sg = '+' ∨ sg = '-')
    (hd : Digits d) (hm : Digits m) (hip : Digits ip) (hfp : Digits fp)
    (nd : d ≠ []) (nm : m ≠ []) (nip : ip ≠ [])
    (rm : digitsValue m < 60) (rs : secondsOf ip fp < 60)
    (rd : (digitsValue d : ℚ) + (digitsValue m : ℚ) / 60 + secondsOf ip fp / 3600 ≤ 90) :
    parseDec (sg :: d ++ ' ' :: (m ++ ' ' :: (ip ++ '.' :: fp)))
      = .ok ((if sg = '-' then -1 else 1) *
          ((digitsValue d : ℚ) + (digitsValue m : ℚ) / 60 + secondsOf ip fp / 3600)) := by
  have hsp : ∀ x ∈ sg :: d, isSpace x = false := by
    intro x hx
    rcases List.mem_cons.mp hx with rfl | hx
    · rcases hsg with rfl | rfl <;> decide
    · exact digits_noSpace hd x hx
  unfold parseDec
  rw [strip_words (by simp) (by simp) hsp (decimal_noSpace hip hfp),
    tokens_three (by simp) nm (by simp) hsp (digits_noSpace hm) (decimal_noSpace hip hfp)]
  simp only
  rw [if_pos hsg, number_int hd nd, number_int hm nm, number_decimal hip nip hfp]
  have h2 : (digitsValue m : ℚ) < 60 := by exact_mod_cast rm
  have h3 := seconds_nonneg ip fp
  have h4 : (0 : ℚ) ≤ digitsValue m := by positivity
  have h5 : (0 : ℚ) ≤ digitsValue d := by positivity
  change (if _ then (if _ then _ else _) else _) = _
  rw [if_pos ⟨h5, by linarith [div_nonneg h4 (by norm_num : (0 : ℚ) ≤ 60), div_nonneg h3 (by norm_num : (0 : ℚ) ≤ 3600)],
    h4, h2, h3, rs⟩, if_pos]
  · rfl
  · have h6 : 0 ≤ (digitsValue d : ℚ) + (digitsValue m : ℚ) / 60 + secondsOf ip fp / 3600 := by positivity
    change (-90 ≤ _ * ((digitsValue d : ℚ) + (digitsValue m : ℚ) / 60 + secondsOf ip fp / 3600) ∧
      _ * ((digitsValue d : ℚ) + (digitsValue m : ℚ) / 60 + secondsOf ip fp / 3600) ≤ 90)
    split <;> constructor <;> linarith

example : parseDec "-00 30 00.0".toList = .ok (-(1 / 2)) := by
  have e1 : digitsValue "00".toList = 0 := by decide
  have e2 : digitsValue "30".toList = 30 := by decide
  have e3 : digitsValue "0".toList = 0 := by decide
  have es : secondsOf "00".toList "0".toList = 0 := by
    unfold secondsOf; rw [e1, e3]; norm_num
  have := C17_dec '-' "00".toList "30".toList "00".toList "0".toList (Or.inr rfl) (by unfold Digits; decide)
    (by unfold Digits; decide) (by unfold Digits; decide) (by unfold Digits; decide) (by decide) (by decide) (by decide)
    (by decide) (by rw [es]; norm_num) (by rw [e1, e2, es]; norm_num)
  rw [e1, e2, es, if_pos rfl] at this
  refine this.trans ?_
  norm_num

/-- A declination without a sign, or outside its range, is refused. -/
theorem C17_dec_rejects (d m ip fp : Str) (hd : Digits d) (hm : Digits m) (hip : Digits ip) (hfp : Digits fp)
    (nd : d ≠ []) (nm : m ≠ []) (nip : ip ≠ []) :
    parseDec (d ++ ' ' :: (m ++ ' ' :: (ip ++ '.' :: fp))) = .error .obs80 ∧
    ∀ sg, sg = '+' ∨ sg = '-' → (60 ≤ digitsValue m ∨ 60 ≤ secondsOf ip fp ∨
      90 < (digitsValue d : ℚ) + (digitsValue m : ℚ) / 60 + secondsOf ip fp / 3600) →
      parseDec (sg :: d ++ ' ' :: (m ++ ' ' :: (ip ++ '.' :: fp))) = .error .obs80 := by
  constructor
  · unfold parseDec
    rw [strip_words nd (by simp) (digits_noSpace hd) (decimal_noSpace hip hfp),
      tokens_three nd nm (by simp) (digits_noSpace hd) (digits_noSpace hm) (decimal_noSpace hip hfp)]
    obtain ⟨c, cs, rfl⟩ := List.exists_cons_of_ne_nil nd
    simp only
    have hc := digits_isDigit hd c (by simp)
    rw [if_neg]
    rintro (rfl | rfl) <;> exact absurd hc (by decide)
  · intro sg hsg hbad
    have hsp : ∀ x ∈ sg :: d, isSpace x = false := by
      intro x hx
      rcases List.mem_cons.mp hx with rfl | hx
      · rcases hsg with rfl | rfl <;> decide
      · exact digits_noSpace hd x hx
    unfold parseDec
    rw [strip_words (by simp) (by simp) hsp (decimal_noSpace hip hfp),
      tokens_three (by simp) nm (by simp) hsp (digits_noSpace hm) (decimal_noSpace hip hfp)]
    simp only
    rw [if_pos hsg, number_int hd nd, number_int hm nm, number_decimal hip nip hfp]
    change (if _ then (if _ then _ else _) else _) = _
    split
    · rename_i hr
      obtain ⟨-, -, -, h2, -, h3⟩ := hr
      have h2' : digitsValue m < 60 := by exact_mod_cast h2
      have h3' : secondsOf ip fp < 60 := h3
      rw [if_neg]
      rcases hbad with hb | hb | hb
      · omega
      · linarith
      · change ¬ (-90 ≤ _ * ((digitsValue d : ℚ) + (digitsValue m : ℚ) / 60 + secondsOf ip fp / 3600) ∧
          _ * ((digitsValue d : ℚ) + (digitsValue m : ℚ) / 60 + secondsOf ip fp / 3600) ≤ 90)
        intro hc
        rcases hsg with rfl | rfl
        · rw [if_neg (by decide)] at hc; linarith [hc.2]
        · rw [if_pos rfl] at hc; linarith [hc.1]
    · rfl

/-- Whatever record is accepted, the angles are in range. -/
theorem C17_range (line : Str) (o : Obs) (h : parseLine line = .ok o) :
    0 ≤ o.ra ∧ o.ra ≤ 360 ∧ -90 ≤ o.dec ∧ o.dec ≤ 90 := by
  obtain ⟨h1, h2, h3⟩ := parseLine_angles h
  refine ⟨parseRa_nonneg h1, h3, parseDec_range h2⟩

/-- Whole hours (or degrees) and minutes followed by seconds: the reading is strictly increasing in the written triple. -/
theorem C17_monotone (h m ip fp h' m' ip' fp' : Str) (v v' : ℚ)
    (hh : Digits h) (hm : Digits m) (hip : Digits ip) (hfp : Digits fp)
    (nh : h ≠ []) (nm : m ≠ []) (nip : ip ≠ [])
    (hh' : Digits h') (hm' : Digits m') (hip' : Digits ip') (hfp' : Digits fp')
    (nh' : h' ≠ []) (nm' : m' ≠ []) (nip' : ip' ≠ [])
    (e : parseRa (h ++ ' ' :: (m ++ ' ' :: (ip ++ '.' :: fp))) = .ok v)
    (e' : parseRa (h' ++ ' ' :: (m' ++ ' ' :: (ip' ++ '.' :: fp'))) = .ok v')
    (hlt : digitsValue h < digitsValue h' ∨ (digitsValue h = digitsValue h' ∧ digitsValue m < digitsValue m') ∨
      (digitsValue h = digitsValue h' ∧ digitsValue m = digitsValue m' ∧ secondsOf ip fp < secondsOf ip' fp')) :
    v < v' := by
  have key : ∀ (h m ip fp : Str) (v : ℚ), Digits h → Digits m → Digits ip → Digits fp → h ≠ [] → m ≠ [] → ip ≠ [] →
      parseRa (h ++ ' ' :: (m ++ ' ' :: (ip ++ '.' :: fp))) = .ok v →
      digitsValue m < 60 ∧ secondsOf ip fp < 60 ∧
      v = 15 * ((digitsValue h : ℚ) + (digitsValue m : ℚ) / 60 + secondsOf ip fp / 3600) := by
    intro h m ip fp v a b c d n1 n2 n3 e
    by_cases hr : 24 ≤ digitsValue h ∨ 60 ≤ digitsValue m ∨ 60 ≤ secondsOf ip fp
    · rw [C17_ra_rejects h m ip fp a b c d n1 n2 n3 hr] at e
      simp at e
    · push Not at hr
      rw [C17_ra h m ip fp a b c d n1 n2 n3 hr.1 hr.2.1 hr.2.2] at e
      simp only [Except.ok.injEq] at e
      exact ⟨hr.2.1, hr.2.2, e.symm⟩
  obtain ⟨a1, a2, rfl⟩ := key _ _ _ _ _ hh hm hip hfp nh nm nip e
  obtain ⟨b1, b2, rfl⟩ := key _ _ _ _ _ hh' hm' hip' hfp' nh' nm' nip' e'
  have s0 := seconds_nonneg ip fp
  have s0' := seconds_nonneg ip' fp'
  have a1' : (digitsValue m : ℚ) ≤ 59 := by exact_mod_cast (by omega : digitsValue m ≤ 59)
  have b0 : (0 : ℚ) ≤ digitsValue m' := by positivity
  rcases hlt with hl | ⟨hl, hl2⟩ | ⟨hl, hl2, hl3⟩
  · have : (digitsValue h : ℚ) + 1 ≤ digitsValue h' := by exact_mod_cast hl
    linarith
  · have : (digitsValue m : ℚ) + 1 ≤ digitsValue m' := by exact_mod_cast hl2
    rw [hl]; linarith
  · rw [hl, hl2]; linarith

/-- Two accepted declinations of the same sign are ordered by the written triple, outwards from the equator. -/
theorem C17_dec_monotone (sg : Char) (d m ip fp d' m' ip' fp' : Str) (v v' : ℚ) (hsg : sg = '+' ∨ sg = '-')
    (hd : Digits d) (hm : Digits m) (hip : Digits ip) (hfp : Digits fp)
    (nd : d ≠ []) (nm : m ≠ []) (nip : ip ≠ [])
    (hd' : Digits d') (hm' : Digits m') (hip' : Digits ip') (hfp' : Digits fp')
    (nd' : d' ≠ []) (nm' : m' ≠ []) (nip' : ip' ≠ [])
    (e : parseDec (sg :: d ++ ' ' :: (m ++ ' ' :: (ip ++ '.' :: fp))) = .ok v)
    (e' : parseDec (sg :: d' ++ ' ' :: (m' ++ ' ' :: (ip' ++ '.' :: fp'))) = .ok v')
    (hlt : digitsValue d < digitsValue d' ∨ (digitsValue d = digitsValue d' ∧ digitsValue m < digitsValue m') ∨
      (digitsValue d = digitsValue d' ∧ digitsValue m = digitsValue m' ∧ secondsOf ip fp < secondsOf ip' fp')) :
    (sg = '+' → 0 ≤ v ∧ v < v') ∧ (sg = '-' → v' < v ∧ v ≤ 0) := by
  have key : ∀ (d m ip fp : Str) (v : ℚ), Digits d → Digits m → Digits ip → Digits fp → d ≠ [] → m ≠ [] → ip ≠ [] →
      parseDec (sg :: d ++ ' ' :: (m ++ ' ' :: (ip ++ '.' :: fp))) = .ok v →
      digitsValue m < 60 ∧ secondsOf ip fp < 60 ∧
      v = (if sg = '-' then -1 else 1) * ((digitsValue d : ℚ) + (digitsValue m : ℚ) / 60 + secondsOf ip fp / 3600) := by
    intro h m ip fp v a b c d n1 n2 n3 e
    by_cases hr : 60 ≤ digitsValue m ∨ 60 ≤ secondsOf ip fp ∨
        90 < (digitsValue h : ℚ) + (digitsValue m : ℚ) / 60 + secondsOf ip fp / 3600
    · rw [(C17_dec_rejects h m ip fp a b c d n1 n2 n3).2 sg hsg hr] at e
      simp at e
    · push Not at hr
      rw [C17_dec sg h m ip fp hsg a b c d n1 n2 n3 hr.1 hr.2.1 hr.2.2] at e
      simp only [Except.ok.injEq] at e
      exact ⟨hr.1, hr.2.1, e.symm⟩
  obtain ⟨a1, a2, rfl⟩ := key _ _ _ _ _ hd hm hip hfp nd nm nip e
  obtain ⟨b1, b2, rfl⟩ := key _ _ _ _ _ hd' hm' hip' hfp' nd' nm' nip' e'
  have s0 := seconds_nonneg ip fp
  have s0' := seconds_nonneg ip' fp'
  have a1' : (digitsValue m : ℚ) ≤ 59 := by exact_mod_cast (by omega : digitsValue m ≤ 59)
  have b0 : (0 : ℚ) ≤ digitsValue m' := by positivity
  have c0 : (0 : ℚ) ≤ digitsValue m := by positivity
  have c1 : (0 : ℚ) ≤ digitsValue d := by positivity
  have hval : (digitsValue d : ℚ) + (digitsValue m : ℚ) / 60 + secondsOf ip fp / 3600 <
      (digitsValue d' : ℚ) + (digitsValue m' : ℚ) / 60 + secondsOf ip' fp' / 3600 := by
    rcases hlt with hl | ⟨hl, hl2⟩ | ⟨hl, hl2, hl3⟩
    · have : (digitsValue d : ℚ) + 1 ≤ digitsValue d' := by exact_mod_cast hl
      linarith
    · have : (digitsValue m : ℚ) + 1 ≤ digitsValue m' := by exact_mod_cast hl2
      rw [hl]; linarith
    · rw [hl, hl2]; linarith
  have hp : 0 ≤ (digitsValue d : ℚ) + (digitsValue m : ℚ) / 60 + secondsOf ip fp / 3600 := by positivity
  constructor
  · rintro rfl
    rw [if_neg (by decide)]
    constructor <;> linarith
  · rintro rfl
    rw [if_pos rfl]
    constructor <;> linarith

/-! ## C18: reading a file -/

section Reader
variable {α : Type} (parse : Str → Except Err α)

theorem readGo_blank (strict : Bool) (acc : List α) (n : Nat) (l : Str) (ls : List Str) (h : l.all isSpace = true) :
    readGo parse strict acc n (l :: ls) = readGo parse strict acc (n + 1) ls := by
  have := (strip_eq_nil_iff l).mpr h
  simp [readGo, this]

theorem readGo_line (strict : Bool) (acc : List α) (n : Nat) (l : Str) (ls : List Str) (h : ¬ l.all isSpace = true) :
    readGo parse strict acc n (l :: ls) = match parse l with
      | .ok r => readGo parse strict (acc ++ [r]) (n + 1) ls
      | .error .obs80 => if strict then .malformed n else readGo parse strict acc (n + 1) ls
      | .error e => .escaped e := by
  have : strip l ≠ [] := fun hc => h ((strip_eq_nil_iff l).mp hc)
  rw [readGo, if_neg this]
  rcases parse l with (_ | _ | _) | _ <;> rfl

theorem strict_prefix (acc : List α) (n : Nat) (ls : List Str) (rs : List α)
    (h : List.Forall₂ (fun p r => parse p.2 = .ok r) (nonBlank n ls) rs) :
    readGo parse true acc n ls = .rows (acc ++ rs) := by
  induction ls generalizing acc n rs with
  | nil => simp only [nonBlank, List.forall₂_nil_left_iff] at h; subst h; simp [readGo]
  | cons l ls ih =>
    by_cases hb : l.all isSpace = true
    · rw [readGo_blank parse _ _ _ _ _ hb]
      simp only [nonBlank, hb, if_true] at h
      exact ih _ _ _ h
    · rw [readGo_line parse _ _ _ _ _ hb]
      simp only [nonBlank, hb, if_false, Bool.false_eq_true] at h
      cases h with
      | cons h1 h2 =>
        simp only at h1
        rw [h1]
        simp only
        rw [ih _ _ _ h2]
        simp

theorem strict_first (acc : List α) (n k : Nat) (l : Str) (ls : List Str) (pre post : List (Nat × Str))
    (hs : nonBlank n ls = pre ++ (k, l) :: post) (hpre : ∀ p ∈ pre, ∃ r, parse p.2 = .ok r)
    (hbad : parse l = .error .obs80) : readGo parse true acc n ls = .malformed k := by
  induction ls generalizing acc n pre with
  | nil => simp [nonBlank] at hs
  | cons x xs ih =>
    by_cases hb : x.all isSpace = true
    · rw [readGo_blank parse _ _ _ _ _ hb]
      simp only [nonBlank, hb, if_true] at hs
      exact ih _ _ _ hs hpre
    · rw [readGo_line parse _ _ _ _ _ hb]
      simp only [nonBlank, hb, if_false, Bool.false_eq_true] at hs
      cases pre with
      | nil =>
        simp only [List.nil_append, List.cons.injEq, Prod.mk.injEq] at hs
        obtain ⟨⟨rfl, rfl⟩, -⟩ := hs
        rw [hbad]; simp
      | cons p ps =>
        simp only [List.cons_append, List.cons.injEq] at hs
        obtain ⟨rfl, hs⟩ := hs
        obtain ⟨r, hr⟩ := hpre _ List.mem_cons_self
        simp only at hr
        rw [hr]
        exact ih _ _ _ hs fun q hq => hpre q (List.mem_cons_of_mem _ hq)

theorem strict_sound (acc : List α) (n : Nat) (ls : List Str) :
    (∀ rows, readGo parse true acc n ls = .rows rows →
      ∃ rs, rows = acc ++ rs ∧ List.Forall₂ (fun p r => parse p.2 = .ok r) (nonBlank n ls) rs) ∧
    (∀ k, readGo parse true acc n ls = .malformed k →
      ∃ pre l post, nonBlank n ls = pre ++ (k, l) :: post ∧ (∀ p ∈ pre, ∃ r, parse p.2 = .ok r) ∧
        parse l = .error .obs80) := by
  induction ls generalizing acc n with
  | nil =>
    constructor
    · intro rows h
      simp only [readGo, Outcome.rows.injEq] at h
      exact ⟨[], by simp [h], by simp [nonBlank]⟩
    · intro k h; simp [readGo] at h
  | cons l ls ih =>
    by_cases hb : l.all isSpace = true
    · rw [readGo_blank parse _ _ _ _ _ hb]
      simp only [nonBlank, hb, if_true]
      exact ih acc (n + 1)
    · rw [readGo_line parse _ _ _ _ _ hb]
      simp only [nonBlank, hb, if_false, Bool.false_eq_true]
      cases hp : parse l with
      | error e =>
        cases e with
        | obs80 =>
          simp only [if_true]
          refine ⟨fun rows h => by simp at h, fun k h => ?_⟩
          simp only [Outcome.malformed.injEq] at h
          subst h
          exact ⟨[], l, _, rfl, by simp, hp⟩
        | value => simp
        | overflow => simp
      | ok r =>
        simp only
        obtain ⟨i1, i2⟩ := ih (acc ++ [r]) (n + 1)
        constructor
        · intro rows h
          obtain ⟨rs, e, hf⟩ := i1 rows h
          exact ⟨r :: rs, by simp [e], .cons hp hf⟩
        · intro k h
          obtain ⟨pre, x, post, e, hpre, hx⟩ := i2 k h
          refine ⟨(n, l) :: pre, x, post, by simp [e], ?_, hx⟩
          intro p hp'
          rcases List.mem_cons.mp hp' with rfl | hp'
          · exact ⟨r, hp⟩
          · exact hpre p hp'

theorem lenient_go (acc : List α) (n : Nat) (ls : List Str)
    (h : ∀ p ∈ nonBlank n ls, ∀ e, parse p.2 = .error e → e = .obs80) :
    readGo parse false acc n ls = .rows (acc ++ (nonBlank n ls).filterMap fun p => (parse p.2).toOption) := by
  induction ls generalizing acc n with
  | nil => simp [readGo, nonBlank]
  | cons l ls ih =>
    by_cases hb : l.all isSpace = true
    · rw [readGo_blank parse _ _ _ _ _ hb]
      simp only [nonBlank, hb, if_true] at h ⊢
      exact ih _ _ h
    · rw [readGo_line parse _ _ _ _ _ hb]
      simp only [nonBlank, hb, if_false, Bool.false_eq_true] at h ⊢
      have ht := fun p hp => h p (List.mem_cons_of_mem _ hp)
      cases hp : parse l with
      | ok r =>
        simp only
        rw [ih _ _ ht]
        simp [hp, Except.toOption]
      | error e =>
        have := h (n, l) List.mem_cons_self e hp
        subst this
        change readGo parse false acc (n + 1) ls = _
        rw [ih _ _ ht]
        simp [hp, Except.toOption]

theorem lenient_escape (acc : List α) (n k : Nat) (l : Str) (e : Err) (ls : List Str) (pre post : List (Nat × Str))
    (hs : nonBlank n ls = pre ++ (k, l) :: post)
    (hpre : ∀ p ∈ pre, ∀ e', parse p.2 = .error e' → e' = .obs80) (hl : parse l = .error e) (he : e ≠ .obs80) :
    readGo parse false acc n ls = .escaped e := by
  induction ls generalizing acc n pre with
  | nil => simp [nonBlank] at hs
  | cons l' ls ih =>
    by_cases hb : l'.all isSpace = true
    · rw [readGo_blank parse _ _ _ _ _ hb]
      simp only [nonBlank, hb, if_true] at hs
      exact ih _ _ _ hs hpre
    · rw [readGo_line parse _ _ _ _ _ hb]
      simp only [nonBlank, hb, if_false, Bool.false_eq_true] at hs
      cases pre with
      | nil =>
        simp only [List.nil_append, List.cons.injEq, Prod.mk.injEq] at hs
        obtain ⟨⟨-, rfl⟩, -⟩ := hs
        rw [hl]
        cases e with
        | obs80 => exact absurd rfl he
        | value => rfl
        | overflow => rfl
      | cons q pre =>
        simp only [List.cons_append, List.cons.injEq] at hs
        obtain ⟨rfl, hs⟩ := hs
        have ht := fun p hp => hpre p (List.mem_cons_of_mem _ hp)
        cases hp : parse l' with
        | ok r => exact ih _ _ _ hs ht
        | error e' =>
          have := hpre (n, l') List.mem_cons_self e' hp
          subst this
          exact ih _ _ _ hs ht

/-- Either no line escapes, or there is a first one. -/
theorem first_escape (ls : List (Nat × Str)) :
    (∀ p ∈ ls, ∀ e, parse p.2 = .error e → e = .obs80) ∨
    ∃ pre k l post e, ls = pre ++ (k, l) :: post ∧ (∀ p ∈ pre, ∀ e', parse p.2 = .error e' → e' = .obs80) ∧
      parse l = .error e ∧ e ≠ .obs80 := by
  induction ls with
  | nil => left; simp
  | cons q ls ih =>
    by_cases hq : ∀ e, parse q.2 = .error e → e = .obs80
    · rcases ih with h | ⟨pre, k, l, post, e, hs, h1, h2, h3⟩
      · left
        intro p hp
        rcases List.mem_cons.mp hp with rfl | hp
        · exact hq
        · exact h p hp
      · right
        refine ⟨q :: pre, k, l, post, e, by simp [hs], ?_, h2, h3⟩
        intro p hp
        rcases List.mem_cons.mp hp with rfl | hp
        · exact hq
        · exact h1 p hp
    · right
      push Not at hq
      obtain ⟨e, h2, h3⟩ := hq
      exact ⟨[], q.1, q.2, ls, e, rfl, by simp, h2, h3⟩

end Reader

/-- The strict reader returns rows exactly when every non-blank line parses, and then they are the parses in order. -/
theorem C18_strict_rows (lines : List Str) (rs : List Obs) :
    readFile true lines = .rows rs ↔ List.Forall₂ (fun p r => parseLine p.2 = .ok r) (nonBlank 1 lines) rs := by
  constructor
  · intro h
    obtain ⟨rs', e, hf⟩ := (strict_sound parseLine [] 1 lines).1 rs h
    rw [e]; exact hf
  · intro h
    exact strict_prefix parseLine [] 1 lines rs h

/-- The strict reader stops with the number of a line exactly when that line is the first that does not parse. -/
theorem C18_strict_names_line (lines : List Str) (k : Nat) :
    readFile true lines = .malformed k ↔
      ∃ pre l post, nonBlank 1 lines = pre ++ (k, l) :: post ∧ (∀ p ∈ pre, ∃ r, parseLine p.2 = .ok r) ∧
        parseLine l = .error .obs80 :=
  ⟨(strict_sound parseLine [] 1 lines).2 k, fun ⟨pre, l, post, hs, hpre, hb⟩ =>
    strict_first parseLine [] 1 k l lines pre post hs hpre hb⟩

/-- A blank first line is skipped and the malformed second one is named. -/
example : readFile true ["  ".toList, "x".toList, "y".toList] = .malformed 2 := rfl

/-- The lenient reader returns rows exactly if no line makes the parser escape with another exception, and then they are
the parses of the well-formed lines, in order. -/
theorem C18_lenient (lines : List Str) (rs : List Obs) :
    readFile false lines = .rows rs ↔
      (∀ p ∈ nonBlank 1 lines, ∀ e, parseLine p.2 = .error e → e = .obs80) ∧
      rs = (nonBlank 1 lines).filterMap fun p => (parseLine p.2).toOption := by
  constructor
  · intro h
    rcases first_escape parseLine (nonBlank 1 lines) with hn | ⟨pre, k, l, post, e, hs, h1, h2, h3⟩
    · have := lenient_go parseLine [] 1 lines hn
      rw [readFile, this] at h
      simp only [List.nil_append, Outcome.rows.injEq] at h
      exact ⟨hn, h.symm⟩
    · rw [readFile, lenient_escape parseLine [] 1 k l e lines pre post hs h1 h2 h3] at h
      cases h
  · rintro ⟨h, rfl⟩
    exact lenient_go parseLine [] 1 lines h

/-- The lenient reader raises exactly if some line escapes, with the exception of the first such line. -/
theorem C18_lenient_raises (lines : List Str) (e : Err) :
    readFile false lines = .escaped e ↔
      ∃ pre k l post, nonBlank 1 lines = pre ++ (k, l) :: post ∧
        (∀ p ∈ pre, ∀ e', parseLine p.2 = .error e' → e' = .obs80) ∧ parseLine l = .error e ∧ e ≠ .obs80 := by
  constructor
  · intro h
    rcases first_escape parseLine (nonBlank 1 lines) with hn | ⟨pre, k, l, post, e', hs, h1, h2, h3⟩
    · rw [readFile, lenient_go parseLine [] 1 lines hn] at h
      cases h
    · rw [readFile, lenient_escape parseLine [] 1 k l e' lines pre post hs h1 h2 h3] at h
      cases h
      exact ⟨pre, k, l, post, hs, h1, h2, h3⟩
  · rintro ⟨pre, k, l, post, hs, h1, h2, h3⟩
    exact lenient_escape parseLine [] 1 k l e lines pre post hs h1 h2 h3

example : readFile false ["short".toList, [], "x".toList] = .rows [] := rfl

/-- A record whose day is `NaN` makes even the lenient reader raise. -/
def nanLine : Str :=
  "     K20A01A  C2020 01 NaN      00 00 00.00 +00 00 00.0                      XXX".toList

theorem C18_lenient_false : ∃ lines, ∃ e, readFile false lines = .escaped e :=
  ⟨[nanLine], .value, rfl⟩

/-- Fractional hours pass the parser's range test and are then refused by the table, so they escape too. -/
def fractionalHours : Str :=
  "     K20A01A  C2020 01 01.5     23.9 59 59  +00 00 00.0                      XXX".toList

theorem C18_fractional_hours_escape : parseLine fractionalHours = .error .value := by
  have : (match parseLine fractionalHours with | .error .value => true | _ => false) = true := by decide +kernel
  split at this
  · assumption
  · simp at this

/-- Escapes come only from the date field or from a right ascension above 360 degrees. -/
theorem C18_escape_source (line : Str) (e : Err) (h : parseLine line = .error e) (he : e ≠ .obs80) :
    parseObstime (((line.take 80).take 32).drop 15) = .error e ∨
    ∃ ra, parseRa (((line.take 80).take 44).drop 32) = .ok ra ∧ 360 < ra := by
  unfold parseLine at h
  split at h
  · simp only [Except.error.injEq] at h; exact absurd h.symm he
  · simp only at h
    split at h
    · simp only [Except.error.injEq] at h; exact absurd h.symm he
    · split at h
      · simp only [Except.error.injEq] at h; exact absurd h.symm he
      · split at h
        · simp only [Except.error.injEq] at h; exact absurd h.symm he
        · split at h
          · simp only [Except.error.injEq] at h; exact absurd h.symm he
          · split at h
            · rename_i e' hx
              simp only [Except.error.injEq] at h; subst h; exact Or.inl hx
            · split at h
              · rename_i e' hx
                simp only [Except.error.injEq] at h; subst h
                exact absurd (parseRa_error hx) he
              · rename_i ra hra
                split at h
                · rename_i e' hx
                  simp only [Except.error.injEq] at h; subst h
                  exact absurd (parseDec_error hx) he
                · split at h
                  · rename_i hgt
                    exact Or.inr ⟨ra, hra, hgt⟩
                  · simp at h

example : parseLine nanLine = .error .value := rfl

/-! ## C75: the columns of a record -/

/-- Text as the reader keeps it: without surrounding blanks, or null. -/
def Kept (raw : Str) (v : Option Str) : Prop :=
  (raw.all isSpace = true ∧ v = none) ∨ (raw.all isSpace = false ∧ v = some (strip raw))

/-- A record built column by column is read back field by field; characters after column 80 do not matter. -/
theorem C75_columns (des date raT decT gap magT ref code tail : Str) (disc n1 n2 band cat : Char)
    (l1 : des.length = 12) (l2 : date.length = 17) (l3 : raT.length = 12) (l4 : decT.length = 12) (l5 : gap.length = 9)
    (l6 : magT.length = 5) (l7 : ref.length = 5) (l8 : code.length = 3)
    (hdes : des.all isSpace = false) (hcode : ∀ c ∈ code, isSpace c = false)
    (hn2 : n2 ∉ ['R', 'S', 'V', 'r', 's', 'v'])
    (mag : Option Num) (hmag : (magT.all isSpace = true ∧ mag = none) ∨ (∃ q, magT.all isSpace = false ∧ number (strip magT) = some q ∧ mag = some q))
    (days nanos : Int) (hdate : parseObstime date = .ok (days, nanos))
    (ra dec : ℚ) (hra : parseRa raT = .ok ra) (hra360 : ra ≤ 360) (hdec : parseDec decT = .ok dec) :
    ∃ o, parseLine (des ++ disc :: n1 :: n2 :: (date ++ (raT ++ (decT ++ (gap ++ (magT ++ band :: cat :: (ref ++ (code ++ tail)))))))) = .ok o ∧
      o.designation = strip des ∧ (o.discovery = true ↔ disc = '*') ∧ Kept [n1] o.note1 ∧ Kept [n2] o.note2 ∧
      o.code = code ∧ o.days = days ∧ o.nanos = nanos ∧ o.ra = ra ∧ o.dec = dec ∧ o.mag = mag ∧
      Kept [band] o.band ∧ Kept [cat] o.catalog ∧ Kept ref o.reference ∧
      o.rawLine = des ++ disc :: n1 :: n2 :: (date ++ (raT ++ (decT ++ (gap ++ (magT ++ band :: cat :: (ref ++ code)))))) := by
  generalize hbody : des ++ disc :: n1 :: n2 :: (date ++ (raT ++ (decT ++ (gap ++ (magT ++ band :: cat :: (ref ++ code)))))) = body
  have hlen : body.length = 80 := by rw [← hbody]; simp [l1, l2, l3, l4, l5, l6, l7, l8]
  have hline : des ++ disc :: n1 :: n2 :: (date ++ (raT ++ (decT ++ (gap ++ (magT ++ band :: cat :: (ref ++ (code ++ tail)))))))
      = body ++ tail := by rw [← hbody]; simp
  rw [hline]
  have htake : (body ++ tail).take 80 = body := by rw [← hlen]; simp
  have s1 : slice body 0 12 = des := slice_at (pre := []) (post := _) (by rw [← hbody]; rfl) rfl (by omega)
  have s2 : slice body 12 13 = [disc] := slice_at (pre := des) (post := _) (by rw [← hbody]; rfl) l1 rfl
  have s3 : slice body 13 14 = [n1] :=
    slice_at (pre := des ++ [disc]) (post := n2 :: (date ++ (raT ++ (decT ++ (gap ++ (magT ++ band :: cat :: (ref ++ code)))))))
      (by rw [← hbody]; simp) (by simp [l1]) rfl
  have s4 : slice body 14 15 = [n2] :=
    slice_at (pre := des ++ [disc, n1]) (post := (date ++ (raT ++ (decT ++ (gap ++ (magT ++ band :: cat :: (ref ++ code)))))))
      (by rw [← hbody]; simp) (by simp [l1]) rfl
  have s5 : slice body 15 32 = date :=
    slice_at (pre := des ++ [disc, n1, n2]) (post := (raT ++ (decT ++ (gap ++ (magT ++ band :: cat :: (ref ++ code))))))
      (by rw [← hbody]; simp) (by simp [l1]) (by omega)
  have s6 : slice body 32 44 = raT :=
    slice_at (pre := des ++ [disc, n1, n2] ++ date) (post := (decT ++ (gap ++ (magT ++ band :: cat :: (ref ++ code)))))
      (by rw [← hbody]; simp) (by simp [l1, l2]) (by omega)
  have s7 : slice body 44 56 = decT :=
    slice_at (pre := des ++ [disc, n1, n2] ++ date ++ raT) (post := (gap ++ (magT ++ band :: cat :: (ref ++ code))))
      (by rw [← hbody]; simp) (by simp [l1, l2, l3]) (by omega)
  have s8 : slice body 65 70 = magT :=
    slice_at (pre := des ++ [disc, n1, n2] ++ date ++ raT ++ decT ++ gap) (post := (band :: cat :: (ref ++ code)))
      (by rw [← hbody]; simp) (by simp [l1, l2, l3, l4, l5]) (by omega)
  have s9 : slice body 70 71 = [band] :=
    slice_at (pre := des ++ [disc, n1, n2] ++ date ++ raT ++ decT ++ gap ++ magT) (post := (cat :: (ref ++ code)))
      (by rw [← hbody]; simp) (by simp [l1, l2, l3, l4, l5, l6]) rfl
  have s10 : slice body 71 72 = [cat] :=
    slice_at (pre := des ++ [disc, n1, n2] ++ date ++ raT ++ decT ++ gap ++ magT ++ [band]) (post := (ref ++ code))
      (by rw [← hbody]; simp) (by simp [l1, l2, l3, l4, l5, l6]) rfl
  have s11 : slice body 72 77 = ref :=
    slice_at (pre := des ++ [disc, n1, n2] ++ date ++ raT ++ decT ++ gap ++ magT ++ [band, cat]) (post := code)
      (by rw [← hbody]; simp) (by simp [l1, l2, l3, l4, l5, l6]) (by omega)
  have s12 : slice body 77 80 = code :=
    slice_at (pre := des ++ [disc, n1, n2] ++ date ++ raT ++ decT ++ gap ++ magT ++ [band, cat] ++ ref) (post := [])
      (by rw [← hbody]; simp) (by simp [l1, l2, l3, l4, l5, l6, l7]) (by omega)
  have hkept : ∀ s : Str, Kept s (orNone s) := by
    intro s
    cases h : s.all isSpace
    · exact Or.inr ⟨h, orNone_text h⟩
    · exact Or.inl ⟨h, orNone_blank h⟩
  have hn2' : ((orNone [n2]).elim false fun n => ["R", "S", "V", "r", "s", "v"].contains (String.ofList n)) = false := by
    cases h : isSpace n2
    · rw [orNone_text (by simp [h]), strip_single h]
      simp only [List.mem_cons, List.not_mem_nil, or_false, not_or] at hn2
      simp only [Option.elim_some, List.contains_eq_mem, List.mem_cons, List.not_mem_nil, or_false, decide_eq_false_iff_not, not_or]
      have key : ∀ c : Char, n2 ≠ c → String.ofList [n2] ≠ String.ofList [c] := by
        intro c hc he
        have := congrArg String.toList he
        simp at this
        exact hc this
      obtain ⟨a1, a2, a3, a4, a5, a6⟩ := hn2
      exact ⟨key _ a1, key _ a2, key _ a3, key _ a4, key _ a5, key _ a6⟩
    · rw [orNone_blank (by simp [h])]; rfl
  have hd : strip des ≠ [] := fun hc => by
    rw [(strip_eq_nil_iff des).mp hc] at hdes; exact absurd hdes (by simp)
  have hmag' : (if strip magT = [] then some none else (number (strip magT)).map some) = some mag := by
    rcases hmag with ⟨h, rfl⟩ | ⟨q, h, hq, rfl⟩
    · rw [if_pos ((strip_eq_nil_iff _).mpr h)]
    · rw [if_neg (fun hc => by rw [(strip_eq_nil_iff _).mp hc] at h; exact absurd h (by simp)), hq]; rfl
  unfold parseLine
  rw [if_neg (by simp [hlen])]
  simp only [htake, s1, s2, s3, s4, s5, s6, s7, s8, s9, s10, s11, s12]
  rw [hn2', Mpc.strip_id hcode, hmag', hdate]
  simp only [Bool.false_eq_true, if_false, hd, l8, ne_eq, not_true_eq_false, hra, hdec, not_lt.mpr hra360]
  refine ⟨_, rfl, rfl, ?_, hkept _, hkept _, rfl, rfl, rfl, rfl, rfl, rfl, hkept _, hkept _, hkept _, rfl⟩
  simp

/-- The hypotheses are met by an ordinary record. -/
example : ∃ o, parseLine
    ("     K20A01A".toList ++ ' ' :: ' ' :: 'C' :: (("1858".toList ++ ' ' :: ("11".toList ++ ' ' :: ("17".toList ++ '.' :: "250000".toList))) ++
      (("23".toList ++ ' ' :: ("59".toList ++ ' ' :: ("59".toList ++ '.' :: "500".toList))) ++
      (("-00".toList ++ ' ' :: ("30".toList ++ ' ' :: ("00".toList ++ '.' :: "00".toList))) ++
      ("         ".toList ++ ("     ".toList ++ 'G' :: 'V' :: ("12345".toList ++ ("W84".toList ++ [])))))))) = .ok o := by
  obtain ⟨_, d, n, _, h, _⟩ := C16_date "1858".toList "11".toList "17".toList "250000".toList
    (by unfold Digits; decide) (by unfold Digits; decide) (by unfold Digits; decide) (by unfold Digits; decide)
    (by decide) (by decide) (by decide) (by decide)
    ⟨by decide, by decide, by decide, 30, Or.inr (Or.inl ⟨by decide, rfl⟩), by decide⟩
    (by intro h; exact absurd h (by decide))
  have e1 : digitsValue "23".toList = 23 := by decide
  have e2 : digitsValue "59".toList = 59 := by decide
  have e3 : digitsValue "500".toList = 500 := by decide
  have es : secondsOf "59".toList "500".toList = 59.5 := by
    unfold secondsOf; rw [e2, e3, show "500".toList.length = 3 from rfl]; norm_num
  have hra := C17_ra "23".toList "59".toList "59".toList "500".toList (by unfold Digits; decide) (by unfold Digits; decide)
    (by unfold Digits; decide) (by unfold Digits; decide) (by decide) (by decide) (by decide) (by decide) (by decide)
    (by rw [es]; norm_num)
  have f1 : digitsValue "00".toList = 0 := by decide
  have f2 : digitsValue "30".toList = 30 := by decide
  have fs : secondsOf "00".toList "00".toList = 0 := by
    unfold secondsOf; rw [f1]; norm_num
  have hdec := C17_dec '-' "00".toList "30".toList "00".toList "00".toList (Or.inr rfl) (by unfold Digits; decide)
    (by unfold Digits; decide) (by unfold Digits; decide) (by unfold Digits; decide) (by decide) (by decide) (by decide)
    (by decide) (by rw [fs]; norm_num) (by rw [f1, f2, fs]; norm_num)
  obtain ⟨o, ho, _⟩ := C75_columns "     K20A01A".toList _ _ _ "         ".toList "     ".toList "12345".toList "W84".toList []
    ' ' ' ' 'C' 'G' 'V' rfl rfl rfl rfl rfl rfl rfl rfl (by decide) (by decide) (by decide) none (Or.inl ⟨by decide, rfl⟩)
    d n h _ _ hra (by rw [e1, e2, es]; norm_num) hdec
  exact ⟨o, ho⟩

/-- Records that need a companion line, records shorter than 80 columns, and records without designation are refused. -/
theorem C75_rejects (line : Str)
    (h : line.length < 80 ∨ (∃ c, line[14]? = some c ∧ c ∈ ['R', 'S', 'V', 'r', 's', 'v']) ∨
      (line.take 12).all isSpace = true) :
    parseLine line = .error .obs80 := by
  unfold parseLine
  by_cases hl : line.length < 80
  · rw [if_pos hl]
  · rw [if_neg hl]
    simp only
    split
    · rfl
    · rename_i hn
      rcases h with h | ⟨c, hc, hm⟩ | h
      · exact absurd h hl
      · exfalso
        apply hn
        have hs : slice (line.take 80) 14 15 = [c] := by
          unfold slice
          rw [List.take_take, show min 15 80 = 15 from rfl, List.take_add_one (i := 14), hc,
            List.drop_append_of_le_length (by simp; omega), List.drop_of_length_le (by simp)]
          rfl
        rw [hs]
        simp only [List.mem_cons, List.not_mem_nil, or_false] at hm
        rcases hm with rfl | rfl | rfl | rfl | rfl | rfl <;> decide
      · have : strip (slice (line.take 80) 0 12) = [] := by
          rw [strip_eq_nil_iff]
          unfold slice
          rw [List.take_take, show min 12 80 = 12 from rfl, List.drop_zero]
          exact h
        rw [if_pos this]

example : parseLine "     K20A01A  S2020 01 01.5     00 00 00.00 +00 00 00.0                      XXX".toList = .error .obs80 :=
  C75_rejects _ (Or.inr (Or.inl ⟨'S', by decide, by decide⟩))

end Verif.Obs80.Props
