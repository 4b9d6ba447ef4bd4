import Verif.Time.Leap
import Mathlib.Tactic.Linarith
import Mathlib.Tactic.FieldSimp
import Mathlib.Tactic.Ring

/-! # ERFA's conversions undo each other after rounding to seconds -/

namespace Verif.Time

open Verif.Time.Spec

/-- A table of leap seconds: TAI - UTC is between 0 and 1000 s and grows by nothing or one second a day. -/
structure LeapTable (dat : Int → Int) : Prop where
  step : ∀ d, dat (d + 1) = dat d ∨ dat (d + 1) = dat d + 1
  nonneg : ∀ d, 0 ≤ dat d
  bound : ∀ d, dat d ≤ 999

/-- TAI - UTC in seconds as ERFA sees it at the UTC date `q`. -/
def offset (dat : Int → Int) (q : ℚ) : ℚ := (q - ⌊q⌋) * leapOf dat ⌊q⌋ + dat ⌊q⌋

theorem erfaUtcTai_eq (dat : Int → Int) (q : ℚ) : erfaUtcTai dat q = q + offset dat q / 86400 := by
  simp only [erfaUtcTai, offset]
  ring

theorem leapOf_cases {dat : Int → Int} (h : LeapTable dat) (d : Int) : leapOf dat d = 0 ∨ leapOf dat d = 1 := by
  unfold leapOf
  rcases h.step d with h | h <;> rw [h] <;> simp

theorem dat_le {dat : Int → Int} (h : LeapTable dat) (d : Int) (n : Nat) :
    dat d ≤ dat (d + n) ∧ dat (d + n) ≤ dat d + n := by
  induction n with
  | zero => simp
  | succ n ih =>
    have e : d + ((n + 1 : Nat) : Int) = d + n + 1 := by push_cast; ring
    rw [e]
    push_cast
    rcases h.step (d + n) with h | h <;> rw [h] <;> omega

theorem dat_mono {dat : Int → Int} (h : LeapTable dat) {d e : Int} (hde : d ≤ e) :
    dat d ≤ dat e ∧ dat e ≤ dat d + (e - d) := by
  obtain ⟨n, rfl⟩ := Int.le.dest hde
  have := dat_le h d n
  omega

theorem offset_bounds {dat : Int → Int} (h : LeapTable dat) (q : ℚ) :
    (dat ⌊q⌋ : ℚ) ≤ offset dat q ∧ offset dat q ≤ dat (⌊q⌋ + 1) := by
  have h1 := Int.floor_le q
  have h2 := Int.lt_floor_add_one q
  have e : (dat (⌊q⌋ + 1) : ℚ) = dat ⌊q⌋ + leapOf dat ⌊q⌋ := by simp [leapOf]
  rw [e]
  unfold offset
  rcases leapOf_cases h ⌊q⌋ with e | e <;> rw [e] <;> push_cast <;> constructor <;> linarith

/-- The offset never decreases, and grows by at most a second a day. -/
theorem offset_lipschitz {dat : Int → Int} (h : LeapTable dat) {u v : ℚ} (huv : u ≤ v) :
    0 ≤ offset dat v - offset dat u ∧ offset dat v - offset dat u ≤ v - u := by
  have hf : ⌊u⌋ ≤ ⌊v⌋ := Int.floor_le_floor huv
  have u1 := Int.floor_le u
  have u2 := Int.lt_floor_add_one u
  have v1 := Int.floor_le v
  have v2 := Int.lt_floor_add_one v
  rcases eq_or_lt_of_le hf with e | e
  · unfold offset
    rw [← e]
    rcases leapOf_cases h ⌊u⌋ with e | e <;> rw [e] <;> push_cast <;> constructor <;> linarith
  · have b := dat_mono h (show ⌊u⌋ + 1 ≤ ⌊v⌋ by omega)
    have b1 : (dat (⌊u⌋ + 1) : ℚ) ≤ dat ⌊v⌋ := by exact_mod_cast b.1
    have b2 : (dat ⌊v⌋ : ℚ) ≤ dat (⌊u⌋ + 1) + (⌊v⌋ - (⌊u⌋ + 1)) := by exact_mod_cast b.2
    have e1 : (dat (⌊u⌋ + 1) : ℚ) = dat ⌊u⌋ + leapOf dat ⌊u⌋ := by simp [leapOf]
    rw [e1] at b1 b2
    unfold offset
    rcases leapOf_cases h ⌊u⌋ with e | e <;> rcases leapOf_cases h ⌊v⌋ with e' | e' <;> rw [e] at b1 b2 ⊢ <;>
      rw [e'] <;> push_cast at b1 b2 ⊢ <;> constructor <;> linarith

theorem offset_abs {dat : Int → Int} (h : LeapTable dat) (u v : ℚ) :
    |offset dat v - offset dat u| ≤ |v - u| := by
  rcases le_total u v with c | c
  · obtain ⟨a, b⟩ := offset_lipschitz h c
    rw [abs_of_nonneg a, abs_of_nonneg (by linarith)]
    exact b
  · obtain ⟨a, b⟩ := offset_lipschitz h c
    rw [abs_sub_comm, abs_of_nonneg a, abs_sub_comm, abs_of_nonneg (by linarith)]
    exact b

theorem offset_range {dat : Int → Int} (h : LeapTable dat) (q : ℚ) : 0 ≤ offset dat q ∧ offset dat q ≤ 1000 := by
  obtain ⟨a, b⟩ := offset_bounds h q
  have c : (0 : ℚ) ≤ dat ⌊q⌋ := by exact_mod_cast h.nonneg _
  have d : (dat (⌊q⌋ + 1) : ℚ) ≤ 999 := by exact_mod_cast h.bound _
  constructor <;> linarith

theorem round_of_near {x : ℚ} {n : Int} (h : |x - n| < 1 / 2) : roundHalfEven x = n := by
  have h1 := roundHalfEven_near x
  rw [abs_le] at h1
  rw [abs_lt] at h
  have a : ((roundHalfEven x : Int) : ℚ) < n + 1 := by linarith [h1.2, h.2]
  have b : (n : ℚ) < (roundHalfEven x : Int) + 1 := by linarith [h1.1, h.1]
  have a' : roundHalfEven x < n + 1 := by exact_mod_cast a
  have b' : n < roundHalfEven x + 1 := by exact_mod_cast b
  omega

theorem round_mono {x y : ℚ} (h : x ≤ y) : roundHalfEven x ≤ roundHalfEven y := by
  by_contra c
  have c' : roundHalfEven y + 1 ≤ roundHalfEven x := by omega
  have c'' : ((roundHalfEven y : Int) : ℚ) + 1 ≤ (roundHalfEven x : Int) := by exact_mod_cast c'
  have h1 := abs_le.mp (roundHalfEven_near x)
  have h2 := abs_le.mp (roundHalfEven_near y)
  have : x = y := by linarith [h1.2, h2.1]
  subst this
  omega

/-- Half a second earlier, the offset is clear of the upper rounding boundary. -/
theorem offset_before {dat : Int → Int} (h : LeapTable dat) (q : ℚ) (c : Int) (hc : |(c : ℚ) - offset dat q| ≤ 1 / 2) :
    offset dat (q - 1 / 172800) ≤ c + 1 / 2 - 1 / 172800 := by
  have q1 := Int.floor_le q
  have q2 := Int.lt_floor_add_one q
  obtain ⟨c1, c2⟩ := abs_le.mp hc
  have m := (offset_lipschitz h (show q - 1 / 172800 ≤ q by linarith)).1
  rcases leapOf_cases h ⌊q⌋ with e | e
  · have s : offset dat q = dat ⌊q⌋ := by unfold offset; rw [e]; simp
    have : c = dat ⌊q⌋ := by
      rw [s] at c1 c2
      have a : (c : ℚ) < dat ⌊q⌋ + 1 := by linarith
      have b : (dat ⌊q⌋ : ℚ) < c + 1 := by linarith
      have a' : c < dat ⌊q⌋ + 1 := by exact_mod_cast a
      have b' : dat ⌊q⌋ < c + 1 := by exact_mod_cast b
      omega
    rw [this]
    linarith
  · have s : offset dat q = q - ⌊q⌋ + dat ⌊q⌋ := by unfold offset; rw [e]; simp
    by_cases w : q - 1 / 172800 < ⌊q⌋
    · have m2 := (offset_lipschitz h (show q - 1 / 172800 ≤ (⌊q⌋ : ℚ) by linarith)).1
      have s2 : offset dat (⌊q⌋ : ℚ) = dat ⌊q⌋ := by simp [offset]
      have : (dat ⌊q⌋ : ℚ) < c + 1 := by linarith
      have : dat ⌊q⌋ < c + 1 := by exact_mod_cast this
      have : dat ⌊q⌋ ≤ c := by omega
      have : (dat ⌊q⌋ : ℚ) ≤ c := by exact_mod_cast this
      linarith
    · have f : ⌊q - 1 / 172800⌋ = ⌊q⌋ := by
        rw [Int.floor_eq_iff]; constructor <;> linarith
      have : offset dat (q - 1 / 172800) = offset dat q - 1 / 172800 := by
        rw [s]; unfold offset; rw [f, e]; push_cast; ring
      linarith

/-- Half a second later, the offset is clear of the lower rounding boundary. -/
theorem offset_after {dat : Int → Int} (h : LeapTable dat) (q : ℚ) (c : Int) (hc : |(c : ℚ) - offset dat q| ≤ 1 / 2) :
    c - 1 / 2 + 1 / 172800 ≤ offset dat (q + 1 / 172800) := by
  have q1 := Int.floor_le q
  have q2 := Int.lt_floor_add_one q
  obtain ⟨c1, c2⟩ := abs_le.mp hc
  have m := (offset_lipschitz h (show q ≤ q + 1 / 172800 by linarith)).1
  rcases leapOf_cases h ⌊q⌋ with e | e
  · have s : offset dat q = dat ⌊q⌋ := by unfold offset; rw [e]; simp
    have : c = dat ⌊q⌋ := by
      rw [s] at c1 c2
      have a : (c : ℚ) < dat ⌊q⌋ + 1 := by linarith
      have b : (dat ⌊q⌋ : ℚ) < c + 1 := by linarith
      have a' : c < dat ⌊q⌋ + 1 := by exact_mod_cast a
      have b' : dat ⌊q⌋ < c + 1 := by exact_mod_cast b
      omega
    rw [this]
    linarith
  · have s : offset dat q = q - ⌊q⌋ + dat ⌊q⌋ := by unfold offset; rw [e]; simp
    by_cases w : q + 1 / 172800 < ⌊q⌋ + 1
    · have f : ⌊q + 1 / 172800⌋ = ⌊q⌋ := by
        rw [Int.floor_eq_iff]; constructor <;> linarith
      have : offset dat (q + 1 / 172800) = offset dat q + 1 / 172800 := by
        rw [s]; unfold offset; rw [f, e]; push_cast; ring
      linarith
    · have m2 := (offset_lipschitz h (show ((⌊q⌋ + 1 : Int) : ℚ) ≤ q + 1 / 172800 by push_cast; linarith)).1
      have s2 : offset dat ((⌊q⌋ + 1 : Int) : ℚ) = dat ⌊q⌋ + 1 := by
        have e' : dat (⌊q⌋ + 1) = dat ⌊q⌋ + 1 := by unfold leapOf at e; omega
        unfold offset
        rw [Int.floor_intCast, e']
        push_cast
        ring
      have : (c : ℚ) < dat ⌊q⌋ + 2 := by linarith
      have : c < dat ⌊q⌋ + 2 := by exact_mod_cast this
      have : c ≤ dat ⌊q⌋ + 1 := by omega
      have : (c : ℚ) ≤ dat ⌊q⌋ + 1 := by exact_mod_cast this
      linarith

/-- The last guess of ERFA's iteration, from which the result is the TAI date less the offset. -/
theorem taiutc_guess {dat : Int → Int} (h : LeapTable dat) (a : ℚ) :
    ∃ u, erfaTaiUtc dat a = a - offset dat u / 86400 ∧
      |u - (a - offset dat u / 86400)| ≤ 1000 / 86400 ^ 3 := by
  set u1 := a - offset dat a / 86400 with hu1
  set u2 := a - offset dat u1 / 86400 with hu2
  refine ⟨u2, ?_, ?_⟩
  · have step : ∀ u, u + (a - erfaUtcTai dat u) = a - offset dat u / 86400 := by
      intro u; rw [erfaUtcTai_eq]; ring
    simp only [erfaTaiUtc, step]
    rw [← hu1, ← hu2]
  · obtain ⟨r1, r2⟩ := offset_range h a
    have d1 : |u1 - a| ≤ 1000 / 86400 := by
      rw [hu1, abs_le]; constructor <;> linarith
    have d2 : |u2 - u1| ≤ 1000 / 86400 ^ 2 := by
      have e : u2 - u1 = (offset dat a - offset dat u1) / 86400 := by rw [hu2, hu1]; ring
      have := offset_abs h u1 a
      rw [abs_sub_comm a u1] at this
      rw [e, abs_div, abs_of_pos (by norm_num : (0 : ℚ) < 86400), div_le_iff₀ (by norm_num)]
      norm_num at d1 ⊢
      linarith
    have e : u2 - (a - offset dat u2 / 86400) = (offset dat u2 - offset dat u1) / 86400 := by rw [hu2]; ring
    have := offset_abs h u1 u2
    rw [e, abs_div, abs_of_pos (by norm_num : (0 : ℚ) < 86400), div_le_iff₀ (by norm_num)]
    norm_num at d2 ⊢
    linarith

theorem NANOS_pos : (0 : ℚ) < (NANOS_IN_DAY : Int) := by norm_num [NANOS_IN_DAY]

/-- The correction from UTC is the offset rounded to seconds. -/
theorem utctai_correction (dat : Int → Int) (i : Int) :
    leapSecondsCorrection (erfaUtcTai dat) i = roundHalfEven (offset dat (i / (NANOS_IN_DAY : Int))) * 1000000000 := by
  unfold leapSecondsCorrection
  simp only [erfaUtcTai_eq]
  have e : ∀ s q : ℚ, (q + s / 86400 - q) * ((NANOS_IN_DAY : Int) : ℚ) / 1000000000 = s := by
    intro s q; simp only [NANOS_IN_DAY]; push_cast; ring
  rw [e]

/-- The correction from TAI is minus the offset at ERFA's last guess, rounded to seconds. -/
theorem taiutc_correction {dat : Int → Int} (h : LeapTable dat) (i : Int) :
    ∃ u, leapSecondsCorrection (erfaTaiUtc dat) i = roundHalfEven (-offset dat u) * 1000000000 ∧
      |u - (i / (NANOS_IN_DAY : Int) - offset dat u / 86400)| ≤ 1000 / 86400 ^ 3 := by
  obtain ⟨u, hu, hn⟩ := taiutc_guess h ((i : ℚ) / (NANOS_IN_DAY : Int))
  refine ⟨u, ?_, hn⟩
  unfold leapSecondsCorrection
  simp only [hu]
  have e : ∀ s q : ℚ, (q - s / 86400 - q) * ((NANOS_IN_DAY : Int) : ℚ) / 1000000000 = -s := by
    intro s q; simp only [NANOS_IN_DAY]; push_cast; ring
  rw [e]

/-- From UTC to TAI and back the same whole seconds are added and taken away. -/
theorem leap_inverse {dat : Int → Int} (h : LeapTable dat) (i : Int) :
    leapSecondsCorrection (erfaTaiUtc dat) (i + leapSecondsCorrection (erfaUtcTai dat) i)
      = -leapSecondsCorrection (erfaUtcTai dat) i := by
  rw [utctai_correction]
  set q : ℚ := (i : ℚ) / (NANOS_IN_DAY : Int) with hq
  set c := roundHalfEven (offset dat q) with hc
  have hn : |(c : ℚ) - offset dat q| ≤ 1 / 2 := roundHalfEven_near _
  obtain ⟨u, hu, hg⟩ := taiutc_correction h (i + c * 1000000000)
  rw [hu]
  have ha : ((i + c * 1000000000 : Int) : ℚ) / (NANOS_IN_DAY : Int) = q + c / 86400 := by
    rw [hq]; simp only [NANOS_IN_DAY]; push_cast; ring
  rw [ha] at hg
  set w := q + c / 86400 - offset dat u / 86400 with hw
  have lip := abs_le.mp (le_trans (offset_abs h w u) hg)
  have hi : offset dat u < c + 1 / 2 := by
    by_contra k
    push Not at k
    have e1 : w ≤ q - 1 / 172800 := by rw [hw]; linarith
    have e2 := (offset_lipschitz h e1).1
    have e3 := offset_before h q c hn
    have := lip.2
    norm_num at this
    linarith
  have lo : c - 1 / 2 < offset dat u := by
    by_contra k
    push Not at k
    have e1 : q + 1 / 172800 ≤ w := by rw [hw]; linarith
    have e2 := (offset_lipschitz h e1).1
    have e3 := offset_after h q c hn
    have := lip.1
    norm_num at this
    linarith
  have : roundHalfEven (-offset dat u) = -c := by
    apply round_of_near
    rw [abs_lt]
    push_cast
    constructor <;> linarith
  rw [this]
  ring

theorem erfaEnv_sound (dat : Int → Int) (astropy) (h : LeapTable dat) : Sound (erfaEnv dat astropy) where
  utctai_bound := fun i => by
    simp only [erfaEnv]
    rw [utctai_correction]
    obtain ⟨a, b⟩ := offset_range h ((i : ℚ) / (NANOS_IN_DAY : Int))
    have c := round_mono a
    have d := round_mono b
    have z := roundHalfEven_int 0
    have t := roundHalfEven_int 1000
    push_cast at z t
    rw [z] at c; rw [t] at d
    rw [abs_le]; omega
  taiutc_bound := fun i => by
    simp only [erfaEnv]
    obtain ⟨u, hu, -⟩ := taiutc_correction h i
    rw [hu]
    obtain ⟨a, b⟩ := offset_range h u
    have c := round_mono (show -offset dat u ≤ 0 by linarith)
    have d := round_mono (show (-1000 : ℚ) ≤ -offset dat u by linarith)
    have z := roundHalfEven_int 0
    have t := roundHalfEven_int (-1000)
    push_cast at z t
    rw [z] at c; rw [t] at d
    rw [abs_le]; omega
  tdb_bound := fun i => le_trans (tdbSeries_bound i) (by norm_num)
  leap_inverse := fun i => leap_inverse h i
  tdb_stable := fun i => tdbSeries_stable i _ (tdbSeries_bound i)
  tdb_stable_neg := fun i => by
    have := tdbSeries_stable i (-tdbSeries i) (by rw [abs_neg]; exact tdbSeries_bound i)
    rwa [← sub_eq_add_neg] at this

theorem recentDat_ok : LeapTable recentDat where
  step := fun d => by unfold recentDat; split_ifs <;> omega
  nonneg := fun d => by unfold recentDat; split_ifs <;> omega
  bound := fun d => by unfold recentDat; split_ifs <;> omega

end Verif.Time
