import Verif.Obs80.Float
import Verif.Obs80.Props
import Verif.Time.FloatLemmas

/-! # C201: angles of 80-column records with float64 rounding -/

namespace Verif.Obs80.FloatProps

open Verif.Mpc (Str strip isSpace)
open Verif.F64 Verif.Obs80.Spec Verif.Obs80.Props

theorem nonneg_of_fl {q : ℚ} (h : 0 ≤ fl q) : 0 ≤ q := by
  by_contra hc
  have := fl_pos (neg_pos.mpr (not_le.mp hc))
  rw [fl_neg] at this
  linarith

theorem fl_24 : fl 24 = 24 := by decide +kernel
theorem fl_60 : fl 60 = 60 := by decide +kernel

theorem lt_of_fl_lt {q n : ℚ} (hn : fl n = n) (h : fl q < n) : q < n := by
  by_contra hc
  exact absurd (le_fl_of_le hn (not_lt.mp hc)) (not_le.mpr h)

/-- The error of the sum, for a first part less than 2^k. -/
theorem sexagesimal_error {x m s : ℚ} {k : ℤ} (hk : (2 : ℚ) ^ (k - 54) ≤ 1 / 1000) (x0 : 0 ≤ x) (x1 : x ≤ 2 ^ k - 2) (m0 : 0 ≤ m) (m1 : m < 60) (s0 : 0 ≤ s) (s1 : s < 60) :
    |sexagesimal64 (fl x) (fl m) (fl s) - (x + m / 60 + s / 3600)| ≤ 3 * 2 ^ (k - 54) + 12 / 10 ^ 17 ∧ 0 ≤ sexagesimal64 (fl x) (fl m) (fl s) := by
  have ex := abs_le.mp (fl_ulp (q := x) (k := k) (by rw [abs_of_nonneg x0]; linarith))
  have em := abs_le.mp (fl_ulp (q := m) (k := 6) (by rw [abs_of_nonneg m0]; norm_num; linarith))
  have es := abs_le.mp (fl_ulp (q := s) (k := 6) (by rw [abs_of_nonneg s0]; norm_num; linarith))
  have fx0 := fl_nonneg x0
  have fm0 := fl_nonneg m0
  have fs0 := fl_nonneg s0
  have fm1 : fl m ≤ 60 := fl_le_of_le fl_60 m1.le
  have fs1 : fl s ≤ 60 := fl_le_of_le fl_60 s1.le
  have em2 := abs_le.mp (fl_ulp (q := fl m / 60) (k := 0) (by rw [abs_of_nonneg (by positivity)]; norm_num; linarith))
  have es2 := abs_le.mp (fl_ulp (q := fl s / 3600) (k := -5) (by rw [abs_of_nonneg (by positivity)]; norm_num; linarith))
  have n1 : 0 ≤ fl (fl m / 60) := fl_nonneg (by positivity)
  have n2 : 0 ≤ fl (fl s / 3600) := fl_nonneg (by positivity)
  unfold sexagesimal64
  generalize fl (fl m / 60) = M at *
  generalize fl (fl s / 3600) = S at *
  generalize fl x = X at *
  generalize fl m = m' at *
  generalize fl s = s' at *
  norm_num at em es em2 es2
  have hu : (0 : ℚ) < 2 ^ (k - 54) := zpow_pos (by norm_num) _
  have hXM : X + M ≤ 2 ^ k - 9 / 10 := by linarith [ex.1, ex.2, em.1, em.2, em2.1, em2.2]
  have e3 := abs_le.mp (fl_ulp (q := X + M) (k := k) (by rw [abs_of_nonneg (by linarith)]; linarith))
  have n3 : 0 ≤ fl (X + M) := fl_nonneg (by linarith)
  generalize fl (X + M) = Y at *
  have e4 := abs_le.mp (fl_ulp (q := Y + S) (k := k) (by rw [abs_of_nonneg (by linarith)]; linarith [es.1, es.2, es2.1, es2.2, e3.1, e3.2]))
  refine ⟨?_, fl_nonneg (by linarith)⟩
  generalize fl (Y + S) = Z at *
  generalize (2 : ℚ) ^ (k - 54) = u at *
  norm_num
  rw [abs_le]
  constructor <;> linarith [ex.1, ex.2, em.1, em.2, em2.1, em2.2, es.1, es.2, es2.1, es2.2, e3.1, e3.2, e4.1, e4.2]

/-- The right ascension of three numbers in range. -/
theorem ra_error {h m s : ℚ} (h0 : 0 ≤ h) (h1 : h < 24) (m0 : 0 ≤ m) (m1 : m < 60) (s0 : 0 ≤ s) (s1 : s < 60) :
    |fl (15 * sexagesimal64 (fl h) (fl m) (fl s)) - 15 * (h + m / 60 + s / 3600)| ≤ 12 / 10 ^ 14 ∧ 0 ≤ fl (15 * sexagesimal64 (fl h) (fl m) (fl s)) := by
  obtain ⟨e, n⟩ := sexagesimal_error (k := 5) (by norm_num) h0 (by norm_num; linarith) m0 m1 s0 s1
  have e' := abs_le.mp e
  generalize sexagesimal64 (fl h) (fl m) (fl s) = z at *
  norm_num at e'
  have e2 := abs_le.mp (fl_ulp (q := 15 * z) (k := 9) (by rw [abs_of_nonneg (by linarith)]; norm_num; linarith [e'.1, e'.2]))
  refine ⟨?_, fl_nonneg (by linarith)⟩
  norm_num at e2 ⊢
  rw [abs_le]
  constructor <;> linarith [e'.1, e'.2, e2.1, e2.2]

/-- C201. Every right ascension that is read is within 1.2e-13 degrees of 15 (h + m/60 + s/3600) of what is written, and not negative. -/
theorem C201_ra {raw : Str} {w : ℚ} (h : parseRa64 raw = .ok w) : ∃ v, parseRa raw = .ok v ∧ |w - v| ≤ 12 / 10 ^ 14 ∧ 0 ≤ w := by
  unfold parseRa64 at h
  unfold parseRa
  split at h
  · rename_i a b c ht
    rw [ht]
    simp only
    split at h
    · rename_i x m s hx hm hs
      rw [hx, hm, hs]
      simp only
      split at h
      · rename_i hr
        obtain ⟨r1, r2, r3, r4, r5, r6⟩ := hr
        have q1 := nonneg_of_fl r1
        have q2 := lt_of_fl_lt fl_24 r2
        have q3 := nonneg_of_fl r3
        have q4 := lt_of_fl_lt fl_60 r4
        have q5 := nonneg_of_fl r5
        have q6 := lt_of_fl_lt fl_60 r6
        rw [if_pos ⟨q1, q2, q3, q4, q5, q6⟩]
        cases h
        exact ⟨_, rfl, ra_error q1 q2 q3 q4 q5 q6⟩
      · cases h
    · cases h
  · cases h

theorem dec_error {d m s : ℚ} (d0 : 0 ≤ d) (d1 : d ≤ 91) (m0 : 0 ≤ m) (m1 : m < 60) (s0 : 0 ≤ s) (s1 : s < 60) :
    |sexagesimal64 (fl d) (fl m) (fl s) - (d + m / 60 + s / 3600)| ≤ 3 / 10 ^ 14 ∧ 0 ≤ sexagesimal64 (fl d) (fl m) (fl s) := by
  obtain ⟨e, n⟩ := sexagesimal_error (k := 7) (by norm_num) d0 (by norm_num; linarith) m0 m1 s0 s1
  refine ⟨e.trans (by norm_num), n⟩

/-- C201. Every declination that is read is within 3e-14 degrees of the sign times (d + m/60 + s/3600) of what is written, or it is that near to a pole
and what is written lies beyond. -/
theorem C201_dec {raw : Str} {w : ℚ} (h : parseDec64 raw = .ok w) :
    -90 ≤ w ∧ w ≤ 90 ∧ ((∃ v, parseDec raw = .ok v ∧ |w - v| ≤ 3 / 10 ^ 14) ∨ (parseDec raw = .error .obs80 ∧ 90 - 3 / 10 ^ 14 ≤ |w|)) := by
  unfold parseDec64 at h
  unfold parseDec
  split at h
  · rename_i c0 a b c ht
    rw [ht]
    simp only
    split at h
    · rename_i hsg
      rw [if_pos hsg]
      have habs : |(if c0 = '-' then (-1 : ℚ) else 1)| = 1 := by split <;> simp
      simp only at h
      generalize (if c0 = '-' then (-1 : ℚ) else 1) = sgn at *
      split at h
      · rename_i d m s hd hm hs
        rw [hd, hm, hs]
        simp only
        split at h
        · rename_i hr
          obtain ⟨r1, r2, r3, r4, r5, r6⟩ := hr
          have q1 := nonneg_of_fl r1
          have q3 := nonneg_of_fl r3
          have q4 := lt_of_fl_lt fl_60 r4
          have q5 := nonneg_of_fl r5
          have q6 := lt_of_fl_lt fl_60 r6
          have q2 : d ≤ 91 := by
            have : fl (91 : ℚ) = 91 := by decide +kernel
            exact (lt_of_fl_lt this (by linarith)).le
          obtain ⟨e, n⟩ := dec_error q1 q2 q3 q4 q5 q6
          have e' := abs_le.mp e
          have nn : 0 ≤ d + m / 60 + s / 3600 := by positivity
          split at h
          · rename_i hv
            cases h
            refine ⟨hv.1, hv.2, ?_⟩
            have hsign : ∀ z : ℚ, 0 ≤ z → |sgn * z| = z := by
              intro z hz
              rw [abs_mul, habs, one_mul, abs_of_nonneg hz]
            have hdiff : |sgn * sexagesimal64 (fl d) (fl m) (fl s) - sgn * (d + m / 60 + s / 3600)| ≤ 3 / 10 ^ 14 := by
              rw [← mul_sub, abs_mul, habs, one_mul]
              exact e
            by_cases hin : d + m / 60 + s / 3600 ≤ 90
            · left
              have hd90 : d ≤ 90 := by
                have : 0 ≤ m / 60 + s / 3600 := by positivity
                linarith
              refine ⟨_, ?_, hdiff⟩
              rw [if_pos ⟨q1, hd90, q3, q4, q5, q6⟩, if_pos]
              have := abs_le.mp ((hsign _ nn).le.trans hin)
              exact this
            · right
              constructor
              · split
                · rw [if_neg]
                  intro hc
                  have := abs_le.mpr hc
                  rw [hsign _ nn] at this
                  exact hin this
                · rfl
              · rw [hsign _ n]
                push Not at hin
                linarith [e'.1]
          · cases h
        · cases h
      · cases h
    · cases h
  · cases h

/-- C201. Written right ascensions with fewer than 60 seconds, by 0.0001 s or more, are read, and are less than 360 degrees. -/
theorem C201_ra_read (h m ip fp : Str) (hh : Digits h) (hm : Digits m) (hip : Digits ip) (hfp : Digits fp) (nh : h ≠ []) (nm : m ≠ []) (nip : ip ≠ [])
    (rh : digitsValue h < 24) (rm : digitsValue m < 60) (rs : secondsOf ip fp ≤ 60 - 1 / 10000) :
    ∃ w, parseRa64 (h ++ ' ' :: (m ++ ' ' :: (ip ++ '.' :: fp))) = .ok w ∧ w < 360 ∧
      |w - 15 * ((digitsValue h : ℚ) + (digitsValue m : ℚ) / 60 + secondsOf ip fp / 3600)| ≤ 12 / 10 ^ 14 := by
  have h1 : (digitsValue h : ℚ) ≤ 23 := by exact_mod_cast (by omega : digitsValue h ≤ 23)
  have h2 : (digitsValue m : ℚ) ≤ 59 := by exact_mod_cast (by omega : digitsValue m ≤ 59)
  have h3 := seconds_nonneg ip fp
  have h4 : (0 : ℚ) ≤ digitsValue h := by positivity
  have h5 : (0 : ℚ) ≤ digitsValue m := by positivity
  have e := (ra_error h4 (by linarith) h5 (by linarith) h3 (by linarith)).1
  have e' := abs_le.mp e
  norm_num at e'
  have f1 : fl (23 : ℚ) = 23 := by decide +kernel
  have f2 : fl (59 : ℚ) = 59 := by decide +kernel
  have es := abs_le.mp (fl_ulp (q := secondsOf ip fp) (k := 6) (by rw [abs_of_nonneg h3]; norm_num; linarith))
  norm_num at es
  refine ⟨fl (15 * sexagesimal64 (fl (digitsValue h : ℚ)) (fl (digitsValue m : ℚ)) (fl (secondsOf ip fp))), ?_, ?_, e⟩
  · unfold parseRa64
    rw [strip_words nh (by simp) (digits_noSpace hh) (decimal_noSpace hip hfp),
      tokens_three nh nm (by simp) (digits_noSpace hh) (digits_noSpace hm) (decimal_noSpace hip hfp)]
    simp only
    rw [number_int hh nh, number_int hm nm, number_decimal hip nip hfp]
    change (if _ then _ else _) = _
    rw [if_pos ⟨fl_nonneg h4, (fl_le_of_le f1 h1).trans_lt (by norm_num), fl_nonneg h5, (fl_le_of_le f2 h2).trans_lt (by norm_num), fl_nonneg h3,
      by change fl (secondsOf ip fp) < 60; linarith [es.2]⟩]
    rfl
  · linarith [e'.2]

/-- C201. So are declinations, up to the poles. -/
theorem C201_dec_read (sg : Char) (d m ip fp : Str) (hsg : sg = '+' ∨ sg = '-') (hd : Digits d) (hm : Digits m) (hip : Digits ip) (hfp : Digits fp)
    (nd : d ≠ []) (nm : m ≠ []) (nip : ip ≠ []) (rm : digitsValue m < 60) (rs : secondsOf ip fp ≤ 60 - 1 / 10000)
    (rd : (digitsValue d : ℚ) + (digitsValue m : ℚ) / 60 + secondsOf ip fp / 3600 ≤ 90) :
    ∃ w, parseDec64 (sg :: d ++ ' ' :: (m ++ ' ' :: (ip ++ '.' :: fp))) = .ok w ∧
      |w - (if sg = '-' then -1 else 1) * ((digitsValue d : ℚ) + (digitsValue m : ℚ) / 60 + secondsOf ip fp / 3600)| ≤ 3 / 10 ^ 14 := by
  have hsp : ∀ x ∈ sg :: d, isSpace x = false := by
    intro x hx
    rcases List.mem_cons.mp hx with rfl | hx
    · rcases hsg with rfl | rfl <;> decide
    · exact digits_noSpace hd x hx
  have h2 : (digitsValue m : ℚ) ≤ 59 := by exact_mod_cast (by omega : digitsValue m ≤ 59)
  have h3 := seconds_nonneg ip fp
  have h4 : (0 : ℚ) ≤ digitsValue d := by positivity
  have h5 : (0 : ℚ) ≤ digitsValue m := by positivity
  have h1 : (digitsValue d : ℚ) ≤ 90 := by
    have : 0 ≤ (digitsValue m : ℚ) / 60 + secondsOf ip fp / 3600 := by positivity
    linarith
  obtain ⟨e, n⟩ := dec_error h4 (by linarith) h5 (by linarith : (digitsValue m : ℚ) < 60) h3 (by linarith : secondsOf ip fp < 60)
  have f1 : fl (90 : ℚ) = 90 := by decide +kernel
  have f2 : fl (59 : ℚ) = 59 := by decide +kernel
  have es := abs_le.mp (fl_ulp (q := secondsOf ip fp) (k := 6) (by rw [abs_of_nonneg h3]; norm_num; linarith))
  norm_num at es
  have top : sexagesimal64 (fl (digitsValue d : ℚ)) (fl (digitsValue m : ℚ)) (fl (secondsOf ip fp)) ≤ 90 := by
    rcases h1.lt_or_eq with hlt | heq
    · have hd89 : digitsValue d ≤ 89 := by
        have : digitsValue d < 90 := by exact_mod_cast hlt
        omega
      have hd89' : (digitsValue d : ℚ) ≤ 89 := by exact_mod_cast hd89
      have e' := abs_le.mp e
      norm_num at e'
      linarith [e'.2]
    · have hm0 : (digitsValue m : ℚ) = 0 := by
        have : 0 ≤ secondsOf ip fp / 3600 := by positivity
        linarith
      have hs0 : secondsOf ip fp = 0 := by
        rw [heq, hm0] at rd
        linarith
      rw [heq, hm0, hs0]
      decide +kernel
  refine ⟨(if sg = '-' then -1 else 1) * sexagesimal64 (fl (digitsValue d : ℚ)) (fl (digitsValue m : ℚ)) (fl (secondsOf ip fp)), ?_, ?_⟩
  · unfold parseDec64
    rw [strip_words (by simp) (by simp) hsp (decimal_noSpace hip hfp),
      tokens_three (by simp) nm (by simp) hsp (digits_noSpace hm) (decimal_noSpace hip hfp)]
    simp only
    rw [if_pos hsg, number_int hd nd, number_int hm nm, number_decimal hip nip hfp]
    change (if _ then (if _ then _ else _) else _) = _
    rw [if_pos ⟨fl_nonneg h4, fl_le_of_le f1 h1, fl_nonneg h5, (fl_le_of_le f2 h2).trans_lt (by norm_num), fl_nonneg h3,
      by change fl (secondsOf ip fp) < 60; linarith [es.2]⟩, if_pos]
    · rfl
    · change -90 ≤ _ * sexagesimal64 (fl (digitsValue d : ℚ)) (fl (digitsValue m : ℚ)) (fl (secondsOf ip fp)) ∧
        _ * sexagesimal64 (fl (digitsValue d : ℚ)) (fl (digitsValue m : ℚ)) (fl (secondsOf ip fp)) ≤ 90
      split <;> constructor <;> linarith
  · rw [← mul_sub, abs_mul]
    split
    · rw [abs_neg, abs_one, one_mul]; exact e
    · rw [abs_one, one_mul]; exact e

/-- C201. Angles written with up to six decimals of the seconds are read in the order they are written, and different ones as different numbers
(a multiple of 10^-6 s is one of 1 / 3600000000 degrees). -/
theorem C201_order {raw raw' : Str} {w w' v v' : ℚ} {n n' : ℤ} (hn : v = n / 3600000000) (hn' : v' = n' / 3600000000) (hlt : v < v') :
    (parseRa64 raw = .ok w → parseRa64 raw' = .ok w' → parseRa raw = .ok v → parseRa raw' = .ok v' → w < w') ∧
    (parseDec64 raw = .ok w → parseDec64 raw' = .ok w' → parseDec raw = .ok v → parseDec raw' = .ok v' → w < w') := by
  have gap : v + 1 / 3600000000 ≤ v' := by
    have h1 : (n : ℚ) < n' := by
      rw [hn, hn'] at hlt
      exact (div_lt_div_iff_of_pos_right (by norm_num)).mp hlt
    have h2 : n < n' := by exact_mod_cast h1
    have h3 : (n : ℚ) + 1 ≤ n' := by exact_mod_cast (by omega : n + 1 ≤ n')
    rw [hn, hn', ← add_div]
    exact (div_le_div_iff_of_pos_right (by norm_num)).mpr h3
  constructor
  · intro a b c d
    obtain ⟨v1, e1, e2, -⟩ := C201_ra a
    obtain ⟨v2, e3, e4, -⟩ := C201_ra b
    rw [c] at e1; rw [d] at e3
    cases e1; cases e3
    have x1 := abs_le.mp e2
    have x2 := abs_le.mp e4
    norm_num at x1 x2
    linarith [x1.2, x2.1]
  · intro a b c d
    rcases (C201_dec a).2.2 with ⟨v1, e1, e2⟩ | ⟨e1, -⟩
    · rcases (C201_dec b).2.2 with ⟨v2, e3, e4⟩ | ⟨e3, -⟩
      · rw [c] at e1; rw [d] at e3
        cases e1; cases e3
        have x1 := abs_le.mp e2
        have x2 := abs_le.mp e4
        norm_num at x1 x2
        linarith [x1.2, x2.1]
      · rw [d] at e3; cases e3
    · rw [c] at e1; cases e1

/-- C201. Not true: that a declination beyond the pole is refused (`+90 00 1e-20` is read as the pole), and that every right ascension that is read is
less than 360 degrees (a hundredth of a picosecond before 24 h is read as 360). -/
theorem C201_false :
    (parseDec64 "+90 00 1e-20".toList = .ok 90 ∧ parseDec "+90 00 1e-20".toList = .error .obs80) ∧
    parseRa64 "23 59 59.99999999999999".toList = .ok 360 := by
  decide +kernel

/-- Angles as they are written, and what is read. -/
example :
    (match parseRa64 "12 34 56.789".toList with
      | .ok w => decide (|w - 15 * (12 + 34 / 60 + 56789 / 3600000)| ≤ 12 / 10 ^ 14 ∧ w ≠ 15 * (12 + 34 / 60 + 56789 / 3600000))
      | .error _ => false) = true ∧
    (match parseDec64 "-00 00 00.01".toList with
      | .ok w => decide (|w + 1 / 360000| ≤ 3 / 10 ^ 14 ∧ w < 0)
      | .error _ => false) = true := by
  decide +kernel

/-- The hypotheses of `C201_order` are met by neighbouring milliseconds. -/
example : parseRa "12 34 56.789".toList = .ok ((679451835000 : ℤ) / 3600000000) ∧ parseRa "12 34 56.790".toList = .ok ((679451850000 : ℤ) / 3600000000) := by
  decide +kernel

end Verif.Obs80.FloatProps
