import Verif.Time.RescaleProps
import Verif.Time.LeapLemmas

/-! # C175: UTC and TAI on days that end in a leap second -/

namespace Verif.Time.Props

open Verif Verif.Time Verif.Time.Spec

/-- C175: ERFA's conversions, rounded as `rescale` rounds them, meet every assumption the properties of `rescale` make,
for every table of leap seconds. -/
theorem C175_assumptions_met (dat : Int → Int) (astropy) (h : LeapTable dat) : Sound (erfaEnv dat astropy) :=
  erfaEnv_sound dat astropy h

/-- The offset at a normalised row, in terms of its fields. -/
theorem offset_row (dat : Int → Int) (r : Row) (hr : Normal r) :
    offset dat ((instant r : Int) / (NANOS_IN_DAY : Int))
      = (r.nanos : ℚ) / 86400000000000 * (dat (r.days + 1) - dat r.days : Int) + dat r.days := by
  obtain ⟨a, b⟩ := hr
  have e : ((instant r : Int) : ℚ) / (NANOS_IN_DAY : Int) = r.days + (r.nanos : ℚ) / 86400000000000 := by
    simp only [instant, DAY, NANOS_IN_DAY]; push_cast; ring
  have f : ⌊(r.days + (r.nanos : ℚ) / 86400000000000 : ℚ)⌋ = r.days := by
    rw [Int.floor_eq_iff]
    have a' : (0 : ℚ) ≤ r.nanos := by exact_mod_cast a
    have b' : (r.nanos : ℚ) < 86400000000000 := by
      have : r.nanos < 86400000000000 := by simpa [DAY] using b
      exact_mod_cast this
    have p : 0 ≤ (r.nanos : ℚ) / 86400000000000 := by positivity
    have q : (r.nanos : ℚ) / 86400000000000 < 1 := by rw [div_lt_one (by norm_num)]; exact b'
    constructor <;> linarith
  rw [e]
  unfold offset leapOf
  rw [f]
  ring

/-- The rows of `rescale("tai")` of a table in UTC. -/
theorem utc_tai_rows (dat : Int → Int) (astropy) (h : LeapTable dat) (t : TS) (hs : t.scale = "utc") (ht : NormalTS t) :
    ∃ t', t.rescale (erfaEnv dat astropy) "tai" = .ok t' ∧ t'.scale = "tai" ∧ t'.rows.length = t.rows.length ∧
      NormalTS t' ∧ ∀ (i : Nat) (r r' : Row), t.rows[i]? = some r → t'.rows[i]? = some r' →
        instant r' = instant r
          + roundHalfEven (offset dat ((instant r : Int) / (NANOS_IN_DAY : Int))) * 1000000000 := by
  obtain ⟨t', e, s, l, n, f⟩ := C07_rescale_through_tai _ (erfaEnv_sound dat astropy h) t "tai"
    (by simp [InChain, hs]) (by simp [InChain]) (by simp [hs]) (by simp) ht
  refine ⟨t', e, s, l, n, ?_⟩
  intro i r r' hr hr'
  have := f i r r' hr hr'
  rw [hs] at this
  simp only [toTai, fromTai, Option.bind_some, Option.some.injEq, erfaEnv] at this
  rw [utctai_correction] at this
  exact this.symm

/-- C175: on a day without a leap second, from UTC to TAI exactly the day's TAI - UTC is added. On a day that ends in
one, it is added before noon, a second more after noon, and at noon whichever of the two is even. -/
theorem C175_utc_to_tai (dat : Int → Int) (astropy) (h : LeapTable dat) (t : TS) (hs : t.scale = "utc")
    (ht : NormalTS t) :
    ∃ t', t.rescale (erfaEnv dat astropy) "tai" = .ok t' ∧ t'.scale = "tai" ∧ t'.rows.length = t.rows.length ∧
      NormalTS t' ∧ ∀ (i : Nat) (r r' : Row), t.rows[i]? = some r → t'.rows[i]? = some r' →
        (dat (r.days + 1) = dat r.days → instant r' = instant r + dat r.days * 10 ^ 9) ∧
        (dat (r.days + 1) = dat r.days + 1 →
          (r.nanos < 43200 * 10 ^ 9 → instant r' = instant r + dat r.days * 10 ^ 9) ∧
          (43200 * 10 ^ 9 < r.nanos → instant r' = instant r + (dat r.days + 1) * 10 ^ 9) ∧
          (r.nanos = 43200 * 10 ^ 9 → ∃ k, (k = dat r.days ∨ k = dat r.days + 1) ∧ k % 2 = 0 ∧
            instant r' = instant r + k * 10 ^ 9)) := by
  obtain ⟨t', e, s, l, n, f⟩ := utc_tai_rows dat astropy h t hs ht
  refine ⟨t', e, s, l, n, ?_⟩
  intro i r r' hr hr'
  have hn := ht r (List.mem_of_getElem? hr)
  rw [f i r r' hr hr', offset_row dat r hn]
  obtain ⟨a, b⟩ := hn
  have b' : r.nanos < 86400000000000 := by simpa [DAY] using b
  have aq : (0 : ℚ) ≤ r.nanos := by exact_mod_cast a
  have bq : (r.nanos : ℚ) < 86400000000000 := by exact_mod_cast b'
  refine ⟨fun hd => ?_, fun hd => ⟨fun hb => ?_, fun hb => ?_, fun hb => ?_⟩⟩
  · rw [hd, sub_self]
    have := roundHalfEven_int (dat r.days)
    simp only [Int.cast_zero, mul_zero, zero_add, this]
    norm_num
  · rw [hd, add_sub_cancel_left]
    have hbq : (r.nanos : ℚ) < 43200000000000 := by
      have : r.nanos < 43200000000000 := by norm_num at hb; exact hb
      exact_mod_cast this
    rw [round_of_near (n := dat r.days) (by rw [abs_lt]; push_cast; constructor <;> linarith)]
    norm_num
  · rw [hd, add_sub_cancel_left]
    have hbq : (43200000000000 : ℚ) < r.nanos := by
      have : 43200000000000 < r.nanos := by norm_num at hb; exact hb
      exact_mod_cast this
    rw [round_of_near (n := dat r.days + 1) (by rw [abs_lt]; push_cast; constructor <;> linarith)]
    norm_num
  · rw [hd, add_sub_cancel_left, hb]
    have fl : ⌊(((43200 * 10 ^ 9 : Int) : ℚ) / 86400000000000 * ((1 : Int) : ℚ) + (dat r.days : ℚ))⌋ = dat r.days := by
      rw [Int.floor_eq_iff]; push_cast; constructor <;> linarith
    unfold roundHalfEven
    simp only [fl]
    push_cast
    have c1 : ¬ ((43200000000000 : ℚ) / 86400000000000 * 1 + (dat r.days : ℚ) - dat r.days < 1 / 2) := by
      norm_num
    have c2 : ¬ ((1 / 2 : ℚ) < (43200000000000 : ℚ) / 86400000000000 * 1 + (dat r.days : ℚ) - dat r.days) := by
      norm_num
    rw [if_neg c1, if_neg c2]
    split_ifs with c3
    · exact ⟨_, Or.inl rfl, c3, by norm_num⟩
    · exact ⟨_, Or.inr rfl, by omega, by norm_num⟩

/-- C175: from UTC to TAI a later row stays later, also across noon of a leap-second day and across the leap second. -/
theorem C175_order_kept (dat : Int → Int) (astropy) (h : LeapTable dat) (t : TS) (hs : t.scale = "utc")
    (ht : NormalTS t) :
    ∃ t', t.rescale (erfaEnv dat astropy) "tai" = .ok t' ∧
      ∀ (i j : Nat) (a b a' b' : Row), t.rows[i]? = some a → t.rows[j]? = some b → t'.rows[i]? = some a' →
        t'.rows[j]? = some b' → (Earlier a b ↔ Earlier a' b') := by
  obtain ⟨t', e, s, l, n, f⟩ := utc_tai_rows dat astropy h t hs ht
  refine ⟨t', e, ?_⟩
  intro i j a b a' b' ha hb ha' hb'
  have na := ht a (List.mem_of_getElem? ha)
  have nb := ht b (List.mem_of_getElem? hb)
  have na' := n a' (List.mem_of_getElem? ha')
  have nb' := n b' (List.mem_of_getElem? hb')
  have conv : ∀ x y : Row, Normal x → Normal y → (Earlier x y ↔ instant x < instant y) := by
    intro x y hx hy
    unfold Normal at hx hy
    rw [DAY_eq] at hx hy
    simp only [Earlier, instant, DAY_eq]
    constructor
    · rintro (c | ⟨c, d⟩)
      · nlinarith
      · rw [c]; omega
    · intro c
      by_contra k
      push Not at k
      rcases lt_trichotomy x.days y.days with z | z | z
      · omega
      · have := k.2 z; rw [z] at c; omega
      · nlinarith
  have fa := f i a a' ha ha'
  have fb := f j b b' hb hb'
  rw [conv a b na nb, conv a' b' na' nb', fa, fb]
  have mono : ∀ x y : Int, x ≤ y → roundHalfEven (offset dat ((x : ℚ) / (NANOS_IN_DAY : Int)))
      ≤ roundHalfEven (offset dat ((y : ℚ) / (NANOS_IN_DAY : Int))) := by
    intro x y hxy
    apply round_mono
    have : (x : ℚ) / (NANOS_IN_DAY : Int) ≤ y / (NANOS_IN_DAY : Int) := by
      have : (x : ℚ) ≤ y := by exact_mod_cast hxy
      exact div_le_div_of_nonneg_right this (le_of_lt NANOS_pos)
    linarith [(offset_lipschitz h this).1]
  constructor
  · intro c
    have := mono _ _ (le_of_lt c)
    omega
  · intro c
    by_contra k
    have := mono _ _ (not_lt.mp k)
    omega

/-- C175: from TAI to UTC and back, a row is at most a second off, and it is restored unless the UTC row is within a
second of noon of a day that ends in a leap second. -/
theorem C175_tai_round_trip (dat : Int → Int) (astropy) (h : LeapTable dat) (t : TS) (hs : t.scale = "tai")
    (ht : NormalTS t) :
    ∃ u t', t.rescale (erfaEnv dat astropy) "utc" = .ok u ∧ u.rescale (erfaEnv dat astropy) "tai" = .ok t' ∧
      t'.scale = "tai" ∧ u.rows.length = t.rows.length ∧ t'.rows.length = t.rows.length ∧
      ∀ (i : Nat) (r v r' : Row), t.rows[i]? = some r → u.rows[i]? = some v → t'.rows[i]? = some r' →
        (instant r' = instant r ∨ |instant r' - instant r| = 10 ^ 9) ∧
        ((dat (v.days + 1) = dat v.days ∨ 10 ^ 9 < |v.nanos - 43200 * 10 ^ 9|) → r' = r) := by
  have sound := erfaEnv_sound dat astropy h
  obtain ⟨u, e, s, l, n, f⟩ := C07_rescale_through_tai _ sound t "utc"
    (by simp [InChain, hs]) (by simp [InChain]) (by simp [hs]) (by simp [hs]) ht
  obtain ⟨t', e', s', l', n', f'⟩ := utc_tai_rows dat astropy h u s n
  refine ⟨u, t', e, e', s', l, by omega, ?_⟩
  intro i r v r' hr hv hr'
  have g := f i r v hr hv
  rw [hs] at g
  simp only [toTai, fromTai, Option.bind_some, Option.some.injEq, erfaEnv] at g
  have g' := f' i v r' hv hr'
  obtain ⟨w, hw, hg⟩ := taiutc_correction h (instant r)
  rw [hw] at g
  have nv := n v (List.mem_of_getElem? hv)
  have row := offset_row dat v nv
  set c := roundHalfEven (-offset dat w) with hc
  set q : ℚ := ((instant v : Int) : ℚ) / (NANOS_IN_DAY : Int) with hq
  set k := roundHalfEven (offset dat q) with hk
  have c1 := abs_le.mp (roundHalfEven_near (-offset dat w))
  rw [← hc] at c1
  have k1 := abs_le.mp (roundHalfEven_near (offset dat q))
  rw [← hk] at k1
  have hqr : q = ((instant r : Int) : ℚ) / (NANOS_IN_DAY : Int) + c / 86400 := by
    rw [hq, ← g]; simp only [NANOS_IN_DAY]; push_cast; ring
  have near : |q - w| ≤ 51 / 100 / 86400 := by
    obtain ⟨a, b⟩ := abs_le.mp hg
    norm_num at a b
    rw [hqr, abs_le]
    constructor <;> linarith [c1.1, c1.2]
  have near' := abs_le.mp (le_trans (offset_abs h w q) near)
  have total : instant r' = instant r + (k + c) * 1000000000 := by rw [g', ← g]; ring
  have small : k + c = 0 ∨ k + c = 1 ∨ k + c = -1 := by
    have a : ((k + c : Int) : ℚ) < 2 := by push_cast; linarith [k1.2, c1.2, near'.2]
    have b : (-2 : ℚ) < ((k + c : Int) : ℚ) := by push_cast; linarith [k1.1, c1.1, near'.1]
    have a' : k + c < 2 := by exact_mod_cast a
    have b' : -2 < k + c := by exact_mod_cast b
    omega
  refine ⟨?_, ?_⟩
  · rcases small with z | z | z
    · left; rw [total, z]; ring
    · right; rw [total, z]; norm_num
    · right; rw [total, z]; norm_num
  · intro side
    have zero : c = -k := by
      obtain ⟨va, vb⟩ := nv
      have vb' : v.nanos < 86400000000000 := by simpa [DAY] using vb
      have aq : (0 : ℚ) ≤ v.nanos := by exact_mod_cast va
      have bq : (v.nanos : ℚ) < 86400000000000 := by exact_mod_cast vb'
      rcases h.step v.days with hd | hd
      · rw [hd, sub_self] at row
        simp only [Int.cast_zero, mul_zero, zero_add] at row
        have hk' : k = dat v.days := by rw [hk, row]; exact roundHalfEven_int _
        rw [hk', hc]
        apply round_of_near
        rw [row] at near'
        rw [abs_lt]; push_cast
        constructor <;> linarith [near'.1, near'.2]
      · have side' : 10 ^ 9 < |v.nanos - 43200 * 10 ^ 9| := by
          rcases side with z | z
          · omega
          · exact z
        rw [hd, add_sub_cancel_left] at row
        push_cast at row
        rcases lt_abs.mp side' with z | z
        · have zq : (43201000000000 : ℚ) < v.nanos := by
            have : 43201000000000 < v.nanos := by norm_num at z; omega
            exact_mod_cast this
          have hk' : k = dat v.days + 1 := by
            rw [hk]; apply round_of_near; rw [row, abs_lt]; push_cast; constructor <;> linarith
          rw [hk', hc]
          apply round_of_near
          rw [row] at near'
          rw [abs_lt]; push_cast
          constructor <;> linarith [near'.1, near'.2]
        · have zq : (v.nanos : ℚ) < 43199000000000 := by
            have : v.nanos < 43199000000000 := by norm_num at z; omega
            exact_mod_cast this
          have hk' : k = dat v.days := by
            rw [hk]; apply round_of_near; rw [row, abs_lt]; constructor <;> linarith
          rw [hk', hc]
          apply round_of_near
          rw [row] at near'
          rw [abs_lt]; push_cast
          constructor <;> linarith [near'.1, near'.2]
    have : instant r' = instant r := by rw [total, zero]; ring
    have nr := ht r (List.mem_of_getElem? hr)
    have nr' := n' r' (List.mem_of_getElem? hr')
    unfold Normal at nr nr'
    rw [DAY_eq] at nr nr'
    simp only [instant, DAY_eq] at this
    obtain ⟨d, m⟩ := r
    obtain ⟨d', m'⟩ := r'
    simp only at nr nr' this ⊢
    have hd : d = d' := by omega
    have hm : m = m' := by omega
    rw [hd, hm]

/-- C175 fails for the trip from TAI to UTC and back: 12:00:36.3 TAI on 2016-12-31 comes back one second later. -/
theorem C175_tai_round_trip_false (astropy) :
    ∃ t u t' : TS, t.scale = "tai" ∧ NormalTS t ∧ t.rescale (erfaEnv recentDat astropy) "utc" = .ok u ∧
      u.rescale (erfaEnv recentDat astropy) "tai" = .ok t' ∧ t.rows = [⟨57753, 43236300000000⟩] ∧
      t'.rows = [⟨57753, 43237300000000⟩] := by
  have e1 : leapSecondsCorrection (erfaTaiUtc recentDat) 4989902436300000000 = -36000000000 := by decide +kernel
  have e2 : leapSecondsCorrection (erfaUtcTai recentDat) 4989902400300000000 = 37000000000 := by decide +kernel
  refine ⟨⟨"tai", [⟨57753, 43236300000000⟩]⟩, ⟨"utc", [⟨57753, 43200300000000⟩]⟩, ⟨"tai", [⟨57753, 43237300000000⟩]⟩,
    rfl, ?_, ?_, ?_, rfl, rfl⟩
  · intro r hr
    simp only [List.mem_singleton] at hr
    subst hr
    simp [Normal, DAY]
  · simp [TS.rescale, correctionAssigned, Row.correction, Row.leapTaiUtc, Row.key, NANOS_IN_DAY, erfaEnv, e1,
      Row.addNanosRaw]
  · simp [TS.rescale, correctionAssigned, Row.correction, Row.leapUtcTai, Row.key, NANOS_IN_DAY, erfaEnv, e2,
      Row.addNanosRaw]

/-- The hypotheses are met by the leap seconds of 2015 and 2017. -/
example : LeapTable recentDat ∧ recentDat (57753 + 1) = recentDat 57753 + 1 ∧
    recentDat (57752 + 1) = recentDat 57752 := ⟨recentDat_ok, by decide, by decide⟩

end Verif.Time.Props
