import Verif.Time.LeapLemmas

/-! # Time-scale conversion properties C07, C08 -/

namespace Verif.Time.Props

open Verif Verif.Time Verif.Time.Spec

private theorem conv_row (env : Env) (he : Sound env) (old new : String) (hold : InChain old) (hnew : InChain new)
    (hne : old ≠ new) (htu : ¬ (old = "tt" ∧ new = "utc")) (r : Row) (hr : Normal r) :
    ∃ c j k, r.correction env old new = some c ∧ toTai env old (instant r) = some j ∧
      fromTai env new j = some k ∧ Normal (r.addNanosRaw c) ∧ instant (r.addNanosRaw c) = k := by
  have b1 := fun i => abs_le.mp (he.utctai_bound i)
  have b2 := fun i => abs_le.mp (he.taiutc_bound i)
  have b3 := fun i => abs_le.mp (he.tdb_bound i)
  rcases hold with rfl | rfl | rfl | rfl <;> rcases hnew with rfl | rfl | rfl | rfl <;>
    first
    | exact absurd rfl hne
    | exact absurd ⟨rfl, rfl⟩ htu
    | skip
  all_goals
    refine ⟨_, _, _, rfl, rfl, rfl, ?_⟩
    simp only [Row.leapTaiUtc, Row.leapUtcTai, Row.ttTdb, key_eq_instant, TAI_TT_NS, TT_MINUS_TAI, if_true,
      if_false, Bool.false_eq_true, add_zero]
    generalize hi : instant r = i
  -- utc → tai
  · obtain ⟨p, q⟩ := addNanosRaw_spec (n := env.utctai i) hr (by rw [DAY_eq]; have := b1 i; omega)
      (by rw [DAY_eq]; have := b1 i; omega)
    exact ⟨p, by rw [q, hi]⟩
  -- utc → tt
  · obtain ⟨p, q⟩ := addNanosRaw_spec (n := env.utctai i + 32184000000) hr (by rw [DAY_eq]; have := b1 i; omega)
      (by rw [DAY_eq]; have := b1 i; omega)
    exact ⟨p, by rw [q, hi]; omega⟩
  -- utc → tdb
  · have e : i + (env.utctai i + 32184000000) = i + env.utctai i + 32184 * 10 ^ 6 := by omega
    rw [e]
    have hb := b1 i
    have hc := b3 (i + env.utctai i + 32184 * 10 ^ 6)
    obtain ⟨p, q⟩ := addNanosRaw_spec
      (n := env.utctai i + (env.tdb (i + env.utctai i + 32184 * 10 ^ 6) + 32184000000)) hr
      (by rw [DAY_eq]; omega) (by rw [DAY_eq]; omega)
    exact ⟨p, by rw [q, hi]; omega⟩
  -- tai → utc
  · obtain ⟨p, q⟩ := addNanosRaw_spec (n := env.taiutc i) hr (by rw [DAY_eq]; have := b2 i; omega)
      (by rw [DAY_eq]; have := b2 i; omega)
    exact ⟨p, by rw [q, hi]⟩
  -- tai → tt
  · obtain ⟨p, q⟩ := addNanosRaw_spec (n := 32184000000) hr (by rw [DAY_eq]; omega) (by rw [DAY_eq]; omega)
    exact ⟨p, by rw [q, hi]; omega⟩
  -- tai → tdb
  · have e : i + 32184000000 = i + 32184 * 10 ^ 6 := by omega
    rw [e]
    have hc := b3 (i + 32184 * 10 ^ 6)
    obtain ⟨p, q⟩ := addNanosRaw_spec (n := env.tdb (i + 32184 * 10 ^ 6) + 32184000000) hr
      (by rw [DAY_eq]; omega) (by rw [DAY_eq]; omega)
    exact ⟨p, by rw [q, hi]; omega⟩
  -- tt → tai
  · obtain ⟨p, q⟩ := addNanosRaw_spec (n := -32184000000) hr (by rw [DAY_eq]; omega) (by rw [DAY_eq]; omega)
    exact ⟨p, by rw [q, hi]; omega⟩
  -- tt → tdb
  · have e : i - 32184 * 10 ^ 6 + 32184 * 10 ^ 6 = i := by omega
    rw [e]
    have hc := b3 i
    obtain ⟨p, q⟩ := addNanosRaw_spec (n := env.tdb i) hr (by rw [DAY_eq]; omega) (by rw [DAY_eq]; omega)
    exact ⟨p, by rw [q, hi]⟩
  -- tdb → utc
  · have e : i + (-env.tdb i - 32184000000) = i - env.tdb i - 32184 * 10 ^ 6 := by omega
    rw [e]
    have hc := b3 i
    have hb := b2 (i - env.tdb i - 32184 * 10 ^ 6)
    obtain ⟨p, q⟩ := addNanosRaw_spec
      (n := -env.tdb i - 32184000000 + env.taiutc (i - env.tdb i - 32184 * 10 ^ 6)) hr
      (by rw [DAY_eq]; omega) (by rw [DAY_eq]; omega)
    exact ⟨p, by rw [q, hi]; omega⟩
  -- tdb → tai
  · have hc := b3 i
    obtain ⟨p, q⟩ := addNanosRaw_spec (n := -env.tdb i - 32184000000) hr
      (by rw [DAY_eq]; omega) (by rw [DAY_eq]; omega)
    exact ⟨p, by rw [q, hi]; omega⟩
  -- tdb → tt
  · have hc := b3 i
    obtain ⟨p, q⟩ := addNanosRaw_spec (n := -env.tdb i) hr (by rw [DAY_eq]; omega) (by rw [DAY_eq]; omega)
    exact ⟨p, by rw [q, hi]; omega⟩

private theorem rescale_chain {env : Env} {t : TS} {new : String} (hold : InChain t.scale) (hnew : InChain new)
    (hne : t.scale ≠ new) : t.rescale env new = .ok ⟨new, t.rows.map fun r =>
      match r.correction env t.scale new with
      | some c => r.addNanosRaw c
      | none => r⟩ := by
  obtain ⟨s, rows⟩ := t
  simp only at hold hne ⊢
  unfold TS.rescale
  rcases hold with rfl | rfl | rfl | rfl <;> rcases hnew with rfl | rfl | rfl | rfl <;>
    first
    | exact absurd rfl hne
    | rfl

/-- C07 (part). For every pair of chain scales except TT→UTC, `rescale` succeeds, the result carries the requested scale,
is normalised, has the same rows in the same order, and each row's instant is the one obtained by going through TAI. -/
theorem C07_rescale_through_tai (env : Env) (he : Sound env) (t : TS) (new : String) (hold : InChain t.scale)
    (hnew : InChain new) (hne : t.scale ≠ new) (htu : ¬ (t.scale = "tt" ∧ new = "utc")) (ht : NormalTS t) :
    ∃ t', t.rescale env new = .ok t' ∧ t'.scale = new ∧ t'.rows.length = t.rows.length ∧ NormalTS t' ∧
      ∀ (i : Nat) (r r' : Row), t.rows[i]? = some r → t'.rows[i]? = some r' →
        ((toTai env t.scale (instant r)).bind (fromTai env new)) = some (instant r') := by
  refine ⟨_, rescale_chain hold hnew hne, rfl, by simp, ?_, ?_⟩
  · intro r' hr'
    obtain ⟨r, hr, rfl⟩ := List.mem_map.mp hr'
    obtain ⟨c, j, k, h1, h2, h3, h4, h5⟩ := conv_row env he _ _ hold hnew hne htu r (ht r hr)
    simp only [h1]
    exact h4
  · intro i r r' hr hr'
    simp only [List.getElem?_map, hr, Option.map_some, Option.some.injEq] at hr'
    obtain ⟨c, j, k, h1, h2, h3, h4, h5⟩ := conv_row env he _ _ hold hnew hne htu r (ht r (List.mem_of_getElem? hr))
    simp only [h1] at hr'
    rw [h2]
    simp only [Option.bind_some]
    rw [h3, ← hr', h5]

/-- C07. Rescaling to the row's own scale is the identity, whatever the scale and the environment. -/
theorem C07_same_scale (env : Env) (t : TS) : t.rescale env t.scale = .ok t := by
  simp [TS.rescale]

private theorem ts_ext {a b : TS} (hs : a.scale = b.scale) (hl : a.rows.length = b.rows.length) (ha : NormalTS a)
    (hb : NormalTS b) (h : ∀ (i : Nat) (r r' : Row), a.rows[i]? = some r → b.rows[i]? = some r' → instant r = instant r') :
    a = b := by
  obtain ⟨s, rows⟩ := a
  obtain ⟨s', rows'⟩ := b
  simp only at hs hl h
  subst hs
  congr 1
  apply List.ext_getElem?
  intro i
  by_cases hi : i < rows.length
  · rw [List.getElem?_eq_getElem hi, List.getElem?_eq_getElem (by omega : i < rows'.length)]
    congr 1
    exact instant_inj (ha _ (List.getElem_mem hi)) (hb _ (List.getElem_mem _))
      (h i _ _ (List.getElem?_eq_getElem hi) (List.getElem?_eq_getElem _))
  · rw [List.getElem?_eq_none (by omega), List.getElem?_eq_none (by omega)]

/-- C07. Exact round trips: UTC, TAI and TT restore the original table exactly after any chain scale other than TDB;
`(tt, utc)` is excluded in the outward direction only (see `C07_tt_utc_false`). -/
theorem C07_round_trip_exact (env : Env) (he : Sound env) (t : TS) (new : String) (hnew : InChain new)
    (hold : t.scale = "tai" ∧ new ≠ "utc" ∨ t.scale = "utc" ∧ new ≠ "tt" ∨ t.scale = "tt" ∧ new = "tai")
    (htdb : new ≠ "tdb") (ht : NormalTS t) :
    ∃ t', t.rescale env new = .ok t' ∧ t'.rescale env t.scale = .ok t := by
  by_cases hne : t.scale = new
  · subst hne
    exact ⟨t, C07_same_scale env t, C07_same_scale env t⟩
  have hold' : InChain t.scale := by
    rcases hold with ⟨h, _⟩ | ⟨h, _⟩ | ⟨h, _⟩ <;> simp [InChain, h]
  have h1 : ¬ (t.scale = "tt" ∧ new = "utc") := by
    rintro ⟨h, rfl⟩
    rcases hold with ⟨h', _⟩ | ⟨h', _⟩ | ⟨_, h'⟩ <;> simp_all
  have h2 : ¬ (new = "tt" ∧ t.scale = "utc") := by
    rintro ⟨rfl, h⟩
    rcases hold with ⟨h', _⟩ | ⟨_, h'⟩ | ⟨h', _⟩ <;> simp_all
  obtain ⟨t', e1, s1, l1, n1, f1⟩ := C07_rescale_through_tai env he t new hold' hnew hne h1 ht
  obtain ⟨t'', e2, s2, l2, n2, f2⟩ := C07_rescale_through_tai env he t' t.scale (by rw [s1]; exact hnew) hold'
    (by rw [s1]; exact Ne.symm hne) (by rw [s1]; exact h2) n1
  refine ⟨t', e1, ?_⟩
  rw [e2]
  congr 1
  apply ts_ext s2 (by omega) n2 ht
  intro i r'' r hr'' hr
  have hi : i < t'.rows.length := by
    have := (List.getElem?_eq_some_iff.mp hr).1
    omega
  have g1 := f1 i r _ hr (List.getElem?_eq_getElem hi)
  have g2 := f2 i _ r'' (List.getElem?_eq_getElem hi) hr''
  rw [s1] at g2
  generalize instant t'.rows[i] = m at g1 g2
  rcases hold with ⟨h, hu⟩ | ⟨h, hu⟩ | ⟨h, rfl⟩
  · rw [h] at g1 g2
    rcases hnew with rfl | rfl | rfl | rfl
    · exact absurd rfl hu
    · simp_all [toTai, fromTai]
    · simp only [toTai, fromTai, Option.bind_some, Option.some.injEq] at g1 g2; omega
    · exact absurd rfl htdb
  · rw [h] at g1 g2
    rcases hnew with rfl | rfl | rfl | rfl
    · exact absurd h hne
    · simp only [toTai, fromTai, Option.bind_some, Option.some.injEq] at g1 g2
      rw [← g1, he.leap_inverse] at g2
      omega
    · exact absurd rfl hu
    · exact absurd rfl htdb
  · rw [h] at g1 g2
    simp only [toTai, fromTai, Option.bind_some, Option.some.injEq] at g1 g2
    omega

/-- C07. Round trips through TDB: TT→TDB→TT and TAI→TDB→TAI come back within one nanosecond. -/
theorem C07_tdb_round_trip (env : Env) (he : Sound env) (t : TS) (hold : t.scale = "tt" ∨ t.scale = "tai")
    (ht : NormalTS t) :
    ∃ t' t'', t.rescale env "tdb" = .ok t' ∧ t'.rescale env t.scale = .ok t'' ∧ t''.rows.length = t.rows.length ∧
      ∀ (i : Nat) (r r'' : Row), t.rows[i]? = some r → t''.rows[i]? = some r'' → |instant r'' - instant r| ≤ 1 := by
  have hold' : InChain t.scale := by rcases hold with h | h <;> simp [InChain, h]
  have hne : t.scale ≠ "tdb" := by rcases hold with h | h <;> simp [h]
  obtain ⟨t', e1, s1, l1, n1, f1⟩ := C07_rescale_through_tai env he t "tdb" hold' (by simp [InChain]) hne
    (by simp) ht
  obtain ⟨t'', e2, s2, l2, n2, f2⟩ := C07_rescale_through_tai env he t' t.scale (by rw [s1]; simp [InChain]) hold'
    (by rw [s1]; exact Ne.symm hne) (by rw [s1]; simp) n1
  refine ⟨t', t'', e1, e2, by omega, ?_⟩
  intro i r r'' hr hr''
  have hi : i < t'.rows.length := by
    have := (List.getElem?_eq_some_iff.mp hr).1
    omega
  have g1 := f1 i r _ hr (List.getElem?_eq_getElem hi)
  have g2 := f2 i _ r'' (List.getElem?_eq_getElem hi) hr''
  rw [s1] at g2
  generalize instant t'.rows[i] = m at g1 g2
  rcases hold with h | h
  · rw [h] at g1 g2
    simp only [toTai, fromTai, Option.bind_some, Option.some.injEq, sub_add_cancel] at g1 g2
    have := he.tdb_stable (instant r)
    rw [g1] at this
    rw [abs_le] at *
    omega
  · rw [h] at g1 g2
    simp only [toTai, fromTai, Option.bind_some, Option.some.injEq] at g1 g2
    have := he.tdb_stable (instant r + TT_MINUS_TAI)
    rw [g1] at this
    rw [abs_le] at *
    omega

/-- C07. Path independence: going to any chain scale by way of TAI or TT gives the same table as going there directly,
provided neither the direct nor the second leg is the defective TT→UTC conversion. -/
theorem C07_path_independent (env : Env) (he : Sound env) (t : TS) (mid new : String) (hold : InChain t.scale)
    (hmid : mid = "tai" ∨ mid = "tt") (hnew : InChain new)
    (h1 : ¬ (t.scale = "tt" ∧ new = "utc")) (h2 : ¬ (mid = "tt" ∧ new = "utc"))
    (hback : t.scale ≠ new) (ht : NormalTS t) :
    ∃ t', t.rescale env mid = .ok t' ∧ t'.rescale env new = t.rescale env new := by
  have hmid' : InChain mid := by rcases hmid with h | h <;> simp [InChain, h]
  by_cases hne : t.scale = mid
  · subst hne
    exact ⟨t, C07_same_scale env t, rfl⟩
  have hmu : ¬ (t.scale = "tt" ∧ mid = "utc") := by rintro ⟨_, rfl⟩; rcases hmid with h | h <;> simp at h
  obtain ⟨t', e1, s1, l1, n1, f1⟩ := C07_rescale_through_tai env he t mid hold hmid' hne hmu ht
  refine ⟨t', e1, ?_⟩
  by_cases hmn : mid = new
  · subst hmn
    rw [e1, ← s1]
    exact C07_same_scale env t'
  obtain ⟨t'', e2, s2, l2, n2, f2⟩ := C07_rescale_through_tai env he t' new (by rw [s1]; exact hmid') hnew
    (by rw [s1]; exact hmn) (by rw [s1]; exact h2) n1
  obtain ⟨t3, e3, s3, l3, n3, f3⟩ := C07_rescale_through_tai env he t new hold hnew hback h1 ht
  rw [e2, e3]
  congr 1
  apply ts_ext (by rw [s2, s3]) (by omega) n2 n3
  intro i r'' r3 hr'' hr3
  have hi : i < t.rows.length := by
    have := (List.getElem?_eq_some_iff.mp hr3).1
    omega
  have hi' : i < t'.rows.length := by omega
  have g1 := f1 i _ _ (List.getElem?_eq_getElem hi) (List.getElem?_eq_getElem hi')
  have g2 := f2 i _ r'' (List.getElem?_eq_getElem hi') hr''
  have g3 := f3 i _ r3 (List.getElem?_eq_getElem hi) hr3
  rw [s1] at g2
  generalize instant t'.rows[i] = m at g1 g2
  cases hx : toTai env t.scale (instant t.rows[i]) with
  | none => rw [hx] at g1; simp at g1
  | some j =>
    rw [hx] at g1 g3
    simp only [Option.bind_some] at g1 g3
    have hm : toTai env mid m = some j := by
      rcases hmid with rfl | rfl
      · simp only [fromTai, toTai, Option.some.injEq] at g1 ⊢; omega
      · simp only [fromTai, toTai, Option.some.injEq] at g1 ⊢; omega
    rw [hm] at g2
    simp only [Option.bind_some] at g2
    rw [g2] at g3
    simpa using g3

/-- C07, the one exceptional pair. TT→UTC always succeeds with normalised rows, and a row agrees with TT→TAI→UTC exactly
if the leap-second lookup gives the same answer at the TT and at the TAI reading of the instant, that is, outside the
32.184 s after each leap second; otherwise it is off by the difference of the two lookups. -/
theorem C07_tt_utc (env : Env) (he : Sound env) (t : TS) (hs : t.scale = "tt") (ht : NormalTS t) :
    ∃ t', t.rescale env "utc" = .ok t' ∧ t'.scale = "utc" ∧ t'.rows.length = t.rows.length ∧ NormalTS t' ∧
      ∀ (i : Nat) (r r' : Row), t.rows[i]? = some r → t'.rows[i]? = some r' →
        (((toTai env "tt" (instant r)).bind (fromTai env "utc")) = some (instant r') ↔
          env.taiutc (instant r) = env.taiutc (instant r - TT_MINUS_TAI)) ∧
        ((toTai env "tt" (instant r)).bind (fromTai env "utc")) =
          some (instant r' + (env.taiutc (instant r - TT_MINUS_TAI) - env.taiutc (instant r))) := by
  have hold : InChain t.scale := by simp [InChain, hs]
  have key : ∀ r ∈ t.rows, Normal (r.addNanosRaw (env.taiutc (instant r) - 32184000000)) ∧
      instant (r.addNanosRaw (env.taiutc (instant r) - 32184000000))
        = instant r + (env.taiutc (instant r) - 32184000000) := by
    intro r hr
    have hb := abs_le.mp (he.taiutc_bound (instant r))
    exact addNanosRaw_spec (ht r hr) (by rw [DAY_eq]; omega) (by rw [DAY_eq]; omega)
  have hc : ∀ r : Row, r.correction env "tt" "utc" = some (env.taiutc (instant r) - 32184000000) := by
    intro r
    simp [Row.correction, Row.leapTaiUtc, key_eq_instant, TAI_TT_NS]
  refine ⟨_, rescale_chain hold (by simp [InChain]) (by simp [hs]), rfl, by simp, ?_, ?_⟩
  · intro r' hr'
    obtain ⟨r, hr, rfl⟩ := List.mem_map.mp hr'
    rw [hs]
    simp only [hc]
    exact (key r hr).1
  · intro i r r' hr hr'
    have hrm := List.mem_of_getElem? hr
    simp only [List.getElem?_map, hr, Option.map_some, Option.some.injEq, hs, hc] at hr'
    simp only [toTai, fromTai, Option.bind_some, Option.some.injEq]
    rw [← hr', (key r hrm).2]
    simp only [TT_MINUS_TAI]
    constructor
    · constructor <;> intro h <;> omega
    · omega

/-- C07 fails as stated for TT→UTC: shortly before noon of 2016-12-31, which ends in a leap second, the lookup at the TT
reading already gives the larger offset, and the direct conversion differs from TT→TAI→UTC by one second. -/
theorem C07_tt_utc_false (astropy : String → String → Row → Row) :
    ∃ t : TS, t.scale = "tt" ∧ NormalTS t ∧ ∃ a b,
      t.rescale (erfaEnv recentDat astropy) "utc" = .ok a ∧
      ((t.rescale (erfaEnv recentDat astropy) "tai").bind fun m => m.rescale (erfaEnv recentDat astropy) "utc")
        = .ok b ∧ a.rows = [⟨57753, 43189000000000⟩] ∧ b.rows = [⟨57753, 43190000000000⟩] := by
  have e1 : leapSecondsCorrection (erfaTaiUtc recentDat) 4989902458184000000 = -37000000000 := by decide +kernel
  have e2 : leapSecondsCorrection (erfaTaiUtc recentDat) 4989902426000000000 = -36000000000 := by decide +kernel
  refine ⟨⟨"tt", [⟨57753, 43258184000000⟩]⟩, rfl, ?_, ⟨"utc", [⟨57753, 43189000000000⟩]⟩,
    ⟨"utc", [⟨57753, 43190000000000⟩]⟩, ?_, ?_, rfl, rfl⟩
  · intro r hr
    simp only [List.mem_singleton] at hr
    subst hr
    simp [Normal, DAY]
  · simp [TS.rescale, correctionAssigned, Row.correction, Row.leapTaiUtc, Row.key, NANOS_IN_DAY, erfaEnv, e1,
      Row.addNanosRaw, TAI_TT_NS]
  · simp [TS.rescale, correctionAssigned, Row.correction, Row.leapTaiUtc, Row.key, NANOS_IN_DAY, erfaEnv, e2,
      Row.addNanosRaw, TAI_TT_NS, Except.bind]

/-- The assumptions are met by ERFA with real leap seconds together with the code's own TDB series. -/
example (astropy) : Sound (erfaEnv recentDat astropy) := erfaEnv_sound _ _ recentDat_ok

/-- C07. With the code's TDB series and any table of leap seconds the TDB round trip is within 1 ns. -/
theorem C07_tdb_series_round_trip (dat : Int → Int) (astropy) (h : LeapTable dat) (rows : List Row)
    (ht : ∀ r ∈ rows, Normal r) :
    ∃ t' t'', (⟨"tt", rows⟩ : TS).rescale (erfaEnv dat astropy) "tdb" = .ok t' ∧
      t'.rescale (erfaEnv dat astropy) "tt" = .ok t'' ∧ t''.rows.length = rows.length ∧
      ∀ (i : Nat) (r r'' : Row), rows[i]? = some r → t''.rows[i]? = some r'' → |instant r'' - instant r| ≤ 1 :=
  C07_tdb_round_trip _ (erfaEnv_sound dat astropy h) ⟨"tt", rows⟩ (Or.inl rfl) ht

/-! ## C08 -/

/-- C08, what holds: from TT, TAI, TDB and UT1 an undocumented scale raises ValueError. -/
theorem C08_unknown_scale (env : Env) (t : TS) (s : String) (hs : ¬ Documented s)
    (ht : t.scale = "tt" ∨ t.scale = "tai" ∨ t.scale = "tdb" ∨ t.scale = "ut1") :
    t.rescale env s = .error .valueError := by
  simp only [Documented, not_or] at hs
  obtain ⟨h1, h2, h3, h4, h5⟩ := hs
  obtain ⟨sc, rows⟩ := t
  simp only at ht
  rcases ht with rfl | rfl | rfl | rfl <;>
    simp [TS.rescale, TS.rescaleAstropy, correctionAssigned, Row.correction, knownScale, h1, h2, h3, h4, h5,
      Ne.symm h1, Ne.symm h2, Ne.symm h3, Ne.symm h5]

/-- C08 fails as stated: from UTC any string is accepted, and the rows come back holding TAI under that label. -/
theorem C08_utc_accepts_anything (env : Env) (rows : List Row) (s : String) (hs : ¬ Documented s) :
    ∃ t', (⟨"utc", rows⟩ : TS).rescale env s = .ok t' ∧ t'.scale = s ∧
      (⟨"utc", rows⟩ : TS).rescale env "tai" = .ok ⟨"tai", t'.rows⟩ := by
  simp only [Documented, not_or] at hs
  obtain ⟨h1, h2, h3, h4, h5⟩ := hs
  have e : ∀ r : Row, r.correction env "utc" s = r.correction env "utc" "tai" := by
    intro r; simp [Row.correction, h2, h3]
  refine ⟨⟨s, rows.map fun r => match r.correction env "utc" s with
      | some c => r.addNanosRaw c
      | none => r⟩, ?_, rfl, ?_⟩
  · have : correctionAssigned "utc" s = true := by simp [correctionAssigned, Row.correction, h2, h3]
    simp [TS.rescale, h5, Ne.symm h4, this]
    exact fun _ _ => rfl
  · simp only [e]
    rfl

example : ¬ Documented "gps" := by simp [Documented]

end Verif.Time.Props
