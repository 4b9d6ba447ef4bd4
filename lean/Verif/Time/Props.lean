import Verif.Time.Lemmas

/-!
# Timestamp properties C01–C06, C09, C10, C73

Each theorem is stated with the vocabulary of `Verif.Time.Spec`.
-/

namespace Verif.Time.Props

open Verif Verif.Time Verif.Time.Spec

/-! ## C01 -/

/-- C01. In-range amounts: `add_nanos` succeeds, keeps the scale and the number of rows, and every row moves by exactly
the requested number of nanoseconds and stays normalised. An array of amounts has one for every row and at least one. -/
theorem C01_add_nanos_exact (t : TS) (a : Arg Int) (ht : NormalTS t)
    (hlen : ∀ as, a = .array as → as.length = t.rows.length ∧ as ≠ [])
    (hrange : ∀ i v, argAt a i = some v → -DAY ≤ v ∧ v < DAY) :
    ∃ t', t.addNanos a = .ok t' ∧ t'.scale = t.scale ∧ t'.rows.length = t.rows.length ∧ NormalTS t' ∧
      ∀ (i : Nat) (r r' : Row), t.rows[i]? = some r → t'.rows[i]? = some r' →
        ∃ v, argAt a i = some v ∧ instant r' = instant r + v := by
  have hall : a.all inAddRange = true := by
    cases a with
    | scalar v => exact (inAddRange_iff v).mpr (hrange 0 v rfl)
    | array as =>
      simp only [Arg.all, Bool.and_eq_true, List.all_eq_true]
      refine ⟨by simpa using (hlen as rfl).2, fun v hv => ?_⟩
      obtain ⟨i, hi⟩ := List.mem_iff_getElem?.mp hv
      exact (inAddRange_iff v).mpr (hrange i v hi)
  have hex : ∃ ns, a.expand t.rows.length = .ok ns := by
    cases a with
    | scalar v => exact ⟨_, rfl⟩
    | array as => exact ⟨as, by simp [Arg.expand, (hlen as rfl).1]⟩
  obtain ⟨ns, hns⟩ := hex
  have hok : ∃ t', t.addNanos a = .ok t' := by
    unfold TS.addNanos
    rw [hall, hns]
    exact ⟨_, rfl⟩
  obtain ⟨t', h⟩ := hok
  exact ⟨t', h, addNanos_ok ht h⟩

/-- C01, rejection: if any requested amount is outside [-1 day, 1 day), `add_nanos` raises ValueError. -/
theorem C01_add_nanos_rejects (t : TS) (a : Arg Int) (i : Nat) (v : Int) (hv : argAt a i = some v)
    (hbad : v < -DAY ∨ DAY ≤ v) : t.addNanos a = .error .valueError := by
  have hall : a.all inAddRange = false := by
    by_contra h
    have := (inAddRange_iff v).mp (argAll_at (by simpa using h) hv)
    omega
  simp [TS.addNanos, hall]

/-- C01. An array of amounts in range that has not one amount per row is refused, and so is an array of days. -/
theorem C01_length (t : TS) (as : List Int) (hlen : as.length ≠ t.rows.length) :
    (as ≠ [] → (∀ v ∈ as, -DAY ≤ v ∧ v < DAY) → t.addNanos (.array as) = .error .arrowInvalid) ∧ t.addDays (.array as) = .error .arrowInvalid := by
  constructor
  · intro h0 h
    have hall : (Arg.array as).all inAddRange = true := by
      show (!as.isEmpty && as.all inAddRange) = true
      rw [Bool.and_eq_true, List.all_eq_true]
      exact ⟨by simpa using h0, fun v hv => (inAddRange_iff v).mpr (h v hv)⟩
    simp [TS.addNanos, hall, Arg.expand, hlen]
  · simp [TS.addDays, Arg.expand, hlen]

/-- C01. Not so for no rows at all: an empty array of amounts is refused as out of range, also by an empty table and in every unit, though
an empty array of days is accepted there. -/
theorem C01_empty_false (t : TS) :
    t.addNanos (.array []) = .error .valueError ∧ t.addSeconds (.array []) = .error .valueError ∧
    t.addMillis (.array []) = .error .valueError ∧ t.addMicros (.array []) = .error .valueError ∧
    (t.rows = [] → t.addDays (.array []) = .ok t ∧ t.addFractionalDays (.array []) = .error .valueError) := by
  refine ⟨rfl, rfl, rfl, rfl, fun h => ?_⟩
  obtain ⟨s, rows⟩ := t
  cases h
  exact ⟨rfl, rfl⟩

/-- C01, whole units: seconds, milliseconds and microseconds given as integers shift by exactly that many units,
`add_days` by whole days. -/
theorem C01_units_exact (t : TS) (ht : NormalTS t) (n : Int) :
    (-DAY ≤ n * 1000000000 ∧ n * 1000000000 < DAY → ∃ t', t.addSeconds (.scalar n) = .ok t' ∧ NormalTS t' ∧
        ∀ (i : Nat) (r r' : Row), t.rows[i]? = some r → t'.rows[i]? = some r' → instant r' = instant r + n * 1000000000) ∧
    (-DAY ≤ n * 1000000 ∧ n * 1000000 < DAY → ∃ t', t.addMillis (.scalar n) = .ok t' ∧ NormalTS t' ∧
        ∀ (i : Nat) (r r' : Row), t.rows[i]? = some r → t'.rows[i]? = some r' → instant r' = instant r + n * 1000000) ∧
    (-DAY ≤ n * 1000 ∧ n * 1000 < DAY → ∃ t', t.addMicros (.scalar n) = .ok t' ∧ NormalTS t' ∧
        ∀ (i : Nat) (r r' : Row), t.rows[i]? = some r → t'.rows[i]? = some r' → instant r' = instant r + n * 1000) ∧
    (∃ t', t.addDays (.scalar n) = .ok t' ∧ NormalTS t' ∧
        ∀ (i : Nat) (r r' : Row), t.rows[i]? = some r → t'.rows[i]? = some r' → instant r' = instant r + n * DAY) := by
  have aux : ∀ m : Int, -DAY ≤ m ∧ m < DAY → ∃ t', t.addNanos (.scalar m) = .ok t' ∧ NormalTS t' ∧
      ∀ (i : Nat) (r r' : Row), t.rows[i]? = some r → t'.rows[i]? = some r' → instant r' = instant r + m := by
    intro m hm
    obtain ⟨t', h, _, _, h3, h4⟩ := C01_add_nanos_exact t (.scalar m) ht (by simp)
      (by intro i v hv; simp only [argAt, Option.some.injEq] at hv; subst hv; exact hm)
    refine ⟨t', h, h3, fun i r r' hr hr' => ?_⟩
    obtain ⟨v, hv, e⟩ := h4 i r r' hr hr'
    simp only [argAt, Option.some.injEq] at hv
    rw [e, hv]
  refine ⟨fun h => ?_, fun h => ?_, fun h => ?_, ?_⟩
  · have e : roundHalfEven ((n : ℚ) * 1000000000) = n * 1000000000 := by
      have := roundHalfEven_int (n * 1000000000); push_cast at this; exact this
    have := aux _ h
    simpa [TS.addSeconds, Arg.map, e] using this
  · have e : roundHalfEven ((n : ℚ) * 1000000) = n * 1000000 := by
      have := roundHalfEven_int (n * 1000000); push_cast at this; exact this
    have := aux _ h
    simpa [TS.addMillis, Arg.map, e] using this
  · have e : roundHalfEven ((n : ℚ) * 1000) = n * 1000 := by
      have := roundHalfEven_int (n * 1000); push_cast at this; exact this
    have := aux _ h
    simpa [TS.addMicros, Arg.map, e] using this
  · have h : ∃ t', t.addDays (.scalar n) = .ok t' := ⟨_, rfl⟩
    obtain ⟨t', h⟩ := h
    obtain ⟨_, _, h3, h4⟩ := addDays_ok ht h
    refine ⟨t', h, h3, fun i r r' hr hr' => ?_⟩
    obtain ⟨v, hv, e⟩ := h4 i r r' hr hr'
    simp only [argAt, Option.some.injEq] at hv
    rw [e, hv]

/-- Amounts per row, also fractional ones: the move is the nearest whole number of nanoseconds, so a whole number exactly. -/
theorem C01_units_rows (t : TS) (ht : NormalTS t) (a : Arg ℚ) (hlen : ∀ as, a = .array as → as.length = t.rows.length ∧ as ≠ [])
    (u : ℚ) (f : TS → Arg ℚ → Except PyErr TS)
    (hf : (u = 1000000000 ∧ f = TS.addSeconds) ∨ (u = 1000000 ∧ f = TS.addMillis) ∨ (u = 1000 ∧ f = TS.addMicros))
    (hrange : ∀ i v, argAt a i = some v → -(DAY : ℚ) ≤ v * u ∧ v * u ≤ DAY - 1) :
    ∃ t', f t a = .ok t' ∧ t'.scale = t.scale ∧ t'.rows.length = t.rows.length ∧ NormalTS t' ∧
      ∀ (i : Nat) (r r' : Row), t.rows[i]? = some r → t'.rows[i]? = some r' →
        ∃ v, argAt a i = some v ∧ |(instant r' : ℚ) - (instant r + v * u)| ≤ 1 / 2 ∧
          ∀ n : Int, v * u = n → instant r' = instant r + n := by
  have hat : ∀ (i : Nat) (w : Int), argAt (a.map fun x => roundHalfEven (x * u)) i = some w →
      ∃ v, argAt a i = some v ∧ w = roundHalfEven (v * u) := by
    intro i w hw
    cases a with
    | scalar x =>
      simp only [Arg.map, argAt, Option.some.injEq] at hw
      exact ⟨x, rfl, hw.symm⟩
    | array xs =>
      simp only [Arg.map, argAt, List.getElem?_map, Option.map_eq_some_iff] at hw
      obtain ⟨x, hx, e⟩ := hw
      exact ⟨x, hx, e.symm⟩
  have hdef : f t a = t.addNanos (a.map fun x => roundHalfEven (x * u)) := by
    rcases hf with ⟨rfl, rfl⟩ | ⟨rfl, rfl⟩ | ⟨rfl, rfl⟩ <;> rfl
  obtain ⟨t', h, h1, h2, h3, h4⟩ := C01_add_nanos_exact t (a.map fun x => roundHalfEven (x * u)) ht
    (by
      intro as has
      cases a with
      | scalar x => simp [Arg.map] at has
      | array xs =>
        simp only [Arg.map, Arg.array.injEq] at has
        subst has
        obtain ⟨e1, e2⟩ := hlen xs rfl
        exact ⟨by simpa using e1, by simpa using e2⟩)
    (by
      intro i w hw
      obtain ⟨v, hv, rfl⟩ := hat i w hw
      obtain ⟨l1, l2⟩ := hrange i v hv
      obtain ⟨n1, n2⟩ := abs_le.mp (roundHalfEven_near (v * u))
      constructor
      · have : ((-DAY - 1 : Int) : ℚ) < (roundHalfEven (v * u) : Int) := by push_cast; linarith
        have := Int.cast_lt.mp this
        omega
      · have : ((roundHalfEven (v * u) : Int) : ℚ) < (DAY : Int) := by linarith
        exact Int.cast_lt.mp this)
  refine ⟨t', hdef.trans h, h1, h2, h3, fun i r r' hr hr' => ?_⟩
  obtain ⟨w, hw, e⟩ := h4 i r r' hr hr'
  obtain ⟨v, hv, rfl⟩ := hat i w hw
  refine ⟨v, hv, ?_, ?_⟩
  · have := roundHalfEven_near (v * u)
    rw [e]
    push_cast
    have e2 : ((instant r : ℚ) + (roundHalfEven (v * u) : Int)) - (instant r + v * u) = (roundHalfEven (v * u) : Int) - v * u := by ring
    rw [e2]
    exact this
  · intro n hn
    rw [e, hn, roundHalfEven_int]

example : (⟨"tdb", [⟨59000, 86399999999999⟩, ⟨59000, 0⟩]⟩ : TS).addSeconds (.array [1 / 2, -3])
    = .ok ⟨"tdb", [⟨59001, 499999999⟩, ⟨58999, 86397000000000⟩]⟩ := by decide +kernel

/-- The hypotheses of C01 are met by a table one nanosecond before midnight, and the carry happens. -/
example : NormalTS ⟨"tdb", [⟨59000, 86399999999999⟩, ⟨59000, 0⟩]⟩ ∧
    (⟨"tdb", [⟨59000, 86399999999999⟩, ⟨59000, 0⟩]⟩ : TS).addNanos (.array [1, -1])
      = .ok ⟨"tdb", [⟨59001, 0⟩, ⟨58999, 86399999999999⟩]⟩ := by
  refine ⟨?_, by decide⟩
  intro r hr
  simp only [List.mem_cons, List.not_mem_nil, or_false] at hr
  rcases hr with rfl | rfl <;> simp [Normal, DAY]

/-! ## C02 -/

/-- C02. Any history of arithmetic calls that does not raise keeps every row normalised and moves its instant as the
individual calls promise. -/
theorem C02_history (t t' : TS) (ops : List Op) (ht : NormalTS t) (h : t.run ops = .ok t') :
    t'.scale = t.scale ∧ t'.rows.length = t.rows.length ∧ NormalTS t' ∧
    ∀ (i : Nat) (r r' : Row), t.rows[i]? = some r → t'.rows[i]? = some r' → Chain ops i (instant r) (instant r') :=
  run_ok ht h

/-- C02, fractional days never fail: day and remainder are split so that the internal range check always passes. -/
theorem C02_fractional_days_total (t : TS) (x : ℚ) : ∃ t', t.addFractionalDays (.scalar x) = .ok t' := by
  obtain ⟨h1, h2, _, _⟩ := splitFractionalDays_spec x
  have hr : inAddRange (splitFractionalDays x).2 = true :=
    (inAddRange_iff _).mpr ⟨by rw [DAY_eq]; omega, h2⟩
  simp [TS.addFractionalDays, TS.addDays, TS.addNanos, Arg.map, Arg.expand, Arg.all, hr]

example : (⟨"utc", [⟨0, 1⟩]⟩ : TS).run [.days (.scalar 2), .nanos (.scalar (-2)), .rounded "s", .rounded "us"]
    = .ok ⟨"utc", [⟨1, 86399000000000⟩]⟩ := by decide

/-! ## C03 -/

/-- C03. `difference` of normalised rows is the exact instant difference in normalised form, and adding it back to the
subtrahend restores the minuend. -/
theorem C03_difference_exact (a b : Row) (ha : Normal a) (hb : Normal b) :
    0 ≤ (a.diff b).2 ∧ (a.diff b).2 < DAY ∧ (a.diff b).1 * DAY + (a.diff b).2 = instant a - instant b := by
  simp only [Normal, instant, DAY_eq] at *
  unfold Row.diff
  simp only [NANOS_eq]
  by_cases c1 : a.nanos - b.nanos ≥ 86400000000000
  · simp only [c1, if_true]; omega
  · by_cases c2 : a.nanos - b.nanos < 0
    · simp only [c1, c2, if_true, if_false]; omega
    · simp only [c1, c2, if_false]; omega

/-- C03, inverse law on whole tables: `t2.add_days(d).add_nanos(n) = t1` where `(d, n) = t1.difference(t2)`. -/
theorem C03_add_back (t1 t2 : TS) (ds : List (Int × Int)) (h1 : NormalTS t1) (h2 : NormalTS t2) (h0 : t1.rows ≠ [])
    (h : t1.difference t2 = .ok ds) :
    (t2.addDays (.array (ds.map (·.1)))).bind (fun t => t.addNanos (.array (ds.map (·.2)))) = .ok t1 := by
  unfold TS.difference at h
  split at h
  · cases h
  · rename_i hs
    split at h
    · cases h
    · rename_i hl
      simp only [ne_eq, Decidable.not_not] at hs hl
      simp only [Except.ok.injEq] at h
      subst h
      have hall : (Arg.array ((List.zipWith Row.diff t1.rows t2.rows).map (·.2))).all inAddRange = true := by
        simp only [Arg.all, Bool.and_eq_true, List.all_eq_true, List.mem_map]
        constructor
        · have : (List.map (fun x : Int × Int => x.2) (List.zipWith Row.diff t1.rows t2.rows)).length ≠ 0 := by
            have := List.length_pos_iff.mpr h0
            simp only [List.length_map, List.length_zipWith]
            omega
          cases hm : List.map (fun x : Int × Int => x.2) (List.zipWith Row.diff t1.rows t2.rows) with
          | nil => rw [hm] at this; exact absurd rfl this
          | cons => rfl
        rintro v ⟨d, hd, rfl⟩
        obtain ⟨i, hi⟩ := List.mem_iff_getElem?.mp hd
        rw [List.getElem?_zipWith] at hi
        cases e1 : t1.rows[i]? with
        | none => rw [e1] at hi; simp at hi
        | some a =>
          cases e2 : t2.rows[i]? with
          | none => rw [e1, e2] at hi; simp at hi
          | some b =>
            rw [e1, e2] at hi
            simp only [Option.some.injEq] at hi
            obtain ⟨q1, q2, _⟩ := C03_difference_exact a b (h1 a (List.mem_of_getElem? e1)) (h2 b (List.mem_of_getElem? e2))
            rw [inAddRange_iff, ← hi]
            exact ⟨by rw [DAY_eq]; omega, q2⟩
      have hE1 : (Arg.array ((List.zipWith Row.diff t1.rows t2.rows).map (·.1))).expand t2.rows.length
          = .ok ((List.zipWith Row.diff t1.rows t2.rows).map (·.1)) := by
        simp [Arg.expand, hl]
      have hd : ∃ tm, t2.addDays (.array ((List.zipWith Row.diff t1.rows t2.rows).map (·.1))) = .ok tm := by
        unfold TS.addDays; rw [hE1]; exact ⟨_, rfl⟩
      obtain ⟨tm, hd⟩ := hd
      obtain ⟨a1, a2, a3, a4⟩ := addDays_ok h2 hd
      rw [hd]
      simp only [Except.bind]
      have hE2 : (Arg.array ((List.zipWith Row.diff t1.rows t2.rows).map (·.2))).expand tm.rows.length
          = .ok ((List.zipWith Row.diff t1.rows t2.rows).map (·.2)) := by
        simp [Arg.expand, hl, a2]
      have hn : ∃ tf, tm.addNanos (.array ((List.zipWith Row.diff t1.rows t2.rows).map (·.2))) = .ok tf := by
        unfold TS.addNanos; rw [hE2, hall]; exact ⟨_, rfl⟩
      obtain ⟨tf, hn⟩ := hn
      obtain ⟨b1, b2, b3, b4⟩ := addNanos_ok a3 hn
      rw [hn]
      congr 1
      have hrows : tf.rows = t1.rows := by
        apply List.ext_getElem?
        intro i
        by_cases hi : i < t1.rows.length
        · have hi2 : i < t2.rows.length := by omega
          have him : i < tm.rows.length := by omega
          have hif : i < tf.rows.length := by omega
          rw [List.getElem?_eq_getElem hi, List.getElem?_eq_getElem hif]
          congr 1
          obtain ⟨v1, q1, e1⟩ := a4 i _ _ (List.getElem?_eq_getElem hi2) (List.getElem?_eq_getElem him)
          obtain ⟨v2, q2, e2⟩ := b4 i _ _ (List.getElem?_eq_getElem him) (List.getElem?_eq_getElem hif)
          have n1 := h1 _ (List.getElem_mem hi)
          have n2 := h2 _ (List.getElem_mem hi2)
          obtain ⟨_, _, e3⟩ := C03_difference_exact t1.rows[i] t2.rows[i] n1 n2
          apply instant_inj (b3 _ (List.getElem_mem hif)) n1
          simp only [argAt, List.getElem?_map, List.getElem?_zipWith, List.getElem?_eq_getElem hi,
            List.getElem?_eq_getElem hi2, Option.map_some, Option.some.injEq] at q1 q2
          rw [e2, e1, ← q1, ← q2]
          omega
        · rw [List.getElem?_eq_none (by omega), List.getElem?_eq_none (by omega)]
      cases tf; cases t1
      simp_all

/-- C03: two tables of one scale and length have a difference, row by row. -/
theorem C03_difference_rows (t1 t2 : TS) (h1 : NormalTS t1) (h2 : NormalTS t2) (hs : t1.scale = t2.scale) :
    (t1.rows.length = t2.rows.length → ∃ ds, t1.difference t2 = .ok ds ∧ ds.length = t1.rows.length ∧
      ∀ (i : Nat) (a b : Row), t1.rows[i]? = some a → t2.rows[i]? = some b →
        ∃ d, ds[i]? = some d ∧ 0 ≤ d.2 ∧ d.2 < DAY ∧ d.1 * DAY + d.2 = instant a - instant b) ∧
    (t1.rows.length ≠ t2.rows.length → t1.difference t2 = .error .arrowInvalid) := by
  constructor
  · intro hl
    refine ⟨List.zipWith Row.diff t1.rows t2.rows, by simp [TS.difference, hs, hl], by simp [hl], ?_⟩
    intro i a b ha hb
    refine ⟨a.diff b, by simp [List.getElem?_zipWith, ha, hb], ?_⟩
    exact C03_difference_exact a b (h1 a (List.mem_of_getElem? ha)) (h2 b (List.mem_of_getElem? hb))
  · intro hl
    simp [TS.difference, hs, hl]

/-- C03: the difference from one row. -/
theorem C03_difference_scalar (t : TS) (ht : NormalTS t) (b : Row) (hb : Normal b) :
    (t.differenceScalar b).length = t.rows.length ∧
    ∀ (i : Nat) (a : Row), t.rows[i]? = some a →
      ∃ d, (t.differenceScalar b)[i]? = some d ∧ 0 ≤ d.2 ∧ d.2 < DAY ∧ d.1 * DAY + d.2 = instant a - instant b := by
  refine ⟨by simp [TS.differenceScalar], ?_⟩
  intro i a ha
  exact ⟨a.diff b, by simp [TS.differenceScalar, ha], C03_difference_exact a b (ht a (List.mem_of_getElem? ha)) hb⟩

/-- Two tables with a difference. -/
example : NormalTS ⟨"utc", [⟨1, 5⟩, ⟨2, 0⟩]⟩ ∧ NormalTS ⟨"utc", [⟨1, 7⟩, ⟨1, 1⟩]⟩ ∧
    TS.difference ⟨"utc", [⟨1, 5⟩, ⟨2, 0⟩]⟩ ⟨"utc", [⟨1, 7⟩, ⟨1, 1⟩]⟩ = .ok [(-1, 86399999999998), (0, 86399999999999)] := by
  refine ⟨?_, ?_, by decide⟩ <;> simp [NormalTS, Normal, DAY]

/-- C03: different scales are rejected, by `difference` and by `equals`. -/
theorem C03_scale_mismatch (t1 t2 : TS) (h : t1.scale ≠ t2.scale) (p : String) :
    t1.difference t2 = .error .valueError ∧ t1.equals t2 p = .error .valueError := by
  simp [TS.difference, TS.equals, h]

example : (⟨"tai", [⟨10, 5⟩, ⟨3, 7⟩]⟩ : TS).difference ⟨"tai", [⟨8, 6⟩, ⟨3, 7⟩]⟩
    = .ok [(1, 86399999999999), (0, 0)] := by decide

/-! ## C04 -/

/-- C04. For a supported precision every row keeps its day, its nanos become the largest multiple of the unit not above
the old value, and the row stays normalised. -/
theorem C04_rounded_floor (t : TS) (p : String) (u : Int) (hu : unit p = some u) (ht : NormalTS t) :
    ∃ t', t.rounded p = .ok t' ∧ t'.scale = t.scale ∧ t'.rows.length = t.rows.length ∧ NormalTS t' ∧
      ∀ (i : Nat) (r r' : Row), t.rows[i]? = some r → t'.rows[i]? = some r' →
        r'.days = r.days ∧ r'.nanos = u * (r.nanos / u) := by
  have hp : precisionOk p = true := by
    unfold unit at hu
    split at hu <;> simp_all [precisionOk]
  have h : t.rounded p = .ok { t with rows := t.rows.filterMap (·.rounded p) } := by simp [TS.rounded, hp]
  have hs : t.step (.rounded p) = .ok { t with rows := t.rows.filterMap (·.rounded p) } := h
  obtain ⟨a1, a2, a3, a4⟩ := step_ok ht hs
  refine ⟨_, h, a1, a2, a3, fun i r r' hr hr' => ?_⟩
  have hrow := (filterMap_rounded (rows := t.rows) hp).2 i r r' hr hr'
  obtain ⟨n1, hd, u', hu', hdvd, _, l1, l2⟩ := rounded_row (ht _ (List.mem_of_getElem? hr)) hrow
  rw [hu] at hu'
  simp only [Option.some.injEq] at hu'
  subst hu'
  refine ⟨hd, ?_⟩
  simp only [instant, hd] at l1 l2
  have hupos : 0 < u := by
    unfold unit at hu
    split at hu <;> simp_all <;> omega
  obtain ⟨k, hk⟩ := hdvd
  have : r.nanos / u = k := by
    apply le_antisymm
    · by_contra hc
      have h1 : k + 1 ≤ r.nanos / u := by omega
      have h2 := Int.mul_ediv_self_le (x := r.nanos) (k := u) (by omega)
      have h3 : u * (k + 1) ≤ u * (r.nanos / u) := Int.mul_le_mul_of_nonneg_left h1 (by omega)
      have h4 : u * (k + 1) = u * k + u := by ring
      omega
    · exact (Int.le_ediv_iff_mul_le hupos).mpr (by rw [Int.mul_comm]; omega)
  rw [this, hk]

/-- C04: rounding is idempotent, and a finer rounding first does not change a coarser one. -/
theorem C04_rounded_absorbs (t t1 : TS) (p q : String) (up uq : Int) (hp : unit p = some up) (hq : unit q = some uq)
    (hle : up ≤ uq) (ht : NormalTS t) (h1 : t.rounded p = .ok t1) : t1.rounded q = t.rounded q := by
  obtain ⟨tp, e1, s1, l1, n1, f1⟩ := C04_rounded_floor t p up hp ht
  rw [e1] at h1
  simp only [Except.ok.injEq] at h1
  subst h1
  obtain ⟨tq, e2, s2, l2, n2, f2⟩ := C04_rounded_floor tp q uq hq n1
  obtain ⟨tr, e3, s3, l3, n3, f3⟩ := C04_rounded_floor t q uq hq ht
  rw [e2, e3]
  congr 1
  have hrows : tq.rows = tr.rows := by
    apply List.ext_getElem?
    intro i
    by_cases hi : i < t.rows.length
    · have hi1 : i < tp.rows.length := by omega
      have hi2 : i < tq.rows.length := by omega
      have hi3 : i < tr.rows.length := by omega
      rw [List.getElem?_eq_getElem hi2, List.getElem?_eq_getElem hi3]
      obtain ⟨a1, a2⟩ := f1 i _ _ (List.getElem?_eq_getElem hi) (List.getElem?_eq_getElem hi1)
      obtain ⟨b1, b2⟩ := f2 i _ _ (List.getElem?_eq_getElem hi1) (List.getElem?_eq_getElem hi2)
      obtain ⟨c1, c2⟩ := f3 i _ _ (List.getElem?_eq_getElem hi) (List.getElem?_eq_getElem hi3)
      congr 1
      have hx : uq * (up * (t.rows[i].nanos / up) / uq) = uq * (t.rows[i].nanos / uq) := by
        clear a1 a2 b1 b2 c1 c2 e1 e2 e3 f1 f2 f3
        generalize t.rows[i].nanos = n
        have hup : up = 1 ∨ up = 1000 ∨ up = 1000000 ∨ up = 1000000000 := by
          unfold unit at hp; split at hp <;> simp_all
        have huq : uq = 1 ∨ uq = 1000 ∨ uq = 1000000 ∨ uq = 1000000000 := by
          unfold unit at hq; split at hq <;> simp_all
        rcases hup with rfl | rfl | rfl | rfl <;> rcases huq with rfl | rfl | rfl | rfl <;> omega
      cases hA : tq.rows[i]; cases hB : tr.rows[i]
      rw [hA] at b1 b2; rw [hB] at c1 c2
      simp only at b1 b2 c1 c2
      simp only [Row.mk.injEq]
      constructor
      · omega
      · rw [b2, c2, a2, hx]
    · rw [List.getElem?_eq_none (by omega), List.getElem?_eq_none (by omega)]
  cases tq; cases tr
  simp_all

/-- C04: an unknown precision is rejected. -/
theorem C04_rounded_rejects (t : TS) (p : String) (h : unit p = none) : t.rounded p = .error .valueError := by
  have : precisionOk p = false := by
    by_contra hc
    simp only [precisionOk, Bool.not_eq_false, Bool.or_eq_true, decide_eq_true_eq] at hc
    rcases hc with ((hc | hc) | hc) | hc <;> subst hc <;> simp [unit] at h
  simp [TS.rounded, this]

example : (⟨"tai", [⟨1, 1999999999⟩]⟩ : TS).rounded "s" = .ok ⟨"tai", [⟨1, 1000000000⟩]⟩ := by decide

/-! ## C05 -/

/-- Half-open window of instant differences that `equals` accepts: `[-dev, dev)` with `dev = unit - 1`, and `{0}` at
nanosecond precision. This is the exact behaviour for every pair of normalised rows. -/
theorem C05_equals_window (a b : Row) (p : String) (u : Int) (hu : unit p = some u)
    (ha : Normal a) (hb : Normal b) (s : String) :
    (⟨s, [a]⟩ : TS).equals ⟨s, [b]⟩ p = .ok [decide (instant a = instant b) ||
      decide (-(u - 1) ≤ instant a - instant b ∧ instant a - instant b < u - 1)] := by
  obtain ⟨d1, d2, d3⟩ := C03_difference_exact a b ha hb
  have key : ∀ dev : Int, 0 ≤ dev → dev < 86400000000000 → withinTolerance (a.diff b) dev =
      (decide (instant a = instant b) ||
        decide (-dev ≤ instant a - instant b ∧ instant a - instant b < dev)) := by
    intro dev h0 hN
    rw [DAY_eq] at d2 d3
    rw [Bool.eq_iff_iff]
    unfold withinTolerance
    split
    · rename_i hz
      subst hz
      simp only [Bool.and_eq_true, decide_eq_true_eq, Bool.or_eq_true]
      omega
    · simp only [Bool.and_eq_true, decide_eq_true_eq, Bool.or_eq_true]
      omega
  simp only [TS.equals, TS.equalsScalar, TS.differenceScalar, ne_eq, not_true_eq_false, if_false, List.map_cons,
    List.map_nil]
  unfold unit at hu
  split at hu
  · simp only [Option.some.injEq] at hu; subst hu; simpa [maxDeviation] using key 0 (by omega) (by omega)
  · simp only [Option.some.injEq] at hu; subst hu; simpa [maxDeviation] using key 999 (by omega) (by omega)
  · simp only [Option.some.injEq] at hu; subst hu; simpa [maxDeviation] using key 999999 (by omega) (by omega)
  · simp only [Option.some.injEq] at hu; subst hu; simpa [maxDeviation] using key 999999999 (by omega) (by omega)
  · cases hu

/-- C05 fails as stated: at microsecond precision two rows 999 ns apart are equal in one direction only. -/
theorem C05_not_symmetric : ¬ ∀ (a b : Row) (p s : String), Normal a → Normal b →
    (⟨s, [a]⟩ : TS).equals ⟨s, [b]⟩ p = (⟨s, [b]⟩ : TS).equals ⟨s, [a]⟩ p := by
  intro h
  have := h ⟨59000, 999⟩ ⟨59000, 0⟩ "us" "tai" (by simp [Normal, DAY]) (by simp [Normal, DAY])
  exact absurd this (by decide)

/-- C05: at nanosecond precision `equals` is exact equality of instants (the part that holds symmetrically), for whole
tables compared row by row. -/
theorem C05_equals_ns_exact (t o : TS) (hs : t.scale = o.scale) (hl : t.rows.length = o.rows.length)
    (h1 : o.rows.length ≠ 1) (ht : NormalTS t) (ho : NormalTS o) :
    t.equals o "ns" = .ok (List.zipWith (fun a b => decide (instant a = instant b)) t.rows o.rows) := by
  have e : t.equals o "ns" = t.equalsArray o "ns" := by
    unfold TS.equals
    rw [if_neg (by simp [hs])]
    split
    · rename_i b hb; rw [hb] at h1; simp at h1
    · rfl
  rw [e]
  simp only [TS.equalsArray, TS.difference, hs, hl, ne_eq, not_true_eq_false, if_false, maxDeviation, if_true]
  congr 1
  rw [List.map_zipWith]
  apply List.ext_getElem?
  intro i
  rw [List.getElem?_zipWith, List.getElem?_zipWith]
  cases e1 : t.rows[i]? with
  | none => rfl
  | some a =>
    cases e2 : o.rows[i]? with
    | none => rfl
    | some b =>
      simp only [Option.some.injEq]
      obtain ⟨d1, d2, d3⟩ := C03_difference_exact a b (ht a (List.mem_of_getElem? e1)) (ho b (List.mem_of_getElem? e2))
      rw [DAY_eq] at d2 d3
      rw [Bool.eq_iff_iff]
      simp only [withinTolerance, if_true, Bool.and_eq_true, decide_eq_true_eq]
      omega

/-! ## C06 -/

/-- C06. `key` is an order isomorphism from calendar order to integer order on normalised rows. -/
theorem C06_key_order (a b : Row) (ha : Normal a) (hb : Normal b) :
    (a.key < b.key ↔ Earlier a b) ∧ (a.key = b.key ↔ a = b) := by
  constructor
  · simp only [Row.key, Earlier, Normal, DAY_eq, NANOS_eq] at *
    omega
  · constructor
    · intro h
      apply instant_inj ha hb
      simp only [instant, Row.key, DAY_eq, NANOS_eq] at *
      exact h
    · rintro rfl; rfl

theorem colMax_spec {l : List Int} {m : Int} (h : colMax l = some m) : m ∈ l ∧ ∀ x ∈ l, x ≤ m := by
  cases l with
  | nil => cases h
  | cons x xs =>
    simp only [colMax, Option.some.injEq] at h
    have aux : ∀ (ys : List Int) (y : Int), (ys.foldl max y = y ∨ ys.foldl max y ∈ ys) ∧ y ≤ ys.foldl max y ∧
        ∀ z ∈ ys, z ≤ ys.foldl max y := by
      intro ys
      induction ys with
      | nil => intro y; simp
      | cons z zs ih =>
        intro y
        simp only [List.foldl_cons]
        obtain ⟨i1, i2, i3⟩ := ih (max y z)
        refine ⟨?_, le_trans (le_max_left _ _) i2, ?_⟩
        · rcases i1 with i1 | i1
          · rw [i1]
            rcases le_total y z with hyz | hyz
            · right; rw [max_eq_right hyz]; simp
            · left; exact max_eq_left hyz
          · right; exact List.mem_cons_of_mem _ i1
        · intro w hw
          rcases List.mem_cons.mp hw with rfl | hw
          · exact le_trans (le_max_right _ _) i2
          · exact i3 w hw
    obtain ⟨a1, a2, a3⟩ := aux xs x
    rw [h] at a1 a2 a3
    refine ⟨?_, ?_⟩
    · rcases a1 with a1 | a1
      · rw [a1]; simp
      · exact List.mem_cons_of_mem _ a1
    · intro w hw
      rcases List.mem_cons.mp hw with rfl | hw
      · exact a2
      · exact a3 w hw

theorem colMin_spec {l : List Int} {m : Int} (h : colMin l = some m) : m ∈ l ∧ ∀ x ∈ l, m ≤ x := by
  cases l with
  | nil => cases h
  | cons x xs =>
    simp only [colMin, Option.some.injEq] at h
    have aux : ∀ (ys : List Int) (y : Int), (ys.foldl min y = y ∨ ys.foldl min y ∈ ys) ∧ ys.foldl min y ≤ y ∧
        ∀ z ∈ ys, ys.foldl min y ≤ z := by
      intro ys
      induction ys with
      | nil => intro y; simp
      | cons z zs ih =>
        intro y
        simp only [List.foldl_cons]
        obtain ⟨i1, i2, i3⟩ := ih (min y z)
        refine ⟨?_, le_trans i2 (min_le_left _ _), ?_⟩
        · rcases i1 with i1 | i1
          · rw [i1]
            rcases le_total y z with hyz | hyz
            · left; exact min_eq_left hyz
            · right; rw [min_eq_right hyz]; simp
          · right; exact List.mem_cons_of_mem _ i1
        · intro w hw
          rcases List.mem_cons.mp hw with rfl | hw
          · exact le_trans i2 (min_le_right _ _)
          · exact i3 w hw
    obtain ⟨a1, a2, a3⟩ := aux xs x
    rw [h] at a1 a2 a3
    refine ⟨?_, ?_⟩
    · rcases a1 with a1 | a1
      · rw [a1]; simp
      · exact List.mem_cons_of_mem _ a1
    · intro w hw
      rcases List.mem_cons.mp hw with rfl | hw
      · exact a2
      · exact a3 w hw

theorem colMax_some {l : List Int} (h : l ≠ []) : ∃ m, colMax l = some m := by
  cases l with
  | nil => exact absurd rfl h
  | cons x xs => exact ⟨_, rfl⟩

theorem colMin_some {l : List Int} (h : l ≠ []) : ∃ m, colMin l = some m := by
  cases l with
  | nil => exact absurd rfl h
  | cons x xs => exact ⟨_, rfl⟩

/-- C06. `max()` of a non-empty table is a row of the table, and no row is later (in calendar order). -/
theorem C06_max (t : TS) (h : t.rows ≠ []) :
    ∃ m, t.max = .ok m ∧ m ∈ t.rows ∧ ∀ r ∈ t.rows, ¬ Earlier m r := by
  obtain ⟨d, hd⟩ := colMax_some (l := t.rows.map Row.days) (by simpa using h)
  obtain ⟨d1, d2⟩ := colMax_spec hd
  obtain ⟨r0, hr0, e0⟩ := List.mem_map.mp d1
  have hf : (t.rows.filter fun r => r.days = d).map Row.nanos ≠ [] := by
    have : r0 ∈ t.rows.filter fun r => r.days = d := by simp [hr0, e0]
    intro hc
    rw [List.map_eq_nil_iff] at hc
    rw [hc] at this
    simp at this
  obtain ⟨n, hn⟩ := colMax_some hf
  obtain ⟨n1, n2⟩ := colMax_spec hn
  obtain ⟨r1, hr1, e1⟩ := List.mem_map.mp n1
  have hr1' := List.mem_filter.mp hr1
  have hday1 : r1.days = d := by simpa using hr1'.2
  have hg : r1 ∈ t.rows.filter fun r => decide (r.days = d) && decide (r.nanos = n) := by
    simp [hr1'.1, hday1, e1]
  cases hm : t.rows.filter fun r => decide (r.days = d) && decide (r.nanos = n) with
  | nil => rw [hm] at hg; simp at hg
  | cons m rest =>
    have hmm : m ∈ t.rows.filter fun r => decide (r.days = d) && decide (r.nanos = n) := by rw [hm]; simp
    have hm2 := List.mem_filter.mp hmm
    simp only [Bool.and_eq_true, decide_eq_true_eq] at hm2
    refine ⟨m, ?_, hm2.1, ?_⟩
    · simp only [TS.max, hd, hn, hm]
    · intro r hr hE
      have hdr := d2 r.days (List.mem_map_of_mem hr)
      rcases hE with hE | ⟨hE1, hE2⟩
      · omega
      · have : r.nanos ∈ (t.rows.filter fun r => r.days = d).map Row.nanos := by
          apply List.mem_map_of_mem
          simp [hr]; omega
        have := n2 _ this
        omega

/-- C06. `min()` of a non-empty table is a row of the table, and no row is earlier. -/
theorem C06_min (t : TS) (h : t.rows ≠ []) :
    ∃ m, t.min = .ok m ∧ m ∈ t.rows ∧ ∀ r ∈ t.rows, ¬ Earlier r m := by
  obtain ⟨d, hd⟩ := colMin_some (l := t.rows.map Row.days) (by simpa using h)
  obtain ⟨d1, d2⟩ := colMin_spec hd
  obtain ⟨r0, hr0, e0⟩ := List.mem_map.mp d1
  have hf : (t.rows.filter fun r => r.days = d).map Row.nanos ≠ [] := by
    have : r0 ∈ t.rows.filter fun r => r.days = d := by simp [hr0, e0]
    intro hc
    rw [List.map_eq_nil_iff] at hc
    rw [hc] at this
    simp at this
  obtain ⟨n, hn⟩ := colMin_some hf
  obtain ⟨n1, n2⟩ := colMin_spec hn
  obtain ⟨r1, hr1, e1⟩ := List.mem_map.mp n1
  have hr1' := List.mem_filter.mp hr1
  have hday1 : r1.days = d := by simpa using hr1'.2
  have hg : r1 ∈ t.rows.filter fun r => decide (r.days = d) && decide (r.nanos = n) := by
    simp [hr1'.1, hday1, e1]
  cases hm : t.rows.filter fun r => decide (r.days = d) && decide (r.nanos = n) with
  | nil => rw [hm] at hg; simp at hg
  | cons m rest =>
    have hmm : m ∈ t.rows.filter fun r => decide (r.days = d) && decide (r.nanos = n) := by rw [hm]; simp
    have hm2 := List.mem_filter.mp hmm
    simp only [Bool.and_eq_true, decide_eq_true_eq] at hm2
    refine ⟨m, ?_, hm2.1, ?_⟩
    · simp only [TS.min, hd, hn, hm]
    · intro r hr hE
      have hdr := d2 r.days (List.mem_map_of_mem hr)
      rcases hE with hE | ⟨hE1, hE2⟩
      · omega
      · have : r.nanos ∈ (t.rows.filter fun r => r.days = d).map Row.nanos := by
          apply List.mem_map_of_mem
          simp [hr]; omega
        have := n2 _ this
        omega

/-- C06: the empty table has no maximum or minimum; both raise. -/
theorem C06_empty (s : String) :
    (⟨s, []⟩ : TS).max = .error .indexError ∧ (⟨s, []⟩ : TS).min = .error .indexError := ⟨rfl, rfl⟩

example : (⟨"tai", [⟨3, 50⟩, ⟨4, 7⟩, ⟨4, 9⟩, ⟨2, 90⟩]⟩ : TS).max = .ok ⟨4, 9⟩ := by decide

/-! ## C09, C10, C73 -/

/-- C09: `from_mjd` is within half a nanosecond of its argument, and normalised exactly if the fractional day lies more
than half a nanosecond before midnight; otherwise the row holds a full day of nanoseconds. -/
theorem C09_from_mjd (x : ℚ) :
    |((instant (fromMjd x) : Int) : ℚ) - x * DAY| ≤ 1 / 2 ∧ 0 ≤ (fromMjd x).nanos ∧
    ((fromMjd x).nanos < DAY ∨ (fromMjd x).nanos = DAY) ∧
    (Normal (fromMjd x) ↔ (x - ⌊x⌋) * DAY < DAY - 1 / 2) := by
  have h1 := Int.floor_le x
  have h2 := Int.lt_floor_add_one x
  have hn := roundHalfEven_near ((x - ⌊x⌋) * 86400000000000)
  have hdef : (fromMjd x) = ⟨⌊x⌋, roundHalfEven ((x - ⌊x⌋) * 86400000000000)⟩ := by
    simp [fromMjd, NANOS_eq]
  rw [hdef]
  simp only [instant, Normal, DAY_eq]
  set k := roundHalfEven ((x - ⌊x⌋) * 86400000000000) with hk
  rw [abs_le] at hn
  have hk0 : 0 ≤ k := by
    by_contra hc
    have : k ≤ -1 := by omega
    have : (k : ℚ) ≤ -1 := by exact_mod_cast this
    have : 0 ≤ (x - ⌊x⌋) * 86400000000000 := mul_nonneg (by linarith) (by norm_num)
    linarith [hn.1]
  have hkN : k ≤ 86400000000000 := by
    by_contra hc
    have : 86400000000001 ≤ k := by omega
    have : (86400000000001 : ℚ) ≤ k := by exact_mod_cast this
    have : (x - ⌊x⌋) * 86400000000000 < 86400000000000 := by nlinarith
    linarith [hn.2]
  refine ⟨?_, hk0, by omega, ?_⟩
  · push_cast
    rw [abs_le]
    constructor <;> nlinarith [hn.1, hn.2]
  · constructor
    · rintro ⟨-, hlt⟩
      by_contra hx
      push_cast at hx
      have hfl : ⌊(x - ⌊x⌋) * 86400000000000⌋ = 86399999999999 := by
        rw [Int.floor_eq_iff]
        constructor
        · push_cast; linarith
        · push_cast; nlinarith
      have : k = 86400000000000 := by
        rw [hk]
        simp only [roundHalfEven, hfl]
        push_cast
        have c1 : ¬ ((x - ⌊x⌋) * 86400000000000 - 86399999999999 < 1 / 2) := by linarith
        rw [if_neg c1]
        split_ifs <;> rfl
      omega
    · intro hx
      refine ⟨hk0, ?_⟩
      by_contra hc
      have hk2 : k = 86400000000000 := by omega
      rw [hk2] at hn
      push_cast at hn hx
      linarith [hn.2]

/-- C09 fails as stated: a time 0.4 ns before midnight becomes a row with a full day of nanoseconds. -/
theorem C09_not_normal : ¬ ∀ x : ℚ, Normal (fromMjd x) := by
  intro h
  have := (h (1 - 1 / 216000000000000)).2
  have e : (⌊(1 - 1 / 216000000000000 : ℚ)⌋ : Int) = 0 := by
    rw [Int.floor_eq_iff]; norm_num
  simp only [fromMjd, e, NANOS_eq, DAY_eq, roundHalfEven] at this
  norm_num at this

/-- C10 fails as stated: `from_et` does not add the J2000 epoch back, so the J2000 epoch itself comes back as MJD 0. -/
theorem C10_not_inverse : ∃ r : Row, Normal r ∧ fromEt r.et ≠ r ∧ instant r - instant (fromEt r.et) = 51544 * DAY + DAY / 2 := by
  refine ⟨⟨51544, 43200000000000⟩, by simp [Normal, DAY], ?_, ?_⟩
  · have : (⟨51544, 43200000000000⟩ : Row).et = 0 := by simp [Row.et, Row.mjd, NANOS_eq]; norm_num
    rw [this]
    simp [fromEt, fromMjd, roundHalfEven]
  · have : (⟨51544, 43200000000000⟩ : Row).et = 0 := by simp [Row.et, Row.mjd, NANOS_eq]; norm_num
    rw [this]
    simp [fromEt, fromMjd, roundHalfEven, instant, DAY]

/-- C10, what holds: `from_et(et + 51544.5 * 86400)` restores every normalised TDB row exactly; the missing epoch offset
is the only defect. -/
theorem C10_offset (r : Row) (hr : Normal r) : fromEt (r.et + 103089 / 2 * 86400) = r := by
  obtain ⟨h0, h1⟩ := hr
  rw [DAY_eq] at h1
  have hN : ((86400000000000 : Int) : ℚ) = 86400000000000 := by norm_num
  have e : (r.et + 103089 / 2 * 86400) / 86400 = r.days + r.nanos / 86400000000000 := by
    simp only [Row.et, Row.mjd, NANOS_eq]
    push_cast
    ring
  have hq0 : (0 : ℚ) ≤ r.nanos := by exact_mod_cast h0
  have hq1 : (r.nanos : ℚ) < 86400000000000 := by exact_mod_cast h1
  have hf : (⌊(r.days + r.nanos / 86400000000000 : ℚ)⌋ : Int) = r.days := by
    rw [Int.floor_eq_iff]
    constructor
    · have : (0 : ℚ) ≤ r.nanos / 86400000000000 := by positivity
      linarith
    · have : (r.nanos : ℚ) / 86400000000000 < 1 := by rw [div_lt_one (by norm_num)]; exact hq1
      linarith
  cases r with
  | mk d n =>
    simp only [fromEt, e, fromMjd] at *
    rw [hf]
    simp only [NANOS_eq, Row.mk.injEq, true_and]
    have : ((d : ℚ) + n / 86400000000000 - d) * ((86400000000000 : Int) : ℚ) = (n : Int) := by
      push_cast; field_simp; ring
    rw [this, roundHalfEven_int]

/-- C10, exactly what comes back: for every normalised row, `from_et(et)` is the normalised row 51544.5 days earlier. -/
theorem C10_from_et (r : Row) (hr : Normal r) :
    Normal (fromEt r.et) ∧ instant (fromEt r.et) = instant r - (51544 * DAY + DAY / 2) := by
  have key : ∀ q : Row, Normal q → instant q = instant r - (51544 * DAY + DAY / 2) → fromEt r.et = q := by
    intro q hq hi
    have h := C10_offset q hq
    rw [← h]
    congr 1
    simp only [instant, DAY_eq] at hi
    have hi' : (q.days : ℚ) * 86400000000000 + q.nanos
        = r.days * 86400000000000 + r.nanos - (51544 * 86400000000000 + 43200000000000) := by
      have h2 : (q.days * 86400000000000 + q.nanos : Int)
        = r.days * 86400000000000 + r.nanos - (51544 * 86400000000000 + 43200000000000) := by omega
      exact_mod_cast h2
    simp only [Row.et, Row.mjd, NANOS_eq]
    push_cast
    linarith
  obtain ⟨h0, h1⟩ := hr
  rw [DAY_eq] at h1
  by_cases c : r.nanos < 43200000000000
  · have hq : Normal ⟨r.days - 51545, r.nanos + 43200000000000⟩ := by
      simp only [Normal, DAY_eq]; omega
    have hi : instant ⟨r.days - 51545, r.nanos + 43200000000000⟩ = instant r - (51544 * DAY + DAY / 2) := by
      simp only [instant, DAY_eq]; omega
    rw [key _ hq hi]
    exact ⟨hq, hi⟩
  · have hq : Normal ⟨r.days - 51544, r.nanos - 43200000000000⟩ := by
      simp only [Normal, DAY_eq]; omega
    have hi : instant ⟨r.days - 51544, r.nanos - 43200000000000⟩ = instant r - (51544 * DAY + DAY / 2) := by
      simp only [instant, DAY_eq]; omega
    rw [key _ hq hi]
    exact ⟨hq, hi⟩

example : Normal ⟨60000, 1⟩ := by simp [Normal, DAY]

/-- The mjd/from_mjd round trip is exact in exact arithmetic for every normalised row. -/
theorem C09_mjd_round_trip (r : Row) (hr : Normal r) : fromMjd r.mjd = r ∧ fromJd r.jd = r := by
  have h := C10_offset r hr
  have e : (r.et + 103089 / 2 * 86400) / 86400 = r.mjd := by simp only [Row.et]; ring
  have h1 : fromMjd r.mjd = r := by rw [fromEt, e] at h; exact h
  refine ⟨h1, ?_⟩
  simp only [fromJd, Row.jd, add_sub_cancel_right]
  exact h1

/-- `astropySplit` represents the same time with remainder in [0, 1) whenever |jd2| ≤ 1 (astropy keeps |jd2| ≤ 1/2). -/
theorem astropySplit_spec (jd1 jd2 : ℚ) (h : |jd2| ≤ 1 / 2) :
    0 ≤ (astropySplit jd1 jd2).2 ∧ (astropySplit jd1 jd2).2 < 1 ∧
    ((astropySplit jd1 jd2).1 : ℚ) + (astropySplit jd1 jd2).2 = jd1 + jd2 - 4800001 / 2 := by
  rw [abs_le] at h
  have h1 := Int.floor_le (jd1 - 4800001 / 2)
  have h2 := Int.lt_floor_add_one (jd1 - 4800001 / 2)
  unfold astropySplit
  simp only
  by_cases c1 : jd1 - 4800001 / 2 - (⌊jd1 - 4800001 / 2⌋ : ℚ) + jd2 < 0
  · simp only [c1, if_true]
    by_cases c2 : jd1 - 4800001 / 2 - (⌊jd1 - 4800001 / 2⌋ : ℚ) + jd2 + 1 ≥ 1
    · exact absurd c2 (by linarith)
    · simp only [c2, if_false]; push_cast
      refine ⟨by linarith, by linarith, by linarith⟩
  · simp only [c1, if_false]
    by_cases c2 : jd1 - 4800001 / 2 - (⌊jd1 - 4800001 / 2⌋ : ℚ) + jd2 ≥ 1
    · simp only [c2, if_true]; push_cast
      refine ⟨by linarith, by linarith, by linarith⟩
    · simp only [c2, if_false]
      refine ⟨by linarith, by linarith, by linarith⟩

/-- C73: the array path of `from_astropy` always yields a normalised row within half a nanosecond of the astropy time. -/
theorem C73_from_astropy_array (jd1 jd2 : ℚ) (h : |jd2| ≤ 1 / 2) :
    Normal (fromAstropyArray jd1 jd2) ∧
    |((instant (fromAstropyArray jd1 jd2) : Int) : ℚ) - (jd1 + jd2 - 4800001 / 2) * DAY| ≤ 1 / 2 := by
  obtain ⟨s1, s2, s3⟩ := astropySplit_spec jd1 jd2 h
  unfold fromAstropyArray
  generalize astropySplit jd1 jd2 = s at s1 s2 s3
  obtain ⟨d, rem⟩ := s
  simp only at s1 s2 s3 ⊢
  have hn := roundHalfEven_near (rem * 86400 * 1000000000)
  set k := roundHalfEven (rem * 86400 * 1000000000) with hk
  rw [abs_le] at hn
  have hk0 : 0 ≤ k := by
    by_contra hc
    have : k ≤ -1 := by omega
    have : (k : ℚ) ≤ -1 := by exact_mod_cast this
    linarith [hn.1]
  have hkN : k ≤ 86400000000000 := by
    by_contra hc
    have : 86400000000001 ≤ k := by omega
    have : (86400000000001 : ℚ) ≤ k := by exact_mod_cast this
    linarith [hn.2]
  rw [← s3]
  by_cases c : k = 86400 * 1000000000
  · simp only [c, if_true, Normal, instant, DAY_eq]
    refine ⟨by omega, ?_⟩
    rw [c] at hn
    push_cast at hn ⊢
    rw [abs_le]
    constructor <;> linarith [hn.1, hn.2]
  · simp only [c, if_false, Normal, instant, DAY_eq]
    refine ⟨by omega, ?_⟩
    push_cast
    rw [abs_le]
    constructor <;> linarith [hn.1, hn.2]

/-- C73 fails for the scalar path: the same astropy value gives a normalised row as a length-one array and an
unnormalised one (nanos = a full day) as a scalar. -/
theorem C73_scalar_not_normal : ∃ jd1 jd2 : ℚ, |jd2| ≤ 1 / 2 ∧ ¬ Normal (fromAstropyScalar jd1 jd2) ∧
    fromAstropyArray jd1 jd2 = ⟨59001, 0⟩ ∧ fromAstropyScalar jd1 jd2 = ⟨59000, 86400000000000⟩ := by
  have e : astropySplit 2459001 (1 / 2 - 1 / 216000000000000) = (59000, 1 - 1 / 216000000000000) := by
    unfold astropySplit
    have : (⌊(2459001 - 4800001 / 2 : ℚ)⌋ : Int) = 59000 := by rw [Int.floor_eq_iff]; norm_num
    simp only [this]
    norm_num
  have r : roundHalfEven ((1 - 1 / 216000000000000) * 86400 * 1000000000) = 86400000000000 := by
    have : (⌊((1 - 1 / 216000000000000) * 86400 * 1000000000 : ℚ)⌋ : Int) = 86399999999999 := by
      rw [Int.floor_eq_iff]; norm_num
    unfold roundHalfEven
    simp only [this]
    norm_num
  refine ⟨2459001, 1 / 2 - 1 / 216000000000000, ?_, ?_, ?_, ?_⟩
  · rw [abs_le]; norm_num
  · simp only [fromAstropyScalar, e, r, Normal, DAY_eq]; omega
  · simp only [fromAstropyArray, e, r]; norm_num
  · simp only [fromAstropyScalar, e, r]

/-- C73: the scalar path always denotes the same instant as the array path, and it is the same row exactly if the
fractional day does not round up to a full day. -/
theorem C73_scalar_agrees (jd1 jd2 : ℚ) :
    instant (fromAstropyScalar jd1 jd2) = instant (fromAstropyArray jd1 jd2) ∧
    (fromAstropyScalar jd1 jd2 = fromAstropyArray jd1 jd2 ↔ (fromAstropyScalar jd1 jd2).nanos ≠ DAY) := by
  unfold fromAstropyScalar fromAstropyArray
  simp only [DAY_eq]
  generalize roundHalfEven ((astropySplit jd1 jd2).2 * 86400 * 1000000000) = k
  by_cases c : k = 86400 * 1000000000
  · simp only [c, if_true, instant, DAY_eq, Row.mk.injEq]
    constructor
    · omega
    · simp
  · simp only [c, if_false, ne_eq, true_and, true_iff]
    omega

end Verif.Time.Props
