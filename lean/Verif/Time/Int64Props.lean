import Verif.Time.Int64
import Verif.Time.Spec
import Mathlib.Tactic.Linarith

/-! # C178: what 64-bit integers do to keys and arithmetic of timestamps -/

namespace Verif.Time.Int64Props

open Verif Time Spec

theorem DAY_lit : DAY = 86400000000000 := rfl
theorem NANOS_lit : NANOS_IN_DAY = 86400000000000 := rfl

instance (r : Row) : Decidable (Normal r) := by unfold Normal; infer_instance

instance (a b : Row) : Decidable (Earlier a b) := by unfold Earlier; infer_instance

theorem inAddRange_iff (n : Int) : inAddRange n = true ↔ -86400000000000 ≤ n ∧ n < 86400000000000 := by
  unfold inAddRange
  rw [Bool.and_eq_true, decide_eq_true_eq, decide_eq_true_eq]
  rfl

theorem fits64_iff (n : Int) : fits64 n = true ↔ -9223372036854775808 ≤ n ∧ n < 9223372036854775808 := by
  unfold fits64
  rw [Bool.and_eq_true, decide_eq_true_eq, decide_eq_true_eq]

/-- A reduction is in range and differs by a multiple of 2^64. -/
theorem wrap64_spec (x : Int) : -2 ^ 63 ≤ wrap64 x ∧ wrap64 x < 2 ^ 63 ∧ ∃ k, wrap64 x = x + k * 2 ^ 64 := by
  unfold wrap64
  refine ⟨by omega, by omega, -((x + 9223372036854775808) / 18446744073709551616), by omega⟩

theorem wrap64_of_fits {x : Int} (h1 : -2 ^ 63 ≤ x) (h2 : x < 2 ^ 63) : wrap64 x = x := by
  unfold wrap64; omega

/-- Two values have the same reduction exactly if they differ by a multiple of 2^64. -/
theorem wrap64_eq_iff (x y : Int) : wrap64 x = wrap64 y ↔ (2 ^ 64 : Int) ∣ x - y := by
  unfold wrap64; omega

/-- Values less than 2^64 apart keep different reductions. -/
theorem wrap64_inj {x y : Int} (h : |x - y| < 2 ^ 64) : wrap64 x = wrap64 y ↔ x = y := by
  rw [abs_lt] at h
  unfold wrap64
  omega

theorem key64_eq (r : Row) : r.key64 = wrap64 r.key := by
  unfold Row.key64 Row.key wrap64
  omega

theorem key_instant (r : Row) : r.key = instant r := rfl

/-- **C178, keys.** `key` is the number of nanoseconds since MJD 0 modulo 2^64, a signed 64-bit integer. -/
theorem C178_key (r : Row) : -2 ^ 63 ≤ r.key64 ∧ r.key64 < 2 ^ 63 ∧ ∃ k, r.key64 = instant r + k * 2 ^ 64 := by
  rw [key64_eq, key_instant]; exact wrap64_spec _

/-- **C06, order.** From 1566-08-09 to 2151-02-24 (days -106751 … 106750) the key is the instant itself, so keys are
ordered like the instants. -/
theorem C06_key_range (a b : Row) (ha : Normal a) (hb : Normal b) (ha' : -106751 ≤ a.days ∧ a.days ≤ 106750)
    (hb' : -106751 ≤ b.days ∧ b.days ≤ 106750) :
    a.key64 = instant a ∧ (a.key64 < b.key64 ↔ Earlier a b) ∧ (a.key64 = b.key64 ↔ a = b) := by
  obtain ⟨d, n⟩ := a
  obtain ⟨e, m⟩ := b
  rw [key64_eq, key64_eq]
  simp only [Normal, Earlier, DAY_lit, instant, Row.key, NANOS_lit, Row.mk.injEq] at *
  rw [wrap64_of_fits (by omega) (by omega), wrap64_of_fits (by omega) (by omega)]
  omega

example : ∃ a b : Row, Normal a ∧ Normal b ∧ a.days = 60000 ∧ b.days = 106750 ∧ Earlier a b :=
  ⟨⟨60000, 5⟩, ⟨106750, 3⟩, by decide, by decide, rfl, rfl, by decide⟩

/-- **C178, grouping.** Two normalised rows have the same key exactly if their instants differ by a multiple of 2^64 ns;
so for rows less than 2^64 ns (584.5 years) apart the keys agree only if the rows do. -/
theorem C178_key_distinct (a b : Row) (ha : Normal a) (hb : Normal b) :
    (a.key64 = b.key64 ↔ (2 ^ 64 : Int) ∣ instant a - instant b) ∧
    (|instant a - instant b| < 2 ^ 64 → (a.key64 = b.key64 ↔ a = b)) := by
  refine ⟨by rw [key64_eq, key64_eq, wrap64_eq_iff]; rfl, fun h => ?_⟩
  rw [key64_eq, key64_eq, wrap64_inj (x := a.key) (y := b.key) h]
  obtain ⟨d, n⟩ := a
  obtain ⟨e, m⟩ := b
  simp only [Normal, DAY_lit, Row.key, NANOS_lit, Row.mk.injEq] at *
  omega

/-- **C06, order lost.** 2151-02-26 has a smaller key than the day before: keys do not order
timestamps beyond that date. -/
theorem C06_key_order_false : ∃ a b : Row, Normal a ∧ Normal b ∧ Earlier a b ∧ b.key64 < a.key64 ∧ b.key64 < 0 ∧
    a.days = 106751 ∧ b.days = 106752 :=
  ⟨⟨106751, 0⟩, ⟨106752, 0⟩, by decide +kernel⟩

/-- **C178, collisions.** 2023-02-25T00:00 and the instant 2^64 ns later, in September 2607, have the same key; likewise
dates of 1600 and 2184, which are inside the planetary ephemeris. -/
theorem C178_key_collide_false :
    (∃ a b : Row, Normal a ∧ Normal b ∧ a ≠ b ∧ a.key64 = b.key64 ∧ a = ⟨60000, 0⟩ ∧ b.days = 273503) ∧
    ∃ a b : Row, Normal a ∧ Normal b ∧ a ≠ b ∧ a.key64 = b.key64 ∧ a = ⟨-94553, 0⟩ ∧ b.days = 118950 :=
  ⟨⟨⟨60000, 0⟩, ⟨273503, 84873709551616⟩, by decide +kernel⟩,
    ⟨⟨-94553, 0⟩, ⟨118950, 84873709551616⟩, by decide +kernel⟩⟩

theorem rescale_rows_key (t : TS) : t.rows.map Row.key64 = (t.rows.map Row.key).map wrap64 := by
  rw [List.map_map]; apply List.map_congr_left; intro r _; exact key64_eq r

/-- **C178, a table's keys.** `key` fails exactly when the change of scale does, and otherwise returns the instants
modulo 2^64, row by row. -/
theorem C178_table (env : Env) (t : TS) (s : Option String) :
    t.key64 env s = (t.key env s).map fun ks => ks.map wrap64 := by
  unfold TS.key64 TS.key
  split
  · rfl
  · cases s with
    | none => simp only [rescale_rows_key]; rfl
    | some s =>
      simp only
      cases t.rescale env s with
      | error e => rfl
      | ok t' => simp only [rescale_rows_key]; rfl

/-! ### The signature -/

theorem foldl_wrap (l : List Int) : ∀ a, (2 ^ 64 : Int) ∣ l.foldl (fun a b => wrap64 (a + b)) a - (a + l.sum) := by
  induction l with
  | nil => intro a; simp
  | cons x l ih =>
    intro a
    rw [List.foldl_cons, List.sum_cons]
    have h1 := ih (wrap64 (a + x))
    obtain ⟨_, _, k, hk⟩ := wrap64_spec (a + x)
    generalize l.foldl (fun a b => wrap64 (a + b)) (wrap64 (a + x)) = y at h1 ⊢
    omega

/-- **C178, signature.** `signature` is (0, 0, 0, 0) for an empty table; otherwise the number of rows, the first and the
last key, and the sum of the keys modulo 2^63. -/
theorem C178_signature (keys : List Int) :
    (keys = [] → signature64 keys = (0, 0, 0, 0)) ∧
    (keys ≠ [] → signature64 keys = (keys.length, keys.head?.getD 0, keys.getLast?.getD 0, keys.sum % 2 ^ 63)) := by
  refine ⟨by rintro rfl; rfl, fun h => ?_⟩
  cases keys with
  | nil => exact absurd rfl h
  | cons k ks =>
    have h1 := foldl_wrap (k :: ks) 0
    have h2 := wrap64_spec ((k :: ks).foldl (fun a b => wrap64 (a + b)) 0)
    unfold signature64
    simp only [List.head?_cons, Option.getD_some, Prod.mk.injEq, true_and]
    refine ⟨?_, ?_⟩
    · rw [List.getLastD_eq_getLast?]
    · generalize (k :: ks).foldl (fun a b => wrap64 (a + b)) 0 = y at h1 h2 ⊢
      obtain ⟨_, _, j, hj⟩ := h2
      rw [hj]
      generalize (k :: ks).sum = z at h1 ⊢
      omega

/-! ### Arithmetic -/

/-- A day number with room for one carry. -/
def Room (d : Int) : Prop := -2 ^ 63 < d ∧ d < 2 ^ 63 - 1

/-- One row: the checked, wrapping arithmetic of `add_nanos` is the exact one. -/
theorem addNanos64_exact (r : Row) (n : Int) (hr : Normal r) (hd : Room r.days) (hn : inAddRange n = true) :
    r.addNanos64 n = .ok (r.addNanosRaw n) := by
  obtain ⟨d, m⟩ := r
  rw [inAddRange_iff] at hn
  simp only [Normal, DAY_lit, Room] at *
  have hN := NANOS_lit
  have hf : fits64 (m + n) = true := by rw [fits64_iff]; omega
  unfold Row.addNanos64 Row.addNanosRaw
  simp only [hf, if_true]
  split
  · rw [wrap64_of_fits (by omega) (by omega), wrap64_of_fits (by omega) (by omega)]
  · split
    · rw [wrap64_of_fits (by omega) (by omega), wrap64_of_fits (by omega) (by omega)]
    · rfl

theorem addRows64_exact : ∀ (rs : List Row) (ns : List Int), (∀ r ∈ rs, Normal r ∧ Room r.days) →
    (∀ n ∈ ns, inAddRange n = true) → addRows64 rs ns = .ok (List.zipWith Row.addNanosRaw rs ns)
  | [], _, _, _ => by unfold addRows64; rfl
  | _ :: _, [], _, _ => by unfold addRows64; rfl
  | r :: rs, n :: ns, hr, hn => by
    unfold addRows64
    rw [addNanos64_exact r n (hr r (by simp)).1 (hr r (by simp)).2 (hn n (by simp)),
      addRows64_exact rs ns (fun r' h => hr r' (by simp [h])) fun n' h => hn n' (by simp [h])]
    rfl

theorem expand_mem {α : Type} {a : Arg α} {n : Nat} {l : List α} (p : α → Bool) (h : a.expand n = .ok l)
    (hp : a.all p = true) : ∀ x ∈ l, p x = true := by
  cases a with
  | scalar a =>
    simp only [Arg.expand, Except.ok.injEq] at h
    subst h
    intro x hx
    rw [List.eq_of_mem_replicate hx]; exact hp
  | array as =>
    simp only [Arg.expand] at h
    by_cases hl : as.length = n
    · rw [if_pos hl] at h
      injection h with h
      subst h
      simp only [Arg.all, Bool.and_eq_true, List.all_eq_true] at hp
      exact hp.2
    · rw [if_neg hl] at h
      exact absurd h (by simp)

/-- **C178, arithmetic.** On normalised tables whose day numbers leave room for one day (any date a 64-bit day number can
hold but the last), `add_nanos` does with 64-bit integers exactly what it does with integers of any size; so does
`add_days` when the sums are 64-bit integers. -/
theorem C178_arithmetic (t : TS) (ht : ∀ r ∈ t.rows, Normal r ∧ Room r.days) :
    (∀ n : Arg Int, t.addNanos64 n = t.addNanos n) ∧
    (∀ d : Arg Int, (∀ ds, d.expand t.rows.length = .ok ds → ∀ r ∈ t.rows, ∀ x ∈ ds,
        -2 ^ 63 ≤ r.days + x ∧ r.days + x < 2 ^ 63) → t.addDays64 d = t.addDays d) := by
  refine ⟨fun n => ?_, fun d hd => ?_⟩
  · unfold TS.addNanos64 TS.addNanos
    by_cases hn : n.all inAddRange = true
    · simp only [hn, Bool.not_true, Bool.and_false, Bool.false_eq_true, if_false]
      cases he : n.expand t.rows.length with
      | error e => rfl
      | ok ns => simp only [addRows64_exact t.rows ns ht (expand_mem _ he hn)]
    · have : n.all inAddRange = false := by simpa using hn
      simp only [this, Bool.not_false, Bool.and_true, if_true]
  · unfold TS.addDays64 TS.addDays
    cases he : d.expand t.rows.length with
    | error e => rfl
    | ok ds =>
      simp only [Except.ok.injEq, TS.mk.injEq, true_and]
      have h := hd ds he
      clear hd he ht
      generalize t.rows = rows at h ⊢
      induction rows generalizing ds with
      | nil => rfl
      | cons r rows ih =>
        cases ds with
        | nil => rfl
        | cons x ds =>
          rw [List.zipWith_cons_cons, List.zipWith_cons_cons,
            wrap64_of_fits (h r (by simp) x (by simp)).1 (h r (by simp) x (by simp)).2,
            ih ds fun r' h1 x' h2 => h r' (by simp [h1]) x' (by simp [h2])]

example : Room 60000 ∧ Normal ⟨60000, 1⟩ := by unfold Room; decide

/-- **C178, differences.** The difference of two normalised rows is exact as soon as the day numbers differ by less than
2^63. -/
theorem C178_difference (a b : Row) (ha : Normal a) (hb : Normal b)
    (hd : -2 ^ 63 < a.days - b.days ∧ a.days - b.days < 2 ^ 63) : a.diff64 b = a.diff b := by
  obtain ⟨d, n⟩ := a
  obtain ⟨e, m⟩ := b
  simp only [Normal, DAY_lit] at *
  have hN := NANOS_lit
  unfold Row.diff64 Row.diff
  simp only
  rw [wrap64_of_fits (x := d - e) (by omega) (by omega), wrap64_of_fits (x := n - m) (by omega) (by omega)]
  have hge : ¬ n - m ≥ NANOS_IN_DAY := by omega
  simp only [if_neg hge]
  split
  · rw [wrap64_of_fits (by omega) (by omega), wrap64_of_fits (by omega) (by omega)]
  · rfl

/-- What one whole number of units must do: refuse it outside [-1 day, 1 day), else move the instant. -/
def UnitStep (unit v : Int) (r : Row) (out : Except PyErr TS) : Prop :=
  (-DAY ≤ v * unit ∧ v * unit < DAY →
    ∃ r', out = .ok ⟨"tai", [r']⟩ ∧ Normal r' ∧ instant r' = instant r + v * unit) ∧
  (¬ (-DAY ≤ v * unit ∧ v * unit < DAY) → out = .error .valueError)

theorem raw_moves (r : Row) (n : Int) (hr : Normal r) (hn : inAddRange n = true) :
    Normal (r.addNanosRaw n) ∧ instant (r.addNanosRaw n) = instant r + n := by
  obtain ⟨d, m⟩ := r
  rw [inAddRange_iff] at hn
  simp only [Normal, DAY_lit, instant] at *
  have hN := NANOS_lit
  unfold Row.addNanosRaw
  simp only
  split
  · simp only; omega
  · split
    · simp only; omega
    · simp only; omega

/-- **C178, whole units.** `add_seconds`, `add_millis` and `add_micros` of a whole number `v`, in a table of one row:
if `v` units are a 64-bit number of nanoseconds (292 years), the row moves by exactly `v` units, or the argument is
refused as out of range. -/
theorem C178_units (unit v : Int) (r : Row) (hr : Normal r) (hd : Room r.days)
    (hv : -2 ^ 63 ≤ v * unit ∧ v * unit < 2 ^ 63) :
    UnitStep unit v r (TS.addUnits64 ⟨"tai", [r]⟩ unit (.scalar v)) := by
  have hx := (C178_arithmetic ⟨"tai", [r]⟩ (by simpa using ⟨hr, hd⟩)).1 (.scalar (v * unit))
  unfold UnitStep TS.addUnits64
  simp only [Arg.map, wrap64_of_fits hv.1 hv.2]
  rw [hx]
  refine ⟨fun h => ?_, fun h => ?_⟩
  · have h' : inAddRange (v * unit) = true := (inAddRange_iff _).mpr h
    refine ⟨r.addNanosRaw (v * unit), ?_, raw_moves r _ hr h'⟩
    simp [TS.addNanos, Arg.all, h', Arg.expand]
  · have h' : inAddRange (v * unit) = false := by
      by_contra hc
      rw [Bool.not_eq_false] at hc
      exact h ((inAddRange_iff _).mp hc)
    simp [TS.addNanos, Arg.all, h']

example : UnitStep 1000000000 86399 ⟨60000, 2⟩ (TS.addUnits64 ⟨"tai", [⟨60000, 2⟩]⟩ 1000000000 (.scalar 86399)) :=
  C178_units _ _ _ (by decide) (by unfold Room; decide) (by decide)

/-- **C178, range check passed by overflow.** `add_seconds(18446744074)`, 584.5 years and far outside the documented
range, is not refused: the row moves by 290448384 ns. -/
theorem C178_units_false (d n : Int) (hn : 0 ≤ n ∧ n < 86399000000000) :
    ¬ (-DAY ≤ 18446744074 * 1000000000 ∧ 18446744074 * 1000000000 < DAY) ∧
    TS.addUnits64 ⟨"tai", [⟨d, n⟩]⟩ 1000000000 (.scalar 18446744074) = .ok ⟨"tai", [⟨d, n + 290448384⟩]⟩ := by
  refine ⟨by decide, ?_⟩
  have hw : wrap64 (18446744074 * 1000000000) = 290448384 := by decide +kernel
  unfold TS.addUnits64 TS.addNanos64
  simp only [Arg.map, hw, Arg.all, Arg.expand, List.length_singleton, List.replicate]
  rw [show inAddRange 290448384 = true by decide]
  simp only [Bool.not_true, Bool.and_false, Bool.false_eq_true, if_false, addRows64, Row.addNanos64]
  have hN := NANOS_lit
  rw [if_pos (by rw [fits64_iff]; omega), if_neg (by omega), if_neg (by omega)]

/-- **C178, unchecked range.** With `check_range=False` the sum is checked: where it leaves the 64-bit integers the call
raises, and nothing is wrapped. -/
theorem C178_unchecked (r : Row) (n : Int) (h : ¬ (-2 ^ 63 ≤ r.nanos + n ∧ r.nanos + n < 2 ^ 63)) :
    TS.addNanos64 ⟨"tai", [r]⟩ (.scalar n) false = .error .arrowInvalid := by
  have hf : fits64 (r.nanos + n) = false := by
    by_contra hc
    rw [Bool.not_eq_false] at hc
    rw [fits64_iff] at hc
    omega
  simp [TS.addNanos64, Arg.expand, addRows64, Row.addNanos64, hf]

example : ¬ (-2 ^ 63 ≤ (⟨0, 1⟩ : Row).nanos + (2 ^ 63 - 1) ∧ (⟨0, 1⟩ : Row).nanos + (2 ^ 63 - 1) < 2 ^ 63) := by decide

end Verif.Time.Int64Props
