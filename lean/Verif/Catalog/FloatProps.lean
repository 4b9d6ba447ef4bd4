import Verif.Catalog.Float
import Verif.Catalog.Props
import Verif.Time.AddFloatProps

/-! # C203: middles of exposures with float64 rounding -/

namespace Verif.Catalog.FloatProps

open Verif Time Time.Spec F64 Time.AddFloatProps

/-- C203. Both ways of computing the middle of an exposure give the same times. -/
theorem C203_agree (start : TS) (ds : List ℚ) : sourceMidpoints64 start ds = midpoints64 start ds := by
  unfold sourceMidpoints64 midpoints64 TS.addSeconds64
  simp only [Arg.map, List.map_map]
  rfl

/-- C203. For durations of an even number of nanoseconds, written in float64 seconds, the middle is exact. -/
theorem C203_exact (start : TS) (ns : List ℤ) :
    midpoints64 start (ns.map fun n => fl (((2 * n : ℤ) : ℚ) / 1000000000)) = start.addNanos (.array ns) := by
  rw [← (C195_units_exact start (.array ns)).1]
  unfold midpoints64
  simp only [Arg.map, List.map_map]
  congr 2
  apply List.map_congr_left
  intro n _
  simp only [Function.comp]
  rw [fl_half, fl_fl, ← fl_half]
  congr 1
  push_cast
  ring

/-- An exposure of 30.1 s that starts 15 s before midnight. -/
example : fl (301 / 10) ≠ 301 / 10 ∧
    midpoints64 ⟨"utc", [⟨60000, 86385000000000⟩]⟩ [fl (301 / 10)] = .ok ⟨"utc", [⟨60001, 50000000⟩]⟩ := by decide +kernel

theorem half_error {d : ℚ} (hd : fl d = d) {t m : TS} {ds : List ℚ} (hn : NormalTS t) (h : midpoints64 t ds = .ok m) {i : Nat} {r q : Time.Row}
    (hr : t.rows[i]? = some r) (hq : m.rows[i]? = some q) (hi : ds[i]? = some d) :
    |((instant q - instant r : Int) : ℚ) - d / 2 * 10 ^ 9| ≤ 1 / 2 + 2 ^ (-7 : ℤ) := by
  obtain ⟨v, hv, he⟩ := ((C195_units_error t m _ hn).1 h).2 i r q hr hq
  simp only [argAt, List.getElem?_map, hi, Option.map_some, Option.some.injEq] at hv
  rw [fl_half, hd] at hv
  subst hv
  norm_num at he ⊢
  exact he

/-- C203. For float64 durations from 0 to 172799 s the middle is never refused, and is within 0.508 ns of the true one. -/
theorem C203_error (start : TS) (ds : List ℚ) (hn : NormalTS start) (hlen : ds.length = start.rows.length) (h0 : ds ≠ [])
    (hd : ∀ d ∈ ds, fl d = d ∧ 0 ≤ d ∧ d ≤ 172799) :
    ∃ mid, midpoints64 start ds = .ok mid ∧ NormalTS mid ∧ mid.scale = start.scale ∧ mid.rows.length = start.rows.length ∧
      ∀ (i : Nat) (r m : Time.Row) (d : ℚ), start.rows[i]? = some r → mid.rows[i]? = some m → ds[i]? = some d →
        |((instant m - instant r : Int) : ℚ) - d / 2 * 10 ^ 9| ≤ 1 / 2 + 2 ^ (-7 : ℤ) := by
  obtain ⟨mid, h1, h2, h3, h5, h4⟩ := Time.Props.C01_add_nanos_exact start
    (.array (ds.map fun d => roundHalfEven (fl (fl (d / 2) * 1_000_000_000)))) hn (by
      intro as h; cases h; simpa using ⟨hlen, h0⟩) (by
      intro i v hv
      simp only [argAt, List.getElem?_map, Option.map_eq_some_iff] at hv
      obtain ⟨d, hdi, rfl⟩ := hv
      obtain ⟨hf, h0, h1⟩ := hd d (List.mem_of_getElem? hdi)
      rw [fl_half, hf]
      have hx : |d / 2 * 1000000000| ≤ 2 ^ (47 : ℤ) := by
        rw [abs_of_nonneg (by positivity)]; norm_num; linarith
      have hu := abs_le.mp (fl_ulp hx)
      have hb := abs_le.mp (Props.round_bounds (fl (d / 2 * 1000000000)))
      norm_num at hu
      have hl : (-1 : ℚ) < (roundHalfEven (fl (d / 2 * 1000000000)) : ℚ) := by
        have := fl_nonneg (q := d / 2 * 1000000000) (by positivity)
        linarith [hb.1]
      have hu : (roundHalfEven (fl (d / 2 * 1000000000)) : ℚ) < 86399999999999 := by linarith [hb.2, hu.2]
      have hl' : (-1 : Int) < roundHalfEven (fl (d / 2 * 1000000000)) := by exact_mod_cast hl
      have hu' : roundHalfEven (fl (d / 2 * 1000000000)) < 86399999999999 := by exact_mod_cast hu
      unfold DAY
      omega)
  have h1' : midpoints64 start ds = .ok mid := by rw [← C203_agree]; exact h1
  refine ⟨mid, h1', h5, h2, h3, ?_⟩
  intro i r m d hr hm hi
  exact half_error (hd d (List.mem_of_getElem? hi)).1 hn h1' hr hm hi

/-- C203. The middle is not before the start, and not after the end for a duration of at least 1.016 ns. -/
theorem C203_inside {start mid : TS} {ds : List ℚ} (hn : NormalTS start) (hd : ∀ d ∈ ds, fl d = d ∧ 0 ≤ d) (h : midpoints64 start ds = .ok mid)
    {i : Nat} {r m : Time.Row} {d : ℚ} (hr : start.rows[i]? = some r) (hm : mid.rows[i]? = some m) (hi : ds[i]? = some d) :
    instant r ≤ instant m ∧ (1016 / 10 ^ 12 ≤ d → ((instant m : ℤ) : ℚ) ≤ instant r + d * 10 ^ 9) := by
  obtain ⟨hf, h0⟩ := hd d (List.mem_of_getElem? hi)
  have he := abs_le.mp (half_error hf hn h hr hm hi)
  push_cast at he
  norm_num at he
  constructor
  · have : (-1 : ℚ) < ((instant m - instant r : Int) : ℚ) := by push_cast; linarith [he.1]
    have : (-1 : ℤ) < instant m - instant r := by exact_mod_cast this
    omega
  · intro hd
    norm_num
    linarith [he.2]

/-- C203. The middles of exposures, of at least 1.016 ns, that do not overlap are in order. -/
theorem C203_order {start mid : TS} {ds : List ℚ} (hn : NormalTS start) (hd : ∀ d ∈ ds, fl d = d ∧ 1016 / 10 ^ 12 ≤ d)
    (h : midpoints64 start ds = .ok mid) {i j : Nat} {r r' m m' : Time.Row} {d d' : ℚ} (hr : start.rows[i]? = some r) (hm : mid.rows[i]? = some m)
    (hi : ds[i]? = some d) (hr' : start.rows[j]? = some r') (hm' : mid.rows[j]? = some m') (hj : ds[j]? = some d')
    (hover : ((instant r : ℤ) : ℚ) + d * 10 ^ 9 ≤ instant r') : instant m ≤ instant m' := by
  have hd0 : ∀ d ∈ ds, fl d = d ∧ 0 ≤ d := fun d hm => ⟨(hd d hm).1, le_trans (by norm_num) (hd d hm).2⟩
  have a := (C203_inside hn hd0 h hr hm hi).2 (hd d (List.mem_of_getElem? hi)).2
  have b := (C203_inside hn hd0 h hr' hm' hj).1
  have c : ((instant m : ℤ) : ℚ) ≤ instant r' := a.trans hover
  have c' : instant m ≤ instant r' := by exact_mod_cast c
  omega

/-- Two exposures of 30 s, one after the other. -/
example : NormalTS ⟨"utc", [⟨60000, 0⟩, ⟨60000, 30000000000⟩]⟩ ∧ (∀ d ∈ [(30 : ℚ), 30], fl d = d ∧ 1016 / 10 ^ 12 ≤ d) ∧
    midpoints64 ⟨"utc", [⟨60000, 0⟩, ⟨60000, 30000000000⟩]⟩ [30, 30] = .ok ⟨"utc", [⟨60000, 15000000000⟩, ⟨60000, 45000000000⟩]⟩ := by
  refine ⟨?_, by decide +kernel, by decide +kernel⟩
  intro r hr
  simp only [List.mem_cons, List.not_mem_nil, or_false] at hr
  rcases hr with rfl | rfl <;> unfold Normal <;> decide

/-- C203. Not true: that half a nanosecond is rounded to the even neighbour, as in exact arithmetic. An exposure of 15 ns has its middle at 7 ns. -/
theorem C203_tie_false : ¬ ∀ (start : TS) (n : ℤ), NormalTS start →
    midpoints64 start [fl ((n : ℚ) / 1000000000)] = midpoints start [(n : ℚ) / 1000000000] := by
  intro h
  have := h ⟨"utc", [⟨60000, 0⟩]⟩ 15 (by
    intro r hr
    simp only [List.mem_cons, List.not_mem_nil, or_false] at hr
    subst hr
    unfold Normal
    decide)
  revert this
  decide +kernel

end Verif.Catalog.FloatProps
