import Verif.Rot.Verdict
import Verif.Rot.ClusterProps

/-! # C113: what the verdict on a period says -/

namespace Verif.Rot.Props

open Verif Sched Rot

/-! ## The diagnostics -/

/-- C113: the phase coverage is the number of twentieths of a rotation with an observation, over twenty. -/
theorem C113_coverage (times : List ℝ) (period : ℝ) :
    (times = [] → phaseCoverage times period = none) ∧
    (times ≠ [] → ∃ s : Finset (Fin 20), phaseCoverage times period = some ((s.card : ℝ) / 20) ∧
      ∀ k : Fin 20, k ∈ s ↔ ∃ t ∈ times, (k : ℝ) / 20 ≤ Int.fract (t / period) ∧ Int.fract (t / period) < ((k : ℝ) + 1) / 20) := by
  classical
  unfold phaseCoverage
  refine ⟨fun h => by rw [if_pos h], fun h => ?_⟩
  rw [if_neg h]
  set bins := times.map fun t => ⌊Int.fract (t / period) * 20⌋ with hb
  have hmem : ∀ k : Fin 20, ((k : ℕ) : ℤ) ∈ bins ↔ ∃ t ∈ times, (k : ℝ) / 20 ≤ Int.fract (t / period) ∧ Int.fract (t / period) < ((k : ℝ) + 1) / 20 := by
    intro k
    rw [hb, List.mem_map]
    refine exists_congr fun t => and_congr_right fun _ => ?_
    rw [Int.floor_eq_iff, div_le_iff₀ (by norm_num : (0 : ℝ) < 20), lt_div_iff₀ (by norm_num : (0 : ℝ) < 20)]
    norm_num
  have hrange : ∀ z ∈ bins, ∃ k : Fin 20, ((k : ℕ) : ℤ) = z := by
    intro z hz
    rw [hb, List.mem_map] at hz
    obtain ⟨t, -, rfl⟩ := hz
    have h0 : 0 ≤ ⌊Int.fract (t / period) * 20⌋ := Int.floor_nonneg.2 (mul_nonneg (Int.fract_nonneg _) (by norm_num))
    have h1 : ⌊Int.fract (t / period) * 20⌋ < 20 := by
      rw [Int.floor_lt]
      have := Int.fract_lt_one (t / period)
      push_cast
      linarith
    exact ⟨⟨(⌊Int.fract (t / period) * 20⌋).toNat, by omega⟩, by simp [h0]⟩
  refine ⟨Finset.univ.filter fun k : Fin 20 => ((k : ℕ) : ℤ) ∈ bins, ?_, fun k => by rw [Finset.mem_filter]; simp [hmem k]⟩
  have hcard : (uniq bins).length = (Finset.univ.filter fun k : Fin 20 => ((k : ℕ) : ℤ) ∈ bins).card := by
    rw [← List.toFinset_card_of_nodup (nodup_uniq bins)]
    have : (uniq bins).toFinset = (Finset.univ.filter fun k : Fin 20 => ((k : ℕ) : ℤ) ∈ bins).image fun k : Fin 20 => ((k : ℕ) : ℤ) := by
      ext z
      rw [List.mem_toFinset, mem_uniq, Finset.mem_image]
      constructor
      · intro hz
        obtain ⟨k, hk⟩ := hrange z hz
        exact ⟨k, by rw [Finset.mem_filter]; exact ⟨Finset.mem_univ _, hk ▸ hz⟩, hk⟩
      · rintro ⟨k, hk, rfl⟩
        exact (Finset.mem_filter.1 hk).2
    rw [this, Finset.card_image_of_injective]
    intro a b hab
    exact Fin.ext (Int.ofNat_inj.1 hab)
  rw [hcard]

/-- C113: the amplitude is the greatest difference between two of 4096 values of the model. -/
theorem C113_amplitude (r : Fit) :
    (∃ i j : Nat, i < 4096 ∧ j < 4096 ∧ amplitudeOf r = periodic r.coeffs r.order ((i : ℝ) / 4096) - periodic r.coeffs r.order ((j : ℝ) / 4096)) ∧
    ∀ i < 4096, ∀ j < 4096, periodic r.coeffs r.order (((i : Nat) : ℝ) / 4096) - periodic r.coeffs r.order (((j : Nat) : ℝ) / 4096) ≤ amplitudeOf r := by
  have key : ∀ values : List ℝ, values ≠ [] → (∃ x ∈ values, ∃ y ∈ values, maxFrom (values.headD 0) values - minFrom (values.headD 0) values = x - y) ∧
      ∀ x ∈ values, ∀ y ∈ values, x - y ≤ maxFrom (values.headD 0) values - minFrom (values.headD 0) values := by
    intro values hv
    obtain ⟨h1, -, h3⟩ := maxFrom_spec values (values.headD 0)
    obtain ⟨h4, -, h6⟩ := minFrom_spec values (values.headD 0)
    have hh : values.headD 0 ∈ values := by
      cases values with
      | nil => exact absurd rfl hv
      | cons a l => simp
    refine ⟨⟨maxFrom (values.headD 0) values, ?_, minFrom (values.headD 0) values, ?_, rfl⟩, fun x hx y hy => sub_le_sub (h3 x hx) (h6 y hy)⟩
    · rcases h1 with h1 | h1
      · rw [h1]; exact hh
      · exact h1
    · rcases h4 with h4 | h4
      · rw [h4]; exact hh
      · exact h4
  have hne : ((List.range 4096).map fun k : Nat => periodic r.coeffs r.order ((k : ℝ) / 4096)) ≠ [] := by
    intro h
    have := congrArg List.length h
    rw [List.length_map, List.length_range, List.length_nil] at this
    omega
  obtain ⟨⟨x, hx, y, hy, h1⟩, h2⟩ := key _ hne
  unfold amplitudeOf
  simp only
  constructor
  · obtain ⟨i, hi, rfl⟩ := List.mem_map.1 hx
    obtain ⟨j, hj, rfl⟩ := List.mem_map.1 hy
    exact ⟨i, j, List.mem_range.1 hi, List.mem_range.1 hj, h1⟩
  · intro i hi j hj
    exact h2 _ (List.mem_map.2 ⟨i, List.mem_range.2 hi, rfl⟩) _ (List.mem_map.2 ⟨j, List.mem_range.2 hj, rfl⟩)

/-- C113: there are enough observations exactly if some filter has thirty. -/
theorem C113_enough (filters : List String) : enoughObservations filters = true ↔ ∃ f, 30 ≤ filters.count f := by
  unfold enoughObservations
  rw [List.any_eq_true]
  constructor
  · rintro ⟨f, -, h⟩
    exact ⟨f, of_decide_eq_true h⟩
  · rintro ⟨f, h⟩
    exact ⟨f, (mem_uniq _ _).2 (List.count_pos_iff.1 (by omega)), decide_eq_true h⟩

/-! ## The verdict -/

/-- The light curve of a solution, and the parameters of the verdict. -/
structure Case where
  filters : List String
  times : List ℝ
  span : ℝ
  minRotations : ℝ
  claim : Bool
  lowest : ℝ
  half : ℝ → Option Fit
  s : Solution

namespace Case

variable (c : Case)

/-- What the code reports. -/
noncomputable def result : Primary := judge c.filters c.times c.span c.minRotations c.claim c.lowest c.half c.s

/-- The period. -/
noncomputable def period : ℝ := periodOf c.s.chosen

/-- The scatter is positive and the amplitude at least three times the scatter. -/
def Bright : Prop := 0 < c.s.chosen.sigma ∧ 3 * c.s.chosen.sigma ≤ amplitudeOf c.s.chosen

/-- At least this fraction of the rotation has observations. -/
def Covered (x : ℝ) : Prop := 0 < c.period ∧ ∃ y, phaseCoverage c.times c.period = some y ∧ x ≤ y

/-- The observations span so many rotations. -/
def Spans (x : ℝ) : Prop := 0 < c.period ∧ x * c.period ≤ c.span

/-- Some filter has thirty observations. -/
def Enough : Prop := ∃ f, 30 ≤ c.filters.count f

/-- There is a signal. -/
def Signal : Prop := c.Bright ∧ c.Covered (1 / 2) ∧ c.Spans c.minRotations ∧ c.Enough

/-- The period cannot be told from others. -/
def Ambiguous : Prop := 2 ≤ c.s.clusters.length

/-- The model has a single maximum in a cycle and this counts as an ambiguity. -/
def Blocked : Prop := isDoubled c.s.chosen = true ∧ (c.claim = false ∨ c.Ambiguous)

/-- The twice longer period was not searched and fits better. -/
def BetterDoubled : Prop := 0 < c.period ∧ (1 / 2) / c.period < c.lowest ∧ ∃ r, c.half ((1 / 2) / c.period) = some r ∧ r.sigma < c.s.chosen.sigma

/-- The verdict before the guards is a single period. -/
def Clear : Prop := c.Signal ∧ ¬ c.Ambiguous ∧ ¬ c.Blocked ∧ c.Covered (7 / 10) ∧ c.s.reliable = true

end Case

theorem belowMin_snr (amplitude sigma : ℝ) : belowMin (amplitudeSnr amplitude sigma) 3 = false ↔ 0 < sigma ∧ 3 * sigma ≤ amplitude := by
  unfold amplitudeSnr
  by_cases h : sigma ≤ 0
  · rw [if_pos h]
    simp [belowMin, not_lt.2 h]
  · rw [if_neg h]
    have h' := not_le.1 h
    simp [belowMin, h', le_div_iff₀ h']

theorem belowMin_if (c : Prop) [Decidable c] (o : Option ℝ) (x : ℝ) : belowMin (if c then o else none) x = false ↔ c ∧ ∃ y, o = some y ∧ x ≤ y := by
  by_cases h : c
  · rw [if_pos h]
    cases o <;> simp [belowMin, h]
  · rw [if_neg h]
    simp [belowMin, h]

theorem atLeast_if (c : Prop) [Decidable c] (o : Option ℝ) (x : ℝ) : atLeast (if c then o else none) x = true ↔ c ∧ ∃ y, o = some y ∧ x ≤ y := by
  by_cases h : c
  · rw [if_pos h]
    cases o <;> simp [atLeast, h]
  · rw [if_neg h]
    simp [atLeast, h]

/-- The verdict as a function of the conditions. -/
def verdictOf (dark uncovered short few good nights doubled ambiguous reliable valid claim : Bool) : Verdict :=
  let reasons := labelsOf [(dark, "amplitude_below_noise"), (uncovered, "phase_coverage_low"), (short, "spans_too_few_rotations"), (few, "too_few_observations")]
  if reasons ≠ [] then ⟨"insufficient_data", codeOf "insufficient_data", [], reasons⟩
  else
    let flags := labelsOf [(good, "good_phase_coverage"), (nights, "multi_night"), (!doubled, "two_max_two_min")]
    let assumed := claim && doubled && !ambiguous
    let flags := if assumed then flags ++ ["doubled_fold_assumed"] else flags
    let blocking := doubled && !assumed
    let eligible := !ambiguous && !blocking && good
    let reasons := labelsOf [(ambiguous, "conflicting_aliases"), (blocking, "single_max_alias"),
      (!good && !ambiguous && !blocking, "phase_coverage_low")]
    if eligible && reliable then ⟨"single_period", codeOf "single_period", flags, reasons⟩
    else if valid then ⟨"period_family", codeOf "period_family", flags, reasons⟩
    else ⟨"period_family", codeOf "period_family", flags, if "no_precision" ∈ reasons then reasons else reasons ++ ["no_precision"]⟩

theorem classify_eq (snr coverage rotations : Option ℝ) (m : ℝ) (aliases : Nat) (doubled enough reliable valid claim : Bool) :
    classify snr coverage rotations m aliases doubled enough reliable valid claim =
      verdictOf (belowMin snr 3) (belowMin coverage (1 / 2)) (belowMin rotations m) (!enough) (atLeast coverage (7 / 10)) (atLeast rotations (2 * m))
        doubled (decide (2 ≤ aliases)) reliable valid claim := rfl

/-- The labels of a table are those of its rows that hold. -/
theorem mem_labelsOf {table : List (Bool × String)} {x : String} : x ∈ labelsOf table ↔ (true, x) ∈ table := by
  unfold labelsOf
  rw [List.mem_map]
  constructor
  · rintro ⟨⟨b, y⟩, h, rfl⟩
    obtain ⟨h1, h2⟩ := List.mem_filter.1 h
    simp only at h2
    rw [h2] at h1
    exact h1
  · intro h
    exact ⟨(true, x), List.mem_filter.2 ⟨h, rfl⟩, rfl⟩

/-- All verdicts, as a table. -/
theorem verdictOf_spec : ∀ dark uncovered short few good nights doubled ambiguous reliable valid claim,
    (((dark || uncovered || short || few) = true →
      verdictOf dark uncovered short few good nights doubled ambiguous reliable valid claim = ⟨"insufficient_data", "1", [],
        labelsOf [(dark, "amplitude_below_noise"), (uncovered, "phase_coverage_low"), (short, "spans_too_few_rotations"), (few, "too_few_observations")]⟩) ∧
    ((dark || uncovered || short || few) = false →
      verdictOf dark uncovered short few good nights doubled ambiguous reliable valid claim =
        let single := !ambiguous && !(doubled && (!claim || ambiguous)) && good && reliable
        ⟨if single then "single_period" else "period_family", if single then "3" else "2",
          labelsOf [(good, "good_phase_coverage"), (nights, "multi_night"), (!doubled, "two_max_two_min"), (claim && doubled && !ambiguous, "doubled_fold_assumed")],
          labelsOf [(ambiguous, "conflicting_aliases"), (doubled && (!claim || ambiguous), "single_max_alias"),
            (!good && !ambiguous && !(doubled && (!claim || ambiguous)), "phase_coverage_low"), (!single && !valid, "no_precision")]⟩)) := by
  decide +kernel

section Judge

variable (c : Case)

/-- What the conditions of the verdict say. -/
structure Reads (dark uncovered short few good nights doubled ambiguous : Bool) : Prop where
  dark : dark = false ↔ c.Bright
  uncovered : uncovered = false ↔ c.Covered (1 / 2)
  short : short = false ↔ c.Spans c.minRotations
  few : few = false ↔ c.Enough
  good : good = true ↔ c.Covered (7 / 10)
  nights : nights = true ↔ c.Spans (2 * c.minRotations)
  doubled : doubled = true ↔ isDoubled c.s.chosen = true
  ambiguous : ambiguous = true ↔ c.Ambiguous

/-- The verdict before the guards. -/
noncomputable def before : Primary := primaryOf c.filters c.times c.span c.minRotations c.claim c.s

theorem before_eq : ∃ dark uncovered short few good nights doubled ambiguous, Reads c dark uncovered short few good nights doubled ambiguous ∧
    (before c).verdict = verdictOf dark uncovered short few good nights doubled ambiguous c.s.reliable c.s.valid c.claim := by
  refine ⟨_, _, _, _, _, _, _, _, ⟨?_, ?_, ?_, ?_, ?_, ?_, ?_, ?_⟩, classify_eq _ _ _ _ _ _ _ _ _ _⟩
  · exact belowMin_snr _ _
  · exact belowMin_if _ _ _
  · rw [belowMin_if]
    refine and_congr_right fun h => ?_
    change _ ↔ _ * periodOf c.s.chosen ≤ c.span
    rw [← le_div_iff₀ h]
    constructor
    · rintro ⟨y, hy, h1⟩
      cases hy
      exact h1
    · exact fun h1 => ⟨_, rfl, h1⟩
  · rw [Bool.not_eq_false', C113_enough]
    rfl
  · exact atLeast_if _ _ _
  · rw [atLeast_if]
    refine and_congr_right fun h => ?_
    change _ ↔ _ * periodOf c.s.chosen ≤ c.span
    rw [← le_div_iff₀ h]
    constructor
    · rintro ⟨y, hy, h1⟩
      cases hy
      exact h1
    · exact fun h1 => ⟨_, rfl, h1⟩
  · exact Iff.rfl
  · exact decide_eq_true_iff

open Classical in
theorem before_spec :
    (¬ c.Signal → (before c).verdict.verdict = "insufficient_data" ∧ (before c).verdict.code = "1" ∧ (before c).verdict.flags = [] ∧
      (before c).verdict.reasons.Sublist ["amplitude_below_noise", "phase_coverage_low", "spans_too_few_rotations", "too_few_observations"] ∧
      ("amplitude_below_noise" ∈ (before c).verdict.reasons ↔ ¬ c.Bright) ∧ ("phase_coverage_low" ∈ (before c).verdict.reasons ↔ ¬ c.Covered (1 / 2)) ∧
      ("spans_too_few_rotations" ∈ (before c).verdict.reasons ↔ ¬ c.Spans c.minRotations) ∧ ("too_few_observations" ∈ (before c).verdict.reasons ↔ ¬ c.Enough)) ∧
    (c.Signal → ((before c).verdict.verdict = if c.Clear then "single_period" else "period_family") ∧
      ((before c).verdict.code = if c.Clear then "3" else "2") ∧
      (before c).verdict.flags.Sublist ["good_phase_coverage", "multi_night", "two_max_two_min", "doubled_fold_assumed"] ∧
      ("good_phase_coverage" ∈ (before c).verdict.flags ↔ c.Covered (7 / 10)) ∧ ("multi_night" ∈ (before c).verdict.flags ↔ c.Spans (2 * c.minRotations)) ∧
      ("two_max_two_min" ∈ (before c).verdict.flags ↔ isDoubled c.s.chosen = false) ∧
      ("doubled_fold_assumed" ∈ (before c).verdict.flags ↔ isDoubled c.s.chosen = true ∧ c.claim = true ∧ ¬ c.Ambiguous) ∧
      (before c).verdict.reasons.Sublist ["conflicting_aliases", "single_max_alias", "phase_coverage_low", "no_precision"] ∧
      ("conflicting_aliases" ∈ (before c).verdict.reasons ↔ c.Ambiguous) ∧ ("single_max_alias" ∈ (before c).verdict.reasons ↔ c.Blocked) ∧
      ("phase_coverage_low" ∈ (before c).verdict.reasons ↔ ¬ c.Covered (7 / 10) ∧ ¬ c.Ambiguous ∧ ¬ c.Blocked) ∧
      ("no_precision" ∈ (before c).verdict.reasons ↔ ¬ c.Clear ∧ c.s.valid = false)) := by
  classical
  obtain ⟨dark, uncovered, short, few, good, nights, doubled, ambiguous, hr, hv⟩ := before_eq c
  have hsig : c.Signal ↔ (dark || uncovered || short || few) = false := by
    unfold Case.Signal
    rw [← hr.dark, ← hr.uncovered, ← hr.short, ← hr.few]
    simp [and_assoc]
  have hblock : c.Blocked ↔ (doubled && (!c.claim || ambiguous)) = true := by
    unfold Case.Blocked
    rw [← hr.doubled, ← hr.ambiguous]
    simp
  have hclear : c.Clear ↔ c.Signal ∧ (!ambiguous && !(doubled && (!c.claim || ambiguous)) && good && c.s.reliable) = true := by
    unfold Case.Clear
    rw [hblock, ← hr.good, ← hr.ambiguous]
    generalize (doubled && (!c.claim || ambiguous)) = b
    simp only [Bool.and_eq_true, Bool.not_eq_true', and_assoc, Bool.not_eq_true]
  obtain ⟨h1, h2⟩ := verdictOf_spec dark uncovered short few good nights doubled ambiguous c.s.reliable c.s.valid c.claim
  constructor
  · intro hn
    rw [hsig, Bool.not_eq_false] at hn
    rw [hv, h1 hn]
    refine ⟨rfl, rfl, rfl, ?_, ?_, ?_, ?_, ?_⟩
    · exact (List.filter_sublist).map Prod.snd
    · rw [mem_labelsOf, ← hr.dark]; simp
    · rw [mem_labelsOf, ← hr.uncovered]; simp
    · rw [mem_labelsOf, ← hr.short]; simp
    · rw [mem_labelsOf, ← hr.few]; simp
  · intro hs
    rw [hv, h2 (hsig.1 hs)]
    simp only
    refine ⟨?_, ?_, (List.filter_sublist).map Prod.snd, ?_, ?_, ?_, ?_, (List.filter_sublist).map Prod.snd, ?_, ?_, ?_, ?_⟩
    · refine if_congr ?_ rfl rfl
      rw [hclear]
      exact (and_iff_right hs).symm
    · refine if_congr ?_ rfl rfl
      rw [hclear]
      exact (and_iff_right hs).symm
    · rw [mem_labelsOf, ← hr.good]; simp
    · rw [mem_labelsOf, ← hr.nights]; simp
    · rw [mem_labelsOf, ← Bool.not_eq_true, ← hr.doubled]; simp
    · rw [mem_labelsOf, ← hr.doubled, ← hr.ambiguous]
      simp only [List.mem_cons, Prod.mk.injEq, List.not_mem_nil, or_false, String.reduceEq, and_false, false_or, and_true, Eq.comm (a := true)]
      cases c.claim <;> cases doubled <;> cases ambiguous <;> simp
    · rw [mem_labelsOf, ← hr.ambiguous]; simp
    · rw [mem_labelsOf, hblock]; simp
    · rw [mem_labelsOf, hblock, ← hr.good, ← hr.ambiguous]
      simp only [List.mem_cons, Prod.mk.injEq, List.not_mem_nil, or_false]
      generalize (doubled && (!c.claim || ambiguous)) = b
      simp only [String.reduceEq, and_false, false_or, and_true, Eq.comm (a := true), or_false]
      cases good <;> cases ambiguous <;> cases b <;> simp
    · rw [mem_labelsOf, hclear, and_iff_right hs]
      generalize (!ambiguous && !(doubled && (!c.claim || ambiguous)) && good && c.s.reliable) = b
      simp

theorem before_flags : (before c).valid = decide ((before c).verdict.verdict = "single_period" ∨ (before c).verdict.verdict = "period_family") ∧
    (before c).reliable = decide ((before c).verdict.verdict = "single_period") ∧ (before c).period = c.period := ⟨rfl, rfl, rfl⟩

/-- Before the guards a single period comes without reasons. -/
theorem before_clear (h : c.Clear) : (before c).verdict.reasons = [] := by
  obtain ⟨h1, h2, h3, h4, h5⟩ := h
  obtain ⟨-, -, -, -, -, -, -, hs, e1, e2, e3, e4⟩ := (before_spec c).2 h1
  refine List.eq_nil_iff_forall_not_mem.2 fun x hx => ?_
  have hx' := hs.subset hx
  simp only [List.mem_cons, List.not_mem_nil, or_false] at hx'
  rcases hx' with rfl | rfl | rfl | rfl
  · exact h2 (e1.1 hx)
  · exact h3 (e2.1 hx)
  · exact (e3.1 hx).1 h4
  · exact (e4.1 hx).1 ⟨h1, h2, h3, h4, h5⟩

/-- The period is longer than ten days. -/
def Long : Prop := 240 < c.period * 24

open Classical in
theorem result_eq : c.result = if c.Clear ∧ Long c then downgrade (before c) "period_implausibly_long"
    else if c.Clear ∧ c.BetterDoubled then downgrade (before c) "subharmonic_unresolved" else before c := by
  have hsingle : (before c).verdict.verdict = "single_period" ↔ c.Clear := by
    by_cases hs : c.Signal
    · rw [((before_spec c).2 hs).1]
      by_cases hc : c.Clear
      · simp [hc]
      · simp [hc]
    · rw [((before_spec c).1 hs).1]
      exact ⟨fun h => absurd h (by decide), fun h => absurd h.1 hs⟩
  have hp := (before_flags c).2.2
  change guardHalf c.lowest c.half c.s (guardLong (before c)) = _
  unfold guardLong
  by_cases h1 : c.Clear ∧ Long c
  · rw [if_pos h1, if_pos ⟨hsingle.2 h1.1, h1.2⟩]
    unfold guardHalf
    exact if_neg fun h => absurd h.1 (by simp [downgrade])
  · rw [if_neg h1, if_neg (show ¬ ((before c).verdict.verdict = "single_period" ∧ 240 < (before c).period * 24) from fun h => h1 ⟨hsingle.1 h.1, h.2⟩)]
    unfold guardHalf
    by_cases h2 : c.Clear ∧ 0 < c.period ∧ 1 / 2 / c.period < c.lowest
    · rw [if_pos ⟨hsingle.2 h2.1, h2.2⟩, hp]
      cases hh : c.half (1 / 2 / c.period) with
      | none =>
        simp only
        rw [if_neg]
        rintro ⟨-, -, -, r, hr, -⟩
        rw [hh] at hr
        cases hr
      | some r =>
        simp only
        refine if_congr ?_ rfl rfl
        constructor
        · exact fun h => ⟨h2.1, h2.2.1, h2.2.2, r, hh, h⟩
        · rintro ⟨-, -, -, r', hr, h⟩
          rw [hh] at hr
          cases hr
          exact h
    · rw [if_neg (show ¬ ((before c).verdict.verdict = "single_period" ∧ 0 < (before c).period ∧ 1 / 2 / (before c).period < c.lowest) from
        fun h => h2 ⟨hsingle.1 h.1, h.2⟩), if_neg]
      rintro ⟨h, h3, h4, -⟩
      exact h2 ⟨h, h3, h4⟩

/-- C113: no verdict changes the period that is reported. -/
theorem C113_period : c.result.period = periodOf c.s.chosen := by
  rw [result_eq]
  split_ifs <;> rfl

/-- C113: the verdict is one of three, the code is 3, 2 and 1, a result is valid unless the data are insufficient, and reliable exactly if it
is a single period. -/
theorem C113_consistent :
    ((c.result.verdict.verdict = "single_period" ∧ c.result.verdict.code = "3" ∧ c.result.valid = true ∧ c.result.reliable = true) ∨
     (c.result.verdict.verdict = "period_family" ∧ c.result.verdict.code = "2" ∧ c.result.valid = true ∧ c.result.reliable = false) ∨
     (c.result.verdict.verdict = "insufficient_data" ∧ c.result.verdict.code = "1" ∧ c.result.valid = false ∧ c.result.reliable = false)) := by
  classical
  rw [result_eq]
  obtain ⟨f1, f2, -⟩ := before_flags c
  split_ifs with h1 h2
  · exact Or.inr (Or.inl ⟨rfl, rfl, rfl, rfl⟩)
  · exact Or.inr (Or.inl ⟨rfl, rfl, rfl, rfl⟩)
  · rw [f1, f2]
    by_cases hs : c.Signal
    · obtain ⟨e1, e2, -⟩ := (before_spec c).2 hs
      rw [e1, e2]
      by_cases hc : c.Clear
      · simp [hc]
      · simp [hc]
    · obtain ⟨e1, e2, -⟩ := (before_spec c).1 hs
      rw [e1, e2]
      simp

/-- C113: the data are insufficient exactly if the amplitude is below three times the scatter, or less than half of the rotation is covered,
or the span is below the least number of rotations, or no filter has thirty observations; exactly the reasons that apply are given, in
this order, and no flags. -/
theorem C113_insufficient :
    (c.result.verdict.verdict = "insufficient_data" ↔ ¬ (c.Bright ∧ c.Covered (1 / 2) ∧ c.Spans c.minRotations ∧ c.Enough)) ∧
    (c.result.verdict.verdict = "insufficient_data" → c.result.verdict.flags = [] ∧ c.result.verdict.reasons ≠ [] ∧
      c.result.verdict.reasons.Sublist ["amplitude_below_noise", "phase_coverage_low", "spans_too_few_rotations", "too_few_observations"] ∧
      ("amplitude_below_noise" ∈ c.result.verdict.reasons ↔ ¬ c.Bright) ∧ ("phase_coverage_low" ∈ c.result.verdict.reasons ↔ ¬ c.Covered (1 / 2)) ∧
      ("spans_too_few_rotations" ∈ c.result.verdict.reasons ↔ ¬ c.Spans c.minRotations) ∧ ("too_few_observations" ∈ c.result.verdict.reasons ↔ ¬ c.Enough)) := by
  classical
  have key : c.result.verdict.verdict = "insufficient_data" ↔ ¬ c.Signal := by
    rw [result_eq]
    split_ifs with h1 h2
    · exact ⟨fun h => absurd h (by simp [downgrade]), fun h => absurd h1.1.1 h⟩
    · exact ⟨fun h => absurd h (by simp [downgrade]), fun h => absurd h2.1.1 h⟩
    · by_cases hs : c.Signal
      · rw [((before_spec c).2 hs).1]
        by_cases hc : c.Clear
        · simp [hc, hs]
        · simp [hc, hs]
      · rw [((before_spec c).1 hs).1]
        simp [hs]
  refine ⟨key, fun h => ?_⟩
  have hs := key.1 h
  have hr : c.result = before c := by
    rw [result_eq, if_neg fun h1 => hs h1.1.1, if_neg fun h1 => hs h1.1.1]
  rw [hr]
  obtain ⟨-, -, e1, e2, e3, e4, e5, e6⟩ := (before_spec c).1 hs
  refine ⟨e1, fun hnil => ?_, e2, e3, e4, e5, e6⟩
  rw [hnil] at e3 e4 e5 e6
  simp only [List.not_mem_nil, false_iff, not_not] at e3 e4 e5 e6
  exact hs ⟨e3, e4, e5, e6⟩

/-- C113: the verdict is a single period exactly if there is a signal, seven tenths of the rotation are covered, the period has no rival, a model
with a single maximum may be claimed, the period is within the window of reliability and at most ten days, and the twice longer period is
either searched or fits no better. No reason is given then. -/
theorem C113_single :
    (c.result.verdict.verdict = "single_period" ↔ (c.Bright ∧ c.Spans c.minRotations ∧ c.Enough) ∧ c.Covered (7 / 10) ∧ c.s.clusters.length < 2 ∧
      (isDoubled c.s.chosen = true → c.claim = true) ∧ c.s.reliable = true ∧ periodOf c.s.chosen * 24 ≤ 240 ∧ ¬ c.BetterDoubled) ∧
    (c.result.verdict.verdict = "single_period" → c.result.verdict.reasons = []) := by
  classical
  have hclear : c.Clear ↔ (c.Bright ∧ c.Spans c.minRotations ∧ c.Enough) ∧ c.Covered (7 / 10) ∧ c.s.clusters.length < 2 ∧
      (isDoubled c.s.chosen = true → c.claim = true) ∧ c.s.reliable = true := by
    constructor
    · rintro ⟨⟨a1, -, a3, a4⟩, a5, a6, a7, a8⟩
      refine ⟨⟨a1, a3, a4⟩, a7, not_le.1 a5, fun hd => ?_, a8⟩
      by_contra hc
      exact a6 ⟨hd, Or.inl (Bool.not_eq_true _ ▸ hc)⟩
    · rintro ⟨⟨a1, a3, a4⟩, a7, a5, a6, a8⟩
      obtain ⟨hp, y, hy, hle⟩ := a7
      refine ⟨⟨a1, ⟨hp, y, hy, by linarith⟩, a3, a4⟩, not_le.2 a5, ?_, ⟨hp, y, hy, hle⟩, a8⟩
      rintro ⟨hd, hc | hc⟩
      · rw [a6 hd] at hc
        cases hc
      · exact absurd hc (not_le.2 a5)
  have key : c.result.verdict.verdict = "single_period" ↔ c.Clear ∧ ¬ Long c ∧ ¬ c.BetterDoubled := by
    rw [result_eq]
    split_ifs with h1 h2
    · exact ⟨fun h => absurd h (by simp [downgrade]), fun h => absurd h1.2 h.2.1⟩
    · exact ⟨fun h => absurd h (by simp [downgrade]), fun h => absurd h2.2 h.2.2⟩
    · by_cases hs : c.Signal
      · rw [((before_spec c).2 hs).1]
        by_cases hc : c.Clear
        · rw [if_pos hc]
          exact ⟨fun _ => ⟨hc, fun h => h1 ⟨hc, h⟩, fun h => h2 ⟨hc, h⟩⟩, fun _ => rfl⟩
        · rw [if_neg hc]
          exact ⟨fun h => absurd h (by decide), fun h => absurd h.1 hc⟩
      · rw [((before_spec c).1 hs).1]
        exact ⟨fun h => absurd h (by decide), fun h => absurd h.1.1 hs⟩
  constructor
  · rw [key, hclear]
    unfold Long
    rw [not_lt]
    simp only [and_assoc]
    rfl
  · intro h
    obtain ⟨h1, h2, h3⟩ := key.1 h
    rw [result_eq, if_neg fun h4 => h2 h4.2, if_neg fun h4 => h3 h4.2]
    exact before_clear c h1

/-- C113: unless the data are insufficient the flags say exactly: seven tenths of the rotation are covered; twice the least number of rotations
is spanned; the model does not have a single maximum; it has one, this is claimed and there is no rival. -/
theorem C113_flags (h : c.result.verdict.verdict ≠ "insufficient_data") :
    c.result.verdict.flags.Sublist ["good_phase_coverage", "multi_night", "two_max_two_min", "doubled_fold_assumed"] ∧
    ("good_phase_coverage" ∈ c.result.verdict.flags ↔ c.Covered (7 / 10)) ∧ ("multi_night" ∈ c.result.verdict.flags ↔ c.Spans (2 * c.minRotations)) ∧
    ("two_max_two_min" ∈ c.result.verdict.flags ↔ isDoubled c.s.chosen = false) ∧
    ("doubled_fold_assumed" ∈ c.result.verdict.flags ↔ isDoubled c.s.chosen = true ∧ c.claim = true ∧ c.s.clusters.length < 2) := by
  classical
  have hs : c.Signal := by
    by_contra hs
    exact h ((C113_insufficient c).1.2 hs)
  obtain ⟨-, -, e1, e2, e3, e4, e5, -⟩ := (before_spec c).2 hs
  have hf : c.result.verdict.flags = (before c).verdict.flags := by
    rw [result_eq]
    split_ifs <;> rfl
  rw [hf]
  exact ⟨e1, e2, e3, e4, e5.trans (by unfold Case.Ambiguous; rw [not_le])⟩

theorem mem_downgrade {x reason : String} {p : Primary} : x ∈ (downgrade p reason).verdict.reasons ↔ x ∈ p.verdict.reasons ∨ x = reason := by
  unfold downgrade
  simp only
  split_ifs with h
  · exact ⟨Or.inl, fun h' => h'.elim id fun e => e ▸ h⟩
  · simp

/-- C113: unless the data are insufficient exactly these reasons are given: there is a rival; the model has a single maximum that may not be
claimed; only this: less than seven tenths of the rotation are covered; the solution is not valid, and not otherwise clear; the period would be
single but is longer than ten days; it would be single but the unsearched period of twice the length fits better. -/
theorem C113_reasons (h : c.result.verdict.verdict ≠ "insufficient_data") : ∀ x, x ∈ c.result.verdict.reasons ↔
    (x = "conflicting_aliases" ∧ 2 ≤ c.s.clusters.length) ∨
    (x = "single_max_alias" ∧ isDoubled c.s.chosen = true ∧ (c.claim = false ∨ 2 ≤ c.s.clusters.length)) ∨
    (x = "phase_coverage_low" ∧ ¬ c.Covered (7 / 10) ∧ c.s.clusters.length < 2 ∧ (isDoubled c.s.chosen = true → c.claim = true)) ∨
    (x = "no_precision" ∧ ¬ c.Clear ∧ c.s.valid = false) ∨
    (x = "period_implausibly_long" ∧ c.Clear ∧ 240 < periodOf c.s.chosen * 24) ∨
    (x = "subharmonic_unresolved" ∧ c.Clear ∧ periodOf c.s.chosen * 24 ≤ 240 ∧ c.BetterDoubled) := by
  classical
  have hs : c.Signal := by
    by_contra hs
    exact h ((C113_insufficient c).1.2 hs)
  obtain ⟨-, -, -, -, -, -, -, e0, e1, e2, e3, e4⟩ := (before_spec c).2 hs
  have hb : ¬ c.Ambiguous ∧ ¬ c.Blocked ↔ c.s.clusters.length < 2 ∧ (isDoubled c.s.chosen = true → c.claim = true) := by
    unfold Case.Blocked Case.Ambiguous
    rw [not_le]
    refine and_congr_right fun hl => ?_
    constructor
    · intro h1 h2
      by_contra h3
      exact h1 ⟨h2, Or.inl (Bool.not_eq_true _ ▸ h3)⟩
    · rintro h1 ⟨h2, h3 | h3⟩
      · rw [h1 h2] at h3
        cases h3
      · omega
  have hbefore : ∀ x, x ∈ (before c).verdict.reasons ↔ (x = "conflicting_aliases" ∧ 2 ≤ c.s.clusters.length) ∨
    (x = "single_max_alias" ∧ isDoubled c.s.chosen = true ∧ (c.claim = false ∨ 2 ≤ c.s.clusters.length)) ∨
    (x = "phase_coverage_low" ∧ ¬ c.Covered (7 / 10) ∧ c.s.clusters.length < 2 ∧ (isDoubled c.s.chosen = true → c.claim = true)) ∨
    (x = "no_precision" ∧ ¬ c.Clear ∧ c.s.valid = false) := by
    rw [hb] at e3
    intro x
    constructor
    · intro hx
      have hx' := e0.subset hx
      simp only [List.mem_cons, List.not_mem_nil, or_false] at hx'
      rcases hx' with rfl | rfl | rfl | rfl
      · exact Or.inl ⟨rfl, e1.1 hx⟩
      · exact Or.inr (Or.inl ⟨rfl, e2.1 hx⟩)
      · exact Or.inr (Or.inr (Or.inl ⟨rfl, e3.1 hx⟩))
      · exact Or.inr (Or.inr (Or.inr ⟨rfl, e4.1 hx⟩))
    · rintro (⟨rfl, h⟩ | ⟨rfl, h⟩ | ⟨rfl, h⟩ | ⟨rfl, h⟩)
      · exact e1.2 h
      · exact e2.2 h
      · exact e3.2 h
      · exact e4.2 h
  intro x
  rw [result_eq]
  have hlong : ∀ h : ¬ Long c, periodOf c.s.chosen * 24 ≤ 240 := fun h => not_lt.1 h
  split_ifs with h1 h2
  · rw [mem_downgrade, hbefore]
    have : 240 < periodOf c.s.chosen * 24 := h1.2
    have h3 := h1.1
    have h4 : ¬ periodOf c.s.chosen * 24 ≤ 240 := not_le.2 this
    simp only [this, h3, h4, false_and, and_false, and_true, or_false, not_true_eq_false, or_assoc, false_or]
  · rw [mem_downgrade, hbefore]
    have h3 := h2.1
    have h4 : ¬ Long c := fun h => h1 ⟨h3, h⟩
    have h5 : ¬ 240 < periodOf c.s.chosen * 24 := h4
    have h6 := hlong h4
    have h7 := h2.2
    simp only [h5, h3, h6, h7, false_and, and_false, and_true, or_false, not_true_eq_false, or_assoc, false_or]
  · rw [hbefore]
    have h3 : ¬ (c.Clear ∧ 240 < periodOf c.s.chosen * 24) := h1
    have h4 : ¬ (c.Clear ∧ periodOf c.s.chosen * 24 ≤ 240 ∧ c.BetterDoubled) := fun h => h2 ⟨h.1, h.2.2⟩
    simp only [h3, h4, and_false, or_false]

/-- C113, not true: that a period that is not called single comes with a reason. Whenever everything but the window of reliability would
allow a single period, and the profile sets no limit on the relative uncertainty, the verdict is a family without any reason. -/
theorem C113_reason_false (h1 : c.Signal) (h2 : c.Covered (7 / 10)) (h3 : c.s.clusters.length < 2) (h4 : isDoubled c.s.chosen = true → c.claim = true)
    (h5 : c.s.reliable = false) (h6 : c.s.valid = true) : c.result.verdict.verdict = "period_family" ∧ c.result.verdict.reasons = [] := by
  have hclear : ¬ c.Clear := fun h => absurd (h5.symm.trans h.2.2.2.2) (by simp)
  have hi : c.result.verdict.verdict ≠ "insufficient_data" := fun h => (C113_insufficient c).1.1 h h1
  have hns : c.result.verdict.verdict ≠ "single_period" := by
    intro h
    have := ((C113_single c).1.1 h).2.2.2.2.1
    rw [h5] at this
    cases this
  constructor
  · rcases C113_consistent c with h | h | h
    · exact absurd h.1 hns
    · exact h.1
    · exact absurd h.1 hi
  · refine List.eq_nil_iff_forall_not_mem.2 fun x hx => ?_
    rcases (C113_reasons c hi x).1 hx with ⟨-, h⟩ | ⟨-, h, h'⟩ | ⟨-, h, -⟩ | ⟨-, -, h⟩ | ⟨-, h, -⟩ | ⟨-, h, -⟩
    · omega
    · rcases h' with h' | h'
      · rw [h4 h] at h'
        cases h'
      · omega
    · exact h h2
    · rw [h6] at h
      cases h
    · exact hclear h
    · exact hclear h

end Judge

/-- C113: the flags about the search: the search in stages is reported exactly if it was asked for and there are more than 2048 frequencies. -/
theorem C113_search (exactGrid capped : Bool) (count : Nat) :
    ("staged_search_used" ∈ searchFlags exactGrid count capped ↔ exactGrid = false ∧ 2048 < count) ∧
    ("grid_capped" ∈ searchFlags exactGrid count capped ↔ capped = true) := by
  unfold searchFlags
  by_cases h : exactGrid = false ∧ 2048 < count
  · rw [if_pos h]
    cases capped <;> simp [h]
  · rw [if_neg h]
    cases capped <;> simp [h]

/-! ## A case -/

/-- Values that repeat `q` times in a cycle have a multiple of `q` maxima. -/
theorem countMaxima_dvd {m q : Nat} (hm : 0 < m) {v : Nat → ℝ} (hv : ∀ k, v ((k + m) % (q * m)) = v (k % (q * m))) : q ∣ countMaxima (q * m) v := by
  rcases Nat.eq_zero_or_pos q with rfl | hq
  · simp [countMaxima]
  set n := q * m with hn
  have hn0 : 0 < n := Nat.mul_pos hq hm
  set p : Nat → Bool := fun k => decide (v ((k + (n - 1)) % n) < v (k % n) ∧ v ((k + 1) % n) ≤ v (k % n)) with hp
  have hpm : ∀ k, p (k + m) = p k := by
    intro k
    have e1 := hv (k + (n - 1))
    have e2 := hv (k + 1)
    simp only [hp]
    rw [show k + m + (n - 1) = k + (n - 1) + m by omega, show k + m + 1 = k + 1 + m by omega, e1, e2, hv k]
  have hpj : ∀ j k, p (m * j + k) = p k := by
    intro j
    induction j with
    | zero => intro k; rw [Nat.mul_zero, Nat.zero_add]
    | succ j ih => intro k; rw [Nat.mul_succ, show m * j + m + k = m * j + k + m by omega, hpm, ih]
  have hcount : ∀ j, ((List.range (m * j)).filter p).length = j * ((List.range m).filter p).length := by
    intro j
    induction j with
    | zero => simp
    | succ j ih =>
      rw [Nat.mul_succ, List.range_add, List.filter_append, List.length_append, ih, List.filter_map, List.length_map,
        show (p ∘ fun x => m * j + x) = p from funext fun k => hpj j k]
      ring
  have : countMaxima n v = ((List.range n).filter p).length := by
    unfold countMaxima
    rw [List.filter_congr fun k hk => ?_]
    simp only [hp]
    rw [Nat.mod_eq_of_lt (List.mem_range.1 hk)]
  rw [this, hn, Nat.mul_comm, hcount]
  exact Dvd.intro _ rfl

/-- A fit with the fourth harmonic only. -/
noncomputable def fourFit : Fit := ⟨24, 4, [0, 0, 0, 0, 0, 0, 1, 0], 1 / 2, 1, 80, 20, 100, 0⟩

theorem periodic_four (x : ℝ) : periodic fourFit.coeffs fourFit.order x = Real.cos (2 * Real.pi * 4 * x) := by
  unfold periodic fourFit
  simp [List.range_succ]
  norm_num

theorem four_maxima : 4 ∣ countMaxima 2048 (fun k : Nat => periodic fourFit.coeffs fourFit.order ((k : ℝ) / 2048)) := by
  have := countMaxima_dvd (m := 512) (q := 4) (v := fun k : Nat => periodic fourFit.coeffs fourFit.order ((k : ℝ) / 2048)) (by norm_num) (by
    intro k
    simp only [periodic_four]
    have h1 := Nat.div_add_mod (k + 512) (4 * 512)
    have h2 := Nat.div_add_mod k (4 * 512)
    generalize (k + 512) / (4 * 512) = a at h1
    generalize (k + 512) % (4 * 512) = b at h1 ⊢
    generalize k / (4 * 512) = a' at h2
    generalize k % (4 * 512) = b' at h2 ⊢
    have h3 : ((4 * 512 * a + b : Nat) : ℝ) = ((4 * 512 * a' + b' + 512 : Nat) : ℝ) := by rw [h1, h2]
    push_cast at h3
    have h4 : (b : ℝ) = b' + 512 + 2048 * (a' - a) := by linarith
    have : 2 * Real.pi * 4 * ((b : ℝ) / 2048) = 2 * Real.pi * 4 * ((b' : ℝ) / 2048) + ((1 + 4 * (a' - a) : ℤ) : ℝ) * (2 * Real.pi) := by
      rw [h4]
      push_cast
      ring
    rw [this, Real.cos_add_int_mul_two_pi])
  exact this

theorem four_doubled : isDoubled fourFit = false := by
  unfold isDoubled
  refine decide_eq_false fun h => ?_
  have := four_maxima
  rw [h] at this
  omega

theorem four_period : periodOf fourFit = 1 / 24 := by
  unfold periodOf
  rw [four_doubled]
  rfl

theorem four_amplitude : 2 ≤ amplitudeOf fourFit := by
  have := (C113_amplitude fourFit).2 0 (by norm_num) 512 (by norm_num)
  rw [periodic_four, periodic_four] at this
  have h1 : 2 * Real.pi * 4 * (((0 : Nat) : ℝ) / 4096) = 0 := by simp
  have h2 : 2 * Real.pi * 4 * (((512 : Nat) : ℝ) / 4096) = Real.pi := by push_cast; ring
  rw [h1, h2, Real.cos_zero, Real.cos_pi] at this
  linarith

/-- A hundred observations within five hours, of an object that turns in an hour. -/
noncomputable def fiveHours : Case where
  filters := List.replicate 100 "V"
  times := (List.range 100).map fun k : Nat => (k : ℝ) / 480
  span := 99 / 480
  minRotations := 2
  claim := false
  lowest := 2 / (99 / 480)
  half := fun _ => none
  s := ⟨fourFit, ⟨[0], fourFit, 1 / 25, 1 / 23⟩, 1, [⟨[0], fourFit, 1 / 25, 1 / 23⟩], 1 / 20, [], true, true⟩

theorem fiveHours_covered {x : ℝ} (hx : x ≤ 1) : fiveHours.Covered x := by
  have hp : fiveHours.period = 1 / 24 := four_period
  refine ⟨by rw [hp]; norm_num, ?_⟩
  obtain ⟨s, h1, h2⟩ := (C113_coverage fiveHours.times fiveHours.period).2 (by
    intro h
    have := congrArg List.length h
    simp [fiveHours] at this)
  refine ⟨_, h1, ?_⟩
  have : s = Finset.univ := by
    refine Finset.eq_univ_iff_forall.2 fun k => (h2 k).2 ⟨((k : Nat) : ℝ) / 480, ?_, ?_⟩
    · exact List.mem_map.2 ⟨k, List.mem_range.2 (by have := k.isLt; omega), rfl⟩
    · have hk : ((k : Nat) : ℝ) < 20 := by exact_mod_cast k.isLt
      have hk0 : (0 : ℝ) ≤ ((k : Nat) : ℝ) := Nat.cast_nonneg _
      have e : ((k : Nat) : ℝ) / 480 / fiveHours.period = ((k : Nat) : ℝ) / 20 := by rw [hp]; ring
      have hf : Int.fract (((k : Nat) : ℝ) / 480 / fiveHours.period) = ((k : Nat) : ℝ) / 20 := by
        rw [e, Int.fract_eq_self]
        constructor
        · exact div_nonneg hk0 (by norm_num)
        · rw [div_lt_one (by norm_num)]; exact hk
      rw [hf]
      refine ⟨le_refl _, ?_⟩
      rw [div_lt_div_iff_of_pos_right (by norm_num)]
      linarith
  rw [this]
  simp
  exact hx

theorem fiveHours_single : fiveHours.result.verdict.verdict = "single_period" := by
  have hp : periodOf fiveHours.s.chosen = 1 / 24 := four_period
  have hp' : fiveHours.period = 1 / 24 := four_period
  refine (C113_single fiveHours).1.2 ⟨⟨⟨?_, ?_⟩, ⟨?_, ?_⟩, "V", ?_⟩, fiveHours_covered (by norm_num), ?_, ?_, rfl, ?_, ?_⟩
  · change (0 : ℝ) < 1 / 2; norm_num
  · change 3 * (1 / 2 : ℝ) ≤ amplitudeOf fourFit
    have := four_amplitude
    linarith
  · rw [hp']; norm_num
  · rw [hp']; change (2 : ℝ) * (1 / 24) ≤ 99 / 480; norm_num
  · have : fiveHours.filters = List.replicate 100 "V" := rfl
    rw [this]
    rw [List.count_replicate_self]
    omega
  · change 1 < 2
    omega
  · intro h
    change isDoubled fourFit = true at h
    rw [four_doubled] at h
    cases h
  · rw [hp]; norm_num
  · rintro ⟨-, -, r, h, -⟩
    cases h

/-- C113, not true: that the flags `multi_night` and `two_max_two_min` mean observations in several nights and a model with two maxima and two
minima. A single period is reported with both flags for a hundred observations within five hours and a model whose number of maxima is a
multiple of four. -/
theorem C113_flags_false : ∃ c : Case, c.result.verdict.verdict = "single_period" ∧ "multi_night" ∈ c.result.verdict.flags ∧
    "two_max_two_min" ∈ c.result.verdict.flags ∧ (∀ t ∈ c.times, 0 ≤ t ∧ t * 24 ≤ 5) ∧
    countMaxima 2048 (fun k : Nat => periodic c.s.chosen.coeffs c.s.chosen.order ((k : ℝ) / 2048)) ≠ 2 := by
  have hs := fiveHours_single
  obtain ⟨-, -, h1, h2, -⟩ := C113_flags fiveHours (by rw [hs]; decide)
  refine ⟨fiveHours, hs, h1.2 ⟨?_, ?_⟩, h2.2 four_doubled, ?_, ?_⟩
  · rw [show fiveHours.period = 1 / 24 from four_period]; norm_num
  · rw [show fiveHours.period = 1 / 24 from four_period]; change (2 * 2 : ℝ) * (1 / 24) ≤ 99 / 480; norm_num
  · intro t ht
    obtain ⟨k, hk, rfl⟩ := List.mem_map.1 ht
    have : (k : ℝ) ≤ 99 := by exact_mod_cast Nat.lt_succ_iff.1 (List.mem_range.1 hk)
    constructor
    · positivity
    · linarith
  · intro h
    have := four_maxima
    change countMaxima 2048 (fun k : Nat => periodic fourFit.coeffs fourFit.order ((k : ℝ) / 2048)) = 2 at h
    rw [h] at this
    omega

/-- A case that meets the hypotheses of `C113_reason_false`: the same light curve with a period outside the window of reliability. -/
example : ({ fiveHours with s := { fiveHours.s with reliable := false } } : Case).result.verdict.verdict = "period_family" ∧
    ({ fiveHours with s := { fiveHours.s with reliable := false } } : Case).result.verdict.reasons = [] := by
  obtain ⟨⟨⟨h1, h2, h3⟩, h4, h5, h6, -⟩, -⟩ := And.intro ((C113_single fiveHours).1.1 fiveHours_single) trivial
  exact C113_reason_false _ ⟨h1, fiveHours_covered (by norm_num), h2, h3⟩ h4 h5 h6 rfl rfl

end Verif.Rot.Props
