import Verif.Rot.Cluster

/-! # The verdict on a period (photometry/rotation/estimator.py)

Numbers are finite reals; None is `none`. -/

namespace Verif.Rot

open Verif Sched

/-- `_observation_count_sufficient`. estimator.py:894-915. -/
def enoughObservations (filters : List String) : Bool := (uniq filters).any fun f => decide (30 ≤ filters.count f)

/-- `_phase_coverage_fraction` for a positive period; without rounding the clip does nothing. estimator.py:918-939. -/
noncomputable def phaseCoverage (times : List ℝ) (period : ℝ) : Option ℝ :=
  if times = [] then none
  else some (((uniq (times.map fun t => ⌊Int.fract (t / period) * 20⌋)).length : ℝ) / 20)

/-- `_amplitude_from_fit`. core.py:643-667. -/
noncomputable def amplitudeOf (r : Fit) : ℝ :=
  let values := (List.range 4096).map fun k : Nat => periodic r.coeffs r.order ((k : ℝ) / 4096)
  maxFrom (values.headD 0) values - minFrom (values.headD 0) values

/-- `_amplitude_snr`. estimator.py:942-952. -/
noncomputable def amplitudeSnr (amplitude sigma : ℝ) : Option ℝ := if sigma ≤ 0 then none else some (amplitude / sigma)

/-- `_below_min`. estimator.py:955-962. -/
noncomputable def belowMin (value : Option ℝ) (threshold : ℝ) : Bool :=
  match value with
  | none => true
  | some x => decide (x < threshold)

/-- `_at_least`. estimator.py:965-971. -/
noncomputable def atLeast (value : Option ℝ) (threshold : ℝ) : Bool :=
  match value with
  | none => false
  | some x => decide (threshold ≤ x)

/-- A table of conditions and labels: the labels whose condition holds, in order. estimator.py:1007-1018, 1032-1039, 1059-1071. -/
def labelsOf (table : List (Bool × String)) : List String := (table.filter fun r => r.1).map Prod.snd

/-- `_RELIABILITY_BY_VERDICT`. estimator.py:88-92. -/
def codeOf (verdict : String) : String :=
  if verdict = "single_period" then "3" else if verdict = "period_family" then "2" else "1"

/-- The verdict, its flags and its reasons. Used for estimator.py:974-1087. -/
structure Verdict where
  verdict : String
  code : String
  flags : List String
  reasons : List String
  deriving DecidableEq

/-- `_classify_confidence`. estimator.py:974-1087. -/
noncomputable def classify (snr coverage rotations : Option ℝ) (minRotations : ℝ) (aliases : Nat) (doubled enough reliable valid claim : Bool) : Verdict :=
  let reasons := labelsOf [(belowMin snr 3, "amplitude_below_noise"), (belowMin coverage (1 / 2), "phase_coverage_low"),
    (belowMin rotations minRotations, "spans_too_few_rotations"), (!enough, "too_few_observations")]
  if reasons ≠ [] then ⟨"insufficient_data", codeOf "insufficient_data", [], reasons⟩
  else
    let good := atLeast coverage (7 / 10)
    let flags := labelsOf [(good, "good_phase_coverage"), (atLeast rotations (2 * minRotations), "multi_night"), (!doubled, "two_max_two_min")]
    let ambiguous := decide (2 ≤ aliases)
    let assumed := claim && doubled && !ambiguous
    let flags := if assumed then flags ++ ["doubled_fold_assumed"] else flags
    let blocking := doubled && !assumed
    let eligible := !ambiguous && !blocking && good
    let reasons := labelsOf [(ambiguous, "conflicting_aliases"), (blocking, "single_max_alias"),
      (!good && !ambiguous && !blocking, "phase_coverage_low")]
    if eligible && reliable then ⟨"single_period", codeOf "single_period", flags, reasons⟩
    else if valid then ⟨"period_family", codeOf "period_family", flags, reasons⟩
    else ⟨"period_family", codeOf "period_family", flags, if "no_precision" ∈ reasons then reasons else reasons ++ ["no_precision"]⟩

/-- `_PrimaryResult`, as far as the verdict goes. estimator.py:140-162. -/
structure Primary where
  period : ℝ
  verdict : Verdict
  valid : Bool
  reliable : Bool

/-- `_primary_from_method`, `_verdict_diagnostics` and `_primary_result`. estimator.py:1090-1201. -/
noncomputable def primaryOf (filters : List String) (times : List ℝ) (span minRotations : ℝ) (claim : Bool) (s : Solution) : Primary :=
  let period := periodOf s.chosen
  let rotations := if 0 < period then some (span / period) else none
  let coverage := if 0 < period then phaseCoverage times period else none
  let v := classify (amplitudeSnr (amplitudeOf s.chosen) s.chosen.sigma) coverage rotations minRotations s.clusters.length (isDoubled s.chosen)
    (enoughObservations filters) s.reliable s.valid claim
  ⟨period, v, decide (v.verdict = "single_period" ∨ v.verdict = "period_family"), decide (v.verdict = "single_period")⟩

/-- What both guards do to a verdict. estimator.py:1638-1643, 1680-1685. -/
def downgrade (p : Primary) (reason : String) : Primary :=
  { p with
    verdict := { p.verdict with
      verdict := "period_family"
      code := codeOf "period_family"
      reasons := if reason ∈ p.verdict.reasons then p.verdict.reasons else p.verdict.reasons ++ [reason] }
    valid := true
    reliable := false }

/-- The guard against long periods. estimator.py:1629-1643. -/
noncomputable def guardLong (p : Primary) : Primary :=
  if p.verdict.verdict = "single_period" ∧ 240 < p.period * 24 then downgrade p "period_implausibly_long" else p

/-- The guard against periods half of the true one: `half` fits at a frequency with the highest order. estimator.py:1645-1685. -/
noncomputable def guardHalf (lowest : ℝ) (half : ℝ → Option Fit) (s : Solution) (p : Primary) : Primary :=
  if p.verdict.verdict = "single_period" ∧ 0 < p.period ∧ (1 / 2) / p.period < lowest then
    match half ((1 / 2) / p.period) with
    | none => p
    | some r => if r.sigma < s.chosen.sigma then downgrade p "subharmonic_unresolved" else p
  else p

/-- The verdict of `estimate_rotation_period` on a solution. estimator.py:1617-1685. -/
noncomputable def judge (filters : List String) (times : List ℝ) (span minRotations : ℝ) (claim : Bool) (lowest : ℝ) (half : ℝ → Option Fit)
    (s : Solution) : Primary :=
  guardHalf lowest half s (guardLong (primaryOf filters times span minRotations claim s))

/-- The flags for diagnostics that are appended. estimator.py:1687-1701. -/
noncomputable def searchFlags (exactGrid : Bool) (count : Nat) (capped : Bool) : List String :=
  (if exactGrid = false ∧ 2048 < count then ["staged_search_used"] else []) ++ (if capped then ["grid_capped"] else [])

end Verif.Rot
