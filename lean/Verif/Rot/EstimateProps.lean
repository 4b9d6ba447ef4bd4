import Verif.Rot.Estimate
import Verif.Rot.Exists
import Verif.Rot.GridProps
import Verif.Rot.VerdictProps
import Verif.AbsMag.FitProps

/-! # estimate_rotation_period: C114 -/

namespace Verif.Rot.Props

open Verif Sched

/-! ## What is asked of the input -/

/-- The parameters that are accepted. -/
structure Accepted (k : Knobs) : Prop where
  clip : 0 < k.clip
  rotations : 0 < k.minRotations
  frequency : 0 < k.maxFrequency
  scale : 0 < k.scale
  period : ∀ h, k.maxPeriodHours = some h → 0 < h
  mode : k.mode = "ignore" ∨ k.mode = "use" ∨ k.mode = "auto"
  group : 0 < k.minGroup
  gain : 0 ≤ k.bicGain
  backend : k.backend = "numpy" ∨ k.backend = "jax"
  fidelity : k.fidelity = none ∨ k.fidelity = some "validated_staged" ∨ k.fidelity = some "exact_grid"
  profile : k.profile = "default"

theorem knobsOk_iff {k : Knobs} : knobsOk k = true ↔ Accepted k := by
  have h1 : (k.maxPeriodHours.all fun h => decide (0 < h)) = true ↔ ∀ h, k.maxPeriodHours = some h → 0 < h := by
    cases k.maxPeriodHours <;> simp
  have h2 : k.fidelity.getD "validated_staged" ∈ ["validated_staged", "exact_grid"] ↔
      k.fidelity = none ∨ k.fidelity = some "validated_staged" ∨ k.fidelity = some "exact_grid" := by
    cases k.fidelity <;> simp
  unfold knobsOk
  simp only [Bool.and_eq_true, decide_eq_true_eq, h1, h2]
  constructor
  · rintro ⟨⟨⟨⟨⟨⟨⟨⟨⟨⟨a, b⟩, c⟩, d⟩, e⟩, f⟩, g⟩, h⟩, i⟩, j⟩, l⟩
    exact ⟨a, b, c, d, e, by simpa using f, g, h, by simpa using i, j, l⟩
  · rintro ⟨a, b, c, d, e, f, g, h, i, j, l⟩
    exact ⟨⟨⟨⟨⟨⟨⟨⟨⟨⟨a, b⟩, c⟩, d⟩, e⟩, by simpa using f⟩, g⟩, h⟩, by simpa using i⟩, j⟩, l⟩

/-- A row of the table that is accepted, with its numbers. -/
def Usable (o : Obs) (r : Row) : Prop :=
  o.time = some r.time ∧ o.mag = some r.mag ∧ o.r = some r.r ∧ o.delta = some r.delta ∧ o.alpha = some r.alpha ∧ r.sigma = o.sigma ∧
  r.filter = o.filter.getD "__missing_filter__" ∧ r.session = o.session

theorem rowOf_iff {o : Obs} {r : Row} : rowOf o = some r ↔ Usable o r := by
  obtain ⟨t, m, s, f, se, x, d, a⟩ := o
  obtain ⟨t', m', s', f', se', x', d', a'⟩ := r
  unfold rowOf Usable
  cases t <;> cases m <;> cases x <;> cases d <;> cases a <;> simp
  grind

/-- C114: the observations are accepted exactly if there are some, the time, magnitude, distances and phase angle of every one are finite numbers
and the distances are positive; uncertainties, filters and sessions may be missing. The rows keep their order and values. Otherwise ValueError is
raised. -/
theorem C114_validate {obs : List Obs} :
    (∀ rows, validate obs = .ok rows ↔ obs ≠ [] ∧ List.Forall₂ Usable obs rows ∧ ∀ r ∈ rows, 0 < r.r ∧ 0 < r.delta) ∧
    ∀ e, validate obs = .error e → e = .valueError := by
  have hmap : ∀ {l : List Obs}, (l.any fun o => (rowOf o).isNone) = false → List.Forall₂ Usable l (l.filterMap rowOf) := by
    intro l
    induction l with
    | nil => simp
    | cons o l ih =>
      intro h
      rw [List.any_cons, Bool.or_eq_false_iff] at h
      cases hr : rowOf o with
      | none => rw [hr] at h; simp at h
      | some r =>
        rw [List.filterMap_cons_some hr]
        exact List.Forall₂.cons (rowOf_iff.1 hr) (ih h.2)
  have hmap' : ∀ {l : List Obs} {rows}, List.Forall₂ Usable l rows → (l.any fun o => (rowOf o).isNone) = false ∧ l.filterMap rowOf = rows := by
    intro l rows h
    induction h with
    | nil => simp
    | cons h _ ih =>
      have := rowOf_iff.2 h
      rw [List.any_cons, List.filterMap_cons_some this, ih.1, ih.2, this]
      simp
  unfold validate
  refine ⟨fun rows => ?_, fun e => ?_⟩
  · by_cases h0 : obs = []
    · simp [h0]
    rw [if_neg h0]
    cases hb : obs.any fun o => (rowOf o).isNone with
    | true =>
      simp only [if_true, reduceCtorEq, ne_eq, false_iff, not_and]
      intro _ h
      rw [(hmap' h).1] at hb
      cases hb
    | false =>
      simp only [Bool.false_eq_true, if_false]
      have hpos : ((obs.filterMap rowOf).any fun r => decide (r.r ≤ 0 ∨ r.delta ≤ 0)) = true ↔ ¬ ∀ r ∈ obs.filterMap rowOf, 0 < r.r ∧ 0 < r.delta := by
        simp only [List.any_eq_true, decide_eq_true_eq]
        push Not
        constructor
        · rintro ⟨x, hx, h | h⟩
          · exact ⟨x, hx, fun h' => absurd h (not_le.2 h')⟩
          · exact ⟨x, hx, fun _ => h⟩
        · rintro ⟨x, hx, h⟩
          rcases le_or_gt x.r 0 with h' | h'
          · exact ⟨x, hx, Or.inl h'⟩
          · exact ⟨x, hx, Or.inr (h h')⟩
      by_cases hp : ∀ r ∈ obs.filterMap rowOf, 0 < r.r ∧ 0 < r.delta
      · rw [if_neg (fun h => hpos.1 h hp)]
        constructor
        · intro h
          cases h
          exact ⟨h0, hmap hb, hp⟩
        · rintro ⟨-, h2, -⟩
          rw [(hmap' h2).2]
      · rw [if_pos (hpos.2 hp)]
        simp only [reduceCtorEq, ne_eq, false_iff, not_and]
        intro _ h2
        rw [← (hmap' h2).2]
        exact hp
  · dsimp only
    split_ifs <;> intro h <;> cases h <;> rfl

/-! ## The screen -/

/-- The median: the mean of the two in the middle, or the one. -/
def IsMedian (l : List ℝ) (m : ℝ) : Prop :=
  ∃ s : List ℝ, s.Perm l ∧ s.Pairwise (· ≤ ·) ∧ ∃ a b, s[(s.length - 1) / 2]? = some a ∧ s[s.length / 2]? = some b ∧ m = (a + b) / 2

theorem median_isMedian {l : List ℝ} (h0 : l ≠ []) : IsMedian l (AbsMag.median l) := by
  have hp := sortBy_perm (id : ℝ → ℝ) l
  have hlen : 0 < (sortBy id l).length := by rw [hp.length_eq]; exact List.length_pos_iff.2 h0
  refine ⟨sortBy id l, hp, sortBy_sorted id l, ?_⟩
  unfold AbsMag.median
  simp only
  generalize sortBy id l = s at hlen
  have h1 : (s.length - 1) / 2 < s.length := by omega
  have h2 : s.length / 2 < s.length := by omega
  refine ⟨s[(s.length - 1) / 2], s[s.length / 2], List.getElem?_eq_getElem h1, List.getElem?_eq_getElem h2, ?_⟩
  by_cases hodd : s.length % 2 = 1
  · have he : (s.length - 1) / 2 = s.length / 2 := by omega
    rw [if_pos hodd, List.getD_eq_getElem?_getD, List.getElem?_eq_getElem h2]
    simp only [he, Option.getD_some]
    ring
  · have he : (s.length - 1) / 2 = s.length / 2 - 1 := by omega
    rw [if_neg hodd, List.getD_eq_getElem?_getD, List.getD_eq_getElem?_getD, List.getElem?_eq_getElem h2, ← he, List.getElem?_eq_getElem h1]
    rfl

theorem isMedian_unique {l : List ℝ} {m m' : ℝ} (h : IsMedian l m) (h' : IsMedian l m') : m = m' := by
  obtain ⟨s, hp, hs, a, b, ha, hb, rfl⟩ := h
  obtain ⟨s', hp', hs', a', b', ha', hb', rfl⟩ := h'
  have : s = s' := (hp.trans hp'.symm).eq_of_pairwise (fun a b _ _ h1 h2 => le_antisymm h1 h2) hs hs'
  subst this
  rw [ha] at ha'
  rw [hb] at hb'
  cases ha'
  cases hb'
  rfl

/-- The scatter of some numbers: 1.4826 times the median distance from the median. -/
def IsScatter (l : List ℝ) (s : ℝ) : Prop := ∃ m d, IsMedian l m ∧ IsMedian (l.map fun x => |x - m|) d ∧ s = 1.4826 * d

/-- The noise: the median of the uncertainties there are, or 0.02. -/
def IsNoise (sigmas : List ℝ) (s : ℝ) : Prop := (sigmas = [] ∧ s = 0.02) ∨ IsMedian sigmas s

theorem quiet_iff {rows : List Row} (h0 : rows ≠ []) {noise : ℝ} :
    AbsMag.madSigma (rows.map Row.reduced) < 1.5 * noise ↔ ∃ s, IsScatter (rows.map Row.reduced) s ∧ s < 1.5 * noise := by
  have h1 : IsScatter (rows.map Row.reduced) (AbsMag.madSigma (rows.map Row.reduced)) :=
    ⟨_, _, median_isMedian (by simpa using h0), median_isMedian (by simpa using h0), rfl⟩
  constructor
  · exact fun h => ⟨_, h1, h⟩
  · rintro ⟨s, ⟨m, d, hm, hd, rfl⟩, h⟩
    obtain ⟨m', d', hm', hd', he⟩ := h1
    cases isMedian_unique hm hm'
    cases isMedian_unique hd hd'
    rwa [he]

theorem noise_iff {l : List ℝ} {s : ℝ} : IsNoise l s ↔ s = if l = [] then 0.02 else AbsMag.median l := by
  unfold IsNoise
  by_cases h : l = []
  · subst h
    simp only [true_and, if_true, or_iff_left_iff_imp]
    rintro ⟨t, hp, -, a, b, ha, -⟩
    rw [List.Perm.eq_nil hp] at ha
    cases ha
  · rw [if_neg h]
    simp only [h, false_and, false_or]
    exact ⟨fun h' => isMedian_unique h' (median_isMedian h), fun h' => h' ▸ median_isMedian h⟩

/-- The greatest difference of corrected times. -/
def IsSpan (env : Env) (rows : List Row) (s : ℝ) : Prop :=
  (∃ a ∈ rows, ∃ b ∈ rows, s = (a.time - a.delta / env.light) - (b.time - b.delta / env.light)) ∧
  ∀ a ∈ rows, ∀ b ∈ rows, (a.time - a.delta / env.light) - (b.time - b.delta / env.light) ≤ s

theorem maxFrom_head {l : List ℝ} (h : l ≠ []) : maxFrom (l.headD 0) l ∈ l ∧ ∀ x ∈ l, x ≤ maxFrom (l.headD 0) l := by
  obtain ⟨h1, -, h3⟩ := maxFrom_spec l (l.headD 0)
  refine ⟨?_, h3⟩
  rcases h1 with h1 | h1
  · rw [h1]
    cases l with
    | nil => exact absurd rfl h
    | cons a l => simp
  · exact h1

theorem minFrom_head {l : List ℝ} (h : l ≠ []) : minFrom (l.headD 0) l ∈ l ∧ ∀ x ∈ l, minFrom (l.headD 0) l ≤ x := by
  obtain ⟨h1, -, h3⟩ := minFrom_spec l (l.headD 0)
  refine ⟨?_, h3⟩
  rcases h1 with h1 | h1
  · rw [h1]
    cases l with
    | nil => exact absurd rfl h
    | cons a l => simp
  · exact h1

theorem spanOf_isSpan (env : Env) {rows : List Row} (h : rows ≠ []) : IsSpan env rows (spanOf env rows) := by
  have hne : relTimes env rows ≠ [] := by simpa [relTimes] using h
  obtain ⟨h1, h2⟩ := maxFrom_head hne
  obtain ⟨h3, h4⟩ := minFrom_head hne
  have hmem : ∀ a ∈ rows, a.lightTime env - earliest env rows ∈ relTimes env rows := fun a ha => List.mem_map.2 ⟨a, ha, rfl⟩
  constructor
  · obtain ⟨a, ha, hae⟩ := List.mem_map.1 h1
    obtain ⟨b, hb, hbe⟩ := List.mem_map.1 h3
    refine ⟨a, ha, b, hb, ?_⟩
    unfold spanOf
    rw [← hae, ← hbe]
    unfold Row.lightTime
    ring
  · intro a ha b hb
    have h5 := h2 _ (hmem a ha)
    have h6 := h4 _ (hmem b hb)
    unfold spanOf
    simp only [Row.lightTime] at h5 h6
    linarith

theorem isSpan_unique {env : Env} {rows : List Row} {s s' : ℝ} (h : IsSpan env rows s) (h' : IsSpan env rows s') : s = s' := by
  obtain ⟨⟨a, ha, b, hb, he⟩, h2⟩ := h
  obtain ⟨⟨a', ha', b', hb', he'⟩, h2'⟩ := h'
  exact le_antisymm (he ▸ h2' a ha b hb) (he' ▸ h2 a' ha' b' hb')

theorem uniq_card (l : List String) : (uniq l).length = l.toFinset.card := by
  rw [← List.toFinset_card_of_nodup (nodup_uniq l)]
  congr 1
  ext x
  rw [List.mem_toFinset, List.mem_toFinset, mem_uniq]

theorem mem_screen {rows : List Row} {span minRotations maxFrequency : ℝ} {o : Nat} {x : String} (h0 : rows ≠ []) : x ∈ screen rows span o minRotations maxFrequency ↔
    (x = "too_few_observations" ∧ (rows.length < 8 ∨ rows.length < (rows.map Row.filter).toFinset.card + 2 * o + 4)) ∨
    (x = "insufficient_time_span" ∧ (span ≤ 0 ∨ maxFrequency ≤ minRotations / span)) ∨
    (x = "amplitude_below_noise" ∧ ∃ scatter noise, IsScatter (rows.map Row.reduced) scatter ∧ IsNoise (rows.filterMap Row.sigma) noise ∧
      scatter < 1.5 * noise) := by
  have hq : (∃ scatter noise, IsScatter (rows.map Row.reduced) scatter ∧ IsNoise (rows.filterMap Row.sigma) noise ∧ scatter < 1.5 * noise) ↔
      AbsMag.madSigma (rows.map Row.reduced) < 1.5 * (if rows.filterMap Row.sigma = [] then 0.02 else AbsMag.median (rows.filterMap Row.sigma)) := by
    rw [quiet_iff h0]
    constructor
    · rintro ⟨s, n, h1, h2, h3⟩
      rw [noise_iff.1 h2] at h3
      exact ⟨s, h1, h3⟩
    · rintro ⟨s, h1, h3⟩
      exact ⟨s, _, h1, noise_iff.2 rfl, h3⟩
  unfold screen
  rw [mem_labelsOf, hq, ← uniq_card]
  simp only [List.mem_cons, Prod.mk.injEq, List.not_mem_nil, or_false, eq_comm (a := true), decide_eq_true_eq, ne_eq, h0, not_false_eq_true, true_and]
  simp only [and_comm, add_assoc]

theorem ne_nil_iff {l : List String} : l ≠ [] ↔ ∃ x, x ∈ l := by
  cases l with
  | nil => simp
  | cons a l => exact ⟨fun _ => ⟨a, by simp⟩, fun _ => by simp⟩

/-! ## The outcome -/

/-- The observations are accepted, as these rows. -/
def Read (obs : List Obs) (rows : List Row) : Prop := obs ≠ [] ∧ List.Forall₂ Usable obs rows ∧ ∀ r ∈ rows, 0 < r.r ∧ 0 < r.delta

theorem Read.ne {obs : List Obs} {rows : List Row} (h : Read obs rows) : rows ≠ [] := by
  obtain ⟨h1, h2, -⟩ := h
  cases h2 with
  | nil => exact absurd rfl h1
  | cons => simp

/-- The reasons for which data are not tried. -/
def Reason (k : Knobs) (rows : List Row) (span : ℝ) (x : String) : Prop :=
  (x = "too_few_observations" ∧ (rows.length < 8 ∨ rows.length < (rows.map Row.filter).toFinset.card + 8)) ∨
  (x = "insufficient_time_span" ∧ (span ≤ 0 ∨ k.maxFrequency ≤ k.minRotations / span)) ∨
  (x = "amplitude_below_noise" ∧ ∃ scatter noise, IsScatter (rows.map Row.reduced) scatter ∧ IsNoise (rows.filterMap Row.sigma) noise ∧
    scatter < 1.5 * noise)

theorem mem_screen' {k : Knobs} {rows : List Row} {span : ℝ} (h0 : rows ≠ []) {x : String} :
    x ∈ screen rows span 2 k.minRotations k.maxFrequency ↔ Reason k rows span x := mem_screen h0

section

variable {env : Env} {k : Knobs} {obs : List Obs} {rows : List Row} {span : ℝ}

theorem estimate_eq (hk : Accepted k) (hr : Read obs rows) (hs : IsSpan env rows span) :
    estimate env k obs = if k.early = true ∧ screen rows span 2 k.minRotations k.maxFrequency ≠ [] then
      .ok (.screened (screen rows span 2 k.minRotations k.maxFrequency)) else solveRows env k rows := by
  unfold estimate
  rw [if_neg (by rw [knobsOk_iff.2 hk]; simp), (C114_validate.1 rows).2 hr, isSpan_unique hs (spanOf_isSpan env hr.ne)]

/-- C114: parameters or observations that are not accepted raise ValueError, whatever else is given. -/
theorem C114_refused (h : ¬ Accepted k ∨ ¬ ∃ rows, Read obs rows) : estimate env k obs = .error .valueError := by
  unfold estimate
  by_cases hk : Accepted k
  · rw [if_neg (by rw [knobsOk_iff.2 hk]; simp)]
    cases hv : validate obs with
    | error e => rw [C114_validate.2 e hv]
    | ok rows => exact absurd ⟨rows, (C114_validate.1 rows).1 hv⟩ (h.resolve_left (not_not.2 hk))
  · rw [if_pos]
    rw [← knobsOk_iff] at hk
    simpa using hk

/-- C114: the search is not tried exactly if that is asked for and there is a reason, and then the reasons are listed, in a fixed order. -/
theorem C114_screened (hk : Accepted k) (hr : Read obs rows) (hs : IsSpan env rows span) :
    ((∃ reasons, estimate env k obs = .ok (.screened reasons)) ↔ k.early = true ∧ ∃ x, Reason k rows span x) ∧
    ∀ reasons, estimate env k obs = .ok (.screened reasons) → (∀ x, x ∈ reasons ↔ Reason k rows span x) ∧
      reasons.Sublist ["too_few_observations", "insufficient_time_span", "amplitude_below_noise"] := by
  have hne : screen rows span 2 k.minRotations k.maxFrequency ≠ [] ↔ ∃ x, Reason k rows span x := by
    simp only [← mem_screen' hr.ne]
    exact ne_nil_iff
  have hsolve : ∀ reasons, solveRows env k rows ≠ .ok (.screened reasons) := by
    intro reasons h
    unfold solveRows at h
    dsimp only at h
    split_ifs at h
    split at h
    · cases h
    split at h
    · cases h
    · cases h
  rw [estimate_eq hk hr hs, ← hne]
  refine ⟨?_, fun reasons => ?_⟩
  · constructor
    · rintro ⟨reasons, h⟩
      split_ifs at h with h1
      · exact h1
      · exact absurd h (hsolve reasons)
    · intro h
      rw [if_pos h]
      exact ⟨_, rfl⟩
  · intro h
    split_ifs at h with h1
    · cases h
      refine ⟨fun x => mem_screen' hr.ne, ?_⟩
      unfold screen labelsOf
      dsimp only
      have := (List.filter_sublist (p := fun r : Bool × String => r.1)
        (l := [(decide (rows.length < 8 ∨ rows.length < (uniq (rows.map Row.filter)).length + 2 * 2 + 2 + 2), "too_few_observations"),
          (decide (span ≤ 0 ∨ k.maxFrequency ≤ k.minRotations / span), "insufficient_time_span"),
          (decide (rows ≠ [] ∧ AbsMag.madSigma (rows.map Row.reduced) <
            1.5 * (if rows.filterMap Row.sigma = [] then 0.02 else AbsMag.median (rows.filterMap Row.sigma))), "amplitude_below_noise")])).map Prod.snd
      simpa using this
    · exact absurd h (hsolve reasons)

/-! ## When an error is raised -/

/-- No order has a fit at any frequency of the grid. -/
def NoFit (env : Env) (k : Knobs) (rows : List Row) (span : ℝ) (use : Bool) : Prop :=
  ∀ freqs, frequencyGrid (gridOf k span) = .ok freqs → ∀ o ∈ ordersOf k, ∀ f ∈ freqs, fitFrequency env.lstsq (problemOf env rows use) f o k.clip 8 = none

theorem solveWith_error {freqs : List ℝ} (use : Bool) :
    (solveWith env k rows freqs use = .error .valueError ↔
      ∀ o ∈ ordersOf k, ∀ f ∈ freqs, fitFrequency env.lstsq (problemOf env rows use) f o k.clip 8 = none) ∧
    ∀ e, solveWith env k rows freqs use = .error e → e = .valueError :=
  C112_error (fitFrequency_labelled _ _ _ _) (by norm_num [defaultProfile])

theorem solveBoth_error {freqs : List ℝ} :
    (solveBoth env k rows freqs = .error .valueError ↔
      solveWith env k rows freqs false = .error .valueError ∨
      (hasSessions rows = true ∧ k.mode ≠ "ignore") ∧ solveWith env k rows freqs true = .error .valueError) ∧
    ∀ e, solveBoth env k rows freqs = .error e → e = .valueError := by
  unfold solveBoth
  have e0 := (solveWith_error (env := env) (k := k) (rows := rows) (freqs := freqs) false).2
  have e1 := (solveWith_error (env := env) (k := k) (rows := rows) (freqs := freqs) true).2
  cases h0 : solveWith env k rows freqs false with
  | error e =>
    cases e0 e h0
    simp
  | ok base =>
    dsimp only
    by_cases hc : hasSessions rows = true ∧ k.mode ≠ "ignore"
    · rw [if_pos hc]
      cases h1 : solveWith env k rows freqs true with
      | error e =>
        cases e1 e h1
        simp [hc]
      | ok sess =>
        dsimp only
        split_ifs <;> simp
    · rw [if_neg hc]
      simp [hc]

theorem solveRows_error (hk : Accepted k) (hr : rows ≠ []) (hs : IsSpan env rows span) :
    (solveRows env k rows = .error .valueError ↔ span ≤ 0 ∨ k.maxFrequency ≤ k.minRotations / span ∨
      (∃ h, k.maxPeriodHours = some h ∧ k.maxFrequency ≤ 24 / h) ∨ NoFit env k rows span false ∨
      (hasSessions rows = true ∧ k.mode ≠ "ignore") ∧ NoFit env k rows span true) ∧
    ∀ e, solveRows env k rows = .error e → e = .valueError := by
  cases isSpan_unique hs (spanOf_isSpan env hr)
  unfold solveRows
  dsimp only
  by_cases h0 : spanOf env rows ≤ 0
  · rw [if_pos h0]
    simp [h0]
  rw [if_neg h0]
  obtain ⟨g1, g2⟩ := C110_refused (g := gridOf k (spanOf env rows)) (not_le.1 h0) hk.rotations
  have hN : ∀ freqs use, frequencyGrid (gridOf k (spanOf env rows)) = .ok freqs → (NoFit env k rows (spanOf env rows) use ↔
      solveWith env k rows freqs use = .error .valueError) := by
    intro freqs use hf
    rw [(solveWith_error use).1]
    constructor
    · exact fun h => h freqs hf
    · intro h freqs' hf'
      rw [hf] at hf'
      cases hf'
      exact h
  cases hg : frequencyGrid (gridOf k (spanOf env rows)) with
  | error e =>
    cases g2 e hg
    have := g1.1 hg
    refine ⟨⟨fun _ => ?_, fun _ => rfl⟩, fun e he => by cases he; rfl⟩
    rcases this with h | h
    · exact Or.inr (Or.inl h)
    · exact Or.inr (Or.inr (Or.inl h))
  | ok freqs =>
    have hno : ¬ (k.maxFrequency ≤ k.minRotations / spanOf env rows ∨ ∃ h, k.maxPeriodHours = some h ∧ k.maxFrequency ≤ 24 / h) := by
      intro h
      rw [g1.2 h] at hg
      cases hg
    rw [not_or] at hno
    have hb := solveBoth_error (env := env) (k := k) (rows := rows) (freqs := freqs)
    rw [hN freqs false hg, hN freqs true hg, ← hb.1]
    dsimp only
    cases hsb : solveBoth env k rows freqs with
    | error e =>
      cases hb.2 e hsb
      simp
    | ok us =>
      simp [h0, hno.1, hno.2]

/-- C114: with parameters and observations that are accepted ValueError is raised exactly if the search is not refused beforehand and the span is
not positive, the highest frequency does not exceed the lowest, or there is no fit of any order at any frequency, be it of the filters alone or,
if there are session labels that are not ignored, of the sessions. No other error is raised. -/
theorem C114_errors (hk : Accepted k) (hr : Read obs rows) (hs : IsSpan env rows span) :
    (estimate env k obs = .error .valueError ↔ ¬ (k.early = true ∧ ∃ x, Reason k rows span x) ∧
      (span ≤ 0 ∨ k.maxFrequency ≤ k.minRotations / span ∨ (∃ h, k.maxPeriodHours = some h ∧ k.maxFrequency ≤ 24 / h) ∨
        NoFit env k rows span false ∨ ((∃ r ∈ rows, r.session ≠ none) ∧ k.mode ≠ "ignore") ∧ NoFit env k rows span true)) ∧
    ∀ e, estimate env k obs = .error e → e = .valueError := by
  have hne : screen rows span 2 k.minRotations k.maxFrequency ≠ [] ↔ ∃ x, Reason k rows span x := by
    simp only [← mem_screen' hr.ne]
    exact ne_nil_iff
  have hse : hasSessions rows = true ↔ ∃ r ∈ rows, r.session ≠ none := by
    unfold hasSessions
    simp [Option.isSome_iff_ne_none]
  obtain ⟨h1, h2⟩ := solveRows_error (env := env) hk hr.ne hs
  rw [estimate_eq hk hr hs, ← hne, ← hse]
  split_ifs with h
  · exact ⟨⟨(fun h' => by cases h'), fun h' => absurd h h'.1⟩, (fun e he => by cases he)⟩
  · rw [h1]
    exact ⟨⟨fun h' => ⟨h, h'⟩, fun h' => h'.2⟩, h2⟩

/-! ## Without weights -/

/-- The number of zero points: of filters, or of the sessions of the filters. -/
def zeroPoints (rows : List Row) (use : Bool) : Nat :=
  (rows.map fun r => (r.filter, if use then some (r.session.getD "__missing_session__") else none)).toFinset.card

theorem nFixed_eq (hr : rows ≠ []) (use : Bool) : (problemOf env rows use).nFixed = zeroPoints rows use + 2 := by
  have hne : rows.map Row.lab ≠ [] := by simpa using hr
  obtain ⟨r, l, rfl⟩ : ∃ r l, rows = r :: l := by
    cases rows with
    | nil => exact absurd rfl hr
    | cons r l => exact ⟨r, l, rfl⟩
  have := C109_columns (use := use) hne (zeroRow use ((r :: l).map Row.lab) r.lab ++ [r.lab.alpha, r.lab.alpha ^ 2])
    (List.mem_map.2 ⟨r.lab, by simp, rfl⟩)
  have he : ((r :: l).map Row.lab).map (groupOf use) = (r :: l).map fun r => (r.filter, if use then some (r.session.getD "__missing_session__") else none) := by
    rw [List.map_map]
    rfl
  rw [he] at this
  simp only [zeroRow, List.length_append, List.length_map, List.length_cons, List.length_nil] at this
  unfold problemOf zeroPoints
  simp only at this ⊢
  omega

theorem problemOf_ok (hp : ∀ a, 0 ≤ (env.priors a).1.2 ∧ 0 ≤ (env.priors a).2.2) (use : Bool) : (problemOf env rows use).Ok where
  two := by simp [problemOf]
  rows := by
    intro q hq
    obtain ⟨r, -, rfl⟩ := List.mem_map.1 hq
    simp [problemOf, zeroRow]
  weights := by
    intro q hq
    obtain ⟨r, -, rfl⟩ := List.mem_map.1 hq
    unfold Problem.weight
    dsimp only [problemOf]
    split_ifs <;> positivity
  priors := hp _

/-- Weights are used if every observation has a positive uncertainty. -/
def Weighted (rows : List Row) : Prop := ∀ r ∈ rows, ∃ s, r.sigma = some s ∧ 0 < s

theorem isWeighted_iff : isWeighted rows = true ↔ Weighted rows := by
  unfold isWeighted Weighted
  rw [List.all_eq_true]
  refine forall₂_congr fun r _ => ?_
  cases r.sigma <;> simp

/-- C114: with parameters and observations that are accepted, without weights and with a threshold of at least 1, the fits fail for lack of
observations only, so ValueError is raised exactly if the search is not refused beforehand and the span is not positive, the highest frequency does
not exceed the lowest, or there are for every order no more observations than parameters: the zero points, two for the phase and two per order. -/
theorem C114_raises (hk : Accepted k) (hr : Read obs rows) (hs : IsSpan env rows span)
    (hp : ∀ a, 0 ≤ (env.priors a).1.2 ∧ 0 ≤ (env.priors a).2.2) (hw : ¬ Weighted rows) (hc : 1 ≤ k.clip) :
    estimate env k obs = .error .valueError ↔ ¬ (k.early = true ∧ ∃ x, Reason k rows span x) ∧
      (span ≤ 0 ∨ k.maxFrequency ≤ k.minRotations / span ∨ (∃ h, k.maxPeriodHours = some h ∧ k.maxFrequency ≤ 24 / h) ∨
        (∀ o ∈ ordersOf k, rows.length ≤ zeroPoints rows false + 2 + 2 * o) ∨
        ((∃ r ∈ rows, r.session ≠ none) ∧ k.mode ≠ "ignore") ∧ ∀ o ∈ ordersOf k, rows.length ≤ zeroPoints rows true + 2 + 2 * o) := by
  rw [(C114_errors hk hr hs).1]
  by_cases h1 : span ≤ 0
  · simp only [h1, true_or]
  by_cases h2 : k.maxFrequency ≤ k.minRotations / span
  · simp only [h2, true_or, or_true]
  by_cases h3 : ∃ h, k.maxPeriodHours = some h ∧ k.maxFrequency ≤ 24 / h
  · simp only [h3, true_or, or_true]
  obtain ⟨freqs, hf⟩ : ∃ freqs, frequencyGrid (gridOf k span) = .ok freqs := by
    obtain ⟨g1, g2⟩ := C110_refused (g := gridOf k span) (not_le.1 h1) hk.rotations
    cases hg : frequencyGrid (gridOf k span) with
    | ok freqs => exact ⟨freqs, rfl⟩
    | error e =>
      cases g2 e hg
      rcases g1.1 hg with h | h
      · exact absurd h h2
      · exact absurd h h3
  have hN : ∀ use, NoFit env k rows span use ↔ ∀ o ∈ ordersOf k, rows.length ≤ zeroPoints rows use + 2 + 2 * o := by
    intro use
    have key : ∀ o f, fitFrequency env.lstsq (problemOf env rows use) f o k.clip 8 = none ↔ rows.length ≤ zeroPoints rows use + 2 + 2 * o := by
      intro o f
      rw [C71_exists (problemOf_ok hp use) (by
        rw [← isWeighted_iff] at hw
        simpa [problemOf] using hw) hc, nFixed_eq hr.ne]
      simp [problemOf]
    constructor
    · intro h o ho
      have hlen := (C110_grid hf).1
      cases freqs with
      | nil => simp at hlen
      | cons f l => exact (key o f).1 (h _ hf o ho f (by simp))
    · intro h freqs' _ o ho f _
      exact (key o f).2 (h o ho)
  rw [hN false, hN true]

/-- C114: with the default orders, no limit on the period, a threshold of at least 1, without weights, and without session labels or ignoring
them, the screen lets no error through: the answer is a result. -/
theorem C114_safe (hk : Accepted k) (hr : Read obs rows)
    (hp : ∀ a, 0 ≤ (env.priors a).1.2 ∧ 0 ≤ (env.priors a).2.2) (hw : ¬ Weighted rows) (hc : 1 ≤ k.clip) (he : k.early = true)
    (ho : k.orders = none) (hm : k.maxPeriodHours = none) (hs : k.mode = "ignore" ∨ ∀ r ∈ rows, r.session = none) :
    ∃ outcome, estimate env k obs = .ok outcome := by
  have hspan := spanOf_isSpan env hr.ne
  cases h : estimate env k obs with
  | ok o => exact ⟨o, rfl⟩
  | error e =>
    exfalso
    cases (C114_errors hk hr hspan).2 e h
    obtain ⟨h1, h2⟩ := (C114_raises hk hr hspan hp hw hc).1 h
    have hno : ∀ x, ¬ Reason k rows (spanOf env rows) x := fun x hx => h1 ⟨he, x, hx⟩
    have hfew : ¬ (rows.length < 8 ∨ rows.length < (rows.map Row.filter).toFinset.card + 8) := fun h => hno "too_few_observations" (Or.inl ⟨rfl, h⟩)
    have hsp : ¬ (spanOf env rows ≤ 0 ∨ k.maxFrequency ≤ k.minRotations / spanOf env rows) := fun h =>
      hno "insufficient_time_span" (Or.inr (Or.inl ⟨rfl, h⟩))
    rcases h2 with h | h | ⟨h, hh, -⟩ | h | ⟨⟨⟨r, hr1, hr2⟩, h⟩, -⟩
    · exact hsp (Or.inl h)
    · exact hsp (Or.inr h)
    · rw [hm] at hh
      cases hh
    · have h3 := h 2 (by simp [ordersOf, ho])
      have h4 : zeroPoints rows false = (rows.map Row.filter).toFinset.card := by
        unfold zeroPoints
        have : (rows.map fun r => (r.filter, if false then some (r.session.getD "__missing_session__") else none)) =
            (rows.map Row.filter).map fun f => (f, (none : Option String)) := by
          rw [List.map_map]
          rfl
        have h5 : ((rows.map Row.filter).map fun f => (f, (none : Option String))).toFinset = (rows.map Row.filter).toFinset.image fun f => (f, none) := by
          ext x
          simp
        rw [this, h5, Finset.card_image_of_injective _ (fun a b h => (Prod.mk.inj h).1)]
      omega
    · rcases hs with hs | hs
      · exact h hs
      · exact hr2 (hs r hr1)

/-! ## Sessions -/

/-- The label of a session: rows without one share a label. -/
def labelOf (r : Row) : String := r.session.getD "__missing_session__"

/-- The spans of the sessions, one for each label that occurs, in some order. -/
def SessionSpans (env : Env) (rows : List Row) (spans : List ℝ) : Prop :=
  ∃ labels : List String, labels.Nodup ∧ (∀ s, s ∈ labels ↔ ∃ r ∈ rows, labelOf r = s) ∧
    List.Forall₂ (fun s d => IsSpan env (rows.filter fun r => decide (labelOf r = s)) d) labels spans

/-- The criterion of a fit, which counts only if there are more observations than parameters and the sum of squares is positive. -/
noncomputable def score (r : Fit) : ℝ := r.nFit * Real.log (r.rss / r.nFit) + r.nPar * Real.log r.nFit

/-- The criterion can be computed. -/
def Scored (r : Fit) : Prop := r.nPar < r.nFit ∧ 0 < r.rss

theorem bic_lt {a b : Fit} {gain : ℝ} : bic a + (gain : WithTop ℝ) < bic b ↔ Scored a ∧ (Scored b → score a + gain < score b) := by
  unfold bic Scored score
  by_cases ha : a.nFit ≤ a.nPar ∨ a.rss ≤ 0
  · rw [if_pos ha, top_add]
    simp only [not_top_lt, false_iff, not_and]
    rintro ⟨h1, h2⟩
    rcases ha with h | h
    · omega
    · exact absurd h (not_le.2 h2)
  · rw [if_neg ha]
    rw [not_or, not_le, not_le] at ha
    by_cases hb : b.nFit ≤ b.nPar ∨ b.rss ≤ 0
    · rw [if_pos hb, ← WithTop.coe_add]
      simp only [WithTop.coe_lt_top, true_iff]
      refine ⟨ha, fun h => ?_⟩
      rcases hb with h' | h'
      · omega
      · exact absurd h' (not_le.2 h.2)
    · rw [if_neg hb, ← WithTop.coe_add, WithTop.coe_lt_coe]
      rw [not_or, not_le, not_le] at hb
      exact ⟨fun h => ⟨ha, fun _ => h⟩, fun h => h.2 hb⟩

theorem foldl_min_spec (l : List Nat) : ∀ a, (l.foldl min a = a ∨ l.foldl min a ∈ l) ∧ l.foldl min a ≤ a ∧ ∀ x ∈ l, l.foldl min a ≤ x := by
  induction l with
  | nil => simp
  | cons b l ih =>
    intro a
    obtain ⟨h1, h2, h3⟩ := ih (min a b)
    rw [List.foldl_cons]
    refine ⟨?_, h2.trans (min_le_left _ _), ?_⟩
    · rcases h1 with h1 | h1
      · rw [h1]
        rcases min_choice a b with h | h
        · exact Or.inl h
        · exact Or.inr (by rw [h]; simp)
      · exact Or.inr (List.mem_cons_of_mem _ h1)
    · intro x hx
      rcases List.mem_cons.1 hx with rfl | hx
      · exact h2.trans (min_le_right _ _)
      · exact h3 x hx

/-- Sessions can be told apart: there are two, every group of a filter and a session has enough observations, and the median span is positive. -/
def Eligible (env : Env) (k : Knobs) (rows : List Row) : Prop :=
  (∃ a ∈ rows, ∃ b ∈ rows, labelOf a ≠ labelOf b) ∧
  (∀ a ∈ rows, k.minGroup ≤ ((rows.filter fun r => decide (labelOf r = labelOf a ∧ r.filter = a.filter)).length : ℤ)) ∧
  ∃ spans m, SessionSpans env rows spans ∧ IsMedian spans m ∧ 0 < m

theorem sessionSpans_unique {spans spans' : List ℝ} (h : SessionSpans env rows spans) (h' : SessionSpans env rows spans') : spans.Perm spans' := by
  obtain ⟨l, hn, hm, hf⟩ := h
  obtain ⟨l', hn', hm', hf'⟩ := h'
  have hp : l.Perm l' := (List.perm_ext_iff_of_nodup hn hn').2 fun s => (hm s).trans (hm' s).symm
  have key : ∀ {l : List String} {spans : List ℝ}, List.Forall₂ (fun s d => IsSpan env (rows.filter fun r => decide (labelOf r = s)) d) l spans →
      spans = l.map fun s => spanOf env (rows.filter fun r => decide (labelOf r = s)) := by
    intro l spans h
    induction h with
    | nil => rfl
    | cons h _ ih =>
      rw [List.map_cons, ← ih]
      congr 1
      have hne := h
      obtain ⟨⟨a, ha, -⟩, -⟩ := hne
      exact isSpan_unique h (spanOf_isSpan env (List.ne_nil_of_mem ha))
  rw [key hf, key hf']
  exact hp.map _

theorem isMedian_perm {l l' : List ℝ} {m : ℝ} (hp : l.Perm l') (h : IsMedian l m) : IsMedian l' m := by
  obtain ⟨s, h1, h2⟩ := h
  exact ⟨s, h1.trans hp, h2⟩

theorem diff_isSpan {l : List Row} (h : l ≠ []) : IsSpan env l (maxFrom ((l.map (Row.lightTime env)).headD 0) (l.map (Row.lightTime env)) -
    minFrom ((l.map (Row.lightTime env)).headD 0) (l.map (Row.lightTime env))) := by
  have hne : l.map (Row.lightTime env) ≠ [] := by simpa using h
  obtain ⟨h1, h2⟩ := maxFrom_head hne
  obtain ⟨h3, h4⟩ := minFrom_head hne
  constructor
  · obtain ⟨a, ha, hae⟩ := List.mem_map.1 h1
    obtain ⟨b, hb, hbe⟩ := List.mem_map.1 h3
    exact ⟨a, ha, b, hb, by rw [← hae, ← hbe]; rfl⟩
  · intro a ha b hb
    have h5 := h2 _ (List.mem_map.2 ⟨a, ha, rfl⟩)
    have h6 := h4 _ (List.mem_map.2 ⟨b, hb, rfl⟩)
    simp only [Row.lightTime] at h5 h6 ⊢
    linarith

theorem eligible_iff (hr : rows ≠ []) (hs : hasSessions rows = true) :
    (2 ≤ (summarize env rows).n ∧ k.minGroup ≤ (summarize env rows).least ∧ 0 < (summarize env rows).median) ↔ Eligible env k rows := by
  unfold summarize
  rw [if_pos hs]
  dsimp only
  have h1 : 2 ≤ (uniq (rows.map Row.label)).length ↔ ∃ a ∈ rows, ∃ b ∈ rows, labelOf a ≠ labelOf b := by
    have hn := nodup_uniq (rows.map Row.label)
    constructor
    · intro h
      cases hu : uniq (rows.map Row.label) with
      | nil => rw [hu] at h; simp at h
      | cons x t =>
        cases t with
        | nil => rw [hu] at h; simp at h
        | cons y t =>
          rw [hu] at hn
          have hx : x ∈ rows.map Row.label := (mem_uniq _ _).1 (by rw [hu]; simp)
          have hy : y ∈ rows.map Row.label := (mem_uniq _ _).1 (by rw [hu]; simp)
          obtain ⟨a, ha, rfl⟩ := List.mem_map.1 hx
          obtain ⟨b, hb, rfl⟩ := List.mem_map.1 hy
          refine ⟨a, ha, b, hb, fun h => ?_⟩
          rw [List.nodup_cons] at hn
          exact hn.1 (by
            change a.label = b.label at h
            rw [h]; simp)
    · rintro ⟨a, ha, b, hb, hab⟩
      have h1 : a.label ∈ uniq (rows.map Row.label) := (mem_uniq _ _).2 (List.mem_map.2 ⟨a, ha, rfl⟩)
      have h2 : b.label ∈ uniq (rows.map Row.label) := (mem_uniq _ _).2 (List.mem_map.2 ⟨b, hb, rfl⟩)
      generalize uniq (rows.map Row.label) = u at h1 h2
      match u, h1, h2 with
      | [], h1, _ => simp at h1
      | [x], h1, h2 =>
        rw [List.mem_singleton] at h1 h2
        exact absurd (h1.trans h2.symm) hab
      | _ :: _ :: _, _, _ => simp
  have h2 : k.minGroup ≤ ((((uniq (rows.map Row.label)).flatMap fun s => (uniq (rows.map Row.filter)).map fun f =>
        (rows.filter fun r => r.label == s && r.filter == f).length).filter fun k => decide (0 < k)).foldl min
        ((((uniq (rows.map Row.label)).flatMap fun s => (uniq (rows.map Row.filter)).map fun f =>
        (rows.filter fun r => r.label == s && r.filter == f).length).filter fun k => decide (0 < k)).headD 0) : ℕ) ↔
      ∀ a ∈ rows, k.minGroup ≤ ((rows.filter fun r => decide (labelOf r = labelOf a ∧ r.filter = a.filter)).length : ℤ) := by
    set counts := ((uniq (rows.map Row.label)).flatMap fun s => (uniq (rows.map Row.filter)).map fun f =>
        (rows.filter fun r => r.label == s && r.filter == f).length).filter fun k => decide (0 < k) with hc
    have hfil : ∀ s f, (rows.filter fun r => r.label == s && r.filter == f) = rows.filter fun r => decide (labelOf r = s ∧ r.filter = f) := by
      intro s f
      refine List.filter_congr fun r _ => ?_
      change (r.label == s && r.filter == f) = decide (r.label = s ∧ r.filter = f)
      rw [Bool.decide_and]
      rfl
    have hmem : ∀ n, n ∈ counts ↔ ∃ a ∈ rows, n = (rows.filter fun r => decide (labelOf r = labelOf a ∧ r.filter = a.filter)).length := by
      intro n
      rw [hc, List.mem_filter, List.mem_flatMap]
      constructor
      · rintro ⟨⟨s, -, h⟩, hn⟩
        obtain ⟨f, -, rfl⟩ := List.mem_map.1 h
        rw [hfil] at hn ⊢
        have hpos : 0 < (rows.filter fun r => decide (labelOf r = s ∧ r.filter = f)).length := by simpa using hn
        obtain ⟨a, ha⟩ := List.exists_mem_of_length_pos hpos
        obtain ⟨ha1, ha2⟩ := List.mem_filter.1 ha
        rw [decide_eq_true_eq] at ha2
        exact ⟨a, ha1, by rw [ha2.1, ha2.2]⟩
      · rintro ⟨a, ha, rfl⟩
        refine ⟨⟨a.label, (mem_uniq _ _).2 (List.mem_map.2 ⟨a, ha, rfl⟩), List.mem_map.2 ⟨a.filter, (mem_uniq _ _).2 (List.mem_map.2 ⟨a, ha, rfl⟩), ?_⟩⟩, ?_⟩
        · rw [hfil]
          rfl
        · have : a ∈ rows.filter fun r => decide (labelOf r = labelOf a ∧ r.filter = a.filter) := List.mem_filter.2 ⟨ha, by simp⟩
          have := List.length_pos_of_mem this
          simpa using this
    obtain ⟨a0, ha0⟩ := List.exists_mem_of_ne_nil _ hr
    obtain ⟨e1, -, e3⟩ := foldl_min_spec counts (counts.headD 0)
    have hin : counts.foldl min (counts.headD 0) ∈ counts := by
      rcases e1 with e1 | e1
      · rw [e1]
        have : counts ≠ [] := List.ne_nil_of_mem ((hmem _).2 ⟨a0, ha0, rfl⟩)
        cases hcc : counts with
        | nil => exact absurd hcc this
        | cons x l => simp
      · exact e1
    constructor
    · intro h a ha
      refine h.trans ?_
      exact_mod_cast e3 _ ((hmem _).2 ⟨a, ha, rfl⟩)
    · intro h
      obtain ⟨a, ha, he⟩ := (hmem _).1 hin
      rw [he]
      exact h a ha
  have hss : SessionSpans env rows ((uniq (rows.map Row.label)).map fun s =>
      maxFrom (((rows.filter fun r => r.label == s).map (Row.lightTime env)).headD 0) ((rows.filter fun r => r.label == s).map (Row.lightTime env)) -
      minFrom (((rows.filter fun r => r.label == s).map (Row.lightTime env)).headD 0) ((rows.filter fun r => r.label == s).map (Row.lightTime env))) := by
    refine ⟨uniq (rows.map Row.label), nodup_uniq _, fun s => ?_, ?_⟩
    · rw [mem_uniq, List.mem_map]
      rfl
    · rw [List.forall₂_map_right_iff, List.forall₂_same]
      intro s hs
      have hfil : (rows.filter fun r => r.label == s) = rows.filter fun r => decide (labelOf r = s) := by
        refine List.filter_congr fun r _ => rfl
      rw [hfil]
      refine diff_isSpan ?_
      obtain ⟨a, ha, rfl⟩ := List.mem_map.1 ((mem_uniq _ _).1 hs)
      exact List.ne_nil_of_mem (List.mem_filter.2 ⟨ha, by simp [labelOf, Row.label]⟩)
  have hnn : (uniq (rows.map Row.label)) ≠ [] := by
    obtain ⟨a0, ha0⟩ := List.exists_mem_of_ne_nil _ hr
    exact List.ne_nil_of_mem ((mem_uniq _ _).2 (List.mem_map.2 ⟨a0, ha0, rfl⟩))
  unfold Eligible
  rw [h1, h2]
  refine and_congr_right fun _ => and_congr_right fun _ => ?_
  constructor
  · intro h
    exact ⟨_, _, hss, median_isMedian (by simpa using hnn), h⟩
  · rintro ⟨spans, m, g1, g2, g3⟩
    rwa [isMedian_unique (median_isMedian (by simpa using hnn)) (isMedian_perm (sessionSpans_unique g1 hss) g2)]

/-- C114: the result says that session offsets were used exactly if there are session labels and they were demanded, or in the automatic mode the
sessions can be told apart and the fit with them beats the fit without by more than the gain asked for; then the solution is the one with
offsets, otherwise the one without. -/
theorem C114_sessions (hk : Accepted k) (hr : Read obs rows) {primary : Primary} {flags : List String} {use : Bool} {s : Solution}
    (h : estimate env k obs = .ok (.solved primary flags use s)) :
    ∃ freqs, frequencyGrid (gridOf k (spanOf env rows)) = .ok freqs ∧ solveWith env k rows freqs use = .ok s ∧
      (use = true ↔ (∃ r ∈ rows, r.session ≠ none) ∧ (k.mode = "use" ∨ k.mode = "auto" ∧ Eligible env k rows ∧
        ∃ base sess, solveWith env k rows freqs false = .ok base ∧ solveWith env k rows freqs true = .ok sess ∧
          Scored sess.chosen ∧ (Scored base.chosen → score sess.chosen + k.bicGain < score base.chosen))) := by
  have hse : hasSessions rows = true ↔ ∃ r ∈ rows, r.session ≠ none := by
    unfold hasSessions
    simp [Option.isSome_iff_ne_none]
  rw [estimate_eq hk hr (spanOf_isSpan env hr.ne)] at h
  split_ifs at h with hearly
  · cases h
  unfold solveRows at h
  dsimp only at h
  split_ifs at h
  cases hf : frequencyGrid (gridOf k (spanOf env rows)) with
  | error e => rw [hf] at h; cases h
  | ok freqs =>
    rw [hf] at h
    dsimp only at h
    cases hb : solveBoth env k rows freqs with
    | error e => rw [hb] at h; cases h
    | ok us =>
      obtain ⟨u, s'⟩ := us
      rw [hb] at h
      cases h
      refine ⟨freqs, rfl, ?_⟩
      rw [← hse]
      unfold solveBoth at hb
      cases h0 : solveWith env k rows freqs false with
      | error e => rw [h0] at hb; cases hb
      | ok base =>
        rw [h0] at hb
        dsimp only at hb
        by_cases hc : hasSessions rows = true ∧ k.mode ≠ "ignore"
        · rw [if_pos hc] at hb
          cases h1 : solveWith env k rows freqs true with
          | error e => rw [h1] at hb; cases hb
          | ok sess =>
            rw [h1] at hb
            dsimp only at hb
            have had : adopt env k rows base sess = true ↔ k.mode = "use" ∨ k.mode = "auto" ∧ Eligible env k rows ∧
                ∃ base' sess', (Except.ok base : Except PyErr Solution) = .ok base' ∧ (Except.ok sess : Except PyErr Solution) = .ok sess' ∧
                  Scored sess'.chosen ∧ (Scored base'.chosen → score sess'.chosen + k.bicGain < score base'.chosen) := by
              unfold adopt
              by_cases hm : k.mode = "use"
              · rw [if_pos hm]
                simp [hm]
              · have hauto : k.mode = "auto" := by
                  rcases hk.mode with h | h | h
                  · exact absurd h hc.2
                  · exact absurd h hm
                  · exact h
                rw [if_neg hm]
                dsimp only
                rw [decide_eq_true_eq, ← eligible_iff hr.ne hc.1, bic_lt]
                constructor
                · rintro ⟨a, b, c, d⟩
                  exact Or.inr ⟨hauto, ⟨a, b, c⟩, base, sess, rfl, rfl, d⟩
                · rintro (h | ⟨-, ⟨a, b, c⟩, base', sess', e1, e2, d⟩)
                  · exact absurd h hm
                  · cases e1
                    cases e2
                    exact ⟨a, b, c, d⟩
            split_ifs at hb with ha
            · cases hb
              exact ⟨h1, ⟨fun _ => ⟨hc.1, had.1 ha⟩, fun _ => rfl⟩⟩
            · cases hb
              exact ⟨h0, ⟨(fun h => by cases h), fun h => absurd (had.2 h.2) ha⟩⟩
        · rw [if_neg hc] at hb
          cases hb
          refine ⟨h0, ⟨(fun h => by cases h), fun h => absurd ⟨h.1, fun hm => ?_⟩ hc⟩⟩
          rcases h.2 with h' | ⟨h', -⟩
          · rw [hm] at h'
            exact absurd h' (by decide)
          · rw [hm] at h'
            exact absurd h' (by decide)

/-- C114: not so that the better fit wins in the automatic mode: a fit with session offsets that leaves no residuals at all is never taken. -/
theorem C114_bic_false (hk : Accepted k) (hm : k.mode = "auto") (hr : Read obs rows) {primary : Primary} {flags : List String} {use : Bool} {s : Solution}
    (h : estimate env k obs = .ok (.solved primary flags use s)) (hz : use = true) : 0 < s.chosen.rss := by
  obtain ⟨freqs, -, h1, h2⟩ := C114_sessions hk hr h
  obtain ⟨-, h3⟩ := h2.1 hz
  rw [hm] at h3
  rcases h3 with h3 | ⟨-, -, base, sess, -, h4, h5, -⟩
  · exact absurd h3 (by decide)
  · rw [hz, h4] at h1
    cases h1
    exact h5.2

/-! ## The search fidelity -/

/-- C114. With the exact grid, unclipped fits play no part: whatever fits take their place, the solution is the same, namely that of the
orders compared at the best clipped fit of the whole grid. With any other fidelity the unclipped fits screen grids of more than 2048
frequencies. -/
theorem C114_fidelity {freqs : List ℝ} (use : Bool) (rough : Nat → ℝ → Option Fit) :
    (k.fidelity = some "exact_grid" → solveWith env k rows freqs use =
      deriveSolution env.cdf env.ppf defaultProfile true rough (fun o f => fitFrequency env.lstsq (problemOf env rows use) f o k.clip 8) freqs (ordersOf k)) ∧
    (k.fidelity ≠ some "exact_grid" → solveWith env k rows freqs use =
      deriveSolution env.cdf env.ppf defaultProfile false (fun o f => fitUnclipped env.lstsq (problemOf env rows use) f o)
        (fun o f => fitFrequency env.lstsq (problemOf env rows use) f o k.clip 8) freqs (ordersOf k)) := by
  constructor
  · intro h
    have hs : ∀ o, searchBest true (fun f => fitUnclipped env.lstsq (problemOf env rows use) f o)
        (fun f => fitFrequency env.lstsq (problemOf env rows use) f o k.clip 8) freqs =
        searchBest true (rough o) (fun f => fitFrequency env.lstsq (problemOf env rows use) f o k.clip 8) freqs := by
      intro o
      unfold searchBest
      simp
    unfold solveWith deriveSolution
    rw [decide_eq_true h]
    simp only [hs]
  · intro h
    unfold solveWith
    rw [decide_eq_false h]

/-! ## What the screen misses -/

/-- C114: not so that only faint variation is refused: if more than half of the reduced magnitudes are the same, and the noise is positive, the
observations are refused as being below the noise however much the others differ. -/
theorem C114_screen_false (hk : Accepted k) (hr : Read obs rows) (he : k.early = true) {m noise : ℝ}
    (hmost : rows.length < 2 * (rows.filter fun r => decide (r.reduced = m)).length) (hn : IsNoise (rows.filterMap Row.sigma) noise) (hpos : 0 < noise) :
    ∃ reasons, estimate env k obs = .ok (.screened reasons) ∧ "amplitude_below_noise" ∈ reasons := by
  have most : ∀ {l : List ℝ} {m : ℝ}, l ≠ [] → l.length < 2 * (l.filter fun x => decide (x = m)).length → AbsMag.median l = m := by
    intro l m h0 h
    obtain ⟨h1, h2⟩ := AbsMag.Props.median_halves h0
    rcases lt_trichotomy (AbsMag.median l) m with hlt | heq | hgt
    · exfalso
      have : (l.filter fun x => decide (x = m)).length ≤ (l.filter fun x => decide (AbsMag.median l < x)).length := by
        refine (List.monotone_filter_right l fun x hx => ?_).length_le
        rw [decide_eq_true_eq] at hx ⊢
        rw [hx]; exact hlt
      omega
    · exact heq
    · exfalso
      have : (l.filter fun x => decide (x = m)).length ≤ (l.filter fun x => decide (x < AbsMag.median l)).length := by
        refine (List.monotone_filter_right l fun x hx => ?_).length_le
        rw [decide_eq_true_eq] at hx ⊢
        rw [hx]; exact hgt
      omega
  have hne : rows.map Row.reduced ≠ [] := by simpa using hr.ne
  have hm : AbsMag.median (rows.map Row.reduced) = m := by
    refine most hne ?_
    rw [List.filter_map, List.length_map, List.length_map]
    exact hmost
  have hd : AbsMag.median ((rows.map Row.reduced).map fun x => |x - m|) = 0 := by
    refine most (by simpa using hne) ?_
    rw [List.map_map, List.filter_map, List.length_map, List.length_map]
    refine lt_of_lt_of_eq hmost ?_
    congr 2
    refine List.filter_congr fun r _ => ?_
    simp [abs_eq_zero, sub_eq_zero]
  have hreason : Reason k rows (spanOf env rows) "amplitude_below_noise" := by
    refine Or.inr (Or.inr ⟨rfl, 0, noise, ⟨m, 0, hm ▸ median_isMedian hne, ?_, by norm_num⟩, hn, by positivity⟩)
    have := median_isMedian (l := (rows.map Row.reduced).map fun x => |x - m|) (by simpa using hne)
    rwa [hd] at this
  obtain ⟨h1, h2⟩ := C114_screened (env := env) hk hr (spanOf_isSpan env hr.ne)
  obtain ⟨reasons, h3⟩ := h1.2 ⟨he, _, hreason⟩
  exact ⟨reasons, h3, ((h2 reasons h3).1 _).2 hreason⟩

/-- C114: not so that the reasons of the screen are among those of the full search, as its documentation says: a span that is too short is never
a reason of the verdict after a search. -/
theorem C114_strings_false {primary : Primary} {flags : List String} {use : Bool} {s : Solution}
    (h : estimate env k obs = .ok (.solved primary flags use s)) : "insufficient_time_span" ∉ primary.verdict.reasons := by
  obtain ⟨c, rfl⟩ : ∃ c : Case, primary = c.result := by
    unfold estimate at h
    split_ifs at h
    split at h
    · cases h
    rename_i rows _
    dsimp only at h
    split_ifs at h
    · cases h
    unfold solveRows at h
    dsimp only at h
    split_ifs at h
    split at h
    · cases h
    split at h
    · cases h
    cases h
    exact ⟨⟨_, _, _, _, _, _, _, _⟩, rfl⟩
  by_cases hv : c.result.verdict.verdict = "insufficient_data"
  · intro hx
    have := ((C113_insufficient c).2 hv).2.2.1.subset hx
    simp at this
  · rw [C113_reasons c hv]
    simp

end

/-! ## What the result does not depend on -/

/-- The result of the search depends on the rows through these alone. -/
theorem solveRows_congr {env : Env} {k : Knobs} {rows rows' : List Row} (h1 : spanOf env rows' = spanOf env rows)
    (h2 : ∀ use, problemOf env rows' use = problemOf env rows use) (h3 : hasSessions rows' = hasSessions rows)
    (h4 : summarize env rows' = summarize env rows) (h5 : rows'.map Row.filter = rows.map Row.filter) (h6 : relTimes env rows' = relTimes env rows) :
    solveRows env k rows' = solveRows env k rows := by
  unfold solveRows
  rw [h1]
  unfold solveBoth adopt solveWith
  simp only [h2, h3, h4, h5, h6]

/-- C114: adding a number to all times changes nothing. -/
theorem C114_shift (env : Env) (k : Knobs) (obs : List Obs) (c : ℝ) :
    estimate env k (obs.map fun o => { o with time := o.time.map (· + c) }) = estimate env k obs := by
  set move : Row → Row := fun r => { r with time := r.time + c } with hmove
  have hrow : ∀ o : Obs, rowOf { o with time := o.time.map (· + c) } = (rowOf o).map move := by
    intro o
    obtain ⟨t, m, s, f, se, x, d, a⟩ := o
    unfold rowOf
    cases t <;> cases m <;> cases x <;> cases d <;> cases a <;> rfl
  have hval : validate (obs.map fun o => { o with time := o.time.map (· + c) }) = (validate obs).map (List.map move) := by
    unfold validate
    have h1 : ((obs.map fun o => { o with time := o.time.map (· + c) }).any fun o => (rowOf o).isNone) = obs.any fun o => (rowOf o).isNone := by
      rw [List.any_map]
      congr 1
      funext o
      simp only [Function.comp_apply, hrow]
      cases rowOf o <;> rfl
    have h2 : (obs.map fun o => { o with time := o.time.map (· + c) }).filterMap rowOf = (obs.filterMap rowOf).map move := by
      rw [List.filterMap_map, List.map_filterMap]
      congr 1
      funext o
      exact hrow o
    rw [h1, h2]
    simp only [List.map_eq_nil_iff, List.any_map]
    have h3 : ((fun r : Row => decide (r.r ≤ 0 ∨ r.delta ≤ 0)) ∘ move) = fun r : Row => decide (r.r ≤ 0 ∨ r.delta ≤ 0) := rfl
    rw [h3]
    split_ifs <;> rfl
  have hlt : ∀ rows : List Row, (rows.map move).map (Row.lightTime env) = (rows.map (Row.lightTime env)).map (· + c) := by
    intro rows
    rw [List.map_map, List.map_map]
    refine List.map_congr_left fun r _ => ?_
    simp only [Function.comp_apply, Row.lightTime, hmove]
    ring
  have hmax : ∀ (l : List ℝ) (a : ℝ), maxFrom (a + c) (l.map (· + c)) = maxFrom a l + c := by
    intro l
    induction l with
    | nil => intro a; rfl
    | cons b l ih =>
      intro a
      have := ih (max a b)
      rw [← max_add_add_right] at this
      exact this
  have hmin : ∀ (l : List ℝ) (a : ℝ), minFrom (a + c) (l.map (· + c)) = minFrom a l + c := by
    intro l
    induction l with
    | nil => intro a; rfl
    | cons b l ih =>
      intro a
      have := ih (min a b)
      rw [← min_add_add_right] at this
      exact this
  have hmin' : ∀ l : List ℝ, l ≠ [] → minFrom ((l.map (· + c)).headD 0) (l.map (· + c)) = minFrom (l.headD 0) l + c := by
    intro l h
    cases l with
    | nil => exact absurd rfl h
    | cons a l => exact hmin (a :: l) a
  have hdiff : ∀ l : List ℝ, maxFrom ((l.map (· + c)).headD 0) (l.map (· + c)) - minFrom ((l.map (· + c)).headD 0) (l.map (· + c)) =
      maxFrom (l.headD 0) l - minFrom (l.headD 0) l := by
    intro l
    cases l with
    | nil => rfl
    | cons a l =>
      have h1 := hmax (a :: l) a
      have h2 := hmin (a :: l) a
      simp only [List.map_cons, List.headD_cons] at h1 h2 ⊢
      rw [h1, h2]
      ring
  have hearly : ∀ rows : List Row, rows ≠ [] → earliest env (rows.map move) = earliest env rows + c := by
    intro rows h
    unfold earliest
    rw [hlt]
    exact hmin' _ (by simpa using h)
  have hrel1 : ∀ rows : List Row, ∀ r ∈ rows, (move r).lightTime env - earliest env (rows.map move) = r.lightTime env - earliest env rows := by
    intro rows r hr
    rw [hearly rows (List.ne_nil_of_mem hr)]
    simp only [Row.lightTime, hmove]
    ring
  have hrel : ∀ rows : List Row, relTimes env (rows.map move) = relTimes env rows := by
    intro rows
    unfold relTimes
    rw [List.map_map]
    exact List.map_congr_left fun r hr => hrel1 rows r hr
  have hspan : ∀ rows : List Row, spanOf env (rows.map move) = spanOf env rows := by
    intro rows
    unfold spanOf
    rw [hrel]
  have hw : ∀ rows : List Row, isWeighted (rows.map move) = isWeighted rows := by
    intro rows
    unfold isWeighted
    rw [List.all_map]
    rfl
  have hlab : ∀ rows : List Row, (rows.map move).map Row.lab = rows.map Row.lab := by
    intro rows
    rw [List.map_map]
    rfl
  have halpha : ∀ rows : List Row, (rows.map move).map Row.alpha = rows.map Row.alpha := by
    intro rows
    rw [List.map_map]
    rfl
  have hfilter : ∀ rows : List Row, (rows.map move).map Row.filter = rows.map Row.filter := by
    intro rows
    rw [List.map_map]
    rfl
  have hprob : ∀ (rows : List Row) (use : Bool), problemOf env (rows.map move) use = problemOf env rows use := by
    intro rows use
    unfold problemOf
    rw [hlab, hw, halpha, List.map_map]
    congr 1
    refine List.map_congr_left fun r hr => ?_
    simp only [Function.comp_apply, hrel1 rows r hr]
    rfl
  have hsess : ∀ rows : List Row, hasSessions (rows.map move) = hasSessions rows := by
    intro rows
    unfold hasSessions
    rw [List.any_map]
    rfl
  have hsum : ∀ rows : List Row, summarize env (rows.map move) = summarize env rows := by
    intro rows
    unfold summarize
    have hlabel : (rows.map move).map Row.label = rows.map Row.label := by
      rw [List.map_map]
      rfl
    have h1 : ∀ s f, ((rows.map move).filter fun r => r.label == s && r.filter == f).length = (rows.filter fun r => r.label == s && r.filter == f).length := by
      intro s f
      rw [List.filter_map, List.length_map]
      rfl
    have h2 : ∀ s, ((rows.map move).filter fun r => r.label == s).map (Row.lightTime env) =
        ((rows.filter fun r => r.label == s).map (Row.lightTime env)).map (· + c) := by
      intro s
      rw [List.filter_map, hlt]
      rfl
    simp only [hsess, hlabel, hfilter, h1, h2, hdiff]
  have hscreen : ∀ (rows : List Row) (span a b : ℝ) (o : Nat), screen (rows.map move) span o a b = screen rows span o a b := by
    intro rows span a b o
    unfold screen
    have h1 : (rows.map move).filterMap Row.sigma = rows.filterMap Row.sigma := by
      rw [List.filterMap_map]
      rfl
    have h2 : (rows.map move).map Row.reduced = rows.map Row.reduced := by
      rw [List.map_map]
      rfl
    simp only [hfilter, h1, h2, List.length_map, ne_eq, List.map_eq_nil_iff]
  have hsolve : ∀ rows : List Row, solveRows env k (rows.map move) = solveRows env k rows := by
    intro rows
    exact solveRows_congr (hspan rows) (hprob rows) (hsess rows) (hsum rows) (hfilter rows) (hrel rows)
  unfold estimate
  rw [hval]
  cases validate obs with
  | error e => rfl
  | ok rows => simp only [Except.map, hspan, hscreen, hsolve]

/-- The same row but for its uncertainty. -/
def SameButSigma (o o' : Obs) : Prop := o' = { o with sigma := o'.sigma }

/-- A row without a positive uncertainty. -/
def Bare (o : Obs) : Prop := ∀ s, o.sigma = some s → s ≤ 0

/-- C114: if one observation has no positive uncertainty, those of the others have no effect on the search: with the screen switched off the
result is the same whatever they are. -/
theorem C114_sigmas {env : Env} {k : Knobs} {obs obs' : List Obs} (he : k.early = false) (h : List.Forall₂ SameButSigma obs obs')
    (hb : ∃ o ∈ obs, Bare o) (hb' : ∃ o ∈ obs', Bare o) : estimate env k obs = estimate env k obs' := by
  set strip : Row → Row := fun r => { r with sigma := none } with hstrip
  set bare : Obs → Obs := fun o => { o with sigma := none } with hbare
  have hsame : obs.map bare = obs'.map bare := by
    clear hb hb'
    induction h with
    | nil => rfl
    | cons h1 _ ih =>
      rw [List.map_cons, List.map_cons, ih]
      congr 1
      rw [h1]
  have hrow : ∀ o : Obs, rowOf (bare o) = (rowOf o).map strip := by
    intro o
    obtain ⟨t, m, s, f, se, x, d, a⟩ := o
    unfold rowOf
    cases t <;> cases m <;> cases x <;> cases d <;> cases a <;> rfl
  have hval : ∀ l : List Obs, validate (l.map bare) = (validate l).map (List.map strip) := by
    intro l
    unfold validate
    have h1 : ((l.map bare).any fun o => (rowOf o).isNone) = l.any fun o => (rowOf o).isNone := by
      rw [List.any_map]
      congr 1
      funext o
      simp only [Function.comp_apply, hrow]
      cases rowOf o <;> rfl
    have h2 : (l.map bare).filterMap rowOf = (l.filterMap rowOf).map strip := by
      rw [List.filterMap_map, List.map_filterMap]
      congr 1
      funext o
      exact hrow o
    rw [h1, h2]
    simp only [List.map_eq_nil_iff, List.any_map]
    have h3 : ((fun r : Row => decide (r.r ≤ 0 ∨ r.delta ≤ 0)) ∘ strip) = fun r : Row => decide (r.r ≤ 0 ∨ r.delta ≤ 0) := rfl
    rw [h3]
    split_ifs <;> rfl
  have hlt : ∀ rows : List Row, (rows.map strip).map (Row.lightTime env) = rows.map (Row.lightTime env) := by
    intro rows
    rw [List.map_map]
    rfl
  have hsolve : ∀ rows : List Row, rows ≠ [] → isWeighted rows = false → solveRows env k (rows.map strip) = solveRows env k rows := by
    intro rows hne hw
    have hfilter : (rows.map strip).map Row.filter = rows.map Row.filter := by
      rw [List.map_map]
      rfl
    have hlab : (rows.map strip).map Row.lab = rows.map Row.lab := by
      rw [List.map_map]
      rfl
    have hlabel : (rows.map strip).map Row.label = rows.map Row.label := by
      rw [List.map_map]
      rfl
    have halpha : (rows.map strip).map Row.alpha = rows.map Row.alpha := by
      rw [List.map_map]
      rfl
    have hw' : isWeighted (rows.map strip) = false := by
      cases rows with
      | nil => exact absurd rfl hne
      | cons r l => rfl
    have hearly : earliest env (rows.map strip) = earliest env rows := by
      unfold earliest
      rw [hlt]
    have hrel : relTimes env (rows.map strip) = relTimes env rows := by
      unfold relTimes
      rw [hearly, List.map_map]
      rfl
    have hsess : hasSessions (rows.map strip) = hasSessions rows := by
      unfold hasSessions
      rw [List.any_map]
      rfl
    refine solveRows_congr ?_ (fun use => ?_) hsess ?_ hfilter hrel
    · unfold spanOf
      rw [hrel]
    · unfold problemOf
      rw [hlab, hw, hw', halpha, List.map_map, hearly]
      rfl
    · unfold summarize
      have h1 : ∀ s f, ((rows.map strip).filter fun r => r.label == s && r.filter == f).length = (rows.filter fun r => r.label == s && r.filter == f).length := by
        intro s f
        rw [List.filter_map, List.length_map]
        rfl
      have h2 : ∀ s, ((rows.map strip).filter fun r => r.label == s).map (Row.lightTime env) =
          (rows.filter fun r => r.label == s).map (Row.lightTime env) := by
        intro s
        rw [List.filter_map, hlt]
        rfl
      simp only [hsess, hlabel, hfilter, h1, h2]
  have key : ∀ l : List Obs, (∃ o ∈ l, Bare o) → estimate env k l = estimate env k (l.map bare) := by
    intro l hl
    unfold estimate
    rw [hval]
    cases hv : validate l with
    | error e => rfl
    | ok rows =>
      have hread : Read l rows := (C114_validate.1 rows).1 hv
      have hw : isWeighted rows = false := by
        cases hi : isWeighted rows with
        | false => rfl
        | true =>
          exfalso
          obtain ⟨o, ho, hob⟩ := hl
          have : ∃ r ∈ rows, Usable o r := by
            have hf := hread.2.1
            clear hread hv hi
            induction hf with
            | nil => simp at ho
            | cons h1 _ ih =>
              rcases List.mem_cons.1 ho with rfl | ho
              · exact ⟨_, by simp, h1⟩
              · obtain ⟨r, hr, hu⟩ := ih ho
                exact ⟨r, List.mem_cons_of_mem _ hr, hu⟩
          obtain ⟨r, hr, hu⟩ := this
          obtain ⟨s, hs, hpos⟩ := isWeighted_iff.1 hi r hr
          rw [hu.2.2.2.2.2.1] at hs
          exact absurd (hob s hs) (not_le.2 hpos)
      simp only [Except.map, he, Bool.false_eq_true, false_and, if_false]
      rw [hsolve rows hread.ne hw]
  rw [key obs hb, key obs' hb', hsame]

/-! ## A case -/

/-- Nothing is fitted well, and light takes 1/173 of a day for an astronomical unit. -/
noncomputable def someEnv : Env := ⟨fun _ _ => [], fun _ _ _ => 0, fun _ _ _ => none, fun _ => ((0, 1), (0, 1)), 173⟩

/-- The row of day `i`, with the label of its session, if any. -/
noncomputable def dayRow (b : Nat → Option String) (i : Nat) : Row := ⟨i, i, none, "V", b i, 1, 1, 10⟩

/-- No labels. -/
def noLabels : Nat → Option String := fun _ => none

/-- A label for every day. -/
def ownLabels : Nat → Option String := fun i => some (["a", "b", "c", "d", "e", "f", "g", "h", "i"].getD i "")

/-- Two labels. -/
def twoLabels : Nat → Option String := fun i => some (if i < 4 then "a" else "b")

/-- Nine observations on nine days, brighter by a magnitude on every day. -/
noncomputable def days (b : Nat → Option String) : List Obs := (List.range 9).map fun i : Nat =>
  ⟨some (i : ℝ), some (i : ℝ), none, some "V", (dayRow b i).session, some 1, some 1, some 10⟩

theorem days_read (b : Nat → Option String) : Read (days b) ((List.range 9).map (dayRow b)) := by
  refine ⟨by simp [days], ?_, ?_⟩
  · unfold days
    rw [List.forall₂_map_left_iff, List.forall₂_map_right_iff, List.forall₂_same]
    intro i _
    simp [Usable, dayRow]
  · intro r hr
    obtain ⟨i, -, rfl⟩ := List.mem_map.1 hr
    simp [dayRow]

theorem defaults_accepted : Accepted defaults := by
  constructor <;> norm_num [defaults]
  intro h hh
  cases hh

theorem days_span (b : Nat → Option String) : IsSpan someEnv ((List.range 9).map (dayRow b)) 8 := by
  constructor
  · refine ⟨dayRow b 8, List.mem_map.2 ⟨8, by simp, rfl⟩, dayRow b 0, List.mem_map.2 ⟨0, by simp, rfl⟩, ?_⟩
    norm_num [dayRow]
  · intro x hx y hy
    obtain ⟨i, hi, rfl⟩ := List.mem_map.1 hx
    obtain ⟨j, hj, rfl⟩ := List.mem_map.1 hy
    simp only [dayRow]
    have h1 : (i : ℝ) ≤ 8 := by
      have := List.mem_range.1 hi
      exact_mod_cast (by omega : i ≤ 8)
    have h2 : (0 : ℝ) ≤ j := Nat.cast_nonneg j
    linarith

theorem days_scatter (b : Nat → Option String) : IsScatter (((List.range 9).map (dayRow b)).map Row.reduced) (1.4826 * 2) := by
  have hl : ((List.range 9).map (dayRow b)).map Row.reduced = (List.range 9).map fun i : Nat => (i : ℝ) := by
    rw [List.map_map]
    refine List.map_congr_left fun i _ => ?_
    simp [Row.reduced, dayRow]
  rw [hl]
  refine ⟨4, 2, ⟨_, List.Perm.refl _, ?_, 4, 4, by simp, by simp, by norm_num⟩, ?_, rfl⟩
  · rw [List.pairwise_map]
    refine List.pairwise_lt_range.imp fun {a b} h => ?_
    exact_mod_cast h.le
  · have hd : ((List.range 9).map fun i : Nat => (i : ℝ)).map (fun x => |x - 4|) = ((List.range 9).map fun i : Nat => ((i : ℤ) - 4).natAbs).map fun n : Nat => (n : ℝ) := by
      rw [List.map_map, List.map_map]
      refine List.map_congr_left fun i _ => ?_
      simp only [Function.comp_apply]
      rw [Nat.cast_natAbs]
      push_cast
      rfl
    rw [hd]
    refine ⟨[0, 1, 1, 2, 2, 3, 3, 4, 4].map fun n : Nat => (n : ℝ), List.Perm.map _ (by decide), ?_, 2, 2, by simp, by simp, by norm_num⟩
    rw [List.pairwise_map]
    have : List.Pairwise (· ≤ ·) [0, 1, 1, 2, 2, 3, 3, 4, 4] := by decide
    exact this.imp fun {a b} h => by exact_mod_cast h

theorem days_clean (b : Nat → Option String) : ∀ x, ¬ Reason defaults ((List.range 9).map (dayRow b)) 8 x := by
  intro x
  have hcard : (((List.range 9).map (dayRow b)).map Row.filter).toFinset.card = 1 := by
    have : ((List.range 9).map (dayRow b)).map Row.filter = List.replicate 9 "V" := by rfl
    rw [this]
    rfl
  rintro (⟨-, h⟩ | ⟨-, h⟩ | ⟨-, s, n, h1, h2, h3⟩)
  · rw [hcard] at h
    simp at h
  · norm_num [defaults] at h
  · obtain ⟨m, d, g1, g2, rfl⟩ := h1
    obtain ⟨m', d', g3, g4, g5⟩ := days_scatter b
    cases isMedian_unique g1 g3
    cases isMedian_unique g2 g4
    have hs : ((List.range 9).map (dayRow b)).filterMap Row.sigma = [] := by rfl
    rw [hs] at h2
    rcases h2 with ⟨-, rfl⟩ | ⟨t, hp, -, a, b, ha, -⟩
    · rw [← g5] at h3
      norm_num at h3
    · rw [List.Perm.eq_nil hp] at ha
      cases ha

theorem days_bare (b : Nat → Option String) : ¬ Weighted ((List.range 9).map (dayRow b)) := by
  intro h
  obtain ⟨s, hs, -⟩ := h (dayRow b 0) (List.mem_map.2 ⟨0, by simp, rfl⟩)
  cases hs

/-- The nine observations are searched if they have no session labels. -/
example : ∃ outcome, estimate someEnv defaults (days noLabels) = .ok outcome :=
  C114_safe defaults_accepted (days_read noLabels) (fun a => by simp [someEnv]) (days_bare noLabels) (by norm_num [defaults]) rfl rfl rfl
    (Or.inr fun r hr => by
      obtain ⟨i, -, rfl⟩ := List.mem_map.1 hr
      rfl)

/-- C114: not so that data that pass the screen give a result, nor that the automatic mode falls back on the fit without sessions: with every
parameter at its default, nine observations on nine days with a session label each raise ValueError, though there is a fit without sessions. -/
theorem C114_auto_false : estimate someEnv defaults (days ownLabels) = .error .valueError ∧
    (∀ x, ¬ Reason defaults ((List.range 9).map (dayRow ownLabels)) 8 x) ∧
    ∃ outcome, estimate someEnv { defaults with mode := "ignore" } (days ownLabels) = .ok outcome := by
  have hcard : zeroPoints ((List.range 9).map (dayRow ownLabels)) true = 9 := by
    have : ((List.range 9).map (dayRow ownLabels)).map (fun r => (r.filter, if true then some (r.session.getD "__missing_session__") else none)) =
        ["a", "b", "c", "d", "e", "f", "g", "h", "i"].map fun s => ("V", some s) := by rfl
    unfold zeroPoints
    rw [this]
    decide +kernel
  refine ⟨?_, days_clean ownLabels, ?_⟩
  · rw [C114_raises defaults_accepted (days_read ownLabels) (days_span ownLabels) (fun a => by simp [someEnv]) (days_bare ownLabels) (by norm_num [defaults])]
    refine ⟨fun h => ?_, ?_⟩
    · obtain ⟨-, x, hx⟩ := h
      exact days_clean ownLabels x hx
    · refine Or.inr (Or.inr (Or.inr (Or.inr ⟨⟨⟨dayRow ownLabels 0, List.mem_map.2 ⟨0, by simp, rfl⟩, by simp [dayRow, ownLabels]⟩, by simp [defaults]⟩, fun o _ => ?_⟩)))
      rw [hcard]
      simp
      omega
  · refine C114_safe ?_ (days_read ownLabels) (fun a => by simp [someEnv]) (days_bare ownLabels) (by norm_num [defaults]) rfl rfl rfl (Or.inl rfl)
    constructor <;> norm_num [defaults]
    intro h hh
    cases hh

/-- C114: not so that data that pass the screen give a result: a longest period of a minute and a half raises ValueError, though the screen is
on and there is nothing wrong with the data. -/
theorem C114_period_false : estimate someEnv { defaults with maxPeriodHours := some (1 / 50) } (days noLabels) = .error .valueError ∧
    ∀ x, ¬ Reason { defaults with maxPeriodHours := some (1 / 50) } ((List.range 9).map (dayRow noLabels)) 8 x := by
  refine ⟨?_, days_clean noLabels⟩
  have hk : Accepted { defaults with maxPeriodHours := some (1 / 50) } := by
    constructor <;> norm_num [defaults]
  rw [C114_raises hk (days_read noLabels) (days_span noLabels) (fun a => by simp [someEnv]) (days_bare noLabels) (by norm_num [defaults])]
  refine ⟨fun h => ?_, Or.inr (Or.inr (Or.inl ⟨1 / 50, rfl, by norm_num [defaults]⟩))⟩
  obtain ⟨-, x, hx⟩ := h
  exact days_clean noLabels x hx

/-- With two labels that are demanded there is a solution with session offsets. -/
example : ∃ primary flags s, estimate someEnv { defaults with mode := "use" } (days twoLabels) = .ok (.solved primary flags true s) := by
  have hk : Accepted { defaults with mode := "use" } := by
    constructor <;> norm_num [defaults]
    intro h hh
    cases hh
  have hclean := days_clean twoLabels
  have hses : ∃ r ∈ (List.range 9).map (dayRow twoLabels), r.session ≠ none := ⟨dayRow twoLabels 0, List.mem_map.2 ⟨0, by simp, rfl⟩, by simp [dayRow, twoLabels]⟩
  have hcard : ∀ use, zeroPoints ((List.range 9).map (dayRow twoLabels)) use = if use then 2 else 1 := by
    intro use
    have : ((List.range 9).map (dayRow twoLabels)).map (fun r => (r.filter, if use then some (r.session.getD "__missing_session__") else none)) =
        ["a", "a", "a", "a", "b", "b", "b", "b", "b"].map fun s => ("V", if use then some s else none) := by rfl
    unfold zeroPoints
    rw [this]
    cases use <;> decide +kernel
  cases h : estimate someEnv { defaults with mode := "use" } (days twoLabels) with
  | error e =>
    exfalso
    cases (C114_errors hk (days_read twoLabels) (days_span twoLabels)).2 e h
    obtain ⟨-, h2⟩ := (C114_raises hk (days_read twoLabels) (days_span twoLabels) (fun a => by simp [someEnv]) (days_bare twoLabels)
      (by norm_num [defaults])).1 h
    rw [hcard, hcard] at h2
    rcases h2 with h2 | h2 | ⟨h2, hh, -⟩ | h2 | ⟨-, h2⟩
    · norm_num at h2
    · norm_num [defaults] at h2
    · cases hh
    · have := h2 2 (by simp [ordersOf, defaults])
      simp at this
    · have := h2 2 (by simp [ordersOf, defaults])
      simp at this
  | ok o =>
    cases o with
    | screened reasons =>
      obtain ⟨-, x, hx⟩ := (C114_screened hk (days_read twoLabels) (days_span twoLabels)).1.1 ⟨reasons, h⟩
      exact absurd hx (hclean x)
    | solved primary flags use s =>
      obtain ⟨freqs, -, -, h1⟩ := C114_sessions hk (days_read twoLabels) h
      cases h1.2 ⟨hses, Or.inl rfl⟩
      exact ⟨primary, flags, s, rfl⟩

end Verif.Rot.Props
