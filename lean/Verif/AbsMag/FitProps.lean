import Verif.AbsMag.Lemmas
import Mathlib.Tactic.Linarith
import Mathlib.Tactic.FieldSimp
import Mathlib.Tactic.LinearCombination
import Mathlib.Tactic.NormNum
import Mathlib.Algebra.Order.BigOperators.Group.List

/-! # The fit of an absolute magnitude to the rows of one object (C92) -/

namespace Verif.AbsMag.Props

open Verif Sched

/-- Rows `(h, sigma)`: a magnitude with its uncertainty, if known. -/
abbrev Rows := List (ℝ × Option ℝ)

/-- Sum of the squared residuals about `x`, each divided by its variance. -/
noncomputable def chi2 (rows : Rows) (x : ℝ) : ℝ := (rows.map fun r => ((r.1 - x) / r.2.getD 0) ^ 2).sum

/-- Sum of the squared residuals about `x`. -/
noncomputable def squares (rows : Rows) (x : ℝ) : ℝ := (rows.map fun r => (r.1 - x) ^ 2).sum

/-- Every row has an uncertainty, and none is zero. -/
def Weighted (rows : Rows) : Prop := ∀ r ∈ rows, ∃ s, r.2 = some s ∧ s ≠ 0

/-- Some row has no uncertainty. -/
def Unweighted (rows : Rows) : Prop := ∃ r ∈ rows, r.2 = none

/-- The three cases of the fit. -/
theorem fit_weighted {rows : Rows} (h0 : rows ≠ []) (hw : Weighted rows) : fitRows rows =
    let H := total (fun r => wt r * r.1) rows / total wt rows
    let resid := rows.map fun r => r.1 - H
    if 2 ≤ rows.length then
      let red := total (fun r => wt r * ((r.1 - H) * (r.1 - H))) rows / ((rows.length : ℝ) - 1)
      let hs := Real.sqrt (1 / total wt rows)
      .ok ⟨H, some (if red > 1 then hs * Real.sqrt red else hs), some (madSigma resid), some red, rows.length⟩
    else .ok ⟨H, none, none, none, rows.length⟩ := by
  rw [fitRows_eq, if_neg h0, if_pos, if_neg]
  · rintro ⟨r, hr, e⟩
    obtain ⟨s, es, hs⟩ := hw r hr
    rw [e] at es
    exact hs (Option.some.inj es).symm
  · intro r hr
    obtain ⟨s, es, hs⟩ := hw r hr
    rw [es]; rfl

theorem fit_unweighted {rows : Rows} (hu : Unweighted rows) : fitRows rows =
    let H := total Prod.fst rows / rows.length
    let resid := rows.map fun r => r.1 - H
    if 2 ≤ rows.length then
      .ok ⟨H, some (madSigma resid / Real.sqrt rows.length), some (madSigma resid), none, rows.length⟩
    else .ok ⟨H, none, none, none, rows.length⟩ := by
  obtain ⟨r, hr, e⟩ := hu
  rw [fitRows_eq, if_neg (List.ne_nil_of_mem hr), if_neg]
  intro h
  have := h r hr
  rw [e] at this
  cases this

theorem cases_rows (rows : Rows) : Weighted rows ∨ Unweighted rows ∨
    ((∀ r ∈ rows, r.2.isSome) ∧ ∃ r ∈ rows, r.2 = some 0) := by
  by_cases hu : Unweighted rows
  · exact .inr (.inl hu)
  have h1 : ∀ r ∈ rows, r.2.isSome := by
    intro r hr
    cases e : r.2 with
    | none => exact absurd ⟨r, hr, e⟩ hu
    | some s => rfl
  by_cases h2 : ∃ r ∈ rows, r.2 = some 0
  · exact .inr (.inr ⟨h1, h2⟩)
  · left
    intro r hr
    obtain ⟨s, es⟩ := Option.isSome_iff_exists.mp (h1 r hr)
    exact ⟨s, es, fun e => h2 ⟨r, hr, e ▸ es⟩⟩

/-- The fit raises exactly when there is no row, or all uncertainties are known and one is zero. -/
theorem C92_accepts (rows : Rows) :
    (∀ e, fitRows rows = .error e → e = .valueError) ∧
    ((∃ f, fitRows rows = .ok f) ↔ rows ≠ [] ∧ (Weighted rows ∨ Unweighted rows)) := by
  by_cases h0 : rows = []
  · subst h0
    rw [fitRows_eq, if_pos rfl]
    exact ⟨fun e h => by cases h; rfl, ⟨fun ⟨f, h⟩ => (by cases h), fun h => absurd rfl h.1⟩⟩
  rcases cases_rows rows with hw | hu | hz
  · rw [fit_weighted h0 hw]
    simp only
    split
    · exact ⟨fun e h => (by cases h), ⟨fun _ => ⟨h0, .inl hw⟩, fun _ => ⟨_, rfl⟩⟩⟩
    · exact ⟨fun e h => (by cases h), ⟨fun _ => ⟨h0, .inl hw⟩, fun _ => ⟨_, rfl⟩⟩⟩
  · rw [fit_unweighted hu]
    simp only
    split
    · exact ⟨fun e h => (by cases h), ⟨fun _ => ⟨h0, .inr hu⟩, fun _ => ⟨_, rfl⟩⟩⟩
    · exact ⟨fun e h => (by cases h), ⟨fun _ => ⟨h0, .inr hu⟩, fun _ => ⟨_, rfl⟩⟩⟩
  · rw [fitRows_eq, if_neg h0, if_pos hz.1, if_pos hz.2]
    refine ⟨fun e h => by cases h; rfl, ⟨fun ⟨f, h⟩ => (by cases h), ?_⟩⟩
    rintro ⟨-, hw | ⟨r, hr, e⟩⟩
    · obtain ⟨r, hr, e⟩ := hz.2
      obtain ⟨s, es, hs⟩ := hw r hr
      rw [e] at es
      exact absurd (Option.some.inj es).symm hs
    · have := hz.1 r hr
      rw [e] at this
      cases this

/-- Weighted sums: the mean minimises the weighted squares. -/
theorem sum_split (w : ℝ × Option ℝ → ℝ) (rows : Rows) (c x : ℝ) :
    (rows.map fun r => w r * (r.1 - x) ^ 2).sum
      = (rows.map fun r => w r * (r.1 - c) ^ 2).sum
        + 2 * (c - x) * ((rows.map fun r => w r * r.1).sum - c * (rows.map w).sum) + (c - x) ^ 2 * (rows.map w).sum := by
  induction rows with
  | nil => simp
  | cons r rows ih =>
    simp only [List.map_cons, List.sum_cons]
    rw [ih]
    ring

theorem sum_pos {rows : Rows} (w : ℝ × Option ℝ → ℝ) (h0 : rows ≠ []) (hp : ∀ r ∈ rows, 0 < w r) : 0 < (rows.map w).sum := by
  apply List.sum_pos
  · intro x hx
    obtain ⟨r, hr, rfl⟩ := List.mem_map.mp hx
    exact hp r hr
  · simpa using h0

theorem wt_pos {rows : Rows} (hw : Weighted rows) : ∀ r ∈ rows, 0 < wt r := by
  intro r hr
  obtain ⟨s, es, hs⟩ := hw r hr
  unfold wt weight
  rw [es]
  have : 0 < s * s := mul_self_pos.mpr hs
  simpa using this

theorem wt_sq {rows : Rows} (hw : Weighted rows) (x : ℝ) :
    (rows.map fun r => wt r * (r.1 - x) ^ 2).sum = chi2 rows x := by
  unfold chi2
  congr 1
  apply List.map_congr_left
  intro r hr
  obtain ⟨s, es, hs⟩ := hw r hr
  unfold wt weight
  rw [es]
  simp only [Option.getD_some]
  field_simp

theorem wsum_pos {rows : Rows} (h0 : rows ≠ []) (hw : Weighted rows) : 0 < total wt rows := sum_pos wt h0 (wt_pos hw)

theorem chi2_split {rows : Rows} (h0 : rows ≠ []) (hw : Weighted rows) (x : ℝ) :
    chi2 rows x = chi2 rows (total (fun r => wt r * r.1) rows / total wt rows)
      + (total (fun r => wt r * r.1) rows / total wt rows - x) ^ 2 * total wt rows := by
  have hp := wsum_pos h0 hw
  rw [← wt_sq hw, ← wt_sq hw, sum_split wt rows (total (fun r => wt r * r.1) rows / total wt rows) x]
  have : (rows.map fun r => wt r * r.1).sum - total (fun r => wt r * r.1) rows / total wt rows * (rows.map wt).sum = 0 := by
    change total _ rows - total (fun r => wt r * r.1) rows / total wt rows * total wt rows = 0
    rw [div_mul_cancel₀ _ hp.ne']
    exact sub_self _
  rw [this]
  unfold total
  ring

theorem fit_H_weighted {rows : Rows} (h0 : rows ≠ []) (hw : Weighted rows) {f : Fit} (h : fitRows rows = .ok f) :
    f.H = total (fun r => wt r * r.1) rows / total wt rows := by
  rw [fit_weighted h0 hw] at h
  simp only at h
  split at h <;> cases h <;> rfl

/-- With all uncertainties the estimate is the one point of least chi-square. -/
theorem C92_weighted {rows : Rows} (h0 : rows ≠ []) (hw : Weighted rows) {f : Fit} (h : fitRows rows = .ok f) (x : ℝ) :
    chi2 rows f.H ≤ chi2 rows x ∧ (chi2 rows x = chi2 rows f.H → x = f.H) := by
  rw [fit_H_weighted h0 hw h]
  have hp := wsum_pos h0 hw
  rw [chi2_split h0 hw x]
  constructor
  · have := mul_nonneg (sq_nonneg (total (fun r => wt r * r.1) rows / total wt rows - x)) hp.le
    linarith
  · intro e
    have : (total (fun r => wt r * r.1) rows / total wt rows - x) ^ 2 * total wt rows = 0 := by linarith
    rcases mul_eq_zero.mp this with h | h
    · have := pow_eq_zero_iff (two_ne_zero) |>.mp h
      linarith
    · exact absurd h hp.ne'

theorem fit_H_unweighted {rows : Rows} (hu : Unweighted rows) {f : Fit} (h : fitRows rows = .ok f) :
    f.H = total Prod.fst rows / rows.length := by
  rw [fit_unweighted hu] at h
  simp only at h
  split at h <;> cases h <;> rfl

theorem length_pos_real {rows : Rows} (h0 : rows ≠ []) : (0 : ℝ) < rows.length := by
  exact_mod_cast List.length_pos_iff.mpr h0

theorem squares_split {rows : Rows} (h0 : rows ≠ []) (x : ℝ) :
    squares rows x = squares rows (total Prod.fst rows / rows.length) + (total Prod.fst rows / rows.length - x) ^ 2 * rows.length := by
  have hp := length_pos_real h0
  have h1 : ∀ y, squares rows y = (rows.map fun r => (fun _ => (1 : ℝ)) r * (r.1 - y) ^ 2).sum := by
    intro y; simp [squares]
  rw [h1, h1, sum_split (fun _ => (1 : ℝ)) rows (total Prod.fst rows / rows.length) x]
  have h2 : (rows.map fun _ => (1 : ℝ)).sum = rows.length := by simp
  have h3 : (rows.map fun r => (1 : ℝ) * r.1).sum = total Prod.fst rows := by simp [total]
  rw [h2, h3, div_mul_cancel₀ _ hp.ne']
  ring

/-- With an uncertainty missing the estimate is the one point of least squares: every row counts the same. -/
theorem C92_unweighted {rows : Rows} (hu : Unweighted rows) {f : Fit} (h : fitRows rows = .ok f) (x : ℝ) :
    squares rows f.H ≤ squares rows x ∧ (squares rows x = squares rows f.H → x = f.H) := by
  have h0 : rows ≠ [] := by obtain ⟨r, hr, -⟩ := hu; exact List.ne_nil_of_mem hr
  rw [fit_H_unweighted hu h]
  have hp := length_pos_real h0
  rw [squares_split h0 x]
  constructor
  · have := mul_nonneg (sq_nonneg (total Prod.fst rows / rows.length - x)) hp.le
    linarith
  · intro e
    have : (total Prod.fst rows / rows.length - x) ^ 2 * (rows.length : ℝ) = 0 := by linarith
    rcases mul_eq_zero.mp this with h | h
    · have := pow_eq_zero_iff (two_ne_zero) |>.mp h
      linarith
    · exact absurd h hp.ne'

theorem sum_between (w : ℝ × Option ℝ → ℝ) {lo hi : ℝ} : ∀ {rows : Rows}, (∀ r ∈ rows, 0 < w r) →
    (∀ r ∈ rows, lo ≤ r.1 ∧ r.1 ≤ hi) → lo * (rows.map w).sum ≤ (rows.map fun r => w r * r.1).sum ∧
      (rows.map fun r => w r * r.1).sum ≤ hi * (rows.map w).sum := by
  intro rows hp h
  induction rows with
  | nil => simp
  | cons r rows ih =>
    obtain ⟨h1, h2⟩ := ih (fun r hr => hp r (List.mem_cons_of_mem _ hr)) fun r hr => h r (List.mem_cons_of_mem _ hr)
    obtain ⟨h3, h4⟩ := h r List.mem_cons_self
    have := hp r List.mem_cons_self
    simp only [List.map_cons, List.sum_cons]
    constructor <;> nlinarith

/-- The estimate lies between the smallest and the largest row. -/
theorem C92_between {rows : Rows} {f : Fit} (h : fitRows rows = .ok f) {lo hi : ℝ}
    (hb : ∀ r ∈ rows, lo ≤ r.1 ∧ r.1 ≤ hi) : lo ≤ f.H ∧ f.H ≤ hi := by
  obtain ⟨h0, hw | hu⟩ := (C92_accepts rows).2.mp ⟨f, h⟩
  · rw [fit_H_weighted h0 hw h]
    have hp := wsum_pos h0 hw
    obtain ⟨h1, h2⟩ := sum_between wt (wt_pos hw) hb
    exact ⟨(le_div_iff₀ hp).mpr h1, (div_le_iff₀ hp).mpr h2⟩
  · rw [fit_H_unweighted hu h]
    have hp := length_pos_real h0
    obtain ⟨h1, h2⟩ := sum_between (fun _ => (1 : ℝ)) (rows := rows) (fun _ _ => one_pos) hb
    have h3 : (rows.map fun _ => (1 : ℝ)).sum = rows.length := by simp
    have h4 : (rows.map fun r => (1 : ℝ) * r.1).sum = total Prod.fst rows := by simp [total]
    rw [h3, h4] at h1 h2
    exact ⟨(le_div_iff₀ hp).mpr h1, (div_le_iff₀ hp).mpr h2⟩

/-- The other columns. One row gives no uncertainty of any kind; more rows give a scatter, and a chi-square exactly when all
uncertainties are known. The uncertainty of the estimate is never below the formal one. -/
theorem C92_columns {rows : Rows} {f : Fit} (h : fitRows rows = .ok f) :
    f.nUsed = rows.length ∧ (f.Hsigma = none ↔ rows.length = 1) ∧ (f.sigmaEff = none ↔ rows.length = 1) ∧
    (∀ c, f.chi2Red = some c ↔ 2 ≤ rows.length ∧ Weighted rows ∧ c = chi2 rows f.H / (rows.length - 1)) ∧
    (∀ s, f.Hsigma = some s → Weighted rows → ∃ c, f.chi2Red = some c ∧
      s ^ 2 = max 1 c / (rows.map fun r => 1 / (r.2.getD 0) ^ 2).sum ∧ 0 < s) ∧
    (∀ s e, f.Hsigma = some s → f.sigmaEff = some e → Unweighted rows → s ^ 2 * rows.length = e ^ 2) := by
  obtain ⟨h0, hc⟩ := (C92_accepts rows).2.mp ⟨f, h⟩
  have hlen : 1 ≤ rows.length := List.length_pos_iff.mpr h0
  have hexcl : Weighted rows → Unweighted rows → False := by
    rintro hw ⟨r, hr, e⟩
    obtain ⟨s, es, -⟩ := hw r hr
    rw [e] at es; cases es
  rcases hc with hw | hu
  · have hH := fit_H_weighted h0 hw h
    have hp := wsum_pos h0 hw
    have hchi : ∀ x, total (fun r => wt r * ((r.1 - x) * (r.1 - x))) rows = chi2 rows x := by
      intro x
      rw [← wt_sq hw]
      unfold total
      congr 1
      apply List.map_congr_left
      intro r _
      ring
    have hwt : total wt rows = (rows.map fun r => 1 / (r.2.getD 0) ^ 2).sum := by
      unfold total
      congr 1
      apply List.map_congr_left
      intro r _
      unfold wt weight
      rw [sq]
    rw [fit_weighted h0 hw] at h
    simp only [hchi] at h
    by_cases h2 : 2 ≤ rows.length
    · rw [if_pos h2] at h
      cases h
      refine ⟨rfl, by simp; omega, by simp; omega, ?_, ?_, ?_⟩
      · intro c
        simp only [Option.some.injEq]
        exact ⟨fun e => ⟨h2, hw, e.symm⟩, fun e => e.2.2.symm⟩
      · intro s hs _
        refine ⟨_, rfl, ?_⟩
        simp only [Option.some.injEq] at hs
        rw [← hwt, ← hs]
        have hq : 0 ≤ 1 / total wt rows := by positivity
        have hq' : 0 < Real.sqrt (1 / total wt rows) := Real.sqrt_pos.mpr (by positivity)
        split
        · rename_i hred
          refine ⟨?_, ?_⟩
          · rw [mul_pow, Real.sq_sqrt hq, Real.sq_sqrt (by linarith), max_eq_right hred.le]
            ring
          · exact mul_pos hq' (Real.sqrt_pos.mpr (by linarith))
        · rename_i hred
          exact ⟨by rw [Real.sq_sqrt hq, max_eq_left (not_lt.mp hred)], hq'⟩
      · intro s e _ _ hu
        exact absurd hu (hexcl hw)
    · rw [if_neg h2] at h
      cases h
      have h1 : rows.length = 1 := by omega
      refine ⟨rfl, by simp [h1], by simp [h1], ?_, ?_, ?_⟩
      · intro c
        exact ⟨fun e => (by cases e), fun e => absurd e.1 h2⟩
      · intro s hs; cases hs
      · intro s e hs; cases hs
  · rw [fit_unweighted hu] at h
    simp only at h
    by_cases h2 : 2 ≤ rows.length
    · rw [if_pos h2] at h
      cases h
      refine ⟨rfl, by simp; omega, by simp; omega, ?_, ?_, ?_⟩
      · intro c
        exact ⟨fun e => (by cases e), fun e => absurd hu (hexcl e.2.1)⟩
      · intro s _ hw
        exact absurd hu (hexcl hw)
      · intro s e hs he _
        simp only [Option.some.injEq] at hs he
        rw [← hs, ← he, div_pow, Real.sq_sqrt (Nat.cast_nonneg _)]
        exact div_mul_cancel₀ _ (length_pos_real h0).ne'
    · rw [if_neg h2] at h
      cases h
      have h1 : rows.length = 1 := by omega
      refine ⟨rfl, by simp [h1], by simp [h1], ?_, ?_, ?_⟩
      · intro c
        exact ⟨fun e => (by cases e), fun e => absurd e.1 h2⟩
      · intro s hs; cases hs
      · intro s e hs; cases hs

/-- At most half of the numbers lie on either side. -/
def Halves (l : List ℝ) (m : ℝ) : Prop :=
  2 * (l.filter fun x => decide (x < m)).length ≤ l.length ∧ 2 * (l.filter fun x => decide (m < x)).length ≤ l.length

theorem sorted_filter_lt {s : List ℝ} {k : Nat} {m : ℝ} (h : ∀ x ∈ s.drop k, m ≤ x) :
    (s.filter fun x => decide (x < m)).length ≤ k := by
  conv_lhs => rw [← List.take_append_drop k s]
  rw [List.filter_append, List.length_append]
  have h1 : (s.drop k).filter (fun x => decide (x < m)) = [] := by
    rw [List.filter_eq_nil_iff]
    intro x hx
    simpa using h x hx
  rw [h1]
  have := List.length_filter_le (fun x => decide (x < m)) (s.take k)
  have := List.length_take_le k s
  simp
  omega

theorem sorted_filter_gt {s : List ℝ} {k : Nat} {m : ℝ} (h : ∀ x ∈ s.take k, x ≤ m) :
    (s.filter fun x => decide (m < x)).length ≤ s.length - k := by
  conv_lhs => rw [← List.take_append_drop k s]
  rw [List.filter_append, List.length_append]
  have h1 : (s.take k).filter (fun x => decide (m < x)) = [] := by
    rw [List.filter_eq_nil_iff]
    intro x hx
    simpa using h x hx
  rw [h1]
  have := List.length_filter_le (fun x => decide (m < x)) (s.drop k)
  have : (s.drop k).length = s.length - k := List.length_drop
  simp
  omega

theorem getD_at {s : List ℝ} {k : Nat} (hk : k < s.length) : s.getD k 0 = s[k] := by
  rw [List.getD_eq_getElem?_getD, List.getElem?_eq_getElem hk, Option.getD_some]

theorem median_halves {l : List ℝ} (h0 : l ≠ []) : Halves l (median l) := by
  have hp : (sortBy id l).Perm l := sortBy_perm id l
  have hs : (sortBy id l).Pairwise (· ≤ ·) := sortBy_sorted id l
  have hn : (sortBy id l).length = l.length := hp.length_eq
  have hl : 0 < l.length := List.length_pos_iff.mpr h0
  unfold Halves median
  simp only
  rw [← (hp.filter _).length_eq, ← (hp.filter _).length_eq, ← hn]
  generalize sortBy id l = s at hs hn ⊢
  rw [List.pairwise_iff_getElem] at hs
  have hle : ∀ (i j : Nat) (hi : i < s.length) (hj : j < s.length), i ≤ j → s[i] ≤ s[j] := by
    intro i j hi hj hij
    rcases Nat.lt_or_eq_of_le hij with h | h
    · exact hs i j hi hj h
    · subst h; exact le_refl _
  have hd : ∀ k, ∀ x ∈ s.drop k, ∃ j, ∃ hj : j < s.length, k ≤ j ∧ s[j] = x := by
    intro k x hx
    obtain ⟨i, hi, rfl⟩ := List.mem_iff_getElem.mp hx
    rw [List.length_drop] at hi
    exact ⟨k + i, by omega, by omega, by rw [List.getElem_drop]⟩
  have ht : ∀ k, ∀ x ∈ s.take k, ∃ j, ∃ hj : j < s.length, j < k ∧ s[j] = x := by
    intro k x hx
    obtain ⟨i, hi, rfl⟩ := List.mem_iff_getElem.mp hx
    rw [List.length_take] at hi
    exact ⟨i, by omega, by omega, by rw [List.getElem_take]⟩
  split
  · rename_i hodd
    have hk : s.length / 2 < s.length := by omega
    rw [getD_at hk]
    constructor
    · have := sorted_filter_lt (s := s) (k := s.length / 2) (m := s[s.length / 2]) (by
        intro x hx
        obtain ⟨j, hj, h1, rfl⟩ := hd _ x hx
        exact hle _ _ _ _ h1)
      omega
    · have := sorted_filter_gt (s := s) (k := s.length / 2 + 1) (m := s[s.length / 2]) (by
        intro x hx
        obtain ⟨j, hj, h1, rfl⟩ := ht _ x hx
        exact hle _ _ _ _ (by omega))
      omega
  · rename_i heven
    have hk : s.length / 2 < s.length := by omega
    have hk1 : s.length / 2 - 1 < s.length := by omega
    rw [getD_at hk, getD_at hk1]
    have hm := hle (s.length / 2 - 1) (s.length / 2) hk1 hk (by omega)
    constructor
    · have := sorted_filter_lt (s := s) (k := s.length / 2) (m := (s[s.length / 2 - 1] + s[s.length / 2]) / 2) (by
        intro x hx
        obtain ⟨j, hj, h1, rfl⟩ := hd _ x hx
        have := hle _ _ hk hj h1
        linarith)
      omega
    · have := sorted_filter_gt (s := s) (k := s.length / 2) (m := (s[s.length / 2 - 1] + s[s.length / 2]) / 2) (by
        intro x hx
        obtain ⟨j, hj, h1, rfl⟩ := ht _ x hx
        have := hle _ _ hj hk1 (by omega)
        linarith)
      omega

theorem fit_sigmaEff {rows : Rows} {f : Fit} (h : fitRows rows = .ok f) {e : ℝ} (he : f.sigmaEff = some e) :
    e = madSigma (rows.map fun r => r.1 - f.H) := by
  obtain ⟨h0, hc⟩ := (C92_accepts rows).2.mp ⟨f, h⟩
  rcases hc with hw | hu
  · rw [fit_weighted h0 hw] at h
    simp only at h
    split at h <;> cases h <;> simp only [Option.some.injEq] at he
    · exact he.symm
    · cases he
  · rw [fit_unweighted hu] at h
    simp only at h
    split at h <;> cases h <;> simp only [Option.some.injEq] at he
    · exact he.symm
    · cases he

/-- The scatter is 1.4826 times a median distance from a median residual. -/
theorem C92_scatter {rows : Rows} {f : Fit} (h : fitRows rows = .ok f) {e : ℝ} (he : f.sigmaEff = some e) :
    ∃ c d, Halves (rows.map fun r => r.1 - f.H) c ∧ Halves (rows.map fun r => |r.1 - f.H - c|) d ∧ e = 1.4826 * d := by
  have h0 := ((C92_accepts rows).2.mp ⟨f, h⟩).1
  have := fit_sigmaEff h he
  refine ⟨median (rows.map fun r => r.1 - f.H), median (rows.map fun r => |r.1 - f.H - median (rows.map fun r => r.1 - f.H)|),
    median_halves (by simpa using h0), median_halves (by simpa using h0), ?_⟩
  rw [this]
  unfold madSigma
  simp only [List.map_map]
  rfl

/-- Adding a number to every row adds it to the estimate and changes nothing else. -/
theorem C92_shift (rows : Rows) (c : ℝ) :
    fitRows (rows.map fun r => (r.1 + c, r.2)) = (fitRows rows).map fun f => { f with H := f.H + c } := by
  rcases cases_rows rows with hw | hu | hz
  · by_cases h0 : rows = []
    · subst h0
      rw [List.map_nil, fitRows_eq, if_pos rfl]
      rfl
    have hw' : Weighted (rows.map fun r => (r.1 + c, r.2)) := by
      intro r hr
      obtain ⟨r', hr', rfl⟩ := List.mem_map.mp hr
      exact hw r' hr'
    rw [fit_weighted (by simpa using h0) hw', fit_weighted h0 hw]
    have hp := wsum_pos h0 hw
    have t1 : total wt (rows.map fun r => (r.1 + c, r.2)) = total wt rows := by
      unfold total wt; rw [List.map_map]; rfl
    have t2 : total (fun r => wt r * r.1) (rows.map fun r => (r.1 + c, r.2))
        = total (fun r => wt r * r.1) rows + c * total wt rows := by
      unfold total
      rw [List.map_map]
      clear hp t1 hw' hw h0
      induction rows with
      | nil => simp
      | cons r rows ih =>
        simp only [List.map_cons, List.sum_cons, ih, Function.comp_apply]
        unfold wt
        ring
    have t3 : total (fun r => wt r * r.1) (rows.map fun r => (r.1 + c, r.2)) / total wt rows
        = total (fun r => wt r * r.1) rows / total wt rows + c := by
      rw [t2, add_div, mul_div_cancel_right₀ _ hp.ne']
    simp only [t3, t1, List.length_map, List.map_map]
    have t4 : ∀ x, (rows.map ((fun r : ℝ × Option ℝ => r.1 - (x + c)) ∘ fun r => (r.1 + c, r.2))) = rows.map fun r => r.1 - x := by
      intro x
      apply List.map_congr_left
      intro r _
      simp only [Function.comp_apply]
      ring
    have t5 : ∀ x, total (fun r => wt r * ((r.1 - (x + c)) * (r.1 - (x + c)))) (rows.map fun r => (r.1 + c, r.2))
        = total (fun r => wt r * ((r.1 - x) * (r.1 - x))) rows := by
      intro x
      unfold total
      rw [List.map_map]
      congr 1
      apply List.map_congr_left
      intro r _
      simp only [Function.comp_apply]
      unfold wt
      ring
    simp only [t4, t5]
    split <;> rfl
  · have hu' : Unweighted (rows.map fun r => (r.1 + c, r.2)) := by
      obtain ⟨r, hr, e⟩ := hu
      exact ⟨(r.1 + c, r.2), List.mem_map.mpr ⟨r, hr, rfl⟩, e⟩
    have h0 : rows ≠ [] := by obtain ⟨r, hr, -⟩ := hu; exact List.ne_nil_of_mem hr
    have hp := length_pos_real h0
    rw [fit_unweighted hu', fit_unweighted hu]
    have t2 : total Prod.fst (rows.map fun r => (r.1 + c, r.2)) = total Prod.fst rows + c * rows.length := by
      unfold total
      rw [List.map_map]
      clear hp h0 hu' hu
      induction rows with
      | nil => simp
      | cons r rows ih =>
        simp only [List.map_cons, List.sum_cons, ih, Function.comp_apply, List.length_cons]
        push_cast
        ring
    have t3 : total Prod.fst (rows.map fun r => (r.1 + c, r.2)) / (rows.length : ℝ)
        = total Prod.fst rows / rows.length + c := by
      rw [t2, add_div, mul_div_cancel_right₀ _ hp.ne']
    simp only [t3, List.length_map, List.map_map]
    have t4 : ∀ x, (rows.map ((fun r : ℝ × Option ℝ => r.1 - (x + c)) ∘ fun r => (r.1 + c, r.2))) = rows.map fun r => r.1 - x := by
      intro x
      apply List.map_congr_left
      intro r _
      simp only [Function.comp_apply]
      ring
    simp only [t4]
    split <;> rfl
  · have h0 : rows ≠ [] := by obtain ⟨r, hr, -⟩ := hz.2; exact List.ne_nil_of_mem hr
    rw [fitRows_eq, fitRows_eq, if_neg h0, if_pos hz.1, if_pos hz.2, if_neg (by simpa using h0), if_pos, if_pos]
    · rfl
    · obtain ⟨r, hr, e⟩ := hz.2
      exact ⟨(r.1 + c, r.2), List.mem_map.mpr ⟨r, hr, rfl⟩, e⟩
    · intro r hr
      obtain ⟨r', hr', rfl⟩ := List.mem_map.mp hr
      exact hz.1 r' hr'

/-- Multiplying all uncertainties by one positive number keeps the estimate and divides the reduced chi-square by its square. -/
theorem C92_scale {rows : Rows} {k : ℝ} (hk : 0 < k) {f : Fit} (h : fitRows rows = .ok f) :
    ∃ g, fitRows (rows.map fun r => (r.1, r.2.map fun s => k * s)) = .ok g ∧ g.H = f.H ∧ g.sigmaEff = f.sigmaEff ∧
      g.chi2Red = f.chi2Red.map (fun c => c / k ^ 2) ∧ g.nUsed = f.nUsed := by
  obtain ⟨h0, hc⟩ := (C92_accepts rows).2.mp ⟨f, h⟩
  rcases hc with hw | hu
  · have hw' : Weighted (rows.map fun r => (r.1, r.2.map fun s => k * s)) := by
      intro r hr
      obtain ⟨r', hr', rfl⟩ := List.mem_map.mp hr
      obtain ⟨s, es, hs⟩ := hw r' hr'
      exact ⟨k * s, by simp [es], mul_ne_zero hk.ne' hs⟩
    have tw : ∀ r ∈ rows, wt (r.1, r.2.map fun s => k * s) = wt r / k ^ 2 := by
      intro r hr
      obtain ⟨s, es, hs⟩ := hw r hr
      unfold wt weight
      rw [es]
      simp only [Option.map_some, Option.getD_some]
      field_simp
    have tt : ∀ g : ℝ → ℝ, total (fun r => wt r * g r.1) (rows.map fun r => (r.1, r.2.map fun s => k * s))
        = total (fun r => wt r * g r.1) rows / k ^ 2 := by
      intro g
      unfold total
      rw [List.map_map]
      clear h hw hw' h0
      induction rows with
      | nil => simp
      | cons r rows ih =>
        simp only [List.map_cons, List.sum_cons, Function.comp_apply]
        rw [tw r List.mem_cons_self, ih fun r hr => tw r (List.mem_cons_of_mem _ hr)]
        ring
    have t0 : ∀ l : Rows, total wt l = total (fun r => wt r * (fun _ => (1 : ℝ)) r.1) l := by
      intro l; simp
    have hk2 : k ^ 2 ≠ 0 := by positivity
    have t1 : total (fun r => wt r * r.1) (rows.map fun r => (r.1, r.2.map fun s => k * s))
        / total wt (rows.map fun r => (r.1, r.2.map fun s => k * s))
        = total (fun r => wt r * r.1) rows / total wt rows := by
      rw [t0, tt (fun _ => 1), ← t0, tt (fun x => x)]
      exact div_div_div_cancel_right₀ hk2 _ _
    rw [fit_weighted h0 hw] at h
    rw [fit_weighted (by simpa using h0) hw']
    have t2 : ∀ x, total (fun r => wt r * ((r.1 - x) * (r.1 - x))) (rows.map fun r => (r.1, r.2.map fun s => k * s))
        = total (fun r => wt r * ((r.1 - x) * (r.1 - x))) rows / k ^ 2 := fun x => tt (fun y => (y - x) * (y - x))
    simp only [t1, t2, List.length_map, List.map_map] at h ⊢
    by_cases h2 : 2 ≤ rows.length
    · rw [if_pos h2] at h ⊢
      cases h
      refine ⟨_, rfl, rfl, rfl, ?_, rfl⟩
      simp only [Option.map_some, Option.some.injEq]
      ring
    · rw [if_neg h2] at h ⊢
      cases h
      exact ⟨_, rfl, rfl, rfl, rfl, rfl⟩
  · have hu' : Unweighted (rows.map fun r => (r.1, r.2.map fun s => k * s)) := by
      obtain ⟨r, hr, e⟩ := hu
      exact ⟨_, List.mem_map.mpr ⟨r, hr, rfl⟩, by simp [e]⟩
    rw [fit_unweighted hu] at h
    rw [fit_unweighted hu']
    have t2 : total Prod.fst (rows.map fun r => (r.1, r.2.map fun s => k * s)) = total Prod.fst rows := by
      unfold total; rw [List.map_map]; rfl
    simp only [t2, List.length_map, List.map_map] at h ⊢
    by_cases h2 : 2 ≤ rows.length
    · rw [if_pos h2] at h ⊢
      cases h
      exact ⟨_, rfl, rfl, rfl, rfl, rfl⟩
    · rw [if_neg h2] at h ⊢
      cases h
      exact ⟨_, rfl, rfl, rfl, rfl, rfl⟩

/-- The order of the rows does not matter. -/
theorem C92_order {r r' : Rows} (h : r.Perm r') : fitRows r = fitRows r' := fitRows_perm h

/-- Equal rows: the estimate is their value, with no scatter and no chi-square. -/
theorem fit_const {rows : Rows} {x : ℝ} (hx : ∀ r ∈ rows, r.1 = x) {f : Fit} (h : fitRows rows = .ok f) :
    f.H = x ∧ (∀ e, f.sigmaEff = some e → e = 0) ∧ ∀ c, f.chi2Red = some c → c = 0 := by
  have hH : f.H = x := by
    have := C92_between h (lo := x) (hi := x) (fun r hr => by rw [hx r hr]; exact ⟨le_refl _, le_refl _⟩)
    exact le_antisymm this.2 this.1
  have h0 := ((C92_accepts rows).2.mp ⟨f, h⟩).1
  have hres : (rows.map fun r => r.1 - f.H) = List.replicate rows.length 0 := by
    rw [List.eq_replicate_iff]
    refine ⟨by simp, ?_⟩
    intro y hy
    obtain ⟨r, hr, rfl⟩ := List.mem_map.mp hy
    rw [hx r hr, hH, sub_self]
  have hmed : ∀ n, median (List.replicate n (0 : ℝ)) = 0 := by
    intro n
    have hs : sortBy id (List.replicate n (0 : ℝ)) = List.replicate n 0 := by
      apply sortBy_of_sorted
      exact List.pairwise_replicate.mpr (Or.inr (le_refl _))
    have hg : ∀ i, (List.replicate n (0 : ℝ)).getD i 0 = 0 := by
      intro i
      rw [List.getD_eq_getElem?_getD, List.getElem?_replicate]
      split <;> rfl
    unfold median
    rw [hs]
    simp only [hg]
    split <;> simp
  refine ⟨hH, ?_, ?_⟩
  · intro e he
    have := fit_sigmaEff h he
    rw [this, hres]
    unfold madSigma
    simp only [hmed, List.map_replicate, sub_self, abs_zero, mul_zero]
  · intro c hc
    have := (C92_columns h).2.2.2.1 c
    obtain ⟨-, -, rfl⟩ := this.mp hc
    have : chi2 rows f.H = 0 := by
      unfold chi2
      apply List.sum_eq_zero
      intro y hy
      obtain ⟨r, hr, rfl⟩ := List.mem_map.mp hy
      rw [hx r hr, hH]
      simp
    rw [this, zero_div]

/-- A concrete case: two magnitudes with uncertainties. -/
example : ∃ f, fitRows [(20, some 0.1), (21, some 0.2)] = .ok f ∧ f.H = 20.2 := by
  have hw : Weighted [(20, some 0.1), (21, some 0.2)] := by
    intro r hr
    simp only [List.mem_cons, List.not_mem_nil, or_false] at hr
    rcases hr with rfl | rfl
    · exact ⟨0.1, rfl, by norm_num⟩
    · exact ⟨0.2, rfl, by norm_num⟩
  obtain ⟨f, hf⟩ := (C92_accepts [(20, some 0.1), (21, some 0.2)]).2.mpr ⟨by simp, .inl hw⟩
  refine ⟨f, hf, ?_⟩
  rw [fit_H_weighted (by simp) hw hf]
  simp [total, wt, weight]
  norm_num

/-- A concrete case: one uncertainty missing. -/
example : ∃ f, fitRows [(20, some 0.1), (21, none)] = .ok f ∧ f.H = 20.5 ∧ f.chi2Red = none := by
  have hu : Unweighted [(20, some 0.1), (21, none)] := ⟨_, List.mem_cons_of_mem _ List.mem_cons_self, rfl⟩
  refine ⟨_, fit_unweighted hu, ?_, rfl⟩
  simp [total]
  norm_num

/-- One zero among the uncertainties makes the fit raise. -/
example : fitRows [(20, some 0.1), (21, some 0)] = .error .valueError := by
  rw [fitRows_eq, if_neg (by simp), if_pos (by simp), if_pos (by simp)]

end Verif.AbsMag.Props
