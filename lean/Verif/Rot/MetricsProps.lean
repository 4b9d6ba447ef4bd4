import Mathlib.Tactic.IntervalCases
import Verif.Rot.Metrics
import Mathlib.Tactic.Linarith
import Mathlib.Tactic.NormNum
import Mathlib.Tactic.FieldSimp
import Mathlib.Tactic.Positivity

/-! # The scores of recovered periods: C120 -/

namespace Verif.Rot.Props

open Verif

theorem fold_first (e : ℝ → ℝ) : ∀ (l : List ℝ) (b : ℝ), (b :: l).Pairwise (· < ·) →
    let r := l.foldl (fun b f => if e f < e b then f else b) b
    r ∈ b :: l ∧ ∀ g ∈ b :: l, e r ≤ e g ∧ (g < r → e r < e g) := by
  intro l
  induction l with
  | nil =>
    intro b _
    refine ⟨by simp, fun g hg => ?_⟩
    obtain rfl := List.mem_singleton.1 hg
    exact ⟨le_rfl, fun h => absurd h (lt_irrefl _)⟩
  | cons a l ih =>
    intro b hp
    obtain ⟨h1, h2⟩ := List.pairwise_cons.1 hp
    obtain ⟨h3, h4⟩ := List.pairwise_cons.1 h2
    rw [List.foldl_cons]
    by_cases hlt : e a < e b
    · rw [if_pos hlt]
      obtain ⟨m1, m2⟩ := ih a h2
      refine ⟨List.mem_cons_of_mem _ m1, fun g hg => ?_⟩
      rcases List.mem_cons.1 hg with rfl | hg
      · have := (m2 a (by simp)).1
        exact ⟨this.trans hlt.le, fun _ => lt_of_le_of_lt this hlt⟩
      · exact m2 g hg
    · rw [if_neg hlt]
      obtain ⟨m1, m2⟩ := ih b (List.pairwise_cons.2 ⟨fun x hx => h1 x (List.mem_cons_of_mem _ hx), h4⟩)
      refine ⟨?_, fun g hg => ?_⟩
      · rcases List.mem_cons.1 m1 with h | h
        · rw [h]; simp
        · exact List.mem_cons_of_mem _ (List.mem_cons_of_mem _ h)
      · rcases List.mem_cons.1 hg with rfl | hg
        · exact m2 _ (by simp)
        · rcases List.mem_cons.1 hg with rfl | hg
          · have hb := m2 b (by simp)
            refine ⟨hb.1.trans (not_lt.1 hlt), fun hr => ?_⟩
            have hbr : b < l.foldl (fun b f => if e f < e b then f else b) b := lt_trans (h1 g (by simp)) hr
            exact lt_of_lt_of_le (hb.2 hbr) (not_lt.1 hlt)
          · exact m2 g (List.mem_cons_of_mem _ hg)

theorem factors_sorted : factors.Pairwise (· < ·) := by
  unfold factors
  simp only [List.pairwise_cons, List.mem_cons, List.not_mem_nil, or_false, forall_eq_or_imp, forall_eq]
  norm_num

/-- C120: the adjusted error is the relative error of the period times a factor of the list; no factor of the list gives a smaller error, and no
smaller factor the same error. -/
theorem C120_harmonic (p : ℝ) {t : ℝ} (ht : 0 < t) :
    (harmonicAdjusted p t).2 ∈ factors ∧ (harmonicAdjusted p t).1 = relativeError (p * (harmonicAdjusted p t).2) t ∧
    ∀ g ∈ factors, (harmonicAdjusted p t).1 ≤ relativeError (p * g) t ∧
      (g < (harmonicAdjusted p t).2 → (harmonicAdjusted p t).1 < relativeError (p * g) t) := by
  have hr : ∀ g, relativeError (p * g) t = 100 * harmonicError p t g := fun g => by
    unfold relativeError harmonicError
    rw [mul_div_assoc]
  obtain ⟨h1, h2⟩ := fold_first (harmonicError p t) factors.tail (factors.headD 0) factors_sorted
  refine ⟨h1, (hr _).symm, fun g hg => ?_⟩
  obtain ⟨h3, h4⟩ := h2 g hg
  rw [hr]
  exact ⟨mul_le_mul_of_nonneg_left h3 (by norm_num), fun h => mul_lt_mul_of_pos_left (h4 h) (by norm_num)⟩

/-- C120: the adjusted error is at most the relative error, and it is zero exactly if some factor of the list leads from the recovered period to
the true one. -/
theorem C120_adjusted (p : ℝ) {t : ℝ} (ht : 0 < t) :
    (harmonicAdjusted p t).1 ≤ relativeError p t ∧ 0 ≤ (harmonicAdjusted p t).1 ∧
    ((harmonicAdjusted p t).1 = 0 ↔ ∃ g ∈ factors, p * g = t) := by
  obtain ⟨h1, h2, h3⟩ := C120_harmonic p ht
  have hz : ∀ x, 0 ≤ relativeError x t ∧ (relativeError x t = 0 ↔ x = t) := fun x => by
    unfold relativeError
    refine ⟨by positivity, ?_⟩
    rw [div_eq_zero_iff, or_iff_left ht.ne', mul_eq_zero, or_iff_right (by norm_num), abs_eq_zero, sub_eq_zero]
  refine ⟨?_, by rw [h2]; exact (hz _).1, ?_⟩
  · have := (h3 1 (by simp [factors])).1
    rwa [mul_one] at this
  · rw [h2, (hz _).2]
    refine ⟨fun h => ⟨_, h1, h⟩, ?_⟩
    rintro ⟨g, hg, he⟩
    have := (h3 g hg).1
    rw [(hz _).2.2 he, h2] at this
    exact (hz _).2.1 (le_antisymm this (hz _).1)

/-- C120: the label of a factor is the one whose value is within 5 % of it; there is at most one such value. Without one it is "other". -/
theorem C120_bucket (f : ℝ) : (∀ b ∈ buckets, (aliasBucket f = b.2 ↔ |f - b.1| ≤ b.1 / 20)) ∧
    (aliasBucket f = "other" ↔ ∀ b ∈ buckets, b.1 / 20 < |f - b.1|) := by
  have hfind : ∀ b ∈ buckets, |f - b.1| ≤ b.1 / 20 → (buckets.find? fun b => decide (|f - b.1| ≤ 1 / 20 * b.1)) = some b := by
    have key : ∀ b ∈ buckets, |f - b.1| ≤ b.1 / 20 → ∀ c ∈ buckets, c ≠ b → ¬ |f - c.1| ≤ 1 / 20 * c.1 := by
      intro b hb h c hc hne hcc
      rw [abs_le] at h hcc
      simp only [buckets, List.mem_cons, List.not_mem_nil, or_false] at hb hc
      rcases hb with rfl | rfl | rfl | rfl | rfl | rfl | rfl | rfl | rfl | rfl | rfl <;>
      rcases hc with rfl | rfl | rfl | rfl | rfl | rfl | rfl | rfl | rfl | rfl | rfl <;>
      first | exact hne rfl | (simp only at h hcc; linarith [h.1, h.2, hcc.1, hcc.2])
    intro b hb h
    cases hf : buckets.find? fun b => decide (|f - b.1| ≤ 1 / 20 * b.1) with
    | none =>
      have := List.find?_eq_none.1 hf b hb
      rw [decide_eq_true_eq] at this
      exact absurd (by linarith) this
    | some c =>
      have h1 := List.find?_some hf
      rw [decide_eq_true_eq] at h1
      by_contra hne
      exact key b hb h c (List.mem_of_find?_eq_some hf) (fun e => hne (by rw [e])) h1
  have hother : aliasBucket f = "other" → ∀ b ∈ buckets, b.1 / 20 < |f - b.1| := by
    intro h b hb
    by_contra hle
    unfold aliasBucket at h
    rw [hfind b hb (not_lt.1 hle)] at h
    simp only [buckets, List.mem_cons, List.not_mem_nil, or_false] at hb
    rcases hb with rfl | rfl | rfl | rfl | rfl | rfl | rfl | rfl | rfl | rfl | rfl <;> simp at h
  refine ⟨fun b hb => ⟨fun h => ?_, fun h => ?_⟩, hother, fun h => ?_⟩
  · unfold aliasBucket at h
    cases hf : buckets.find? fun b => decide (|f - b.1| ≤ 1 / 20 * b.1) with
    | none =>
      rw [hf] at h
      simp only [buckets, List.mem_cons, List.not_mem_nil, or_false] at hb
      rcases hb with rfl | rfl | rfl | rfl | rfl | rfl | rfl | rfl | rfl | rfl | rfl <;> simp at h
    | some c =>
      have h1 := List.find?_some hf
      rw [decide_eq_true_eq] at h1
      have hc := List.mem_of_find?_eq_some hf
      rw [hf] at h
      have hcb : c = b := by
        clear h1 hf
        simp only [buckets, List.mem_cons, List.not_mem_nil, or_false] at hb hc
        rcases hb with rfl | rfl | rfl | rfl | rfl | rfl | rfl | rfl | rfl | rfl | rfl <;>
        rcases hc with rfl | rfl | rfl | rfl | rfl | rfl | rfl | rfl | rfl | rfl | rfl <;> first | rfl | (simp at h)
      rw [← hcb]
      linarith
  · unfold aliasBucket
    rw [hfind b hb h]
  · unfold aliasBucket
    rw [List.find?_eq_none.2 fun b hb => by
      have := h b hb
      rw [decide_eq_true_eq, not_le]
      linarith]

/-- How a ratio of two whole numbers is written, as a multiple. -/
def ratioText (n d : ℕ) : String := if d = 1 then toString n ++ "x" else toString n ++ "/" ++ toString d ++ "x"

/-- C120: the factors are the ratios of the whole numbers from 1 to 4, and the label is the ratio within 5 % of the factor in lowest terms. -/
theorem C120_names :
    (∀ f : ℝ, f ∈ factors ↔ ∃ n d : ℕ, 1 ≤ n ∧ n ≤ 4 ∧ 1 ≤ d ∧ d ≤ 4 ∧ f = n / d) ∧
    ∀ (f : ℝ) (n d : ℕ), 1 ≤ n → n ≤ 4 → 1 ≤ d → d ≤ 4 → Nat.Coprime n d →
      (aliasBucket f = ratioText n d ↔ |f - n / d| ≤ (n / d : ℝ) / 20) := by
  constructor
  · intro f
    constructor
    · intro h
      simp only [factors, List.mem_cons, List.not_mem_nil, or_false] at h
      rcases h with rfl | rfl | rfl | rfl | rfl | rfl | rfl | rfl | rfl | rfl | rfl
      exacts [⟨1, 4, by norm_num⟩, ⟨1, 3, by norm_num⟩, ⟨1, 2, by norm_num⟩, ⟨2, 3, by norm_num⟩, ⟨3, 4, by norm_num⟩, ⟨1, 1, by norm_num⟩,
        ⟨4, 3, by norm_num⟩, ⟨3, 2, by norm_num⟩, ⟨2, 1, by norm_num⟩, ⟨3, 1, by norm_num⟩, ⟨4, 1, by norm_num⟩]
    · rintro ⟨n, d, h1, h2, h3, h4, rfl⟩
      interval_cases n <;> interval_cases d <;> simp only [factors, List.mem_cons, List.not_mem_nil, or_false] <;> norm_num
  · intro f n d h1 h2 h3 h4 hc
    have hm : ((n / d : ℝ), ratioText n d) ∈ buckets := by
      simp only [buckets, List.mem_cons, List.not_mem_nil, or_false, Prod.mk.injEq]
      have e11 : ratioText 1 1 = "1x" := by decide +kernel
      have e12 : ratioText 1 2 = "1/2x" := by decide +kernel
      have e13 : ratioText 1 3 = "1/3x" := by decide +kernel
      have e14 : ratioText 1 4 = "1/4x" := by decide +kernel
      have e21 : ratioText 2 1 = "2x" := by decide +kernel
      have e23 : ratioText 2 3 = "2/3x" := by decide +kernel
      have e31 : ratioText 3 1 = "3x" := by decide +kernel
      have e32 : ratioText 3 2 = "3/2x" := by decide +kernel
      have e34 : ratioText 3 4 = "3/4x" := by decide +kernel
      have e41 : ratioText 4 1 = "4x" := by decide +kernel
      have e43 : ratioText 4 3 = "4/3x" := by decide +kernel
      interval_cases n <;> interval_cases d <;>
        first
        | (exfalso; revert hc; decide)
        | (simp only [e11, e12, e13, e14, e21, e23, e31, e32, e34, e41, e43]; norm_num)
    exact (C120_bucket f).1 _ hm

/-- C120_names: 0.68 is called two thirds. -/
example : aliasBucket (68 / 100) = "2/3x" := by
  have h := (C120_names.2 (68 / 100) 2 3 (by norm_num) (by norm_num) (by norm_num) (by norm_num) (by decide)).2
    (by rw [abs_le]; constructor <;> norm_num)
  rw [h]
  decide +kernel

/-- C120: the factor that `harmonic_adjusted_error_pct` returns always has a label. -/
theorem C120_label (p t : ℝ) (ht : 0 < t) : aliasBucket (harmonicAdjusted p t).2 ≠ "other" := by
  intro h
  have h1 := ((C120_bucket _).2.1 h)
  obtain ⟨h2, -⟩ := C120_harmonic p ht
  generalize (harmonicAdjusted p t).2 = f at h1 h2
  have : ∃ b ∈ buckets, b.1 = f := by
    simp only [factors, List.mem_cons, List.not_mem_nil, or_false] at h2
    rcases h2 with rfl | rfl | rfl | rfl | rfl | rfl | rfl | rfl | rfl | rfl | rfl <;> simp [buckets]
  obtain ⟨b, hb, rfl⟩ := this
  have h3 := h1 b hb
  rw [sub_self, abs_zero] at h3
  simp only [buckets, List.mem_cons, List.not_mem_nil, or_false] at hb
  rcases hb with rfl | rfl | rfl | rfl | rfl | rfl | rfl | rfl | rfl | rfl | rfl <;> norm_num at h3

/-- Half the true period is explained by the factor 2. -/
example : (harmonicAdjusted 5 10).1 = 0 := (C120_adjusted 5 (by norm_num)).2.2.2 ⟨2, by simp [factors], by norm_num⟩

/-- C120: for a positive true period, `within_tolerance` holds exactly if the period is off by at most the fraction. -/
theorem C120_tolerance (p tol : ℝ) {t : ℝ} (ht : 0 < t) : withinTolerance p t tol = true ↔ |p - t| ≤ tol * t := by
  unfold withinTolerance relativeError
  rw [decide_eq_true_eq, div_le_iff₀ ht]
  constructor <;> intro h <;> linarith

/-- C120, not true of the code for a negative true period: every period is then within every tolerance that is not negative. -/
theorem C120_negative_false (p : ℝ) {t tol : ℝ} (ht : t < 0) (htol : 0 ≤ tol) : withinTolerance p t tol = true := by
  unfold withinTolerance relativeError
  rw [decide_eq_true_eq]
  refine le_trans (div_nonpos_of_nonneg_of_nonpos (by positivity) ht.le) (by positivity)

/-- C120: `near_day_alias` holds exactly if the periods are positive and the recovered frequency is within the tolerance, as a fraction of the true
frequency, of a positive frequency one or two cycles a day from the true one. -/
theorem C120_alias (p t tol : ℝ) : nearDayAlias p t tol = true ↔ 0 < p ∧ 0 < t ∧
    ∃ a : ℝ, 0 < a ∧ (|a - 24 / t| = 1 ∨ |a - 24 / t| = 2) ∧ |24 / p - a| ≤ tol * (24 / t) := by
  unfold nearDayAlias
  by_cases h : p ≤ 0 ∨ t ≤ 0
  · rw [if_pos h]
    constructor
    · intro h; cases h
    · rintro ⟨h1, h2, -⟩
      rcases h with h | h <;> linarith
  · rw [if_neg h]
    push Not at h
    have hf : 0 < 24 / t := by have := h.2; positivity
    have hd : ∀ a, |24 / p - a| / (24 / t) ≤ tol ↔ |24 / p - a| ≤ tol * (24 / t) := fun a => div_le_iff₀ hf
    simp only [List.any_cons, List.any_nil, Bool.or_false, Bool.or_eq_true, Bool.and_eq_true, Bool.not_eq_true', decide_eq_false_iff_not, not_le,
      decide_eq_true_eq, hd]
    constructor
    · rintro ((h1 | h1) | (h1 | h1))
      · exact ⟨h.1, h.2, _, h1.1, Or.inl (by norm_num), h1.2⟩
      · exact ⟨h.1, h.2, _, h1.1, Or.inl (by norm_num), h1.2⟩
      · exact ⟨h.1, h.2, _, h1.1, Or.inr (by norm_num), h1.2⟩
      · exact ⟨h.1, h.2, _, h1.1, Or.inr (by norm_num), h1.2⟩
    · rintro ⟨-, -, a, h0, h1, h2⟩
      rcases h1 with h1 | h1
      · rcases (abs_eq (by norm_num)).1 h1 with e | e
        · have : a = 24 / t + 1 := by linarith
          exact Or.inl (Or.inl (by rw [← this]; exact ⟨h0, h2⟩))
        · have : a = 24 / t - 1 := by linarith
          exact Or.inl (Or.inr (by rw [← this]; exact ⟨h0, h2⟩))
      · rcases (abs_eq (by norm_num)).1 h1 with e | e
        · have : a = 24 / t + 2 := by linarith
          exact Or.inr (Or.inl (by rw [← this]; exact ⟨h0, h2⟩))
        · have : a = 24 / t - 2 := by linarith
          exact Or.inr (Or.inr (by rw [← this]; exact ⟨h0, h2⟩))

/-- C120, not true of the code: a correct period is not always free of the flag. It is flagged exactly if it is at most 24 hours times the
tolerance, 0.48 hours for the default of 0.02. -/
theorem C120_exact_false (t tol : ℝ) : nearDayAlias t t tol = true ↔ 0 < t ∧ t ≤ 24 * tol := by
  rw [C120_alias]
  constructor
  · rintro ⟨-, ht, a, -, h1, h2⟩
    refine ⟨ht, ?_⟩
    have h3 : 1 ≤ |24 / t - a| := by
      rw [abs_sub_comm]
      rcases h1 with h1 | h1
      · rw [h1]
      · rw [h1]; norm_num
    have h4 := h3.trans h2
    rw [← mul_div_assoc, le_div_iff₀ ht] at h4
    linarith
  · rintro ⟨ht, h⟩
    refine ⟨ht, ht, 24 / t + 1, by positivity, Or.inl (by norm_num), ?_⟩
    rw [← mul_div_assoc, le_div_iff₀ ht]
    norm_num
    linarith

/-- With the default tolerance, a period of a quarter of an hour is flagged. -/
example : nearDayAlias (1 / 4) (1 / 4) (2 / 100) = true := (C120_exact_false _ _).2 ⟨by norm_num, by norm_num⟩

end Verif.Rot.Props
