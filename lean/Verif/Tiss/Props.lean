import Verif.Tiss.Model
import Mathlib.Tactic.FieldSimp
import Mathlib.Tactic.Linarith

/-! # C124: Tisserand's parameter -/

namespace Verif.Tiss.Props

open Verif

/-- The planets that are known. -/
def Known (s : String) : Prop :=
  s ∈ ["mercury", "venus", "earth", "mars", "jupiter", "saturn", "uranus", "neptune"]

theorem lookup_pos {s : String} {ap : ℝ} (h : majorBodies.lookup s = some ap) : 0 < ap := by
  unfold majorBodies at h
  simp only [List.lookup_cons, List.lookup_nil] at h
  repeat' split at h
  all_goals first | (cases h; norm_num) | cases h

/-- The parameter is refused exactly for names that are not one of the eight planets in lower case. -/
theorem C124_names (a e i : ℝ) (body : String) (err : PyErr) :
    tisserand a e i body = .error err ↔ err = .valueError ∧ ¬ Known body := by
  unfold tisserand
  have hk : Known body ↔ (majorBodies.lookup body).isSome = true := by
    unfold Known majorBodies
    simp only [List.lookup_cons, List.lookup_nil, List.mem_cons, List.not_mem_nil, or_false]
    constructor
    · rintro (h | h | h | h | h | h | h | h) <;> subst h <;> decide
    · intro h
      by_contra hc
      simp only [not_or] at hc
      obtain ⟨h1, h2, h3, h4, h5, h6, h7, h8⟩ := hc
      simp [beq_eq_false_iff_ne.mpr h1, beq_eq_false_iff_ne.mpr h2, beq_eq_false_iff_ne.mpr h3, beq_eq_false_iff_ne.mpr h4,
        beq_eq_false_iff_ne.mpr h5, beq_eq_false_iff_ne.mpr h6, beq_eq_false_iff_ne.mpr h7, beq_eq_false_iff_ne.mpr h8] at h
  rw [hk]
  cases majorBodies.lookup body with
  | none => simp [eq_comm]
  | some ap => simp

/-- The value is a number exactly when semi-major axis and eccentricity belong together: bound with `e ≤ 1` or unbound with
`e ≥ 1`. -/
theorem C124_number (a e i : ℝ) (he : 0 ≤ e) (ha : a ≠ 0) (body : String) (t : Option ℝ)
    (h : tisserand a e i body = .ok t) : t.isSome = true ↔ (0 < a ∧ e ≤ 1) ∨ (a < 0 ∧ 1 ≤ e) := by
  unfold tisserand at h
  split at h
  · cases h
  · next ap hap =>
    have hp := lookup_pos hap
    cases h
    unfold formula
    have key : a / ap * (1 - e ^ 2) < 0 ↔ ¬ ((0 < a ∧ e ≤ 1) ∨ (a < 0 ∧ 1 ≤ e)) := by
      have hsign : a / ap * (1 - e ^ 2) < 0 ↔ a * (1 - e ^ 2) < 0 := by
        rw [div_mul_eq_mul_div, div_neg_iff]
        constructor
        · rintro (⟨_, h⟩ | ⟨h, _⟩)
          · linarith
          · exact h
        · intro h; exact Or.inr ⟨h, hp⟩
      rw [hsign]
      rcases lt_or_gt_of_ne ha with h | h
      · constructor
        · rintro h1 (⟨h2, _⟩ | ⟨_, h3⟩)
          · linarith
          · nlinarith [mul_nonneg (sub_nonneg.mpr h3) he]
        · intro h1
          have : e < 1 := by
            by_contra hc; exact h1 (Or.inr ⟨h, not_lt.mp hc⟩)
          have : 0 < 1 - e ^ 2 := by nlinarith
          exact mul_neg_of_neg_of_pos h this
      · constructor
        · rintro h1 (⟨_, h2⟩ | ⟨h2, _⟩)
          · have : 0 ≤ 1 - e ^ 2 := by nlinarith
            have := mul_nonneg h.le this
            linarith
          · linarith
        · intro h1
          have : 1 < e := by
            by_contra hc; exact h1 (Or.inl ⟨h, not_lt.mp hc⟩)
          have : 1 - e ^ 2 < 0 := by nlinarith
          exact mul_neg_of_pos_of_neg h this
    by_cases hs : a / ap * (1 - e ^ 2) < 0
    · simp only [hs, if_true]
      simp only [Option.isSome_none, Bool.false_eq_true, false_iff]
      exact key.mp hs
    · simp only [hs, if_false, Option.isSome_some, true_iff]
      by_contra hc
      exact hs (key.mpr hc)

/-- An orbit that reaches the planet's distance, from inside or outside, has a parameter of at most 3, whatever its inclination:
a parameter above 3 excludes meeting a planet on a circle. -/
theorem C124_crossing (a e i : ℝ) (ha : 0 < a) (body : String) (ap T : ℝ) (hap : majorBodies.lookup body = some ap)
    (he : 0 ≤ e) (hq : a * (1 - e) ≤ ap) (hQ : ap ≤ a * (1 + e)) (h : tisserand a e i body = .ok (some T)) :
    T ≤ 3 := by
  have hp := lookup_pos hap
  unfold tisserand at h
  rw [hap] at h
  simp only [formula] at h
  split at h
  · cases h
  · next hs =>
    cases h
    have hs := not_lt.mp hs
    set y := ap / a with hy
    have hay : a * y = ap := by rw [hy]; field_simp
    have hypos : 0 < y := div_pos hp ha
    have h1 : 1 - e ≤ y := by rw [hy, le_div_iff₀ ha]; linarith
    have h2 : y ≤ 1 + e := by rw [hy, div_le_iff₀ ha]; linarith
    have hle : a / ap * (1 - e ^ 2) ≤ 2 - y := by
      have : a / ap = 1 / y := by rw [hy]; field_simp
      rw [this, div_mul_eq_mul_div, one_mul, div_le_iff₀ hypos]
      nlinarith
    have hsq : Real.sqrt (a / ap * (1 - e ^ 2)) ≤ Real.sqrt (2 - y) := Real.sqrt_le_sqrt hle
    have hcos := Real.cos_le_one (i * (Real.pi / 180))
    have h0 := Real.sqrt_nonneg (a / ap * (1 - e ^ 2))
    have hss : Real.sqrt (2 - y) * Real.sqrt (2 - y) = 2 - y := Real.mul_self_sqrt (le_trans hs hle)
    nlinarith [sq_nonneg (Real.sqrt (2 - y) - 1), mul_nonneg (sub_nonneg.mpr hcos) h0]

/-- The same for an unbound orbit whose periapsis is not beyond the planet's distance. -/
theorem C124_crossing_unbound (a e i : ℝ) (ha : a < 0) (body : String) (ap T : ℝ) (hap : majorBodies.lookup body = some ap)
    (he : 1 ≤ e) (hq : a * (1 - e) ≤ ap) (h : tisserand a e i body = .ok (some T)) : T ≤ 3 := by
  have hp := lookup_pos hap
  unfold tisserand at h
  rw [hap] at h
  simp only [formula] at h
  split at h
  · cases h
  · next hs =>
    cases h
    have hs := not_lt.mp hs
    set y := ap / a with hy
    have hyneg : y < 0 := div_neg_of_pos_of_neg hp ha
    have h1 : y ≤ 1 - e := by rw [hy, div_le_iff_of_neg ha]; linarith
    have hle : a / ap * (1 - e ^ 2) ≤ 2 - y := by
      have : a / ap = 1 / y := by rw [hy]; field_simp
      rw [this, div_mul_eq_mul_div, one_mul, div_le_iff_of_neg hyneg]
      nlinarith
    have hsq : Real.sqrt (a / ap * (1 - e ^ 2)) ≤ Real.sqrt (2 - y) := Real.sqrt_le_sqrt hle
    have hcos := Real.cos_le_one (i * (Real.pi / 180))
    have h0 := Real.sqrt_nonneg (a / ap * (1 - e ^ 2))
    have hss : Real.sqrt (2 - y) * Real.sqrt (2 - y) = 2 - y := Real.mul_self_sqrt (le_trans hs hle)
    nlinarith [sq_nonneg (Real.sqrt (2 - y) - 1), mul_nonneg (sub_nonneg.mpr hcos) h0]

/-- On the planet's own circular orbit, in its plane, the parameter is 3; so the bound is reached. -/
theorem C124_three (body : String) (ap : ℝ) (hap : majorBodies.lookup body = some ap) :
    tisserand ap 0 0 body = .ok (some 3) := by
  have hp := lookup_pos hap
  unfold tisserand
  rw [hap]
  simp only [formula]
  have h1 : ap / ap = 1 := div_self hp.ne'
  rw [h1]
  norm_num

/-- The larger the inclination between 0 and 180 degrees, the smaller the parameter. -/
theorem C124_inclination (a e i j : ℝ) (body : String) (S T : ℝ) (h0 : 0 ≤ i) (hij : i ≤ j) (h180 : j ≤ 180)
    (hS : tisserand a e i body = .ok (some S)) (hT : tisserand a e j body = .ok (some T)) : T ≤ S := by
  unfold tisserand at hS hT
  split at hS
  · cases hS
  · next ap hap =>
    rw [hap] at hT
    simp only [formula] at hS hT
    split at hS
    · cases hS
    · next hs =>
      rw [if_neg hs] at hT
      cases hS
      cases hT
      have hpi := Real.pi_pos
      have hc : Real.cos (j * (Real.pi / 180)) ≤ Real.cos (i * (Real.pi / 180)) := by
        apply Real.cos_le_cos_of_nonneg_of_le_pi
        · positivity
        · nlinarith
        · nlinarith
      have := mul_le_mul_of_nonneg_right hc (Real.sqrt_nonneg (a / ap * (1 - e ^ 2)))
      linarith

/-- A typical comet of Jupiter's family reaches Jupiter. -/
theorem C124_case : (3.5 : ℝ) * (1 - 0.6) ≤ 5.203719697535582 ∧ (5.203719697535582 : ℝ) ≤ 3.5 * (1 + 0.6) ∧
    majorBodies.lookup "jupiter" = some 5.203719697535582 := by
  refine ⟨by norm_num, by norm_num, ?_⟩
  simp [majorBodies, List.lookup]

/-- C124. The eight planets, with semi-major axes that increase from Mercury to Neptune, the Earth within a permille of 1 au. -/
theorem C124_planets : majorBodies.map Prod.fst = ["mercury", "venus", "earth", "mars", "jupiter", "saturn", "uranus", "neptune"] ∧
    (majorBodies.map Prod.snd).Pairwise (· < ·) ∧ ∃ a, majorBodies.lookup "earth" = some a ∧ |a - 1| < 1 / 1000 := by
  refine ⟨rfl, ?_, 0.9997889954736553, by simp [majorBodies, List.lookup], by rw [abs_lt]; constructor <;> norm_num⟩
  simp only [majorBodies, List.map_cons, List.map_nil, List.pairwise_cons, List.mem_cons, List.not_mem_nil, or_false, forall_eq_or_imp,
    forall_eq, List.Pairwise.nil, and_true, false_imp_iff, implies_true]
  norm_num

end Verif.Tiss.Props
