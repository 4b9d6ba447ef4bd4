import Verif.Units.Float
import Verif.Time.FloatLemmas
import Mathlib.Tactic.NormNum
import Mathlib.Tactic.Ring
import Mathlib.Tactic.FinCases

/-! # C204: units with float64 rounding -/

namespace Verif.Units.FloatProps

open Verif F64

/-- `a` is `b` up to `n` roundings: a relative error of at most `n / 2^53`. -/
def Within (n a b : ℚ) : Prop := |a - b| ≤ n / 2 ^ 53 * |b|

/-- The unit of length in kilometres. -/
def AU : ℚ := 1495978707 / 10

/-- The unit of speed in kilometres per second. -/
def AUDAY : ℚ := AU / 86400

/-- Conversion factor of a component. -/
def factor (i : Fin 6) : ℚ := if i.1 < 3 then AU else AUDAY

theorem rel_mono {ε δ a b : ℚ} (h : |a - b| ≤ ε * |b|) (hd : ε ≤ δ) : |a - b| ≤ δ * |b| :=
  h.trans (mul_le_mul_of_nonneg_right hd (abs_nonneg _))

theorem rel_fl {ε a b : ℚ} (h : |a - b| ≤ ε * |b|) : |fl a - b| ≤ (ε + (1 + ε) / 2 ^ 53) * |b| := by
  have h1 := fl_error a
  have h2 : |a| ≤ |b| + ε * |b| := by
    have := abs_sub_abs_le_abs_sub a b
    linarith
  have h3 : |fl a - b| ≤ |fl a - a| + |a - b| := by
    have := abs_add_le (fl a - a) (a - b)
    rwa [show fl a - a + (a - b) = fl a - b by ring] at this
  have h4 : |a| / 2 ^ 53 ≤ (|b| + ε * |b|) / 2 ^ 53 := by
    apply div_le_div_of_nonneg_right h2 (by positivity)
  calc |fl a - b| ≤ (|b| + ε * |b|) / 2 ^ 53 + ε * |b| := by linarith
    _ = _ := by ring

theorem rel_mul {ε δ a b c d : ℚ} (h : |a - b| ≤ ε * |b|) (k : |c - d| ≤ δ * |d|) :
    |a * c - b * d| ≤ (ε + δ + ε * δ) * |b * d| := by
  have e : a * c - b * d = (a - b) * (c - d) + (a - b) * d + b * (c - d) := by ring
  have h0 := abs_nonneg (a - b)
  have k0 := abs_nonneg (c - d)
  have hb := abs_nonneg b
  have hd := abs_nonneg d
  have m1 : |a - b| * |c - d| ≤ (ε * |b|) * (δ * |d|) := mul_le_mul h k k0 (h0.trans h)
  have m2 : |a - b| * |d| ≤ (ε * |b|) * |d| := mul_le_mul_of_nonneg_right h hd
  have m3 : |b| * |c - d| ≤ |b| * (δ * |d|) := mul_le_mul_of_nonneg_left k hb
  rw [e]
  have t := abs_add_le ((a - b) * (c - d) + (a - b) * d) (b * (c - d))
  have t' := abs_add_le ((a - b) * (c - d)) ((a - b) * d)
  rw [abs_mul] at t t' 
  rw [abs_mul] at t'
  rw [abs_mul b d]
  have t2 : |b * (c - d)| = |b| * |c - d| := abs_mul _ _
  calc _ ≤ |a - b| * |c - d| + |a - b| * |d| + |b| * |c - d| := by linarith
    _ ≤ (ε * |b|) * (δ * |d|) + (ε * |b|) * |d| + |b| * (δ * |d|) := by linarith
    _ = _ := by ring

theorem rel_refl (a : ℚ) : |a - a| ≤ 0 * |a| := by simp

theorem rel_scale {ε a b : ℚ} (c : ℚ) (h : |a - b| ≤ ε * |b|) : |a * c - b * c| ≤ ε * |b * c| := by
  have := rel_mul h (rel_refl c)
  simpa using this

theorem km_pos : 0 < consts64.kmPerAu := by decide +kernel

theorem km_rel : |consts64.kmPerAu - AU| ≤ 1 / 2 ^ 53 * |AU| := by
  have h := fl_error (1495978707 / 10)
  show |fl (1495978707 / 10) - AU| ≤ _
  unfold AU
  rw [div_mul_eq_mul_div, one_mul]
  exact h

theorem inv_rel : |1 / consts64.kmPerAu - 1 / AU| ≤ 11 / 10 / 2 ^ 53 * |1 / AU| := by
  have h0 := km_pos
  have ha : (0 : ℚ) < AU := by norm_num [AU]
  have h := km_rel
  rw [abs_of_pos ha] at h
  rw [abs_of_pos (by positivity : (0 : ℚ) < 1 / AU), show 1 / consts64.kmPerAu - 1 / AU = -(consts64.kmPerAu - AU) / (consts64.kmPerAu * AU) by
    field_simp; ring, abs_div, abs_neg, abs_of_pos (by positivity : (0 : ℚ) < consts64.kmPerAu * AU)]
  rw [div_le_iff₀ (by positivity)]
  have h2 := (abs_le.mp h).1
  have e : 11 / 10 / 2 ^ 53 * (1 / AU) * (consts64.kmPerAu * AU) = 11 / 10 / 2 ^ 53 * consts64.kmPerAu := by field_simp
  rw [e]
  refine h.trans ?_
  have : consts64.kmPerAu ≥ AU * (1 - 1 / 2 ^ 53) := by linarith
  calc 1 / 2 ^ 53 * AU ≤ 11 / 10 / 2 ^ 53 * (AU * (1 - 1 / 2 ^ 53)) := by unfold AU; norm_num
    _ ≤ _ := mul_le_mul_of_nonneg_left this (by norm_num)

theorem to_km (x : ℚ) : |auToKm64 x - x * AU| ≤ 21 / 10 / 2 ^ 53 * |x * AU| := by
  have := rel_fl (rel_scale x km_rel)
  rw [mul_comm _ x, mul_comm _ x] at this
  exact rel_mono this (by norm_num)

theorem to_au (x : ℚ) : |kmToAu64 x - x / AU| ≤ 22 / 10 / 2 ^ 53 * |x / AU| := by
  have := rel_fl (rel_scale x inv_rel)
  rw [one_div_mul_eq_div, one_div_mul_eq_div] at this
  exact rel_mono this (by norm_num)

theorem to_kms (x : ℚ) : |auDayToKmS64 x - x * AUDAY| ≤ 32 / 10 / 2 ^ 53 * |x * AUDAY| := by
  have := rel_fl (rel_scale (1 / 86400) (to_km x))
  have e : x * AU * (1 / 86400) = x * AUDAY := by unfold AUDAY; ring
  rw [e] at this
  have e2 : auDayToKmS64 x = fl (auToKm64 x * (1 / 86400)) := by
    unfold auDayToKmS64 auToKm64; congr 1; show _ / 86400 = _; ring
  rw [e2]
  exact rel_mono this (by norm_num)

theorem to_auday (x : ℚ) : |kmSToAuDay64 x - x / AUDAY| ≤ 33 / 10 / 2 ^ 53 * |x / AUDAY| := by
  have := rel_fl (rel_scale 86400 (to_au x))
  have e : x / AU * 86400 = x / AUDAY := by unfold AUDAY AU; ring
  rw [e] at this
  exact rel_mono this (by norm_num)

theorem within_of {n ε a b : ℚ} (h : |a - b| ≤ ε * |b|) (he : ε ≤ n / 2 ^ 53) : Within n a b := rel_mono h he

/-- C204. Every conversion of a position or velocity is correct to a relative error of 4 / 2^53. -/
theorem C204_scalars (x : ℚ) :
    Within 3 (auToKm64 x) (x * AU) ∧ Within 3 (kmToAu64 x) (x / AU) ∧
    Within 4 (auDayToKmS64 x) (x * AUDAY) ∧ Within 4 (kmSToAuDay64 x) (x / AUDAY) :=
  ⟨within_of (to_km x) (by norm_num), within_of (to_au x) (by norm_num), within_of (to_kms x) (by norm_num), within_of (to_auday x) (by norm_num)⟩

theorem back_pos (x : ℚ) : |kmToAu64 (auToKm64 x) - x| ≤ 21 / 10 / 2 ^ 53 * |x| := by
  have h1 := rel_fl (rel_refl (x * consts64.kmPerAu))
  have h2 := rel_fl (rel_scale (1 / consts64.kmPerAu) h1)
  have hk := km_pos
  rw [show x * consts64.kmPerAu * (1 / consts64.kmPerAu) = x by field_simp] at h2
  unfold kmToAu64 auToKm64
  rw [div_eq_mul_one_div]
  exact rel_mono h2 (by norm_num)

theorem back_pos' (x : ℚ) : |auToKm64 (kmToAu64 x) - x| ≤ 21 / 10 / 2 ^ 53 * |x| := by
  have h1 := rel_fl (rel_refl (x / consts64.kmPerAu))
  have h2 := rel_fl (rel_scale consts64.kmPerAu h1)
  have hk := km_pos
  rw [show x / consts64.kmPerAu * consts64.kmPerAu = x by field_simp] at h2
  exact rel_mono h2 (by norm_num)

theorem back_vel (x : ℚ) : |kmSToAuDay64 (auDayToKmS64 x) - x| ≤ 41 / 10 / 2 ^ 53 * |x| := by
  have h1 := rel_fl (rel_refl (x * consts64.kmPerAu))
  have h2 := rel_fl (rel_scale (1 / 86400) h1)
  have h3 := rel_fl (rel_scale (1 / consts64.kmPerAu) h2)
  have h4 := rel_fl (rel_scale 86400 h3)
  have hk := km_pos
  rw [show x * consts64.kmPerAu * (1 / 86400) * (1 / consts64.kmPerAu) * 86400 = x by field_simp] at h4
  have e : kmSToAuDay64 (auDayToKmS64 x) =
      fl (fl (fl (fl (x * consts64.kmPerAu) * (1 / 86400)) * (1 / consts64.kmPerAu)) * 86400) := by
    unfold kmSToAuDay64 auDayToKmS64
    show fl (fl (fl (_ / 86400) / _) * 86400) = _
    rw [div_eq_mul_one_div (fl (x * consts64.kmPerAu)) 86400, div_eq_mul_one_div _ consts64.kmPerAu]
  rw [e]
  exact rel_mono h4 (by norm_num)

theorem back_vel' (x : ℚ) : |auDayToKmS64 (kmSToAuDay64 x) - x| ≤ 41 / 10 / 2 ^ 53 * |x| := by
  have h1 := rel_fl (rel_refl (x / consts64.kmPerAu))
  have h2 := rel_fl (rel_scale 86400 h1)
  have h3 := rel_fl (rel_scale consts64.kmPerAu h2)
  have h4 := rel_fl (rel_scale (1 / 86400) h3)
  have hk := km_pos
  rw [show x / consts64.kmPerAu * 86400 * consts64.kmPerAu * (1 / 86400) = x by field_simp] at h4
  have e : auDayToKmS64 (kmSToAuDay64 x) =
      fl (fl (fl (fl (x / consts64.kmPerAu) * 86400) * consts64.kmPerAu) * (1 / 86400)) := by
    unfold kmSToAuDay64 auDayToKmS64
    show fl (_ / 86400) = _
    rw [div_eq_mul_one_div _ (86400 : ℚ)]
    rfl
  rw [e]
  exact rel_mono h4 (by norm_num)

/-- C204. A state comes back from kilometres, and from astronomical units, to a relative error of 5 / 2^53 in every component. -/
theorem C204_round_trip (v : Fin 6 → ℚ) (i : Fin 6) :
    Within 5 (stateToAu64 (stateToKm64 v) i) (v i) ∧ Within 5 (stateToKm64 (stateToAu64 v) i) (v i) := by
  unfold stateToAu64 stateToKm64
  by_cases h : i.1 < 3
  · simp only [h, if_true]
    exact ⟨within_of (back_pos _) (by norm_num), within_of (back_pos' _) (by norm_num)⟩
  · simp only [h, if_false]
    exact ⟨within_of (back_vel _) (by norm_num), within_of (back_vel' _) (by norm_num)⟩

/-- C204. States are converted component by component, and order and sign of components are kept. -/
theorem C204_states (v w : Fin 6 → ℚ) (i : Fin 6) :
    Within 4 (stateToKm64 v i) (v i * factor i) ∧ Within 4 (stateToAu64 v i) (v i / factor i) ∧
    (v i ≤ w i → stateToKm64 v i ≤ stateToKm64 w i ∧ stateToAu64 v i ≤ stateToAu64 w i) ∧
    stateToKm64 (fun j => -v j) i = -stateToKm64 v i ∧ stateToAu64 (fun j => -v j) i = -stateToAu64 v i := by
  have hk := km_pos
  have hs : (0 : ℚ) < consts64.secondsPerDay := by show (0 : ℚ) < 86400; norm_num
  unfold stateToAu64 stateToKm64 factor
  by_cases h : i.1 < 3
  · simp only [h, if_true]
    refine ⟨within_of (to_km _) (by norm_num), within_of (to_au _) (by norm_num), fun hl => ⟨?_, ?_⟩, ?_, ?_⟩
    · exact fl_mono (mul_le_mul_of_nonneg_right hl hk.le)
    · exact fl_mono (div_le_div_of_nonneg_right hl hk.le)
    · unfold auToKm64; rw [neg_mul, fl_neg]
    · unfold kmToAu64; rw [neg_div, fl_neg]
  · simp only [h, if_false]
    refine ⟨within_of (to_kms _) (by norm_num), within_of (to_auday _) (by norm_num), fun hl => ⟨?_, ?_⟩, ?_, ?_⟩
    · exact fl_mono (div_le_div_of_nonneg_right (fl_mono (mul_le_mul_of_nonneg_right hl hk.le)) hs.le)
    · exact fl_mono (mul_le_mul_of_nonneg_right (fl_mono (div_le_div_of_nonneg_right hl hk.le)) hs.le)
    · unfold auDayToKmS64; rw [neg_mul, fl_neg, neg_div, fl_neg]
    · unfold kmSToAuDay64; rw [neg_div, fl_neg, neg_mul, fl_neg]

theorem vec_km (i : Fin 6) : |vecToKm64 i - factor i| ≤ 21 / 10 / 2 ^ 53 * |factor i| := by
  unfold vecToKm64 factor
  by_cases h : i.1 < 3
  · simp only [h, if_true]
    exact rel_mono km_rel (by norm_num)
  · simp only [h, if_false]
    have := rel_fl (rel_scale (1 / 86400) km_rel)
    rw [show AU * (1 / 86400) = AUDAY by unfold AUDAY; ring] at this
    rw [show consts64.kmPerAu / consts64.secondsPerDay = consts64.kmPerAu * (1 / 86400) by rw [div_eq_mul_one_div]; rfl]
    exact rel_mono this (by norm_num)

theorem vec_au (i : Fin 6) : |vecToAu64 i - 1 / factor i| ≤ 22 / 10 / 2 ^ 53 * |1 / factor i| := by
  unfold vecToAu64 factor
  by_cases h : i.1 < 3
  · simp only [h, if_true]
    exact rel_mono (rel_fl inv_rel) (by norm_num)
  · simp only [h, if_false]
    have := rel_fl (rel_scale 86400 inv_rel)
    rw [show 1 / AU * 86400 = 1 / AUDAY by unfold AUDAY AU; norm_num] at this
    rw [show consts64.secondsPerDay / consts64.kmPerAu = 1 / consts64.kmPerAu * 86400 by rw [one_div_mul_eq_div]; rfl]
    exact rel_mono this (by norm_num)

theorem cov_rel {g : Fin 6 → ℚ} {f : Fin 6 → ℚ} (h : ∀ i, |g i - f i| ≤ 22 / 10 / 2 ^ 53 * |f i|) (x : ℚ) (i j : Fin 6) :
    |fl (x * fl (g i * g j)) - x * (f i * f j)| ≤ 65 / 10 / 2 ^ 53 * |x * (f i * f j)| := by
  have h1 := rel_fl (rel_mul (h i) (h j))
  have h2 := rel_fl (rel_scale x h1)
  rw [mul_comm _ x, mul_comm _ x] at h2
  exact rel_mono h2 (by norm_num)

/-- C204. Every element of a covariance is scaled by the product of its two units, to a relative error of 7 / 2^53. A symmetric matrix stays
exactly symmetric, and variances do not become negative. -/
theorem C204_covariances (m : Fin 6 → Fin 6 → ℚ) (i j : Fin 6) :
    Within 7 (covToKm64 m i j) (m i j * (factor i * factor j)) ∧ Within 7 (covToAu64 m i j) (m i j / (factor i * factor j)) ∧
    (m i j = m j i → covToKm64 m i j = covToKm64 m j i ∧ covToAu64 m i j = covToAu64 m j i) ∧
    (0 ≤ m i i → 0 ≤ covToKm64 m i i ∧ 0 ≤ covToAu64 m i i) := by
  refine ⟨within_of (cov_rel (g := vecToKm64) (f := factor) (fun i => rel_mono (vec_km i) (by norm_num)) _ i j) (by norm_num), ?_, ?_, ?_⟩
  · have := cov_rel (g := vecToAu64) (f := fun i => 1 / factor i) vec_au (m i j) i j
    rw [show m i j * (1 / factor i * (1 / factor j)) = m i j / (factor i * factor j) by
      rw [div_mul_div_comm, one_mul, mul_one_div]] at this
    exact within_of this (by norm_num)
  · intro h
    unfold covToKm64 covToAu64
    rw [h, mul_comm (vecToKm64 i), mul_comm (vecToAu64 i)]
    exact ⟨rfl, rfl⟩
  · intro h
    unfold covToKm64 covToAu64
    exact ⟨fl_nonneg (mul_nonneg h (fl_nonneg (mul_self_nonneg _))), fl_nonneg (mul_nonneg h (fl_nonneg (mul_self_nonneg _)))⟩

/-- C204. Not true: that converting there and back gives the same numbers. 15 au and 7 au per day do not come back. -/
theorem C204_identity_false : ¬ (∀ x : ℚ, fl x = x → kmToAu64 (auToKm64 x) = x) ∧ ¬ ∀ x : ℚ, fl x = x → kmSToAuDay64 (auDayToKmS64 x) = x :=
  ⟨fun h => absurd (h 15 (by decide +kernel)) (by decide +kernel), fun h => absurd (h 7 (by decide +kernel)) (by decide +kernel)⟩

/-- A covariance of one direction only: 9 in x and 17 in vx. -/
def line (i j : Fin 6) : ℚ := (if i = 0 then 9 else if i = 3 then 17 else 0) * (if j = 0 then 9 else if j = 3 then 17 else 0)

/-- C204. Not true: that a covariance without negative variances in any direction is converted to one. -/
theorem C204_definite_false : (∀ w : Fin 6 → ℚ, 0 ≤ ∑ i, ∑ j, w i * line i j * w j) ∧
    ∃ w : Fin 6 → ℚ, ∑ i, ∑ j, w i * covToKm64 line i j * w j < 0 := by
  constructor
  · intro w
    have : ∑ i, ∑ j, w i * line i j * w j = (9 * w 0 + 17 * w 3) ^ 2 := by
      simp only [Fin.sum_univ_six, line]
      simp
      ring
    rw [this]
    positivity
  · refine ⟨fun i => if i = 0 then covToKm64 line 0 3 else if i = 3 then -covToKm64 line 0 0 else 0, ?_⟩
    decide +kernel

end Verif.Units.FloatProps
