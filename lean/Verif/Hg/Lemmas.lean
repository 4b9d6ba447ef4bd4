import Verif.Hg.Model
import Verif.Hg.Spec
import Verif.Chunk.Props
import Mathlib.Analysis.SpecialFunctions.Trigonometric.Bounds
import Mathlib.Analysis.SpecialFunctions.Trigonometric.Arctan
import Mathlib.Tactic.FieldSimp
import Mathlib.Tactic.Positivity
import Mathlib.Tactic.NormNum

/-! # Lemmas on the H-G model -/

namespace Verif.Hg

open Verif Real

theorem validRow_iff {obj obs : Pos} : validRow obj obs = true ↔
    ∃ p q, obj = some p ∧ obs = some q ∧ 0 < V3.norm p ∧ 0 < V3.norm (V3.sub p q) := by
  cases obj with
  | none => simp [validRow]
  | some p =>
    cases obs with
    | none => simp [validRow]
    | some q => simp [validRow]

/-- The law of cosines: the clipped quotient is the cosine of the angle, and the clip does nothing. -/
theorem cosPhase_eq {p q : V3} (hp : 0 < V3.norm p) (hd : 0 < V3.norm (V3.sub p q)) :
    cosPhase p q = Real.cos (Spec.phaseAngle p q) := by
  have e : (V3.norm p * V3.norm p + V3.norm (V3.sub p q) * V3.norm (V3.sub p q) - V3.norm q * V3.norm q)
      / (2 * V3.norm p * V3.norm (V3.sub p q)) = Real.cos (Spec.phaseAngle p q) := by
    unfold Spec.phaseAngle
    rw [InnerProductGeometry.cos_angle, zero_sub, norm_neg, V3.norm_toE, ← neg_sub p.toE q.toE, inner_neg_neg,
      norm_neg, ← V3.toE_sub, V3.norm_toE, V3.inner_toE, V3.norm_mul_self, V3.norm_mul_self,
      V3.norm_mul_self, div_eq_div_iff (by positivity) (by positivity)]
    simp only [V3.dot, V3.sub]
    ring
  unfold cosPhase clip1
  simp only
  rw [e, max_eq_left (Real.neg_one_le_cos _), min_eq_left (Real.cos_le_one _)]

theorem phaseAngle_mem (p q : V3) : 0 ≤ Spec.phaseAngle p q ∧ Spec.phaseAngle p q ≤ π :=
  ⟨InnerProductGeometry.angle_nonneg _ _, InnerProductGeometry.angle_le_pi _ _⟩

/-- The half-angle formula through `arctan2`. -/
theorem arctan2_half {θ : ℝ} (h0 : 0 ≤ θ) (h1 : θ ≤ π) :
    2 * arctan2 (Real.sqrt (max 0 (1 - Real.cos θ))) (Real.sqrt (max 0 (1 + Real.cos θ))) = θ := by
  have hs : 1 - Real.cos θ = 2 * Real.sin (θ / 2) ^ 2 := by
    have := Real.cos_sq (θ / 2)
    rw [show 2 * (θ / 2) = θ by ring] at this
    have := Real.sin_sq_add_cos_sq (θ / 2)
    nlinarith
  have hc : 1 + Real.cos θ = 2 * Real.cos (θ / 2) ^ 2 := by
    have := Real.cos_sq (θ / 2)
    rw [show 2 * (θ / 2) = θ by ring] at this
    linarith
  have ps : 0 ≤ Real.sin (θ / 2) := Real.sin_nonneg_of_nonneg_of_le_pi (by linarith) (by linarith)
  have pc : 0 ≤ Real.cos (θ / 2) := Real.cos_nonneg_of_neg_pi_div_two_le_of_le (by linarith) (by linarith)
  rw [hs, hc, max_eq_right (by positivity), max_eq_right (by positivity), Real.sqrt_mul (by norm_num),
    Real.sqrt_mul (by norm_num), Real.sqrt_sq ps, Real.sqrt_sq pc]
  have e : (⟨Real.sqrt 2 * Real.cos (θ / 2), Real.sqrt 2 * Real.sin (θ / 2)⟩ : ℂ)
      = (Real.sqrt 2 : ℂ) * (Complex.cos ((θ / 2 : ℝ) : ℂ) + Complex.sin ((θ / 2 : ℝ) : ℂ) * Complex.I) := by
    rw [← Complex.ofReal_cos, ← Complex.ofReal_sin]
    apply Complex.ext
    · rw [Complex.re_ofReal_mul, Complex.add_re, Complex.ofReal_re, Complex.mul_I_re, Complex.ofReal_im, neg_zero, add_zero]
    · rw [Complex.im_ofReal_mul, Complex.add_im, Complex.ofReal_im, Complex.mul_I_im, Complex.ofReal_re, zero_add]
  unfold arctan2
  rw [e, Complex.arg_mul_cos_add_sin_mul_I (by positivity) ⟨by linarith [Real.pi_pos], by linarith⟩]
  ring

theorem tan_half {θ : ℝ} (h0 : 0 ≤ θ) (h1 : θ < π) :
    Real.sqrt ((1 - Real.cos θ) / (1 + Real.cos θ)) = Real.tan (θ / 2) := by
  have hs : 1 - Real.cos θ = 2 * Real.sin (θ / 2) ^ 2 := by
    have := Real.cos_sq (θ / 2)
    rw [show 2 * (θ / 2) = θ by ring] at this
    have := Real.sin_sq_add_cos_sq (θ / 2)
    nlinarith
  have hc : 1 + Real.cos θ = 2 * Real.cos (θ / 2) ^ 2 := by
    have := Real.cos_sq (θ / 2)
    rw [show 2 * (θ / 2) = θ by ring] at this
    linarith
  have ps : 0 ≤ Real.sin (θ / 2) := Real.sin_nonneg_of_nonneg_of_le_pi (by linarith) (by linarith)
  have pc : 0 < Real.cos (θ / 2) := Real.cos_pos_of_mem_Ioo ⟨by linarith, by linarith⟩
  rw [hs, hc, mul_div_mul_left _ _ (by norm_num), ← div_pow, Real.sqrt_sq (by positivity), Real.tan_eq_sin_div_cos]

theorem tan_half_nonneg {θ : ℝ} (h0 : 0 ≤ θ) (h1 : θ < π) : 0 ≤ Real.tan (θ / 2) :=
  Real.tan_nonneg_of_nonneg_of_le_pi_div_two (by linarith) (by linarith)

theorem mixture_eq (G θ : ℝ) : mixture G (Real.tan (θ / 2)) = Spec.phase G θ := rfl

theorem mixture_pos {G t : ℝ} (h0 : 0 ≤ G) (h1 : G ≤ 1) : 0 < mixture G t := by
  unfold mixture
  rcases h0.eq_or_lt with rfl | h
  · simp; exact Real.exp_pos _
  · have := Real.exp_pos (-1.87 * t ^ (1.22 : ℝ))
    have := Real.exp_pos (-3.33 * t ^ (0.63 : ℝ))
    have : 0 ≤ (1 - G) * Real.exp (-3.33 * t ^ (0.63 : ℝ)) := mul_nonneg (by linarith) this.le
    have : 0 < G * Real.exp (-1.87 * t ^ (1.22 : ℝ)) := by positivity
    linarith

theorem mixture_antitone {G t u : ℝ} (h0 : 0 ≤ G) (h1 : G ≤ 1) (ht : 0 ≤ t) (htu : t ≤ u) : mixture G u ≤ mixture G t := by
  unfold mixture
  have a := Real.rpow_le_rpow ht htu (by norm_num : (0 : ℝ) ≤ 0.63)
  have b := Real.rpow_le_rpow ht htu (by norm_num : (0 : ℝ) ≤ 1.22)
  have a' : Real.exp (-3.33 * u ^ (0.63 : ℝ)) ≤ Real.exp (-3.33 * t ^ (0.63 : ℝ)) := Real.exp_le_exp.mpr (by linarith)
  have b' : Real.exp (-1.87 * u ^ (1.22 : ℝ)) ≤ Real.exp (-1.87 * t ^ (1.22 : ℝ)) := Real.exp_le_exp.mpr (by linarith)
  have := mul_le_mul_of_nonneg_left a' (by linarith : 0 ≤ 1 - G)
  have := mul_le_mul_of_nonneg_left b' h0
  linarith

theorem mixture_zero (G : ℝ) : mixture G 0 = 1 := by
  unfold mixture
  rw [Real.zero_rpow (by norm_num), Real.zero_rpow (by norm_num)]
  simp

theorem mag10_pos {p : ℝ} (h : 0 < p) : mag10 p = .fin (-2.5 * Real.logb 10 p) := by
  unfold mag10; rw [if_pos h]

/-! ### chunks -/

theorem kernel_rowwise {α γ : Type} (junk : γ) (f : α → V3 → V3 → γ) :
    Chunk.Spec.Rowwise₂ (kernel junk f) (onRow junk f) := by
  intro l m h
  refine ⟨by simp [kernel, h], fun i a b ha hb => ?_⟩
  unfold kernel
  simp only [List.getElem?_zipWith, ha, hb]

theorem run_kernel {α γ : Type} (junk : γ) (pad : α × Pos) (f : α → V3 → V3 → γ) (as : List (α × Pos)) (qs : List Pos)
    (hl : as.length = qs.length) :
    Chunk.runPadded pad zeroPos junk (kernel junk f) as qs chunkSize = .ok (kernel junk f as qs) := by
  rw [Chunk.Props.C20_pattern _ _ _ _ _ (kernel_rowwise junk f) as qs hl chunkSize (by decide)]
  rfl

theorem validGeometry_ok {obj obs : List Pos} : validGeometry obj obs = .ok () ↔
    obs.length = obj.length ∧ ∀ (i : Nat) (a b : Pos), obj[i]? = some a → obs[i]? = some b → validRow a b = true := by
  unfold validGeometry
  by_cases hl : obs.length = obj.length
  · rw [if_neg (by simpa using hl)]
    constructor
    · intro h
      split at h
      · rename_i hall
        refine ⟨hl, fun i a b ha hb => ?_⟩
        rw [List.all_eq_true] at hall
        change id (validRow a b) = true
        apply hall
        rw [List.mem_iff_getElem?]
        exact ⟨i, by simp only [List.getElem?_zipWith, ha, hb]⟩
      · cases h
    · rintro ⟨-, h⟩
      rw [if_pos]
      rw [List.all_eq_true]
      intro x hx
      rw [List.mem_iff_getElem?] at hx
      obtain ⟨i, hi⟩ := hx
      rw [List.getElem?_zipWith] at hi
      split at hi
      · rename_i a b ha hb
        cases hi
        exact h i a b ha hb
      · cases hi
  · rw [if_pos (by simpa using hl)]
    simp [hl]

theorem validGeometry_cases (obj obs : List Pos) : validGeometry obj obs = .ok () ∨ validGeometry obj obs = .error .valueError := by
  unfold validGeometry
  split
  · exact .inr rfl
  · split
    · exact .inl rfl
    · exact .inr rfl

end Verif.Hg
