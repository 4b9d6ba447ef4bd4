import Verif.Univ.Model
import Mathlib.Analysis.SpecialFunctions.Trigonometric.Series
import Mathlib.Analysis.SpecialFunctions.Trigonometric.Deriv
import Mathlib.Analysis.SpecialFunctions.Trigonometric.DerivHyp
import Mathlib.Tactic.LinearCombination
import Mathlib.Tactic.FieldSimp
import Mathlib.Tactic.NormNum

/-! # Stumpff functions: series (C34) and the universal functions `U_k(χ) = χ^k c_k(αχ²)` -/

namespace Verif.Univ

/-! ### series -/

/-- The terms of the series that defines the k-th Stumpff function. -/
noncomputable def term (k : ℕ) (psi : ℝ) (n : ℕ) : ℝ := (-psi) ^ n / ((2 * n + k).factorial : ℝ)

theorem shift {k : ℕ} {psi x y : ℝ} (hpsi : psi ≠ 0) (h : HasSum (term k psi) x) (hy : y = (1 / (k.factorial : ℝ) - x) / psi) :
    HasSum (term (k + 2) psi) y := by
  have h1 : HasSum (fun n => term k psi (n + 1)) (x - ∑ i ∈ Finset.range 1, term k psi i) :=
    (hasSum_nat_add_iff' (f := term k psi) 1).mpr h
  have h0 : term k psi 0 = 1 / (k.factorial : ℝ) := by simp [term]
  rw [Finset.sum_range_one, h0] at h1
  have h2 := h1.mul_left (-1 / psi)
  have e : (fun n => -1 / psi * term k psi (n + 1)) = term (k + 2) psi := by
    funext n
    unfold term
    have e1 : 2 * (n + 1) + k = 2 * n + (k + 2) := by ring
    rw [e1, pow_succ]
    field_simp
  have e' : -1 / psi * (x - 1 / (k.factorial : ℝ)) = y := by
    rw [hy]
    field_simp
    ring
  rw [← e']
  rw [e] at h2
  exact h2

theorem hasSum_zero (k : ℕ) : HasSum (term k 0) (1 / (k.factorial : ℝ)) := by
  have h := hasSum_single (f := term k 0) 0 (by
    intro n hn
    unfold term
    rw [neg_zero, zero_pow hn, zero_div])
  simpa [term] using h

theorem hasSum_of_base {psi c0 c1 : ℝ} (hpsi : psi ≠ 0) (h0 : HasSum (term 0 psi) c0) (h1 : HasSum (term 1 psi) c1) :
    HasSum (term 2 psi) ((1 - c0) / psi) ∧ HasSum (term 3 psi) ((1 - c1) / psi) ∧
    HasSum (term 4 psi) ((1 / 2 - (1 - c0) / psi) / psi) ∧ HasSum (term 5 psi) ((1 / 6 - (1 - c1) / psi) / psi) := by
  have h2 := shift (y := (1 - c0) / psi) hpsi h0 (by norm_num)
  have h3 := shift (y := (1 - c1) / psi) hpsi h1 (by norm_num)
  exact ⟨h2, h3, shift hpsi h2 (by norm_num [Nat.factorial]), shift hpsi h3 (by norm_num [Nat.factorial])⟩

theorem positive_series {psi : ℝ} (h : 0 < psi) :
    HasSum (term 0 psi) (Real.cos (Real.sqrt psi)) ∧ HasSum (term 1 psi) (Real.sin (Real.sqrt psi) / Real.sqrt psi) := by
  have hs : Real.sqrt psi ≠ 0 := (Real.sqrt_pos.mpr h).ne'
  have hq := Real.sq_sqrt h.le
  constructor
  · have := Real.hasSum_cos (Real.sqrt psi)
    refine Eq.subst (motive := fun f => HasSum f _) (funext fun n => Eq.symm ?_) this
    unfold term
    rw [pow_mul, hq, neg_pow, add_zero]
  · have := (Real.hasSum_sin (Real.sqrt psi)).div_const (Real.sqrt psi)
    refine Eq.subst (motive := fun f => HasSum f _) (funext fun n => Eq.symm ?_) this
    unfold term
    rw [pow_succ, pow_mul, hq, neg_pow]
    field_simp

theorem negative_series {psi : ℝ} (h : psi < 0) :
    HasSum (term 0 psi) (Real.cosh (Real.sqrt (-psi))) ∧ HasSum (term 1 psi) (Real.sinh (Real.sqrt (-psi)) / Real.sqrt (-psi)) := by
  have h' : 0 < -psi := by linarith
  have hs : Real.sqrt (-psi) ≠ 0 := (Real.sqrt_pos.mpr h').ne'
  have hq := Real.sq_sqrt h'.le
  constructor
  · have := Real.hasSum_cosh (Real.sqrt (-psi))
    refine Eq.subst (motive := fun f => HasSum f _) (funext fun n => Eq.symm ?_) this
    unfold term
    rw [pow_mul, hq, add_zero]
  · have := (Real.hasSum_sinh (Real.sqrt (-psi))).div_const (Real.sqrt (-psi))
    refine Eq.subst (motive := fun f => HasSum f _) (funext fun n => Eq.symm ?_) this
    unfold term
    rw [pow_succ, pow_mul, hq]
    field_simp

/-! ### universal functions -/

noncomputable def U0 (a x : ℝ) : ℝ := (calcStumpff (a * x ^ 2)).c0
noncomputable def U1 (a x : ℝ) : ℝ := x * (calcStumpff (a * x ^ 2)).c1
noncomputable def U2 (a x : ℝ) : ℝ := x ^ 2 * (calcStumpff (a * x ^ 2)).c2
noncomputable def U3 (a x : ℝ) : ℝ := x ^ 3 * (calcStumpff (a * x ^ 2)).c3

theorem stumpff_zero : calcStumpff 0 = nullPsi := by
  unfold calcStumpff
  rw [if_neg (lt_irrefl _), if_neg (lt_irrefl _)]

theorem pos_form {a : ℝ} (ha : 0 < a) (x : ℝ) : U0 a x = Real.cos (Real.sqrt a * x) ∧ U1 a x = Real.sin (Real.sqrt a * x) / Real.sqrt a ∧
    U2 a x = (1 - Real.cos (Real.sqrt a * x)) / a ∧ U3 a x = (x - Real.sin (Real.sqrt a * x) / Real.sqrt a) / a := by
  have hs : Real.sqrt a ≠ 0 := (Real.sqrt_pos.mpr ha).ne'
  unfold U0 U1 U2 U3
  by_cases hx : x = 0
  · subst hx
    simp [stumpff_zero, nullPsi]
  · have hp : 0 < a * x ^ 2 := by positivity
    have e : Real.sqrt (a * x ^ 2) = Real.sqrt a * |x| := by rw [Real.sqrt_mul ha.le, Real.sqrt_sq_eq_abs]
    have hc : Real.cos (Real.sqrt a * |x|) = Real.cos (Real.sqrt a * x) := by
      rcases abs_choice x with h | h <;> rw [h]
      rw [mul_neg, Real.cos_neg]
    have hn : Real.sin (Real.sqrt a * |x|) / (Real.sqrt a * |x|) = Real.sin (Real.sqrt a * x) / (Real.sqrt a * x) := by
      rcases abs_choice x with h | h <;> rw [h]
      rw [mul_neg, Real.sin_neg, neg_div_neg_eq]
    unfold calcStumpff
    rw [if_pos hp]
    unfold positivePsi
    simp only [e, hc, hn]
    refine ⟨trivial, ?_, ?_, ?_⟩ <;> field_simp

theorem neg_form {a : ℝ} (ha : a < 0) (x : ℝ) : U0 a x = Real.cosh (Real.sqrt (-a) * x) ∧
    U1 a x = Real.sinh (Real.sqrt (-a) * x) / Real.sqrt (-a) ∧
    U2 a x = (1 - Real.cosh (Real.sqrt (-a) * x)) / a ∧ U3 a x = (x - Real.sinh (Real.sqrt (-a) * x) / Real.sqrt (-a)) / a := by
  have ha' : 0 < -a := by linarith
  have hs : Real.sqrt (-a) ≠ 0 := (Real.sqrt_pos.mpr ha').ne'
  unfold U0 U1 U2 U3
  by_cases hx : x = 0
  · subst hx
    simp [stumpff_zero, nullPsi]
  · have hx2 : 0 < x ^ 2 := by positivity
    have hp : a * x ^ 2 < 0 := mul_neg_of_neg_of_pos ha hx2
    have e : Real.sqrt (-(a * x ^ 2)) = Real.sqrt (-a) * |x| := by
      rw [← neg_mul, Real.sqrt_mul ha'.le, Real.sqrt_sq_eq_abs]
    have hc : Real.cosh (Real.sqrt (-a) * |x|) = Real.cosh (Real.sqrt (-a) * x) := by
      rcases abs_choice x with h | h <;> rw [h]
      rw [mul_neg, Real.cosh_neg]
    have hn : Real.sinh (Real.sqrt (-a) * |x|) / (Real.sqrt (-a) * |x|) = Real.sinh (Real.sqrt (-a) * x) / (Real.sqrt (-a) * x) := by
      rcases abs_choice x with h | h <;> rw [h]
      rw [mul_neg, Real.sinh_neg, neg_div_neg_eq]
    unfold calcStumpff
    rw [if_neg (not_lt.mpr hp.le), if_pos hp]
    unfold negativePsi
    simp only [e, hc, hn]
    have ha0 : a ≠ 0 := ha.ne
    refine ⟨trivial, ?_, ?_, ?_⟩ <;> field_simp

theorem zero_form (x : ℝ) : U0 0 x = 1 ∧ U1 0 x = x ∧ U2 0 x = x ^ 2 / 2 ∧ U3 0 x = x ^ 3 / 6 := by
  unfold U0 U1 U2 U3
  rw [zero_mul, stumpff_zero]
  unfold nullPsi
  refine ⟨rfl, ?_, ?_, ?_⟩ <;> simp only <;> ring

/-- The relations of the universal functions. -/
theorem U_rel (a x : ℝ) : U0 a x = 1 - a * U2 a x ∧ x = U1 a x + a * U3 a x ∧ U1 a x ^ 2 = 2 * U2 a x - a * U2 a x ^ 2 := by
  rcases lt_trichotomy a 0 with h | h | h
  · obtain ⟨h0, h1, h2, h3⟩ := neg_form h x
    have ha : a ≠ 0 := h.ne
    have hs : 0 < Real.sqrt (-a) := Real.sqrt_pos.mpr (by linarith)
    have hq := Real.sq_sqrt (show 0 ≤ -a by linarith)
    have hc := Real.cosh_sq (Real.sqrt (-a) * x)
    refine ⟨?_, ?_, ?_⟩
    · rw [h0, h2]; field_simp; ring
    · rw [h1, h3]; field_simp; ring
    · rw [h1, h2, div_pow, hq]
      field_simp
      linear_combination hc
  · subst h
    obtain ⟨h0, h1, h2, h3⟩ := zero_form x
    rw [h0, h1, h2, h3]
    refine ⟨?_, ?_, ?_⟩ <;> ring
  · obtain ⟨h0, h1, h2, h3⟩ := pos_form h x
    have hs : 0 < Real.sqrt a := Real.sqrt_pos.mpr h
    have hq := Real.sq_sqrt h.le
    have hc := Real.sin_sq_add_cos_sq (Real.sqrt a * x)
    refine ⟨?_, ?_, ?_⟩
    · rw [h0, h2]; field_simp; ring
    · rw [h1, h3]; field_simp; ring
    · rw [h1, h2, div_pow, hq]
      field_simp
      linear_combination hc

theorem U_add (a x y : ℝ) : U0 a (x + y) = U0 a x * U0 a y - a * U1 a x * U1 a y ∧ U1 a (x + y) = U1 a x * U0 a y + U0 a x * U1 a y ∧
    U2 a (x + y) = U2 a x + U1 a x * U1 a y + U0 a x * U2 a y ∧
    U3 a (x + y) = U3 a x + U2 a x * U1 a y + U1 a x * U2 a y + U3 a y := by
  rcases lt_trichotomy a 0 with h | h | h
  · obtain ⟨h0, h1, h2, h3⟩ := neg_form h (x + y)
    obtain ⟨x0, x1, x2, x3⟩ := neg_form h x
    obtain ⟨y0, y1, y2, y3⟩ := neg_form h y
    have ha : a ≠ 0 := h.ne
    have hs : Real.sqrt (-a) ≠ 0 := (Real.sqrt_pos.mpr (by linarith)).ne'
    have hq := Real.sq_sqrt (show 0 ≤ -a by linarith)
    rw [h0, h1, h2, h3, x0, x1, x2, x3, y0, y1, y2, y3, mul_add, Real.cosh_add, Real.sinh_add]
    refine ⟨?_, ?_, ?_, ?_⟩
    · field_simp
      linear_combination (Real.sinh (Real.sqrt (-a) * x) * Real.sinh (Real.sqrt (-a) * y)) * hq
    · field_simp
    · field_simp
      linear_combination -(Real.sinh (Real.sqrt (-a) * x) * Real.sinh (Real.sqrt (-a) * y)) * hq
    · field_simp
      ring
  · subst h
    obtain ⟨h0, h1, h2, h3⟩ := zero_form (x + y)
    obtain ⟨x0, x1, x2, x3⟩ := zero_form x
    obtain ⟨y0, y1, y2, y3⟩ := zero_form y
    rw [h0, h1, h2, h3, x0, x1, x2, x3, y0, y1, y2, y3]
    refine ⟨?_, ?_, ?_, ?_⟩ <;> ring
  · obtain ⟨h0, h1, h2, h3⟩ := pos_form h (x + y)
    obtain ⟨x0, x1, x2, x3⟩ := pos_form h x
    obtain ⟨y0, y1, y2, y3⟩ := pos_form h y
    have hs : Real.sqrt a ≠ 0 := (Real.sqrt_pos.mpr h).ne'
    have hq := Real.sq_sqrt h.le
    rw [h0, h1, h2, h3, x0, x1, x2, x3, y0, y1, y2, y3, mul_add, Real.cos_add, Real.sin_add]
    refine ⟨?_, ?_, ?_, ?_⟩
    · field_simp
      linear_combination (-Real.sin (Real.sqrt a * x) * Real.sin (Real.sqrt a * y)) * hq
    · field_simp
    · field_simp
      linear_combination (Real.sin (Real.sqrt a * x) * Real.sin (Real.sqrt a * y)) * hq
    · field_simp
      ring

theorem U_deriv (a x : ℝ) : HasDerivAt (U0 a) (-a * U1 a x) x ∧ HasDerivAt (U1 a) (U0 a x) x ∧ HasDerivAt (U2 a) (U1 a x) x ∧
    HasDerivAt (U3 a) (U2 a x) x := by
  rcases lt_trichotomy a 0 with h | h | h
  · have ha : a ≠ 0 := h.ne
    have hs : Real.sqrt (-a) ≠ 0 := (Real.sqrt_pos.mpr (by linarith)).ne'
    have hq := Real.sq_sqrt (show 0 ≤ -a by linarith)
    have e0 : U0 a = fun y => Real.cosh (Real.sqrt (-a) * y) := funext fun y => (neg_form h y).1
    have e1 : U1 a = fun y => Real.sinh (Real.sqrt (-a) * y) / Real.sqrt (-a) := funext fun y => (neg_form h y).2.1
    have e2 : U2 a = fun y => (1 - Real.cosh (Real.sqrt (-a) * y)) / a := funext fun y => (neg_form h y).2.2.1
    have e3 : U3 a = fun y => (y - Real.sinh (Real.sqrt (-a) * y) / Real.sqrt (-a)) / a := funext fun y => (neg_form h y).2.2.2
    have hl : HasDerivAt (fun y => Real.sqrt (-a) * y) (Real.sqrt (-a)) x := by
      simpa using (hasDerivAt_id x).const_mul (Real.sqrt (-a))
    have hc : HasDerivAt (fun y => Real.cosh (Real.sqrt (-a) * y)) (Real.sinh (Real.sqrt (-a) * x) * Real.sqrt (-a)) x := (Real.hasDerivAt_cosh _).comp x hl
    have hn : HasDerivAt (fun y => Real.sinh (Real.sqrt (-a) * y)) (Real.cosh (Real.sqrt (-a) * x) * Real.sqrt (-a)) x := (Real.hasDerivAt_sinh _).comp x hl
    rw [e0, e1, e2, e3]
    refine ⟨?_, ?_, ?_, ?_⟩
    · refine (hc).congr_deriv ?_
      field_simp
      linear_combination Real.sinh (Real.sqrt (-a) * x) * hq
    · refine (hn.div_const _).congr_deriv ?_
      field_simp
    · refine ((hc.const_sub 1).div_const a).congr_deriv ?_
      field_simp
      linear_combination -Real.sinh (Real.sqrt (-a) * x) * hq
    · refine (((hasDerivAt_id x).sub (hn.div_const (Real.sqrt (-a)))).div_const a).congr_deriv ?_
      field_simp
  · subst h
    have e0 : U0 0 = fun _ => 1 := funext fun y => (zero_form y).1
    have e1 : U1 0 = fun y => y := funext fun y => (zero_form y).2.1
    have e2 : U2 0 = fun y => y ^ 2 / 2 := funext fun y => (zero_form y).2.2.1
    have e3 : U3 0 = fun y => y ^ 3 / 6 := funext fun y => (zero_form y).2.2.2
    rw [e0, e1, e2, e3]
    refine ⟨?_, ?_, ?_, ?_⟩
    · simpa using hasDerivAt_const x (1 : ℝ)
    · exact hasDerivAt_id x
    · refine ((hasDerivAt_pow 2 x).div_const 2).congr_deriv ?_
      norm_num
    · refine ((hasDerivAt_pow 3 x).div_const 6).congr_deriv ?_
      norm_num
      ring
  · have hs : Real.sqrt a ≠ 0 := (Real.sqrt_pos.mpr h).ne'
    have hq := Real.sq_sqrt h.le
    have ha : a ≠ 0 := h.ne'
    have e0 : U0 a = fun y => Real.cos (Real.sqrt a * y) := funext fun y => (pos_form h y).1
    have e1 : U1 a = fun y => Real.sin (Real.sqrt a * y) / Real.sqrt a := funext fun y => (pos_form h y).2.1
    have e2 : U2 a = fun y => (1 - Real.cos (Real.sqrt a * y)) / a := funext fun y => (pos_form h y).2.2.1
    have e3 : U3 a = fun y => (y - Real.sin (Real.sqrt a * y) / Real.sqrt a) / a := funext fun y => (pos_form h y).2.2.2
    have hl : HasDerivAt (fun y => Real.sqrt a * y) (Real.sqrt a) x := by simpa using (hasDerivAt_id x).const_mul (Real.sqrt a)
    have hc : HasDerivAt (fun y => Real.cos (Real.sqrt a * y)) (-Real.sin (Real.sqrt a * x) * Real.sqrt a) x := hl.cos
    have hn : HasDerivAt (fun y => Real.sin (Real.sqrt a * y)) (Real.cos (Real.sqrt a * x) * Real.sqrt a) x := hl.sin
    rw [e0, e1, e2, e3]
    refine ⟨?_, ?_, ?_, ?_⟩
    · refine (hc).congr_deriv ?_
      field_simp
      linear_combination -Real.sin (Real.sqrt a * x) * hq
    · refine (hn.div_const _).congr_deriv ?_
      field_simp
    · refine ((hc.const_sub 1).div_const a).congr_deriv ?_
      field_simp
      linear_combination Real.sin (Real.sqrt a * x) * hq
    · refine (((hasDerivAt_id x).sub (hn.div_const (Real.sqrt a))).div_const a).congr_deriv ?_
      field_simp

end Verif.Univ
