import Verif.Gauss.Model
import Mathlib.Tactic.LinearCombination
import Mathlib.Tactic.FieldSimp
import Mathlib.Tactic.Positivity

/-! Algebra of Gauss' method: the ranges and the polynomial. -/

namespace Verif.Gauss

open Verif V3

/-- A vector is the sum of its components along three vectors (Cramer's rule). -/
theorem cramer (n u1 u2 u3 : V3) :
    smul (calcV u1 u2 u3) n = add (sub (smul (dot n (cross u2 u3)) u1) (smul (dot n (cross u1 u3)) u2)) (smul (dot n (cross u1 u2)) u3) := by
  unfold calcV smul add sub dot cross
  ext <;> simp only <;> ring

theorem coplanar {l1 l3 v : ℝ} {q1 q2 q3 u1 u2 u3 : V3} (hv : v = calcV u1 u2 u3) {rho : V3 × V3 × V3}
    (h : calcRhos l1 l3 q1 q2 q3 u1 u2 u3 v = .ok rho) :
    add q2 rho.2.1 = add (smul l1 (add q1 rho.1)) (smul l3 (add q3 rho.2.2)) := by
  unfold calcRhos at h
  simp only at h
  split_ifs at h with h0
  rw [Except.ok.injEq] at h
  push Not at h0
  obtain ⟨h1, h2, h3⟩ := h0
  have hl1 : l1 ≠ 0 := left_ne_zero_of_mul h1
  have hl3 : l3 ≠ 0 := left_ne_zero_of_mul h3
  subst h
  have hc := cramer (sub (add (smul (-l1) q1) q2) (smul l3 q3)) u1 u2 u3
  rw [← hv] at hc
  generalize dot (sub (add (smul (-l1) q1) q2) (smul l3 q3)) (cross u2 u3) = d1 at hc ⊢
  generalize dot (sub (add (smul (-l1) q1) q2) (smul l3 q3)) (cross u1 u3) = d2 at hc ⊢
  generalize dot (sub (add (smul (-l1) q1) q2) (smul l3 q3)) (cross u1 u2) = d3 at hc ⊢
  rw [V3.ext_iff] at hc ⊢
  simp only [smul, add, sub] at hc ⊢
  obtain ⟨c1, c2, c3⟩ := hc
  refine ⟨?_, ?_, ?_⟩ <;> field_simp <;> linarith

/-- The range at the second time in terms of the constants of the polynomial. -/
theorem range_eq {r t31 t32 t21 mu : ℝ} {q1 q2 q3 u1 u2 u3 : V3} (h31 : t31 = t32 + t21)
    (hb : calcB q1 q3 u1 u3 t31 t32 t21 mu ≠ 0) (hq : norm q2 ≠ 0) {l : ℝ × ℝ} (hl : calcLambdas r t31 t32 t21 mu = .ok l)
    {rho : V3 × V3 × V3} (h : calcRhos l.1 l.2 q1 q2 q3 u1 u2 u3 (calcV u1 u2 u3) = .ok rho) :
    let c0 := calcV u1 u2 u3 * t31 * norm q2 ^ 4 / calcB q1 q3 u1 u3 t31 t32 t21 mu
    let h0 := -calcA q1 q2 q3 u1 u3 t31 t32 t21 / calcB q1 q3 u1 u3 t31 t32 t21 mu
    c0 ≠ 0 ∧ r ≠ 0 ∧ ∃ k, rho.2.1 = smul k u2 ∧ k = (h0 - norm q2 ^ 3 / r ^ 3) * norm q2 / c0 := by
  unfold calcLambdas at hl
  split_ifs at hl with hz
  rw [Except.ok.injEq] at hl
  push Not at hz
  obtain ⟨ht, hr⟩ := hz
  unfold calcRhos at h
  simp only at h
  split_ifs at h with h0
  rw [Except.ok.injEq] at h
  push Not at h0
  have hv := h0.2.1
  simp only
  refine ⟨by positivity, hr, _, by rw [← h], ?_⟩
  have hA : calcA q1 q2 q3 u1 u3 t31 t32 t21 = norm q2 ^ 3 * (t32 * dot (cross u1 u3) q1 - t31 * dot (cross u1 u3) q2 +
      t21 * dot (cross u1 u3) q3) := by
    unfold calcA dot add sub smul; simp only; ring
  have hB : calcB q1 q3 u1 u3 t31 t32 t21 mu = mu / 6 * t32 * t21 * ((t31 + t32) * dot (cross u1 u3) q1 +
      (t31 + t21) * dot (cross u1 u3) q3) := by
    unfold calcB dot add smul; simp only; ring
  have hn : dot (sub (add (smul (-l.1) q1) q2) (smul l.2 q3)) (cross u1 u3) =
      -l.1 * dot (cross u1 u3) q1 + dot (cross u1 u3) q2 - l.2 * dot (cross u1 u3) q3 := by
    unfold dot add sub smul; simp only; ring
  rw [hn, ← hl, hA]
  rw [hB] at hb ⊢
  simp only
  generalize dot (cross u1 u3) q1 = d1 at *
  generalize dot (cross u1 u3) q2 = d2 at *
  generalize dot (cross u1 u3) q3 = d3 at *
  generalize norm q2 = q at *
  generalize calcV u1 u2 u3 = v at *
  clear hl h hA hn h0
  have e : ∀ b : ℝ, b ≠ 0 → ∀ a : ℝ, (-a / b - q ^ 3 / r ^ 3) * q / (v * t31 * q ^ 4 / b) = -(a * r ^ 3 + q ^ 3 * b) / (r ^ 3 * v * t31 * q ^ 3) := by
    intro b hb a
    field_simp
    ring
  rw [e _ hb]
  clear e hb hB
  field_simp
  subst h31
  ring

/-- The polynomial at a point. -/
noncomputable def evalPoly (l : List ℝ) (x : ℝ) : ℝ := l.foldl (fun s c => s * x + c) 0

theorem evalPoly_eq (c0 h0 q e x : ℝ) : evalPoly (poly c0 h0 q e) x =
    c0 ^ 2 * x ^ 8 - q ^ 2 * (h0 ^ 2 + 2 * c0 * h0 * e + c0 ^ 2) * x ^ 6 + 2 * q ^ 5 * (h0 + c0 * e) * x ^ 3 - q ^ 8 := by
  unfold evalPoly poly
  simp only [List.foldl_cons, List.foldl_nil]
  ring

theorem root_iff {c0 h0 r k : ℝ} {q2 u2 : V3} (hu : norm u2 = 1) (hq : norm q2 ≠ 0) (hc : c0 ≠ 0) (hr : 0 < r)
    (hk : k = (h0 - norm q2 ^ 3 / r ^ 3) * norm q2 / c0) :
    evalPoly (poly c0 h0 (norm q2) (dot q2 u2 / norm q2)) r = 0 ↔ norm (add q2 (smul k u2)) = r := by
  have hu' : dot u2 u2 = 1 := by rw [← norm_sq, hu]; norm_num
  have hq' := norm_sq q2
  have e : norm (add q2 (smul k u2)) ^ 2 = norm q2 ^ 2 + 2 * k * dot q2 u2 + k ^ 2 := by
    rw [norm_sq, hq']
    have : dot (add q2 (smul k u2)) (add q2 (smul k u2)) = dot q2 q2 + 2 * k * dot q2 u2 + k ^ 2 * dot u2 u2 := by
      unfold dot add smul; simp only; ring
    rw [this, hu']; ring
  have h1 : norm (add q2 (smul k u2)) = r ↔ norm (add q2 (smul k u2)) ^ 2 = r ^ 2 := by
    rw [sq_eq_sq₀ (norm_nonneg _) hr.le]
  rw [h1, e, evalPoly_eq, hk]
  generalize norm q2 = q at *
  generalize dot q2 u2 = d at *
  have hr0 := hr.ne'
  have key : c0 ^ 2 * r ^ 8 - q ^ 2 * (h0 ^ 2 + 2 * c0 * h0 * (d / q) + c0 ^ 2) * r ^ 6 + 2 * q ^ 5 * (h0 + c0 * (d / q)) * r ^ 3 - q ^ 8 =
      c0 ^ 2 * r ^ 6 * (r ^ 2 - (q ^ 2 + 2 * ((h0 - q ^ 3 / r ^ 3) * q / c0) * d + ((h0 - q ^ 3 / r ^ 3) * q / c0) ^ 2)) := by
    field_simp
    ring
  rw [key]
  have : c0 ^ 2 * r ^ 6 ≠ 0 := by positivity
  rw [mul_eq_zero, or_iff_right this, sub_eq_zero]
  exact eq_comm

end Verif.Gauss
