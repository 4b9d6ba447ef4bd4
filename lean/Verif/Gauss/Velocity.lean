import Verif.Gauss.Props

/-! # Gauss' and Herrick–Gibbs' velocities: C108 -/

namespace Verif.Gauss.Props

open Verif V3

/-- The coefficients of positions that `gaussIOD` takes for those of the motion: `dt²` stands in `g` where the series has `dt³`. -/
noncomputable def seriesF (r dt : ℝ) : ℝ := 1 - MU * dt ^ 2 / (2 * r ^ 3)

noncomputable def seriesG (p : ℕ) (r dt : ℝ) : ℝ := dt - MU * dt ^ p / (6 * r ^ 3)

/-- **C108.** The velocity of Gauss' method is right for positions that are combinations of the middle position and velocity with the
coefficients `f` and `g` of the code. -/
theorem C108_gauss {r2 v : V3} {t1 t2 t3 : ℝ} {f1 f3 g1 g3 : ℝ} (hr : norm r2 ≠ 0) (hf1 : f1 = seriesF (norm r2) (t1 - t2))
    (hf3 : f3 = seriesF (norm r2) (t3 - t2)) (hg1 : g1 = seriesG 2 (norm r2) (t1 - t2)) (hg3 : g3 = seriesG 2 (norm r2) (t3 - t2))
    (hd : f1 * g3 - f3 * g1 ≠ 0) :
    calcGauss (add (smul f1 r2) (smul g1 v)) r2 (add (smul f3 r2) (smul g3 v)) t1 t2 t3 = .ok (some v) := by
  have e1 : approxLagrange (norm r2) (t1 - t2) = (f1, g1) := by
    rw [hf1, hg1]
    unfold approxLagrange seriesF seriesG
    ext <;> simp only <;> ring
  have e3 : approxLagrange (norm r2) (t3 - t2) = (f3, g3) := by
    rw [hf3, hg3]
    unfold approxLagrange seriesF seriesG
    ext <;> simp only <;> ring
  unfold calcGauss
  simp only [e1, e3]
  rw [if_neg hr, if_neg hd]
  congr 2
  unfold smul add
  ext <;> simp only <;> field_simp <;> ring

/-- **C108.** For positions with the coefficients of the series itself, the velocity of Gauss' method is wrong whenever the last
observation is a day or more after the middle one. -/
theorem C108_gauss_false {r2 v : V3} {t1 t2 t3 : ℝ} {f1 f3 g1 g3 : ℝ} (hr : norm r2 ≠ 0) (hv : v ≠ ⟨0, 0, 0⟩)
    (hf1 : f1 = seriesF (norm r2) (t1 - t2)) (hf3 : f3 = seriesF (norm r2) (t3 - t2)) (hg1 : g1 = seriesG 3 (norm r2) (t1 - t2))
    (hg3 : g3 = seriesG 3 (norm r2) (t3 - t2)) (h12 : t1 < t2) (h23 : t2 + 1 ≤ t3) (hp1 : 0 < f1) (hp3 : 0 < f3) :
    calcGauss (add (smul f1 r2) (smul g1 v)) r2 (add (smul f3 r2) (smul g3 v)) t1 t2 t3 ≠ .ok (some v) := by
  have e1 : approxLagrange (norm r2) (t1 - t2) = (f1, seriesG 2 (norm r2) (t1 - t2)) := by
    rw [hf1]
    unfold approxLagrange seriesF seriesG
    ext <;> simp only <;> ring
  have e3 : approxLagrange (norm r2) (t3 - t2) = (f3, seriesG 2 (norm r2) (t3 - t2)) := by
    rw [hf3]
    unfold approxLagrange seriesF seriesG
    ext <;> simp only <;> ring
  unfold calcGauss
  simp only [e1, e3]
  rw [if_neg hr]
  by_cases hd : f1 * seriesG 2 (norm r2) (t3 - t2) - f3 * seriesG 2 (norm r2) (t1 - t2) = 0
  · rw [if_pos hd]
    intro h
    cases h
  rw [if_neg hd]
  intro h
  simp only [Except.ok.injEq, Option.some.injEq] at h
  have hlt : f1 * seriesG 3 (norm r2) (t3 - t2) - f3 * seriesG 3 (norm r2) (t1 - t2) <
      f1 * seriesG 2 (norm r2) (t3 - t2) - f3 * seriesG 2 (norm r2) (t1 - t2) := by
    have hrp : 0 < norm r2 := lt_of_le_of_ne (norm_nonneg _) (Ne.symm hr)
    have hk : 0 < MU / (6 * norm r2 ^ 3) := div_pos MU_pos (by positivity)
    have a3 : 0 ≤ (t3 - t2) ^ 3 - (t3 - t2) ^ 2 := by
      have : (t3 - t2) ^ 3 - (t3 - t2) ^ 2 = (t3 - t2) ^ 2 * (t3 - t2 - 1) := by ring
      rw [this]
      exact mul_nonneg (sq_nonneg _) (by linarith)
    have a1 : (t1 - t2) ^ 3 - (t1 - t2) ^ 2 < 0 := by
      have : (t1 - t2) ^ 3 - (t1 - t2) ^ 2 = -((t1 - t2) ^ 2 * (1 - (t1 - t2))) := by ring
      rw [this, neg_lt_zero]
      exact mul_pos (sq_pos_of_ne_zero (sub_ne_zero.2 h12.ne)) (by linarith)
    have e : f1 * seriesG 2 (norm r2) (t3 - t2) - f3 * seriesG 2 (norm r2) (t1 - t2) -
        (f1 * seriesG 3 (norm r2) (t3 - t2) - f3 * seriesG 3 (norm r2) (t1 - t2)) =
        MU / (6 * norm r2 ^ 3) * (f1 * ((t3 - t2) ^ 3 - (t3 - t2) ^ 2) + f3 * -((t1 - t2) ^ 3 - (t1 - t2) ^ 2)) := by
      unfold seriesG
      ring
    have : 0 < f1 * ((t3 - t2) ^ 3 - (t3 - t2) ^ 2) + f3 * -((t1 - t2) ^ 3 - (t1 - t2) ^ 2) :=
      add_pos_of_nonneg_of_pos (mul_nonneg hp1.le a3) (mul_pos hp3 (by linarith))
    have := mul_pos hk this
    linarith
  rw [← hg1, ← hg3] at hlt
  have hne : (f1 * g3 - f3 * g1) / (f1 * seriesG 2 (norm r2) (t3 - t2) - f3 * seriesG 2 (norm r2) (t1 - t2)) ≠ 1 := by
    rw [ne_eq, div_eq_one_iff_eq hd]
    exact hlt.ne
  have hc : ∀ x y : ℝ, 1 / (f1 * seriesG 2 (norm r2) (t3 - t2) - f3 * seriesG 2 (norm r2) (t1 - t2)) *
      (-f3 * (f1 * y + g1 * x) + f1 * (f3 * y + g3 * x)) = x → x = 0 := by
    intro x y hx
    by_contra hx0
    apply hne
    have : (f1 * g3 - f3 * g1) / (f1 * seriesG 2 (norm r2) (t3 - t2) - f3 * seriesG 2 (norm r2) (t1 - t2)) * x = x := by
      rw [← hx]
      conv_lhs => rw [hx]
      ring
    exact mul_right_cancel₀ hx0 (this.trans (one_mul x).symm)
  unfold smul add at h
  apply hv
  rw [V3.ext_iff] at h
  exact V3.ext (hc _ _ h.1) (hc _ _ h.2.1) (hc _ _ h.2.2)

/-- The hypotheses are met at one astronomical unit for observations ten days apart. -/
example : (0 : ℝ) < seriesF 1 (-10) ∧ 0 < seriesF 1 10 ∧ (0 : ℝ) + 1 ≤ 10 := by
  unfold seriesF MU
  norm_num

/-- Positions that are polynomials of degree four in the time since the middle one, and their second derivative. -/
def quartic (a0 a1 a2 a3 a4 : V3) (t : ℝ) : V3 :=
  add (add (add (add a0 (smul t a1)) (smul (t ^ 2) a2)) (smul (t ^ 3) a3)) (smul (t ^ 4) a4)

def quarticAcc (a2 a3 a4 : V3) (t : ℝ) : V3 := add (add (smul 2 a2) (smul (6 * t) a3)) (smul (12 * t ^ 2) a4)

/-- **C108.** The velocity of Herrick and Gibbs is right for a motion of degree four in time that has the acceleration of gravity at the
three times. -/
theorem C108_herrick_gibbs {a0 a1 a2 a3 a4 r1 r2 r3 : V3} {t1 t2 t3 : ℝ} (h12 : t1 ≠ t2) (h23 : t2 ≠ t3) (h13 : t1 ≠ t3)
    (h1 : r1 = quartic a0 a1 a2 a3 a4 (t1 - t2)) (h2 : r2 = quartic a0 a1 a2 a3 a4 0) (h3 : r3 = quartic a0 a1 a2 a3 a4 (t3 - t2))
    (hn1 : norm r1 ≠ 0) (hn2 : norm r2 ≠ 0) (hn3 : norm r3 ≠ 0)
    (g1 : quarticAcc a2 a3 a4 (t1 - t2) = smul (-MU / norm r1 ^ 3) r1) (g2 : quarticAcc a2 a3 a4 0 = smul (-MU / norm r2 ^ 3) r2)
    (g3 : quarticAcc a2 a3 a4 (t3 - t2) = smul (-MU / norm r3 ^ 3) r3) : calcHerrickGibbs r1 r2 r3 t1 t2 t3 = some a1 := by
  have key : ∀ (x1 x2 x3 b0 b1 b2 b3 b4 k1 k2 k3 : ℝ), x1 = b0 + (t1 - t2) * b1 + (t1 - t2) ^ 2 * b2 + (t1 - t2) ^ 3 * b3 + (t1 - t2) ^ 4 * b4 →
      x2 = b0 + 0 * b1 + 0 ^ 2 * b2 + 0 ^ 3 * b3 + 0 ^ 4 * b4 →
      x3 = b0 + (t3 - t2) * b1 + (t3 - t2) ^ 2 * b2 + (t3 - t2) ^ 3 * b3 + (t3 - t2) ^ 4 * b4 →
      2 * b2 + 6 * (t1 - t2) * b3 + 12 * (t1 - t2) ^ 2 * b4 = -k1 * x1 → 2 * b2 + 6 * 0 * b3 + 12 * 0 ^ 2 * b4 = -k2 * x2 →
      2 * b2 + 6 * (t3 - t2) * b3 + 12 * (t3 - t2) ^ 2 * b4 = -k3 * x3 →
      -(t3 - t2) * (1 / ((t2 - t1) * (t3 - t1)) + k1 / 12) * x1 + (t3 - t2 - (t2 - t1)) * (1 / ((t2 - t1) * (t3 - t2)) + k2 / 12) * x2 +
        (t2 - t1) * (1 / ((t3 - t2) * (t3 - t1)) + k3 / 12) * x3 = b1 := by
    intro x1 x2 x3 b0 b1 b2 b3 b4 k1 k2 k3 e1 e2 e3 c1 c2 c3
    have n21 : t2 - t1 ≠ 0 := sub_ne_zero.2 h12.symm
    have n32 : t3 - t2 ≠ 0 := sub_ne_zero.2 h23.symm
    have n31 : t3 - t1 ≠ 0 := sub_ne_zero.2 h13.symm
    have e : -(t3 - t2) * (1 / ((t2 - t1) * (t3 - t1)) + k1 / 12) * x1 + (t3 - t2 - (t2 - t1)) * (1 / ((t2 - t1) * (t3 - t2)) + k2 / 12) * x2 +
        (t2 - t1) * (1 / ((t3 - t2) * (t3 - t1)) + k3 / 12) * x3 =
      -(t3 - t2) / ((t2 - t1) * (t3 - t1)) * x1 + (t3 - t2 - (t2 - t1)) / ((t2 - t1) * (t3 - t2)) * x2 +
        (t2 - t1) / ((t3 - t2) * (t3 - t1)) * x3 + (t3 - t2) / 12 * (-k1 * x1) - (t3 - t2 - (t2 - t1)) / 12 * (-k2 * x2) -
        (t2 - t1) / 12 * (-k3 * x3) := by ring
    rw [e, ← c1, ← c2, ← c3, e1, e2, e3]
    field_simp
    ring
  have hx : ∀ v w : V3, v = w → v.x = w.x ∧ v.y = w.y ∧ v.z = w.z := by
    rintro v w rfl
    exact ⟨rfl, rfl, rfl⟩
  obtain ⟨p1, q1, s1⟩ := hx _ _ h1
  obtain ⟨p2, q2, s2⟩ := hx _ _ h2
  obtain ⟨p3, q3, s3⟩ := hx _ _ h3
  obtain ⟨u1, v1, w1⟩ := hx _ _ g1
  obtain ⟨u2, v2, w2⟩ := hx _ _ g2
  obtain ⟨u3, v3, w3⟩ := hx _ _ g3
  unfold calcHerrickGibbs
  simp only
  rw [if_neg]
  · congr 1
    have hk : ∀ n : ℝ, MU / (12 * n ^ 3) = MU / n ^ 3 / 12 := fun n => by rw [div_div, mul_comm]
    simp only [hk]
    have hm : ∀ n : ℝ, -MU / n = -(MU / n) := fun n => neg_div _ _
    simp only [quartic, quarticAcc, add, smul, hm] at p1 q1 s1 p2 q2 s2 p3 q3 s3 u1 v1 w1 u2 v2 w2 u3 v3 w3
    ext
    · exact key _ _ _ _ _ _ _ _ _ _ _ p1 p2 p3 u1 u2 u3
    · exact key _ _ _ _ _ _ _ _ _ _ _ q1 q2 q3 v1 v2 v3
    · exact key _ _ _ _ _ _ _ _ _ _ _ s1 s2 s3 w1 w2 w3
  · simp only [sub_ne_zero.2 h13.symm, sub_ne_zero.2 h23.symm, sub_ne_zero.2 h12.symm, hn1, hn2, hn3, or_self, not_false_eq_true]

/-- The hypotheses are met by three positions on the circle of radius 1, 53° apart. -/
example : ∃ (a1 a2 a3 a4 r1 r2 r3 : V3) (h : ℝ), 0 < h ∧ a1 ≠ ⟨0, 0, 0⟩ ∧ r1 = quartic ⟨1, 0, 0⟩ a1 a2 a3 a4 (-h) ∧
    r2 = quartic ⟨1, 0, 0⟩ a1 a2 a3 a4 0 ∧ r3 = quartic ⟨1, 0, 0⟩ a1 a2 a3 a4 h ∧ norm r1 = 1 ∧ norm r2 = 1 ∧ norm r3 = 1 ∧
    quarticAcc a2 a3 a4 (-h) = smul (-MU / norm r1 ^ 3) r1 ∧ quarticAcc a2 a3 a4 0 = smul (-MU / norm r2 ^ 3) r2 ∧
    quarticAcc a2 a3 a4 h = smul (-MU / norm r3 ^ 3) r3 := by
  have hp := MU_pos
  have hh : 0 < Real.sqrt (6 / (7 * MU)) := Real.sqrt_pos.2 (by positivity)
  have hs : Real.sqrt (6 / (7 * MU)) ^ 2 = 6 / (7 * MU) := Real.sq_sqrt (by positivity)
  generalize Real.sqrt (6 / (7 * MU)) = h at hh hs
  have hm : h ^ 2 * MU = 6 / 7 := by rw [hs]; field_simp
  have n1 : V3.norm ⟨3 / 5, -4 / 5, 0⟩ = 1 := by unfold V3.norm; norm_num
  have n2 : V3.norm ⟨1, 0, 0⟩ = 1 := by unfold V3.norm; norm_num
  have n3 : V3.norm ⟨3 / 5, 4 / 5, 0⟩ = 1 := by unfold V3.norm; norm_num
  refine ⟨⟨0, 4 / (5 * h) + 4 * MU * h / 30, 0⟩, ⟨-MU / 2, 0, 0⟩, ⟨0, -4 * MU / (30 * h), 0⟩, ⟨MU / (30 * h ^ 2), 0, 0⟩,
    ⟨3 / 5, -4 / 5, 0⟩, ⟨1, 0, 0⟩, ⟨3 / 5, 4 / 5, 0⟩, h, hh, ?_, ?_, ?_, ?_, n1, n2, n3, ?_, ?_, ?_⟩
  · intro e
    have := (V3.ext_iff.1 e).2.1
    have h1 : 0 < 4 / (5 * h) + 4 * MU * h / 30 := by positivity
    simp only at this
    linarith
  · unfold quartic add smul
    ext <;> simp only
    · field_simp
      linarith
    · field_simp
      ring
    · ring
  · unfold quartic add smul
    ext <;> simp only <;> ring
  · unfold quartic add smul
    ext <;> simp only
    · field_simp
      linarith
    · field_simp
      ring
    · ring
  · rw [n1]
    unfold quarticAcc add smul
    ext <;> simp only
    · field_simp
      ring
    · field_simp
      ring
    · ring
  · rw [n2]
    unfold quarticAcc add smul
    ext <;> simp only <;> ring
  · rw [n3]
    unfold quarticAcc add smul
    ext <;> simp only
    · field_simp
      ring
    · field_simp
      ring
    · ring

end Verif.Gauss.Props
