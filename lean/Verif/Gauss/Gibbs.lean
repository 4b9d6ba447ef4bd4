import Verif.Gauss.Model
import Verif.Univ.Props
import Mathlib.Tactic.LinearCombination

/-! Gibbs' method for three positions of one motion. -/

namespace Verif.Gauss

open Verif V3 Univ

theorem norm_smul' (k : ℝ) (a : V3) : norm (smul k a) = |k| * norm a := by
  rw [← norm_toE, toE_smul, _root_.norm_smul, norm_toE, Real.norm_eq_abs]

/-- Gibbs' vectors in terms of the second state, for positions in the plane of the motion. -/
theorem gibbs_plane {r v : V3} {f1 g1 f3 g3 : ℝ} :
    let r1 := add (smul f1 r) (smul g1 v); let r3 := add (smul f3 r) (smul g3 v)
    let d := g3 * (1 - f1) - g1 * (1 - f3)
    let n := norm r1 * g3 - norm r3 * g1 + norm r * (f3 * g1 - g3 * f1)
    gibbsD r1 r r3 = smul d (cross r v) ∧ gibbsN r1 r r3 = smul n (cross r v) ∧
    (∀ k, norm r ≠ 0 → add (smul (k / norm r) (cross (gibbsD r1 r r3) r)) (smul k (gibbsS r1 r r3)) =
      add (smul (k * ((norm r - norm r3) * f1 + (norm r3 - norm r1) + (norm r1 - norm r) * f3 - d * dot r v / norm r)) r) (smul (k * n) v)) := by
  simp only
  generalize hN1 : norm (add (smul f1 r) (smul g1 v)) = R1
  generalize hN3 : norm (add (smul f3 r) (smul g3 v)) = R3
  have hd : gibbsD (add (smul f1 r) (smul g1 v)) r (add (smul f3 r) (smul g3 v)) =
      smul (g3 * (1 - f1) - g1 * (1 - f3)) (cross r v) := by
    unfold gibbsD add smul cross
    ext <;> simp only <;> ring
  refine ⟨hd, ?_, ?_⟩
  · unfold gibbsN
    rw [hN1, hN3]
    unfold add smul cross
    ext <;> simp only <;> ring
  · intro k hr
    rw [hd]
    unfold gibbsS
    rw [hN1, hN3]
    have h2 := norm_sq r
    generalize norm r = rho at *
    have e : ∀ d : ℝ, cross (smul d (cross r v)) r = add (smul (d * rho ^ 2) v) (smul (-(d * dot r v)) r) := by
      intro d
      rw [h2]
      unfold add smul cross dot
      ext <;> simp only <;> ring
    rw [e]
    generalize dot r v = w
    unfold add smul
    ext <;> simp only <;> field_simp <;> ring

/-- The area between three points of a conic. -/
theorem area_pos {a x1 x3 : ℝ} (h1 : x1 < 0) (h3 : 0 < x3) (hp : 0 < a → Real.sqrt a * (x3 - x1) < 2 * Real.pi) :
    0 < U1 a x3 * U2 a x1 - U1 a x1 * U2 a x3 := by
  have u1pos : ∀ y, 0 < y → y < x3 - x1 → 0 < U1 a (y / 2) := by
    intro y hy hlt
    rcases lt_trichotomy a 0 with h | h | h
    · rw [(neg_form h _).2.1]
      have hs : 0 < Real.sqrt (-a) := Real.sqrt_pos.mpr (by linarith)
      exact div_pos (Real.sinh_pos_iff.mpr (by positivity)) hs
    · rw [h, (zero_form _).2.1]; linarith
    · rw [(pos_form h _).2.1]
      have hs : 0 < Real.sqrt a := Real.sqrt_pos.mpr h
      refine div_pos (Real.sin_pos_of_pos_of_lt_pi (by positivity) ?_) hs
      have := hp h
      nlinarith
  have ext : 0 < U1 a ((x3 - x1) / 2) := by
    rcases lt_trichotomy a 0 with h | h | h
    · rw [(neg_form h _).2.1]
      have hs : 0 < Real.sqrt (-a) := Real.sqrt_pos.mpr (by linarith)
      exact div_pos (Real.sinh_pos_iff.mpr (by have : 0 < x3 - x1 := by linarith
                                               positivity)) hs
    · rw [h, (zero_form _).2.1]; linarith
    · rw [(pos_form h _).2.1]
      have hs : 0 < Real.sqrt a := Real.sqrt_pos.mpr h
      have : 0 < x3 - x1 := by linarith
      refine div_pos (Real.sin_pos_of_pos_of_lt_pi (by positivity) ?_) hs
      have := hp h
      nlinarith
  have half : ∀ x, U1 a x = 2 * U1 a (x / 2) * U0 a (x / 2) ∧ U2 a x = 2 * U1 a (x / 2) ^ 2 := by
    intro x
    obtain ⟨a0, a1, a2, -⟩ := U_add a (x / 2) (x / 2)
    obtain ⟨r0, -, r2⟩ := U_rel a (x / 2)
    rw [add_halves] at a0 a1 a2
    refine ⟨by rw [a1]; ring, ?_⟩
    rw [a2, r0]
    linear_combination -r2
  have odd : U1 a (-x1 / 2) = -U1 a (x1 / 2) ∧ U0 a (-x1 / 2) = U0 a (x1 / 2) := by
    unfold U1 U0
    have : (-x1 / 2) ^ 2 = (x1 / 2) ^ 2 := by ring
    rw [this]
    exact ⟨by ring, rfl⟩
  have hadd := (U_add a (x3 / 2) (-x1 / 2)).2.1
  rw [show x3 / 2 + -x1 / 2 = (x3 - x1) / 2 by ring, odd.1, odd.2] at hadd
  have p1 := u1pos (-x1) (by linarith) (by linarith)
  have p3 := u1pos x3 h3 (by linarith)
  rw [odd.1] at p1
  obtain ⟨e1, e2⟩ := half x1
  obtain ⟨e3, e4⟩ := half x3
  have : U1 a x3 * U2 a x1 - U1 a x1 * U2 a x3 = 4 * U1 a (x3 / 2) * (-U1 a (x1 / 2)) * U1 a ((x3 - x1) / 2) := by
    rw [e1, e2, e3, e4, hadd]; ring
  rw [this]
  exact mul_pos (mul_pos (mul_pos (by norm_num) p3) p1) ext

theorem coeff_d {rho sg w1 u1 w3 u3 m : ℝ} (hr : rho ≠ 0) (hm : m ≠ 0) :
    (sg * u3 + rho * w3) / m * (1 - (1 - u1 / rho)) - (sg * u1 + rho * w1) / m * (1 - (1 - u3 / rho)) = (w3 * u1 - w1 * u3) / m := by
  field_simp
  ring

theorem coeff_n {rho sg a w1 u1 w3 u3 z1 z3 m : ℝ} (hr : rho ≠ 0) (hm : m ≠ 0) (h1 : z1 = 1 - a * u1) (h3 : z3 = 1 - a * u3) :
    (rho * z1 + sg * w1 + u1) * ((sg * u3 + rho * w3) / m) - (rho * z3 + sg * w3 + u3) * ((sg * u1 + rho * w1) / m) +
      rho * ((1 - u3 / rho) * ((sg * u1 + rho * w1) / m) - (sg * u3 + rho * w3) / m * (1 - u1 / rho)) =
    (rho * (2 - rho * a) - sg ^ 2) * ((w3 * u1 - w1 * u3) / m) := by
  subst h1 h3
  field_simp
  ring

theorem coeff_r {rho sg a w1 u1 w3 u3 z1 z3 m : ℝ} (hr : rho ≠ 0) (hm : m ≠ 0) (h1 : z1 = 1 - a * u1) (h3 : z3 = 1 - a * u3) :
    (rho - (rho * z3 + sg * w3 + u3)) * (1 - u1 / rho) + (rho * z3 + sg * w3 + u3 - (rho * z1 + sg * w1 + u1)) +
      (rho * z1 + sg * w1 + u1 - rho) * (1 - u3 / rho) - (w3 * u1 - w1 * u3) / m * (sg * m) / rho = 0 := by
  subst h1 h3
  field_simp
  ring

/-- Gibbs' velocity for positions with universal anomalies `x1` and `x3` from the second state is plus or minus the true one, by the sign
of the area, if the attracting body is the Sun. -/
theorem gibbs_anomaly {r v : V3} (h : cross r v ≠ ⟨0, 0, 0⟩) {mu : ℝ} (hmu : 0 < mu) {d1 d3 x1 x3 : ℝ}
    (k1 : keplerF mu r v d1 x1 = 0) (k3 : keplerF mu r v d3 x3 = 0)
    (ha : U1 (alpha mu r v) x3 * U2 (alpha mu r v) x1 - U1 (alpha mu r v) x1 * U2 (alpha mu r v) x3 ≠ 0) :
    calcGibbs (stateAt mu r v d1 x1).1 r (stateAt mu r v d3 x3).1 =
      some (smul (Real.sqrt MU / Real.sqrt mu *
        (SignType.sign (U1 (alpha mu r v) x3 * U2 (alpha mu r v) x1 - U1 (alpha mu r v) x1 * U2 (alpha mu r v) x3) : ℝ)) v) := by
  have hr := ne_zero_of_cross h
  have h0 := norm_pos' hr
  have hD := disc_pos hmu h
  have hm := Real.sqrt_pos.mpr hmu
  have hsq := Real.sq_sqrt hmu.le
  have hdisc := disc_eq (v := v) hmu hr
  obtain ⟨s1, -, n1⟩ := state_coeffs hmu h k1
  obtain ⟨s3, -, n3⟩ := state_coeffs hmu h k3
  have hsig := sigma_eq (v := v) hmu hr
  have hHpos := norm_pos' h
  have hH := norm_sq (cross r v)
  rw [s1] at n1
  rw [s3] at n3
  rw [s1, s3]
  obtain ⟨eD, eN, eV⟩ := gibbs_plane (r := r) (v := v) (f1 := 1 - U2 (alpha mu r v) x1 / norm r)
    (g1 := (sigma mu r v * U2 (alpha mu r v) x1 + norm r * U1 (alpha mu r v) x1) / Real.sqrt mu)
    (f3 := 1 - U2 (alpha mu r v) x3 / norm r)
    (g3 := (sigma mu r v * U2 (alpha mu r v) x3 + norm r * U1 (alpha mu r v) x3) / Real.sqrt mu)
  rw [n1, n3] at eN eV
  have z1 := (U_rel (alpha mu r v) x1).1
  have z3 := (U_rel (alpha mu r v) x3).1
  unfold RR at eN eV
  rw [hsig] at eV
  rw [coeff_n h0.ne' hm.ne' z1 z3] at eN
  rw [coeff_d h0.ne' hm.ne'] at eD
  rw [coeff_d h0.ne' hm.ne', coeff_n h0.ne' hm.ne' z1 z3, coeff_r h0.ne' hm.ne' z1 z3] at eV
  generalize hΔ : U1 (alpha mu r v) x3 * U2 (alpha mu r v) x1 - U1 (alpha mu r v) x1 * U2 (alpha mu r v) x3 = Δ at *
  generalize hp : norm r * (2 - norm r * alpha mu r v) - sigma mu r v ^ 2 = p at *
  generalize hm' : Real.sqrt mu = m at *
  generalize hH' : norm (cross r v) = H at *
  have hN : norm (gibbsN (add (smul (1 - U2 (alpha mu r v) x1 / norm r) r)
      (smul ((sigma mu r v * U2 (alpha mu r v) x1 + norm r * U1 (alpha mu r v) x1) / m) v)) r
      (add (smul (1 - U2 (alpha mu r v) x3 / norm r) r)
      (smul ((sigma mu r v * U2 (alpha mu r v) x3 + norm r * U1 (alpha mu r v) x3) / m) v))) = p * |Δ| / m * H := by
    rw [eN, norm_smul', hH', abs_mul, abs_div, abs_of_pos hD, abs_of_pos hm]; ring
  have hDn : norm (gibbsD (add (smul (1 - U2 (alpha mu r v) x1 / norm r) r)
      (smul ((sigma mu r v * U2 (alpha mu r v) x1 + norm r * U1 (alpha mu r v) x1) / m) v)) r
      (add (smul (1 - U2 (alpha mu r v) x3 / norm r) r)
      (smul ((sigma mu r v * U2 (alpha mu r v) x3 + norm r * U1 (alpha mu r v) x3) / m) v))) = |Δ| / m * H := by
    rw [eD, norm_smul', hH', abs_div, abs_of_pos hm]
  unfold calcGibbs
  simp only
  have hΔ0 : 0 < |Δ| := abs_pos.mpr ha
  rw [if_neg, eV _ h0.ne', hN, hDn]
  · have hMU : (0 : ℝ) < MU := by unfold MU; norm_num
    have hM2 := Real.sq_sqrt hMU.le
    have hM := Real.sqrt_pos.mpr hMU
    generalize Real.sqrt MU = M at *
    have hl : Real.sqrt (MU / (p * |Δ| / m * H) / (|Δ| / m * H)) = M / (p * |Δ|) := by
      rw [show MU / (p * |Δ| / m * H) / (|Δ| / m * H) = (M / (p * |Δ|)) ^ 2 by
        rw [← hH, ← hsq] at hdisc
        rw [← hM2]
        field_simp
        rw [← hdisc]
        ring]
      exact Real.sqrt_sq (by positivity)
    rw [hl, mul_zero]
    congr 1
    have hs : M / (p * |Δ|) * (p * (Δ / m)) = M / m * (SignType.sign Δ : ℝ) := by
      have h1 := sign_mul_abs Δ
      have h2 : M / (p * |Δ|) * (p * (Δ / m)) = M / m * (Δ / |Δ|) := by field_simp
      rw [h2]
      congr 1
      rw [div_eq_iff hΔ0.ne', h1]
    rw [hs]
    unfold add smul
    ext <;> simp
  · rw [hN, hDn]
    push Not
    refine ⟨by positivity, by positivity, h0.ne'⟩

end Verif.Gauss
