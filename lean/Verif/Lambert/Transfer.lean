import Verif.Lambert.Algebra

/-! # The transfer orbit: both velocities belong to one orbit, and how long it takes from one position to the other -/

namespace Verif.Lambert

open Verif Verif.Univ

section

variable {r1 r2 : V3} {prograde : Bool} {g : Geometry} {rho sg C S : ℝ} (F : Facts r1 r2 prograde g rho sg C S)
  {mu x : ℝ} (hmu : 0 < mu)

theorem y_sq {l x : ℝ} (hl : l ^ 2 < 1) : computeY x l ^ 2 = 1 - l ^ 2 * (1 - x ^ 2) := by
  unfold computeY
  rw [Real.sq_sqrt]
  nlinarith [mul_nonneg (sq_nonneg l) (sq_nonneg x)]

theorem y_gt {l : ℝ} (x : ℝ) (hl : l ^ 2 < 1) : |l * x| < computeY x l := by
  unfold computeY
  apply Real.lt_sqrt_of_sq_lt
  rw [sq_abs]
  nlinarith

theorem eta_pos {l : ℝ} (x : ℝ) (hl : l ^ 2 < 1) : 0 < computeY x l - l * x := by
  have := y_gt x hl
  linarith [le_abs_self (l * x)]

theorem zeta_pos {l : ℝ} (x : ℝ) (hl : l ^ 2 < 1) : 0 < computeY x l + l * x := by
  have := y_gt x hl
  linarith [neg_abs_le (l * x)]

/-- The radial and transverse parts of the velocities. -/
noncomputable def vr1 (mu : ℝ) (g : Geometry) (rho x y : ℝ) : ℝ := √mu * √(g.s / 2) * ((g.ll * y - x) - rho * (g.ll * y + x)) / g.r1Norm
noncomputable def vr2 (mu : ℝ) (g : Geometry) (rho x y : ℝ) : ℝ := -(√mu * √(g.s / 2)) * ((g.ll * y - x) + rho * (g.ll * y + x)) / g.r2Norm
noncomputable def vt1 (mu : ℝ) (g : Geometry) (sg x y : ℝ) : ℝ := √mu * √(g.s / 2) * sg * (y + g.ll * x) / g.r1Norm
noncomputable def vt2 (mu : ℝ) (g : Geometry) (sg x y : ℝ) : ℝ := √mu * √(g.s / 2) * sg * (y + g.ll * x) / g.r2Norm

include F hmu

theorem velocities_eq (y : ℝ) : velocities mu g x y =
    (V3.add (V3.smul (vr1 mu g rho x y) g.ir1) (V3.smul (vt1 mu g sg x y) g.it1),
     V3.add (V3.smul (vr2 mu g rho x y) g.ir2) (V3.smul (vt2 mu g sg x y) g.it2)) := by
  unfold velocities vr1 vr2 vt1 vt2
  simp only [← F.hrho, ← F.hsg]
  rw [mul_div_assoc mu, Real.sqrt_mul hmu.le]

omit hmu in
theorem it1_dot : V3.dot g.ir1 g.it1 = 0 ∧ V3.dot g.it1 g.it1 = 1 := by
  have n1 := F.n1; have n2 := F.n2; have n12 := F.n12; have hCS := F.hCS; have hS := F.S0
  rw [F.t1]
  constructor
  · have : V3.dot g.ir1 (V3.smul (1 / S) (V3.sub g.ir2 (V3.smul C g.ir1))) =
      1 / S * (V3.dot g.ir1 g.ir2 - C * V3.dot g.ir1 g.ir1) := by simp [V3.dot, V3.smul, V3.sub]; ring
    rw [this, n1, n12]; ring
  · have : V3.dot (V3.smul (1 / S) (V3.sub g.ir2 (V3.smul C g.ir1))) (V3.smul (1 / S) (V3.sub g.ir2 (V3.smul C g.ir1))) =
      1 / S ^ 2 * (V3.dot g.ir2 g.ir2 - 2 * C * V3.dot g.ir1 g.ir2 + C ^ 2 * V3.dot g.ir1 g.ir1) := by
        simp [V3.dot, V3.smul, V3.sub]; ring
    rw [this, n1, n12, n2]
    field_simp
    linarith

theorem cross_eq (y : ℝ) : V3.cross r1 (velocities mu g x y).1 =
      V3.smul (√mu * √(g.s / 2) * sg * (y + g.ll * x) / (g.r1Norm * g.r2Norm * S)) (V3.cross r1 r2) ∧
    V3.cross r2 (velocities mu g x y).2 =
      V3.smul (√mu * √(g.s / 2) * sg * (y + g.ll * x) / (g.r1Norm * g.r2Norm * S)) (V3.cross r1 r2) := by
  have p1 := F.r1pos.ne'; have p2 := F.r2pos.ne'; have hS := F.S0
  rw [velocities_eq F hmu]
  simp only
  rw [F.t1, F.t2]
  unfold vr1 vr2 vt1 vt2
  constructor
  · conv_lhs => rw [F.e1]
    conv_rhs => rw [F.e1, F.e2]
    ext <;> simp only [V3.cross, V3.add, V3.smul, V3.sub] <;> field_simp <;> ring
  · conv_lhs => rw [F.e2]
    conv_rhs => rw [F.e1, F.e2]
    ext <;> simp only [V3.cross, V3.add, V3.smul, V3.sub] <;> field_simp <;> ring

theorem v1_dot (y : ℝ) : V3.dot (velocities mu g x y).1 (velocities mu g x y).1 = vr1 mu g rho x y ^ 2 + vt1 mu g sg x y ^ 2 ∧
    V3.dot r1 (velocities mu g x y).1 = g.r1Norm * vr1 mu g rho x y := by
  obtain ⟨d1, d2⟩ := it1_dot F
  have n1 := F.n1
  rw [velocities_eq F hmu]
  simp only
  constructor
  · have : ∀ a b : ℝ, V3.dot (V3.add (V3.smul a g.ir1) (V3.smul b g.it1)) (V3.add (V3.smul a g.ir1) (V3.smul b g.it1)) =
      a ^ 2 * V3.dot g.ir1 g.ir1 + 2 * a * b * V3.dot g.ir1 g.it1 + b ^ 2 * V3.dot g.it1 g.it1 := by
        intro a b; simp [V3.dot, V3.smul, V3.add]; ring
    rw [this, n1, d1, d2]; ring
  · have : ∀ a b c : ℝ, V3.dot (V3.smul c g.ir1) (V3.add (V3.smul a g.ir1) (V3.smul b g.it1)) =
      c * (a * V3.dot g.ir1 g.ir1 + b * V3.dot g.ir1 g.it1) := by
        intro a b c; simp [V3.dot, V3.smul, V3.add]; ring
    conv_lhs => rw [F.e1]
    rw [this, n1, d1]; ring

omit hmu in
theorem norm_r1 : V3.norm r1 = g.r1Norm := by
  have h1 : V3.norm r1 ^ 2 = g.r1Norm ^ 2 := by
    rw [V3.norm_sq, F.e1, smul_dot, F.n1]; ring
  exact (pow_left_inj₀ (V3.norm_nonneg _) F.r1pos.le two_ne_zero).mp h1

omit hmu in
theorem norm_r2 : V3.norm r2 = g.r2Norm := by
  have h1 : V3.norm r2 ^ 2 = g.r2Norm ^ 2 := by
    rw [V3.norm_sq, F.e2, smul_dot, F.n2]; ring
  exact (pow_left_inj₀ (V3.norm_nonneg _) F.r2pos.le two_ne_zero).mp h1

theorem alpha_eq : alpha mu r1 (velocities mu g x (computeY x g.ll)).1 = 2 * (1 - x ^ 2) / g.s := by
  have hy := y_sq (x := x) F.hl
  set y := computeY x g.ll
  have hs := F.spos; have p1 := F.r1pos
  have hq := Real.sq_sqrt (show 0 ≤ g.s / 2 by linarith)
  have hm := Real.sq_sqrt hmu.le
  unfold alpha
  rw [V3.norm_sq, (v1_dot F hmu y).1, norm_r1 F]
  have k4 := K4 (rho := rho) hy F.sgsq
  have e : vr1 mu g rho x y ^ 2 + vt1 mu g sg x y ^ 2 = mu * (g.s / 2) / g.r1Norm ^ 2 *
      (((g.ll * y - x) - rho * (g.ll * y + x)) ^ 2 + (sg * (y + g.ll * x)) ^ 2) := by
    unfold vr1 vt1
    rw [← hm, ← hq]
    simp only [Real.sqrt_sq (Real.sqrt_nonneg _)]
    ring
  rw [e, k4]
  have hR : (1 + g.ll ^ 2) + rho * (1 - g.ll ^ 2) = 2 * g.r1Norm / g.s := by rw [F.h1]; field_simp
  rw [hR]
  field_simp
  ring

theorem sigma_eq' (y : ℝ) : Univ.sigma mu r1 (velocities mu g x y).1 = √(g.s / 2) * ((g.ll * y - x) - rho * (g.ll * y + x)) := by
  have hm := Real.sqrt_pos.mpr hmu
  have p1 := F.r1pos
  unfold Univ.sigma
  rw [norm_r1 F, (v1_dot F hmu y).2]
  unfold vr1
  field_simp

omit hmu in
theorem halfs : √(g.s / 2) ^ 2 = g.s / 2 ∧ 0 < √(g.s / 2) := by
  have hs := F.spos
  exact ⟨Real.sq_sqrt (by linarith), Real.sqrt_pos.mpr (by linarith)⟩

/-- With `p2 = s η²` and `p1 = √(2s) η (x y + λ (1 - x²))` in place of the universal functions, the Lagrange coefficients lead from
the first state to the second. -/
theorem transfer : let y := computeY x g.ll; let v := velocities mu g x y
    let p2 := g.s * (y - g.ll * x) ^ 2; let p1 := 2 * √(g.s / 2) * (y - g.ll * x) * (x * y + g.ll * (1 - x ^ 2))
    let p0 := 1 - 2 * (1 - x ^ 2) / g.s * p2; let sig := √(g.s / 2) * ((g.ll * y - x) - rho * (g.ll * y + x))
    p1 ^ 2 = 2 * p2 - 2 * (1 - x ^ 2) / g.s * p2 ^ 2 ∧
    g.r2Norm = g.r1Norm * p0 + sig * p1 + p2 ∧
    sig * p2 + g.r1Norm * p1 = 2 * √(g.s / 2) * g.s * (y - g.ll * x) * g.ll ∧
    r2 = V3.add (V3.smul (1 - p2 / g.r1Norm) r1) (V3.smul ((sig * p2 + g.r1Norm * p1) / √mu) v.1) ∧
    v.2 = V3.add (V3.smul (√mu / g.r2Norm * -(p1 / g.r1Norm)) r1)
      (V3.smul (√mu / g.r2Norm * ((sig * p1 + g.r1Norm * p0) / √mu)) v.1) := by
  intro y v p2 p1 p0 sig
  have hy : y ^ 2 = 1 - g.ll ^ 2 * (1 - x ^ 2) := y_sq (x := x) F.hl
  clear_value y
  obtain ⟨hq, hqpos⟩ := halfs F
  set q := √(g.s / 2) with hqdef
  have hm := Real.sqrt_pos.mpr hmu
  have spos := F.spos; have P1 := F.r1pos; have P2 := F.r2pos; have hS := F.S0; have sgpos := F.sgpos
  have hs2 : g.s = 2 * q ^ 2 := by rw [hq]; ring
  have k1 := K1 (rho := rho) hy
  have k2 := K2 hy
  have hp1 : p1 ^ 2 = 2 * p2 - 2 * (1 - x ^ 2) / g.s * p2 ^ 2 := by
    have e : 2 * (1 - x ^ 2) / g.s * p2 ^ 2 = 2 * (1 - x ^ 2) * g.s * (y - g.ll * x) ^ 4 := by
      simp only [p2]; field_simp
    rw [e]
    simp only [p1, p2]
    rw [hs2]
    grind
  have hG : sig * p2 + g.r1Norm * p1 = 2 * q * g.s * (y - g.ll * x) * g.ll := by
    simp only [sig, p2, p1]
    rw [F.h1]
    linear_combination q * g.s * (y - g.ll * x) * k1
  have hR : g.r2Norm = g.r1Norm * p0 + sig * p1 + p2 := by
    have e : g.r1Norm * p0 = g.r1Norm - 2 * (1 - x ^ 2) * (g.r1Norm * (y - g.ll * x) ^ 2) := by
      simp only [p0, p2]; field_simp
    rw [e]
    simp only [sig, p1, p2]
    rw [F.h1, F.h2]
    linear_combination g.s * K6 (rho := rho) hy +
      ((g.ll * y - x) - rho * (g.ll * y + x)) * (y - g.ll * x) * (x * y + g.ll * (1 - x ^ 2)) * hs2
  have hRp : sig * p1 + g.r1Norm * p0 = g.r2Norm - p2 := by rw [hR]; ring
  have hvt1 : vt1 mu g sg x y = √mu * q * sg * (y + g.ll * x) / g.r1Norm := rfl
  -- the four scalar equations
  have hez : (y - g.ll * x) * (y + g.ll * x) = 1 - g.ll ^ 2 := by linear_combination hy
  have E1 : (sig * p2 + g.r1Norm * p1) / √mu * vt1 mu g sg x y = g.r2Norm * S := by
    rw [hG, hvt1]
    field_simp
    linear_combination (-1) * F.hS + 2 * q ^ 2 * g.s * g.ll * sg * hez + g.s * g.ll * sg * (1 - g.ll ^ 2) * (-hs2)
  have E2 : (1 - p2 / g.r1Norm) * g.r1Norm + (sig * p2 + g.r1Norm * p1) / √mu * vr1 mu g rho x y = C * g.r2Norm := by
    rw [hG]
    unfold vr1
    rw [← hqdef]
    have hC := F.hC
    field_simp
    simp only [p2]
    have key : g.r1Norm ^ 2 - g.s * (y - g.ll * x) ^ 2 * g.r1Norm +
        g.s ^ 2 * (y - g.ll * x) * g.ll * ((g.ll * y - x) - rho * (g.ll * y + x)) =
        2 * g.s ^ 2 * g.ll ^ 2 - g.r1Norm * g.r2Norm := by
      rw [F.h1, F.h2]
      linear_combination g.s ^ 2 * g.ll * k1 - g.s ^ 2 * ((1 + g.ll ^ 2) + rho * (1 - g.ll ^ 2)) / 2 * k2
    linear_combination key - hC - g.s * (y - g.ll * x) * g.ll * ((g.ll * y - x) - rho * (g.ll * y + x)) * hs2
  have E3 : (g.r2Norm - p2) / g.r2Norm * vt1 mu g sg x y = vr2 mu g rho x y * S + vt2 mu g sg x y * C := by
    have key : (g.r2Norm - p2) * g.r2Norm * (y + g.ll * x) = -((g.ll * y - x) + rho * (g.ll * y + x)) * (g.ll * g.s ^ 2 * (1 - g.ll ^ 2)) +
        (y + g.ll * x) * (2 * g.s ^ 2 * g.ll ^ 2 - g.r1Norm * g.r2Norm) := by
      simp only [p2]
      rw [F.h1, F.h2]
      linear_combination g.s ^ 2 * K7 (rho := rho) hy
    rw [hvt1]
    unfold vr2 vt2
    rw [← hqdef]
    have e1 : S = g.ll * g.s ^ 2 * (1 - g.ll ^ 2) * sg / (g.r1Norm * g.r2Norm) := by rw [← F.hS]; field_simp
    have e2 : C = (2 * g.s ^ 2 * g.ll ^ 2 - g.r1Norm * g.r2Norm) / (g.r1Norm * g.r2Norm) := by rw [← F.hC]; field_simp
    rw [e1, e2]
    field_simp
    linear_combination key
  have E4 : -(√mu * p1) / g.r2Norm + (g.r2Norm - p2) / g.r2Norm * vr1 mu g rho x y - C * vr2 mu g rho x y + vt2 mu g sg x y * S = 0 := by
    have k5 := K5 (rho := rho) hy F.sgsq
    simp only at k5
    unfold vr1 vr2 vt2
    rw [← hqdef]
    have e1 : S = g.ll * g.s ^ 2 * (1 - g.ll ^ 2) * sg / (g.r1Norm * g.r2Norm) := by rw [← F.hS]; field_simp
    have e2 : C = (2 * g.s ^ 2 * g.ll ^ 2 - g.r1Norm * g.r2Norm) / (g.r1Norm * g.r2Norm) := by rw [← F.hC]; field_simp
    rw [e1, e2]
    have key : -(2 * (y - g.ll * x) * (x * y + g.ll * (1 - x ^ 2))) * g.r1Norm * g.r2Norm +
        (g.r2Norm - p2) * g.r2Norm * ((g.ll * y - x) - rho * (g.ll * y + x)) +
        (2 * g.s ^ 2 * g.ll ^ 2 - g.r1Norm * g.r2Norm) * ((g.ll * y - x) + rho * (g.ll * y + x)) +
        sg ^ 2 * (y + g.ll * x) * (g.ll * g.s ^ 2 * (1 - g.ll ^ 2)) = 0 := by
      simp only [p2]
      rw [F.h1, F.h2]
      linear_combination g.s ^ 2 * k5
    have e3 : p1 = 2 * q * (y - g.ll * x) * (x * y + g.ll * (1 - x ^ 2)) := rfl
    rw [e3]
    have e4 := congrArg (fun z => √mu * q / (g.r1Norm * g.r2Norm ^ 2) * z) key
    simp only [mul_zero] at e4
    rw [← e4]
    clear_value p2 q
    field_simp
    ring
  have hv : v = (V3.add (V3.smul (vr1 mu g rho x y) g.ir1) (V3.smul (vt1 mu g sg x y) g.it1),
     V3.add (V3.smul (vr2 mu g rho x y) g.ir2) (V3.smul (vt2 mu g sg x y) g.it2)) := velocities_eq F hmu y
  have hCS := F.hCS
  refine ⟨hp1, hR, hG, ?_, ?_⟩
  · rw [hv]
    simp only
    conv_lhs => rw [F.e2]
    conv_rhs => rw [F.e1, F.t1]
    generalize (sig * p2 + g.r1Norm * p1) / √mu = G at *
    generalize 1 - p2 / g.r1Norm = f at *
    generalize vr1 mu g rho x y = a at *
    generalize vt1 mu g sg x y = b at *
    clear hp1 hR hRp hG k1 k2 hez hq hs2 hy hvt1 E3 E4
    ext <;> simp only [V3.add, V3.smul, V3.sub] <;> field_simp
    · linear_combination -(g.ir2.x - C * g.ir1.x) * E1 - S * g.ir1.x * E2
    · linear_combination -(g.ir2.y - C * g.ir1.y) * E1 - S * g.ir1.y * E2
    · linear_combination -(g.ir2.z - C * g.ir1.z) * E1 - S * g.ir1.z * E2
  · rw [hv]
    simp only
    conv_rhs => rw [F.e1]
    rw [F.t1, F.t2, hRp]
    have g1 : √mu / g.r2Norm * -(p1 / g.r1Norm) * g.r1Norm = -(√mu * p1) / g.r2Norm := by field_simp
    have g2 : √mu / g.r2Norm * ((g.r2Norm - p2) / √mu) = (g.r2Norm - p2) / g.r2Norm := by field_simp
    have g3 : ∀ a b : ℝ, ∀ u : V3, V3.smul a (V3.smul b u) = V3.smul (a * b) u := by
      intro a b u; ext <;> simp only [V3.smul] <;> ring
    rw [g3 _ g.r1Norm, g1, g2]
    generalize -(√mu * p1) / g.r2Norm = A at *
    generalize (g.r2Norm - p2) / g.r2Norm = B at *
    generalize vr1 mu g rho x y = a at *
    generalize vt1 mu g sg x y = b at *
    generalize vr2 mu g rho x y = c at *
    generalize vt2 mu g sg x y = d at *
    clear hp1 hR hRp hG k1 k2 hez hq hs2 hy hvt1 E1 E2
    ext <;> simp only [V3.add, V3.smul, V3.sub] <;> field_simp
    · linear_combination -(g.ir2.x - C * g.ir1.x) * E3 - S * g.ir1.x * E4 + d * g.ir1.x * hCS
    · linear_combination -(g.ir2.y - C * g.ir1.y) * E3 - S * g.ir1.y * E4 + d * g.ir1.y * hCS
    · linear_combination -(g.ir2.z - C * g.ir1.z) * E3 - S * g.ir1.z * E4 + d * g.ir1.z * hCS

end

end Verif.Lambert
