import Verif.Gauss.Ranges
import Verif.Gauss.Gibbs
import Mathlib.Analysis.Calculus.MeanValue
import Mathlib.Analysis.Calculus.LocalExtr.Rolle
import Mathlib.Topology.Order.IntermediateValue
import Mathlib.Analysis.Real.Pi.Bounds
import Mathlib.Data.Finset.Sort

/-! # C42, C43, C106: Gauss' method and the velocity of Gibbs -/

namespace Verif.Gauss.Props

open Classical Verif V3 Univ Univ.Props

/-! ## C42 -/

/-- C42. The three topocentric vectors point along the lines of sight and put the object on positions that satisfy the coplanarity
equation with the given coefficients. -/
theorem C42_coplanar {l1 l3 : ℝ} {q1 q2 q3 u1 u2 u3 : V3} {rho : V3 × V3 × V3}
    (h : calcRhos l1 l3 q1 q2 q3 u1 u2 u3 (calcV u1 u2 u3) = .ok rho) :
    add q2 rho.2.1 = add (smul l1 (add q1 rho.1)) (smul l3 (add q3 rho.2.2)) ∧
    (∃ k1 k2 k3, rho.1 = smul k1 u1 ∧ rho.2.1 = smul k2 u2 ∧ rho.2.2 = smul k3 u3) := by
  refine ⟨coplanar rfl h, ?_⟩
  unfold calcRhos at h
  simp only at h
  split_ifs at h with h0
  rw [Except.ok.injEq] at h
  exact ⟨_, _, _, by rw [← h], by rw [← h], by rw [← h]⟩

/-- C42. The equation determines them: there is no other solution along the lines of sight. The call fails exactly if the lines of
sight are coplanar or a coefficient is zero. -/
theorem C42_unique {l1 l3 : ℝ} {q1 q2 q3 u1 u2 u3 : V3} :
    ((calcV u1 u2 u3 = 0 ∨ l1 = 0 ∨ l3 = 0) ↔ calcRhos l1 l3 q1 q2 q3 u1 u2 u3 (calcV u1 u2 u3) = .error .zeroDivision) ∧
    ∀ rho, calcRhos l1 l3 q1 q2 q3 u1 u2 u3 (calcV u1 u2 u3) = .ok rho → ∀ k1 k2 k3,
      add q2 (smul k2 u2) = add (smul l1 (add q1 (smul k1 u1))) (smul l3 (add q3 (smul k3 u3))) →
      rho = (smul k1 u1, smul k2 u2, smul k3 u3) := by
  constructor
  · unfold calcRhos
    simp only
    split_ifs with h
    · simp only [iff_true]
      rcases h with h | h | h
      · rcases mul_eq_zero.mp h with h | h
        · exact .inr (.inl h)
        · exact .inl h
      · exact .inl h
      · rcases mul_eq_zero.mp h with h | h
        · exact .inr (.inr h)
        · exact .inl h
    · push Not at h
      simp only [iff_false]
      push Not
      exact ⟨h.2.1, left_ne_zero_of_mul h.1, left_ne_zero_of_mul h.2.2⟩
  · intro rho h k1 k2 k3 he
    unfold calcRhos at h
    simp only at h
    split_ifs at h with h0
    rw [Except.ok.injEq] at h
    push Not at h0
    have hv := h0.2.1
    have hl1 : l1 ≠ 0 := left_ne_zero_of_mul h0.1
    have hl3 : l3 ≠ 0 := left_ne_zero_of_mul h0.2.2
    have hn : sub (add (smul (-l1) q1) q2) (smul l3 q3) =
        add (sub (smul (l1 * k1) u1) (smul k2 u2)) (smul (l3 * k3) u3) := by
      rw [V3.ext_iff] at he ⊢
      simp only [smul, add, sub] at he ⊢
      obtain ⟨c1, c2, c3⟩ := he
      exact ⟨by linarith, by linarith, by linarith⟩
    rw [hn] at h
    have e1 : dot (add (sub (smul (l1 * k1) u1) (smul k2 u2)) (smul (l3 * k3) u3)) (cross u2 u3) = l1 * k1 * calcV u1 u2 u3 := by
      unfold dot add sub smul cross calcV dot cross; simp only; ring
    have e2 : dot (add (sub (smul (l1 * k1) u1) (smul k2 u2)) (smul (l3 * k3) u3)) (cross u1 u3) = k2 * calcV u1 u2 u3 := by
      unfold dot add sub smul cross calcV dot cross; simp only; ring
    have e3 : dot (add (sub (smul (l1 * k1) u1) (smul k2 u2)) (smul (l3 * k3) u3)) (cross u1 u2) = l3 * k3 * calcV u1 u2 u3 := by
      unfold dot add sub smul cross calcV dot cross; simp only; ring
    rw [e1, e2, e3] at h
    rw [← h]
    refine Prod.ext ?_ (Prod.ext ?_ ?_)
    · simp only
      congr 1
      field_simp
    · simp only
      congr 1
      field_simp
    · simp only
      congr 1
      field_simp

/-- C42. A positive number is a root of the polynomial of degree eight exactly if the object, put at the range that this number leads
to, has that number as its distance from the Sun. -/
theorem C42_root {r t1 t2 t3 mu : ℝ} {q1 q2 q3 u1 u2 u3 : V3} (hu : norm u2 = 1) (hr : 0 < r) (hq : norm q2 ≠ 0)
    (hb : calcB q1 q3 u1 u3 (t3 - t1) (t3 - t2) (t2 - t1) mu ≠ 0)
    {l : ℝ × ℝ} (hl : calcLambdas r (t3 - t1) (t3 - t2) (t2 - t1) mu = .ok l)
    {rho : V3 × V3 × V3} (h : calcRhos l.1 l.2 q1 q2 q3 u1 u2 u3 (calcV u1 u2 u3) = .ok rho) :
    evalPoly (poly (calcV u1 u2 u3 * (t3 - t1) * norm q2 ^ 4 / calcB q1 q3 u1 u3 (t3 - t1) (t3 - t2) (t2 - t1) mu)
      (-calcA q1 q2 q3 u1 u3 (t3 - t1) (t3 - t2) (t2 - t1) / calcB q1 q3 u1 u3 (t3 - t1) (t3 - t2) (t2 - t1) mu)
      (norm q2) (dot q2 u2 / norm q2)) r = 0 ↔ norm (add q2 rho.2.1) = r := by
  obtain ⟨hc, -, k, hk, hk'⟩ := range_eq (q2 := q2) (u2 := u2) (by ring) hb hq hl h
  rw [hk]
  exact root_iff hu hq hc hr hk'

/-! ## C43 -/

theorem MU_pos : 0 < MU := by unfold MU; norm_num

/-- The state one period after another: the universal Kepler equation. -/
theorem FF_period {rho s a x : ℝ} (ha : 0 < a) :
    FF rho s a (x + 2 * Real.pi / Real.sqrt a) = FF rho s a x + 2 * Real.pi / (a * Real.sqrt a) := by
  have hs := Real.sqrt_pos.mpr ha
  obtain ⟨a0, a1, a2, a3⟩ := pos_form ha x
  obtain ⟨b0, b1, b2, b3⟩ := pos_form ha (x + 2 * Real.pi / Real.sqrt a)
  have e : Real.sqrt a * (x + 2 * Real.pi / Real.sqrt a) = Real.sqrt a * x + 2 * Real.pi := by field_simp
  rw [e, Real.sin_add_two_pi] at b1 b3
  rw [e, Real.cos_add_two_pi] at b2
  unfold FF
  rw [a1, a2, a3, b1, b2, b3]
  field_simp
  ring

theorem alpha_energy {mu : ℝ} (hmu : 0 < mu) (r v : V3) : alpha mu r v = -2 * energy mu (r, v) / mu := by
  unfold alpha energy
  rw [norm_sq]
  simp only
  field_simp
  ring

/-- The anomalies of times before and after, less than one revolution apart. -/
theorem anomalies {mu : ℝ} (hmu : 0 < mu) {r v : V3} (h : cross r v ≠ ⟨0, 0, 0⟩) {d1 d3 x1 x3 : ℝ} (h1 : d1 < 0) (h3 : 0 < d3)
    (k1 : keplerF mu r v d1 x1 = 0) (k3 : keplerF mu r v d3 x3 = 0)
    (hp : ∀ a : ℝ, 0 < a → energy mu (r, v) = -mu / (2 * a) → d3 - d1 < 2 * Real.pi * Real.sqrt (a ^ 3 / mu)) :
    x1 < 0 ∧ 0 < x3 ∧ (0 < alpha mu r v → Real.sqrt (alpha mu r v) * (x3 - x1) < 2 * Real.pi) := by
  have h0 := norm_pos' (ne_zero_of_cross h)
  have hS := FF_strictMono h0 (disc_pos hmu h)
  have hm := Real.sqrt_pos.mpr hmu
  rw [keplerF_eq, sub_eq_zero] at k1 k3
  have hz : FF (norm r) (sigma mu r v) (alpha mu r v) 0 = 0 := FF_zero _ _ _
  refine ⟨hS.lt_iff_lt.mp ?_, hS.lt_iff_lt.mp ?_, fun ha => ?_⟩
  · rw [hz, k1]; exact mul_neg_of_pos_of_neg hm h1
  · rw [hz, k3]; exact mul_pos hm h3
  · have hs := Real.sqrt_pos.mpr ha
    have hper := FF_period (rho := norm r) (s := sigma mu r v) (x := x1) ha
    have hlt : x3 < x1 + 2 * Real.pi / Real.sqrt (alpha mu r v) := by
      refine hS.lt_iff_lt.mp ?_
      rw [hper, k1, k3]
      have hp' := hp (1 / alpha mu r v) (by positivity) (by
        have := alpha_energy hmu r v
        rw [this]
        have he : energy mu (r, v) ≠ 0 := by
          intro he
          rw [he] at this
          simp at this
          exact ha.ne' this
        field_simp)
      have hsq : Real.sqrt ((1 / alpha mu r v) ^ 3 / mu) = 1 / (Real.sqrt mu * (alpha mu r v * Real.sqrt (alpha mu r v))) := by
        rw [show (1 / alpha mu r v) ^ 3 / mu = (1 / (Real.sqrt mu * (alpha mu r v * Real.sqrt (alpha mu r v)))) ^ 2 by
          rw [div_pow, div_pow, mul_pow, mul_pow, Real.sq_sqrt hmu.le, Real.sq_sqrt ha.le]
          field_simp]
        exact Real.sqrt_sq (by positivity)
      rw [hsq] at hp'
      have h5 := mul_lt_mul_of_pos_left hp' hm
      have h6 : Real.sqrt mu * (2 * Real.pi * (1 / (Real.sqrt mu * (alpha mu r v * Real.sqrt (alpha mu r v))))) =
          2 * Real.pi / (alpha mu r v * Real.sqrt (alpha mu r v)) := by field_simp
      rw [h6] at h5
      linarith
    have : Real.sqrt (alpha mu r v) * (x3 - x1) < Real.sqrt (alpha mu r v) * (2 * Real.pi / Real.sqrt (alpha mu r v)) :=
      mul_lt_mul_of_pos_left (by linarith) hs
    rwa [mul_div_cancel₀ _ hs.ne'] at this

/-- Gibbs' velocity for positions of one motion about a body with any gravitational parameter. -/
theorem gibbs_motion {mu : ℝ} (hmu : 0 < mu) {p q : ℝ → E3} (hm : IsMotion mu p q) {t1 t2 t3 : ℝ} {r1 r2 r3 v2 : V3} (h1 : p t1 = r1.toE)
    (h2 : p t2 = r2.toE) (h2' : q t2 = v2.toE) (h3 : p t3 = r3.toE) (hc : cross r2 v2 ≠ ⟨0, 0, 0⟩) (h12 : t1 < t2) (h23 : t2 < t3)
    (hp : ∀ a : ℝ, 0 < a → energy mu (r2, v2) = -mu / (2 * a) → t3 - t1 < 2 * Real.pi * Real.sqrt (a ^ 3 / mu)) :
    calcGibbs r1 r2 r3 = some (smul (Real.sqrt MU / Real.sqrt mu) v2) := by
  obtain ⟨x1, k1, -⟩ := exists_unique_chi hmu hc (t1 - t2)
  obtain ⟨x3, k3, -⟩ := exists_unique_chi hmu hc (t3 - t2)
  have e1 := toE_injective ((C35_newton hmu hc hm h2 h2' t1 k1).1.trans h1)
  have e3 := toE_injective ((C35_newton hmu hc hm h2 h2' t3 k3).1.trans h3)
  obtain ⟨a1, a3, ap⟩ := anomalies hmu hc (sub_neg.mpr h12) (sub_pos.mpr h23) k1 k3 (by
    intro a ha he
    have := hp a ha he
    linarith)
  have hpos := area_pos a1 a3 ap
  have := gibbs_anomaly hc hmu k1 k3 hpos.ne'
  rw [e1, e3, sign_pos hpos] at this
  rw [this]
  simp

/-- C43. For three positions of one motion around the Sun under Newton's law, at times in order and within one revolution if the motion is
elliptic, Gibbs' method returns the velocity at the second position. -/
theorem C43_gibbs {p q : ℝ → E3} (hm : IsMotion MU p q) {t1 t2 t3 : ℝ} {r1 r2 r3 v2 : V3} (h1 : p t1 = r1.toE)
    (h2 : p t2 = r2.toE) (h2' : q t2 = v2.toE) (h3 : p t3 = r3.toE) (hc : cross r2 v2 ≠ ⟨0, 0, 0⟩) (h12 : t1 < t2) (h23 : t2 < t3)
    (hp : ∀ a : ℝ, 0 < a → energy MU (r2, v2) = -MU / (2 * a) → t3 - t1 < 2 * Real.pi * Real.sqrt (a ^ 3 / MU)) :
    calcGibbs r1 r2 r3 = some v2 := by
  rw [gibbs_motion MU_pos hm h1 h2 h2' h3 hc h12 h23 hp, div_self (Real.sqrt_pos.mpr MU_pos).ne']
  congr 1
  unfold smul
  ext <;> simp

/-- C43. For a motion about another body the speed is wrong by the square root of the ratio of the gravitational parameters: the one that
`gaussIOD` is given does not reach the velocity. -/
theorem C43_mu_false {mu : ℝ} (hmu : 0 < mu) (hne : mu ≠ MU) {p q : ℝ → E3} (hm : IsMotion mu p q) {t1 t2 t3 : ℝ} {r1 r2 r3 v2 : V3}
    (h1 : p t1 = r1.toE) (h2 : p t2 = r2.toE) (h2' : q t2 = v2.toE) (h3 : p t3 = r3.toE) (hc : cross r2 v2 ≠ ⟨0, 0, 0⟩) (h12 : t1 < t2)
    (h23 : t2 < t3)
    (hp : ∀ a : ℝ, 0 < a → energy mu (r2, v2) = -mu / (2 * a) → t3 - t1 < 2 * Real.pi * Real.sqrt (a ^ 3 / mu)) :
    calcGibbs r1 r2 r3 = some (smul (Real.sqrt (MU / mu)) v2) ∧ calcGibbs r1 r2 r3 ≠ some v2 := by
  have e := gibbs_motion hmu hm h1 h2 h2' h3 hc h12 h23 hp
  rw [← Real.sqrt_div MU_pos.le] at e
  refine ⟨e, ?_⟩
  rw [e]
  intro h
  rw [Option.some.injEq] at h
  have hk : Real.sqrt (MU / mu) ≠ 1 := by
    intro h1
    rw [Real.sqrt_eq_one, div_eq_one_iff_eq hmu.ne'] at h1
    exact hne h1.symm
  have hz : v2 = ⟨0, 0, 0⟩ := by
    rw [V3.ext_iff] at h ⊢
    simp only [smul] at h ⊢
    have f : ∀ x : ℝ, Real.sqrt (MU / mu) * x = x → x = 0 := by
      intro x hx
      have : (Real.sqrt (MU / mu) - 1) * x = 0 := by linarith
      exact (mul_eq_zero.mp this).resolve_left (sub_ne_zero.mpr hk)
    exact ⟨f _ h.1, f _ h.2.1, f _ h.2.2⟩
  apply hc
  rw [hz]
  simp [cross]

/-- The circular orbit of radius 1. -/
noncomputable def v0 : V3 := ⟨0, Real.sqrt MU, 0⟩

theorem circ : alpha MU ⟨1, 0, 0⟩ v0 = 1 ∧ sigma MU ⟨1, 0, 0⟩ v0 = 0 ∧ V3.norm ⟨1, 0, 0⟩ = 1 ∧ cross ⟨1, 0, 0⟩ v0 ≠ ⟨0, 0, 0⟩ := by
  have hm := Real.sqrt_pos.mpr MU_pos
  have h1 : V3.norm ⟨1, 0, 0⟩ = 1 := by simp [V3.norm]
  have h2 : norm v0 ^ 2 = MU := by
    rw [norm_sq]
    unfold dot v0
    simp only
    rw [mul_zero, zero_add, add_zero, Real.mul_self_sqrt MU_pos.le]
  refine ⟨?_, ?_, h1, ?_⟩
  · unfold alpha
    rw [h1, h2, neg_div, div_self MU_pos.ne']
    norm_num
  · unfold sigma dot v0
    simp
  · intro h
    have := congrArg V3.z h
    simp only [cross, v0] at this
    linarith

/-- C43. The velocity has the wrong sign for positions further apart than one revolution. -/
theorem C43_revolution_false : ∃ (p q : ℝ → E3) (t1 t2 t3 : ℝ) (r1 r2 r3 v2 : V3), IsMotion MU p q ∧ p t1 = r1.toE ∧ p t2 = r2.toE ∧
    q t2 = v2.toE ∧ p t3 = r3.toE ∧ cross r2 v2 ≠ ⟨0, 0, 0⟩ ∧ t1 < t2 ∧ t2 < t3 ∧ calcGibbs r1 r2 r3 = some (smul (-1) v2) := by
  obtain ⟨ca, cs, cn, cc⟩ := circ
  have hm := Real.sqrt_pos.mpr MU_pos
  obtain ⟨p, q, hpq, hp0, hq0⟩ := C35_motion_exists MU_pos cc 0
  have key : ∀ x, keplerF MU ⟨1, 0, 0⟩ v0 (x / Real.sqrt MU) x = 0 := by
    intro x
    rw [keplerF_eq, ca, cs, cn]
    unfold FF
    obtain ⟨-, f1, f2, f3⟩ := pos_form one_pos x
    rw [f1, f2, f3, Real.sqrt_one]
    field_simp
    ring
  set x3 : ℝ := 3 * Real.pi / 2 with hx3
  have hpi := Real.pi_pos
  have hs1 : Real.sin (3 * Real.pi / 2) = -1 := by
    rw [show 3 * Real.pi / 2 = Real.pi / 2 + Real.pi by ring, Real.sin_add_pi, Real.sin_pi_div_two]
  have hc1 : Real.cos (3 * Real.pi / 2) = 0 := by
    rw [show 3 * Real.pi / 2 = Real.pi / 2 + Real.pi by ring, Real.cos_add_pi, Real.cos_pi_div_two, neg_zero]
  have hD : U1 (alpha MU ⟨1, 0, 0⟩ v0) x3 * U2 (alpha MU ⟨1, 0, 0⟩ v0) (-x3) - U1 (alpha MU ⟨1, 0, 0⟩ v0) (-x3) * U2 (alpha MU ⟨1, 0, 0⟩ v0) x3 = -2 := by
    rw [ca]
    obtain ⟨-, f1, f2, -⟩ := pos_form one_pos x3
    obtain ⟨-, g1, g2, -⟩ := pos_form one_pos (-x3)
    rw [f1, f2, g1, g2, Real.sqrt_one, one_mul, one_mul, Real.sin_neg, Real.cos_neg, hx3, hs1, hc1]
    norm_num
  have k1 := key (-x3)
  have k3 := key x3
  have hg := gibbs_anomaly cc MU_pos k1 k3 (by rw [hD]; norm_num)
  refine ⟨p, q, -x3 / Real.sqrt MU, 0, x3 / Real.sqrt MU, (stateAt MU ⟨1, 0, 0⟩ v0 (-x3 / Real.sqrt MU) (-x3)).1, ⟨1, 0, 0⟩,
    (stateAt MU ⟨1, 0, 0⟩ v0 (x3 / Real.sqrt MU) x3).1, v0, hpq, ?_, hp0, hq0, ?_, cc, ?_, by positivity, ?_⟩
  rotate_left 3
  · rw [hg, hD, div_self hm.ne', sign_neg (by norm_num)]
    simp
  · have := (C35_newton MU_pos cc hpq hp0 hq0 (-x3 / Real.sqrt MU) (x := -x3) (by rw [sub_zero]; exact k1)).1
    rw [sub_zero] at this
    exact this.symm
  · have := (C35_newton MU_pos cc hpq hp0 hq0 (x3 / Real.sqrt MU) (x := x3) (by rw [sub_zero]; exact k3)).1
    rw [sub_zero] at this
    exact this.symm
  · rw [neg_div]
    have : 0 < x3 / Real.sqrt MU := by positivity
    linarith

/-- A motion and times that meet the hypotheses of `C43_gibbs`: the circular orbit of radius 1, ten days apart. -/
example : ∃ (p q : ℝ → E3) (r1 r3 : V3), IsMotion MU p q ∧ p (-10) = r1.toE ∧ p 0 = V3.toE ⟨1, 0, 0⟩ ∧ q 0 = v0.toE ∧ p 10 = r3.toE ∧
    ∀ a : ℝ, 0 < a → energy MU (⟨1, 0, 0⟩, v0) = -MU / (2 * a) → (10 : ℝ) - -10 < 2 * Real.pi * Real.sqrt (a ^ 3 / MU) := by
  obtain ⟨ca, -, -, cc⟩ := circ
  obtain ⟨p, q, hpq, hp0, hq0⟩ := C35_motion_exists MU_pos cc 0
  obtain ⟨x1, k1, -⟩ := exists_unique_chi MU_pos cc (-10 - 0)
  obtain ⟨x3, k3, -⟩ := exists_unique_chi MU_pos cc (10 - 0)
  refine ⟨p, q, _, _, hpq, (C35_newton MU_pos cc hpq hp0 hq0 (-10) k1).1.symm, hp0, hq0, (C35_newton MU_pos cc hpq hp0 hq0 10 k3).1.symm, ?_⟩
  intro a ha he
  have h1 := alpha_energy MU_pos ⟨1, 0, 0⟩ v0
  rw [ca, he] at h1
  have hM := MU_pos
  have h2 : a = 1 := by
    field_simp at h1
    linarith
  rw [h2, one_pow]
  have h3 : (10 : ℝ) ≤ Real.sqrt (1 / MU) := by
    refine Real.le_sqrt_of_sq_le ?_
    unfold MU
    norm_num
  nlinarith [Real.pi_gt_three]

/-! ## C106 -/

theorem root_exists {c0 h0 q e : ℝ} (hc : c0 ≠ 0) (hq : 0 < q) : ∃ r, 0 < r ∧ evalPoly (poly c0 h0 q e) r = 0 := by
  set b := q ^ 2 * (h0 ^ 2 + 2 * c0 * h0 * e + c0 ^ 2)
  set c := 2 * q ^ 5 * (h0 + c0 * e)
  have hev : ∀ x, evalPoly (poly c0 h0 q e) x = c0 ^ 2 * x ^ 8 - b * x ^ 6 + c * x ^ 3 - q ^ 8 := evalPoly_eq c0 h0 q e
  set K := |b| + |c| + q ^ 8
  have hK : 0 < K := by positivity
  have hc2 : 0 < c0 ^ 2 := by positivity
  set X := 1 + K / c0 ^ 2 with hX
  have hX1 : 1 < X := by rw [hX]; linarith [div_pos hK hc2]
  have hX2 : K < c0 ^ 2 * X ^ 2 := by
    have h1 : K = c0 ^ 2 * (X - 1) := by rw [hX]; field_simp; ring
    rw [h1]
    refine mul_lt_mul_of_pos_left ?_ hc2
    nlinarith
  have hpos : 0 < evalPoly (poly c0 h0 q e) X := by
    rw [hev]
    have h6 : 0 < X ^ 6 := by positivity
    have h3 : X ^ 3 ≤ X ^ 6 := pow_le_pow_right₀ hX1.le (by norm_num)
    have h30 : 0 < X ^ 3 := by positivity
    have h61 : 1 ≤ X ^ 6 := one_le_pow₀ hX1.le
    have a1 := le_abs_self b
    have a2 := neg_abs_le c
    have a3 := abs_nonneg c
    have e1 : b * X ^ 6 ≤ |b| * X ^ 6 := mul_le_mul_of_nonneg_right a1 h6.le
    have e2 : -(|c| * X ^ 6) ≤ c * X ^ 3 := by nlinarith
    have e3 : q ^ 8 ≤ q ^ 8 * X ^ 6 := le_mul_of_one_le_right (by positivity) h61
    have e4 : K * X ^ 6 < c0 ^ 2 * X ^ 2 * X ^ 6 := mul_lt_mul_of_pos_right hX2 h6
    have e5 : K * X ^ 6 = |b| * X ^ 6 + |c| * X ^ 6 + q ^ 8 * X ^ 6 := by ring
    have e6 : c0 ^ 2 * X ^ 2 * X ^ 6 = c0 ^ 2 * X ^ 8 := by ring
    linarith
  have hneg : evalPoly (poly c0 h0 q e) 0 < 0 := by
    rw [hev]
    have : 0 < q ^ 8 := by positivity
    linarith
  have hcont : ContinuousOn (evalPoly (poly c0 h0 q e)) (Set.Icc 0 X) := by
    rw [show evalPoly (poly c0 h0 q e) = fun x => c0 ^ 2 * x ^ 8 - b * x ^ 6 + c * x ^ 3 - q ^ 8 from funext hev]
    fun_prop
  obtain ⟨r, hr, hr0⟩ := intermediate_value_Icc (by linarith : (0 : ℝ) ≤ X) hcont ⟨hneg.le, hpos.le⟩
  refine ⟨r, lt_of_le_of_ne hr.1 ?_, hr0⟩
  rintro rfl
  linarith

/-- Not more than three positive roots. -/
theorem roots_le_three {c0 h0 q e : ℝ} (hc : c0 ≠ 0) (hq : 0 < q) {x1 x2 x3 x4 : ℝ} (h0' : 0 < x1) (h12 : x1 < x2)
    (h23 : x2 < x3) (h34 : x3 < x4) (r1 : evalPoly (poly c0 h0 q e) x1 = 0) (r2 : evalPoly (poly c0 h0 q e) x2 = 0)
    (r3 : evalPoly (poly c0 h0 q e) x3 = 0) (r4 : evalPoly (poly c0 h0 q e) x4 = 0) : False := by
  rw [evalPoly_eq] at r1 r2 r3 r4
  generalize q ^ 2 * (h0 ^ 2 + 2 * c0 * h0 * e + c0 ^ 2) = b at *
  generalize 2 * q ^ 5 * (h0 + c0 * e) = c at *
  have hc2 : 0 < c0 ^ 2 := by positivity
  generalize c0 ^ 2 = a at *
  have hd : 0 < q ^ 8 := by positivity
  generalize q ^ 8 = d at *
  -- the polynomial over `x ^ 3`
  set G : ℝ → ℝ := fun x => a * x ^ 5 - b * x ^ 3 + c - d * (x ^ 3)⁻¹
  set G' : ℝ → ℝ := fun x => a * (5 * x ^ 4) - b * (3 * x ^ 2) - d * (-(3 * x ^ 2) / (x ^ 3) ^ 2)
  have hG : ∀ x, 0 < x → HasDerivAt G (G' x) x := by
    intro x hx
    have h5 : HasDerivAt (fun x : ℝ => x ^ 5) (5 * x ^ 4) x := by simpa using hasDerivAt_pow 5 x
    have h3 : HasDerivAt (fun x : ℝ => x ^ 3) (3 * x ^ 2) x := by simpa using hasDerivAt_pow 3 x
    have hi : HasDerivAt (fun x : ℝ => (x ^ 3)⁻¹) (-(3 * x ^ 2) / (x ^ 3) ^ 2) x := h3.fun_inv (by positivity)
    exact (((h5.const_mul a).sub (h3.const_mul b)).add_const c).sub (hi.const_mul d)
  have zG : ∀ x, 0 < x → a * x ^ 8 - b * x ^ 6 + c * x ^ 3 - d = 0 → G x = 0 := by
    intro x hx h
    have : G x = (a * x ^ 8 - b * x ^ 6 + c * x ^ 3 - d) / x ^ 3 := by
      simp only [G]
      field_simp
    rw [this, h, zero_div]
  have rolle : ∀ x y, 0 < x → x < y → G x = 0 → G y = 0 → ∃ z, x < z ∧ z < y ∧ 5 * a * (z ^ 2) ^ 4 - 3 * b * (z ^ 2) ^ 3 + 3 * d = 0 := by
    intro x y hx hxy gx gy
    obtain ⟨z, hz, hz0⟩ := exists_hasDerivAt_eq_zero hxy
      (fun w hw => (hG w (lt_of_lt_of_le hx hw.1)).continuousAt.continuousWithinAt) (gx.trans gy.symm)
      (fun w hw => hG w (lt_trans hx hw.1))
    have hzp : 0 < z := lt_trans hx hz.1
    refine ⟨z, hz.1, hz.2, ?_⟩
    simp only [G'] at hz0
    field_simp at hz0
    linear_combination hz0
  have p2 := lt_trans h0' h12
  have p3 := lt_trans p2 h23
  have p4 := lt_trans p3 h34
  obtain ⟨z1, l1, u1, e1⟩ := rolle x1 x2 h0' h12 (zG _ h0' r1) (zG _ p2 r2)
  obtain ⟨z2, l2, u2, e2⟩ := rolle x2 x3 p2 h23 (zG _ p2 r2) (zG _ p3 r3)
  obtain ⟨z3, l3, u3, e3⟩ := rolle x3 x4 p3 h34 (zG _ p3 r3) (zG _ p4 r4)
  have q1 : 0 < z1 := lt_trans h0' l1
  have hy12 : z1 ^ 2 < z2 ^ 2 := by nlinarith
  have hy23 : z2 ^ 2 < z3 ^ 2 := by nlinarith
  have hy1 : 0 < z1 ^ 2 := by positivity
  generalize z1 ^ 2 = y1 at *
  generalize z2 ^ 2 = y2 at *
  generalize z3 ^ 2 = y3 at *
  have hH : ∀ y : ℝ, HasDerivAt (fun y : ℝ => 5 * a * y ^ 4 - 3 * b * y ^ 3 + 3 * d) (5 * a * (4 * y ^ 3) - 3 * b * (3 * y ^ 2)) y := by
    intro y
    have h4 : HasDerivAt (fun x : ℝ => x ^ 4) (4 * y ^ 3) y := by simpa using hasDerivAt_pow 4 y
    have h3 : HasDerivAt (fun x : ℝ => x ^ 3) (3 * y ^ 2) y := by simpa using hasDerivAt_pow 3 y
    exact ((h4.const_mul (5 * a)).sub (h3.const_mul (3 * b))).add_const _
  have rolle2 : ∀ x y, 0 < x → x < y → 5 * a * x ^ 4 - 3 * b * x ^ 3 + 3 * d = 0 → 5 * a * y ^ 4 - 3 * b * y ^ 3 + 3 * d = 0 →
      ∃ z, x < z ∧ z < y ∧ 20 * a * z = 9 * b := by
    intro x y hx hxy gx gy
    obtain ⟨z, hz, hz0⟩ := exists_hasDerivAt_eq_zero hxy
      (fun w _ => (hH w).continuousAt.continuousWithinAt) (gx.trans gy.symm) (fun w _ => hH w)
    have hzp : 0 < z := lt_trans hx hz.1
    refine ⟨z, hz.1, hz.2, ?_⟩
    have : z ^ 2 * (20 * a * z - 9 * b) = 0 := by linear_combination hz0
    have := (mul_eq_zero.mp this).resolve_left (by positivity)
    linarith
  obtain ⟨w1, a1, b1, f1⟩ := rolle2 y1 y2 hy1 hy12 e1 e2
  obtain ⟨w2, a2, b2, f2⟩ := rolle2 y2 y3 (lt_trans hy1 hy12) hy23 e2 e3
  have : w1 = w2 := mul_left_cancel₀ (by positivity : 20 * a ≠ 0) (f1.trans f2.symm)
  linarith

/-- The polynomial of degree eight of the three observations. -/
noncomputable def obsPoly (mu : ℝ) (o : Obs) : List ℝ :=
  poly (calcV o.u1 o.u2 o.u3 * (o.t3 - o.t1) * norm o.q2 ^ 4 / calcB o.q1 o.q3 o.u1 o.u3 (o.t3 - o.t1) (o.t3 - o.t2) (o.t2 - o.t1) mu)
    (-calcA o.q1 o.q2 o.q3 o.u1 o.u3 (o.t3 - o.t1) (o.t3 - o.t2) (o.t2 - o.t1) /
      calcB o.q1 o.q3 o.u1 o.u3 (o.t3 - o.t1) (o.t3 - o.t2) (o.t2 - o.t1) mu)
    (norm o.q2) (dot o.q2 o.u2 / norm o.q2)

/-- Specification of an orbit with heliocentric distance `r`: an object on each of the lines of sight, not behind the observer at the
second, the three positions related by the coefficients of the two-body problem to third order in the time, the velocity by the chosen
method from the three positions, neither further than 300 au nor faster than 1 au/d, and the epoch, less the light time if asked for. -/
structure IsOrbit (method : String) (lightTime : Bool) (mu : ℝ) (o : Obs) (r : ℝ) (w : Iorbit) : Prop where
  positions : ∃ k1 k2 k3 : ℝ, 0 ≤ k2 ∧ w.r = add o.q2 (smul k2 o.u2) ∧
    w.r = add
      (smul ((o.t3 - o.t2) / (o.t3 - o.t1) * (1 + mu / (6 * r ^ 3) * ((o.t3 - o.t1) ^ 2 - (o.t3 - o.t2) ^ 2))) (add o.q1 (smul k1 o.u1)))
      (smul ((o.t2 - o.t1) / (o.t3 - o.t1) * (1 + mu / (6 * r ^ 3) * ((o.t3 - o.t1) ^ 2 - (o.t2 - o.t1) ^ 2))) (add o.q3 (smul k3 o.u3))) ∧
    velocity method (add o.q1 (smul k1 o.u1)) w.r (add o.q3 (smul k3 o.u3)) o.t1 o.t2 o.t3 = .ok (some w.v) ∧
    w.epoch = if lightTime then o.t2 - k2 / C else o.t2
  near : norm w.r ≤ 300
  slow : norm w.v ≤ 1

theorem C_gt : 1 < C := by unfold C; norm_num

theorem candidate_iff {method : String} {lightTime : Bool} {mu : ℝ} {o : Obs} (hu : norm o.u2 = 1) {r : ℝ} {c : Option Iorbit}
    (h : candidate method lightTime mu o r = .ok c) (w : Iorbit) : c = some w ↔ IsOrbit method lightTime mu o r w := by
  unfold candidate at h
  cases hl : calcLambdas r (o.t3 - o.t1) (o.t3 - o.t2) (o.t2 - o.t1) mu with
  | error e => rw [hl] at h; simp at h
  | ok l =>
    rw [hl] at h
    simp only at h
    cases hr : calcRhos l.1 l.2 o.q1 o.q2 o.q3 o.u1 o.u2 o.u3 (calcV o.u1 o.u2 o.u3) with
    | error e => rw [hr] at h; simp at h
    | ok rho =>
      rw [hr] at h
      simp only at h
      have hll := hl
      unfold calcLambdas at hll
      split_ifs at hll
      rw [Except.ok.injEq] at hll
      obtain ⟨hco, k1, k2, k3, e1, e2, e3⟩ := C42_coplanar hr
      have huni := (C42_unique (l1 := l.1) (l3 := l.2) (q1 := o.q1) (q2 := o.q2) (q3 := o.q3) (u1 := o.u1) (u2 := o.u2) (u3 := o.u3)).2 rho hr
      have hdot : ∀ k, dot (smul k o.u2) o.u2 = k := by
        intro k
        have : dot (smul k o.u2) o.u2 = k * dot o.u2 o.u2 := by unfold dot smul; simp only; ring
        rw [this, ← norm_sq, hu]; ring
      have hsub : ∀ k : ℝ, 0 ≤ k → norm (sub (add o.q2 (smul k o.u2)) o.q2) = k := by
        intro k hk
        have : sub (add o.q2 (smul k o.u2)) o.q2 = smul k o.u2 := by unfold sub add smul; ext <;> simp only <;> ring
        rw [this, norm_smul, hu, abs_of_nonneg hk, mul_one]
      -- any orbit of the specification has these ranges
      have hspec : IsOrbit method lightTime mu o r w → 0 ≤ k2 ∧ w.r = add o.q2 rho.2.1 ∧
          velocity method (add o.q1 rho.1) (add o.q2 rho.2.1) (add o.q3 rho.2.2) o.t1 o.t2 o.t3 = .ok (some w.v) ∧
          w.epoch = if lightTime then o.t2 - k2 / C else o.t2 := by
        rintro ⟨⟨j1, j2, j3, hj, hw, hw', hv, he⟩, -, -⟩
        have hx : rho = (smul j1 o.u1, smul j2 o.u2, smul j3 o.u3) := by
          refine huni j1 j2 j3 ?_
          rw [← hw, hw', ← hll]
        have hk : j2 = k2 := by
          have := congrArg (fun v => dot v o.u2) (e2.symm.trans (congrArg (fun p : V3 × V3 × V3 => p.2.1) hx))
          simp only [hdot] at this
          exact this.symm
        subst hk
        refine ⟨hj, by rw [hw, e2], ?_, he⟩
        rw [hx]
        simp only
        rw [← hw]
        exact hv
      rw [e2, hdot] at h
      by_cases hneg : k2 < 0
      · rw [if_pos hneg, Except.ok.injEq] at h
        subst h
        simp only [reduceCtorEq, false_iff]
        intro hw
        exact absurd (hspec hw).1 (not_le.mpr hneg)
      · rw [if_neg hneg] at h
        rw [not_lt] at hneg
        rw [← e2] at h
        cases hv : velocity method (add o.q1 rho.1) (add o.q2 rho.2.1) (add o.q3 rho.2.2) o.t1 o.t2 o.t3 with
        | error e => rw [hv] at h; simp at h
        | ok v =>
          rw [hv] at h
          cases v with
          | none =>
            simp only [Except.ok.injEq] at h
            subst h
            simp only [reduceCtorEq, false_iff]
            intro hw
            have := (hspec hw).2.2.1
            rw [hv] at this
            simp at this
          | some v =>
            simp only at h
            have hfin : ∀ hw : IsOrbit method lightTime mu o r w, w.v = v ∧ norm (add o.q2 rho.2.1) ≤ 300 ∧ norm v ≤ 1 := by
              intro hw
              obtain ⟨-, h2, h3, -⟩ := hspec hw
              rw [hv] at h3
              simp only [Except.ok.injEq, Option.some.injEq] at h3
              exact ⟨h3.symm, h2 ▸ hw.near, h3 ▸ hw.slow⟩
            obtain ⟨ep, hep⟩ : ∃ ep : ℝ, ep = if lightTime then o.t2 - k2 / C else o.t2 := ⟨_, rfl⟩
            rw [e2, hsub k2 hneg, ← hep, ← e2] at h
            split_ifs at h with hC h3
            · rw [Except.ok.injEq] at h
              subst h
              simp only [reduceCtorEq, false_iff]
              intro hw
              have := (hfin hw).2.2
              have := C_gt
              linarith
            · rw [Except.ok.injEq] at h
              subst h
              simp only [reduceCtorEq, false_iff]
              intro hw
              obtain ⟨-, g1, g2⟩ := hfin hw
              rcases h3 with h3 | h3 <;> linarith
            · rw [Except.ok.injEq] at h
              subst h
              push Not at h3
              rw [Option.some.injEq]
              constructor
              · rintro rfl
                refine ⟨⟨k1, k2, k3, hneg, by rw [e2], ?_, ?_, ?_⟩, h3.1, h3.2⟩
                · simp only
                  rw [hco, ← hll, e1, e3]
                · simp only
                  rw [← e1, ← e3]
                  exact hv
                · exact hep
              · intro hw
                obtain ⟨-, g2, -, g4⟩ := hspec hw
                have g1 := (hfin hw).1
                cases w
                simp only at g1 g2 g4
                rw [← hep] at g4
                subst g1 g2 g4
                rfl

theorem candidates_iff {method : String} {lightTime : Bool} {mu : ℝ} {o : Obs} (hu : norm o.u2 = 1) {rs : List ℝ} :
    ∀ {l : List Iorbit}, candidates method lightTime mu o rs = .ok l → ∀ w, w ∈ l ↔ ∃ r ∈ rs, IsOrbit method lightTime mu o r w := by
  induction rs with
  | nil =>
    intro l h w
    simp only [candidates, Except.ok.injEq] at h
    subst h
    simp
  | cons r rs ih =>
    intro l h w
    unfold candidates at h
    cases hc : candidate method lightTime mu o r with
    | error e => rw [hc] at h; simp at h
    | ok c =>
      rw [hc] at h
      simp only at h
      cases hcs : candidates method lightTime mu o rs with
      | error e => rw [hcs] at h; simp at h
      | ok l' =>
        rw [hcs] at h
        simp only [Except.ok.injEq] at h
        subst h
        rw [List.mem_append, Option.mem_toList, candidate_iff hu hc, ih hcs]
        simp

theorem candidates_length {method : String} {lightTime : Bool} {mu : ℝ} {o : Obs} {rs : List ℝ} :
    ∀ {l : List Iorbit}, candidates method lightTime mu o rs = .ok l → l.length ≤ rs.length := by
  induction rs with
  | nil =>
    intro l h
    simp only [candidates, Except.ok.injEq] at h
    subst h
    simp
  | cons r rs ih =>
    intro l h
    unfold candidates at h
    cases hc : candidate method lightTime mu o r with
    | error e => rw [hc] at h; simp at h
    | ok c =>
      rw [hc] at h
      simp only at h
      cases hcs : candidates method lightTime mu o rs with
      | error e => rw [hcs] at h; simp at h
      | ok l' =>
        rw [hcs] at h
        simp only [Except.ok.injEq] at h
        subst h
        have := ih hcs
        rw [List.length_append, List.length_cons]
        have : c.toList.length ≤ 1 := by cases c <;> simp
        omega

/-- The real roots that are not negative. -/
noncomputable def realRoots (roots : List ℝ → List (ℝ × ℝ)) (p : List ℝ) : List ℝ :=
  ((roots p).filter fun z => decide (z.2 = 0 ∧ 0 ≤ z.1)).map Prod.fst

theorem mem_realRoots {roots : List ℝ → List (ℝ × ℝ)} {p : List ℝ} {x : ℝ} : x ∈ realRoots roots p ↔ (x, (0 : ℝ)) ∈ roots p ∧ 0 ≤ x := by
  unfold realRoots
  simp only [List.mem_map, List.mem_filter, decide_eq_true_eq]
  constructor
  · rintro ⟨⟨a, b⟩, ⟨h1, h2, h3⟩, rfl⟩
    simp only at h2 h3
    subst h2
    exact ⟨h1, h3⟩
  · rintro ⟨h1, h2⟩
    exact ⟨(x, 0), ⟨h1, rfl, h2⟩, rfl⟩

theorem gaussIOD_ok {roots : List ℝ → List (ℝ × ℝ)} {method : String} {lightTime : Bool} {mu : ℝ} {o : Obs} {out : Option (List Iorbit)}
    (h : gaussIOD roots method lightTime mu o = .ok out) :
    calcB o.q1 o.q3 o.u1 o.u3 (o.t3 - o.t1) (o.t3 - o.t2) (o.t2 - o.t1) mu ≠ 0 ∧ norm o.q2 ≠ 0 ∧
    ((out = none ∧ realRoots roots (obsPoly mu o) = []) ∨
      ∃ l, out = some l ∧ candidates method lightTime mu o (realRoots roots (obsPoly mu o)) = .ok l) := by
  unfold gaussIOD at h
  simp only at h
  split_ifs at h with hb hq hn
  · refine ⟨hb, hq, .inl ?_⟩
    rw [Except.ok.injEq] at h
    exact ⟨h.symm, List.eq_nil_of_length_eq_zero hn⟩
  · refine ⟨hb, hq, .inr ?_⟩
    change (match candidates method lightTime mu o (realRoots roots (obsPoly mu o)) with
      | .error e => Except.error e
      | .ok l => .ok (some l)) = _ at h
    cases hc : candidates method lightTime mu o (realRoots roots (obsPoly mu o)) with
    | error e => rw [hc] at h; simp at h
    | ok l =>
      rw [hc] at h
      simp only [Except.ok.injEq] at h
      exact ⟨l, h.symm, rfl⟩

/-- C106. The orbits returned are exactly the orbits of the specification at the real roots of the polynomial that are not negative. -/
theorem C106_orbits {roots : List ℝ → List (ℝ × ℝ)} {method : String} {lightTime : Bool} {mu : ℝ} {o : Obs} {l : List Iorbit}
    (hu : norm o.u2 = 1) (h : gaussIOD roots method lightTime mu o = .ok (some l)) (w : Iorbit) :
    w ∈ l ↔ ∃ r, (r, (0 : ℝ)) ∈ roots (obsPoly mu o) ∧ 0 ≤ r ∧ IsOrbit method lightTime mu o r w := by
  obtain ⟨-, -, h | ⟨l', e, hc⟩⟩ := gaussIOD_ok h
  · simp at h
  · rw [Option.some.injEq] at e
    subst e
    rw [candidates_iff hu hc]
    constructor
    · rintro ⟨r, hr, hw⟩
      rw [mem_realRoots] at hr
      exact ⟨r, hr.1, hr.2, hw⟩
    · rintro ⟨r, h1, h2, hw⟩
      exact ⟨r, mem_realRoots.mpr ⟨h1, h2⟩, hw⟩

/-- A root that led to an orbit is its distance from the Sun. -/
theorem root_norm {method : String} {lightTime : Bool} {mu : ℝ} {o : Obs} {r : ℝ} {w : Iorbit}
    (hu : norm o.u2 = 1) (hq : norm o.q2 ≠ 0) (hb : calcB o.q1 o.q3 o.u1 o.u3 (o.t3 - o.t1) (o.t3 - o.t2) (o.t2 - o.t1) mu ≠ 0)
    (hr : 0 ≤ r) (h0 : evalPoly (obsPoly mu o) r = 0) {c : Option Iorbit} (h : candidate method lightTime mu o r = .ok c)
    (hw : c = some w) : 0 < r ∧ norm w.r = r := by
  have hsp := (candidate_iff hu h w).mp hw
  have hc := h
  unfold candidate at h
  cases hl : calcLambdas r (o.t3 - o.t1) (o.t3 - o.t2) (o.t2 - o.t1) mu with
  | error e => rw [hl] at h; simp at h
  | ok l =>
    rw [hl] at h
    simp only at h
    cases hrho : calcRhos l.1 l.2 o.q1 o.q2 o.q3 o.u1 o.u2 o.u3 (calcV o.u1 o.u2 o.u3) with
    | error e => rw [hrho] at h; simp at h
    | ok rho =>
      have hll := hl
      unfold calcLambdas at hll
      split_ifs at hll with hz
      push Not at hz
      rw [Except.ok.injEq] at hll
      have hr' : 0 < r := lt_of_le_of_ne hr (Ne.symm hz.2)
      refine ⟨hr', ?_⟩
      have := (C42_root hu hr' hq hb hl hrho).mp h0
      obtain ⟨⟨j1, j2, j3, hj, e, e', -, -⟩, -, -⟩ := hsp
      have hx : rho = (smul j1 o.u1, smul j2 o.u2, smul j3 o.u3) := by
        refine (C42_unique (l1 := l.1) (l3 := l.2) (q1 := o.q1) (q2 := o.q2) (q3 := o.q3) (u1 := o.u1) (u2 := o.u2) (u3 := o.u3)).2 rho hrho j1 j2 j3 ?_
        rw [← e, e', ← hll]
      rw [hx] at this
      rw [e]
      exact this

/-- C106. With exact roots, every orbit returned is at a distance from the Sun that is a positive root of the polynomial. -/
theorem C106_distance {roots : List ℝ → List (ℝ × ℝ)} {method : String} {lightTime : Bool} {mu : ℝ} {o : Obs} {l : List Iorbit}
    (hu : norm o.u2 = 1) (hroots : ∀ x, (x, (0 : ℝ)) ∈ roots (obsPoly mu o) → evalPoly (obsPoly mu o) x = 0)
    (h : gaussIOD roots method lightTime mu o = .ok (some l)) (w : Iorbit) (hw : w ∈ l) :
    0 < norm w.r ∧ evalPoly (obsPoly mu o) (norm w.r) = 0 := by
  obtain ⟨hb, hq, h | ⟨l', e, hc⟩⟩ := gaussIOD_ok h
  · simp at h
  · rw [Option.some.injEq] at e
    subst e
    have key : ∀ (rs : List ℝ) (l : List Iorbit), (∀ r ∈ rs, r ∈ realRoots roots (obsPoly mu o)) → candidates method lightTime mu o rs = .ok l →
        w ∈ l → 0 < norm w.r ∧ evalPoly (obsPoly mu o) (norm w.r) = 0 := by
      intro rs
      induction rs with
      | nil =>
        intro l _ hc hw
        simp only [candidates, Except.ok.injEq] at hc
        subst hc
        simp at hw
      | cons r rs ih =>
        intro l hrs hc hw
        unfold candidates at hc
        cases hc1 : candidate method lightTime mu o r with
        | error e => rw [hc1] at hc; simp at hc
        | ok c =>
          rw [hc1] at hc
          simp only at hc
          cases hcs : candidates method lightTime mu o rs with
          | error e => rw [hcs] at hc; simp at hc
          | ok l' =>
            rw [hcs] at hc
            simp only [Except.ok.injEq] at hc
            subst hc
            rw [List.mem_append, Option.mem_toList] at hw
            rcases hw with hw | hw
            · have hr := mem_realRoots.mp (hrs r (by simp))
              have hz := hroots r hr.1
              obtain ⟨g1, g2⟩ := root_norm hu hq hb hr.2 hz hc1 hw
              rw [g2]
              exact ⟨g1, hz⟩
            · exact ih l' (fun x hx => hrs x (by simp [hx])) hcs hw
    exact key _ _ (fun r hr => hr) hc hw

theorem c0_ne {method : String} {lightTime : Bool} {mu : ℝ} {o : Obs} {r : ℝ} {c : Option Iorbit}
    (h : candidate method lightTime mu o r = .ok c) : calcV o.u1 o.u2 o.u3 ≠ 0 ∧ o.t3 - o.t1 ≠ 0 := by
  unfold candidate at h
  cases hl : calcLambdas r (o.t3 - o.t1) (o.t3 - o.t2) (o.t2 - o.t1) mu with
  | error e => rw [hl] at h; simp at h
  | ok l =>
    rw [hl] at h
    simp only at h
    cases hrho : calcRhos l.1 l.2 o.q1 o.q2 o.q3 o.u1 o.u2 o.u3 (calcV o.u1 o.u2 o.u3) with
    | error e => rw [hrho] at h; simp at h
    | ok rho =>
      unfold calcLambdas at hl
      split_ifs at hl with hz
      unfold calcRhos at hrho
      simp only at hrho
      split_ifs at hrho with hy
      push Not at hz hy
      exact ⟨hy.2.1, hz.1⟩

theorem four_sorted {S : Finset ℝ} (h : 4 ≤ S.card) : ∃ x1 ∈ S, ∃ x2 ∈ S, ∃ x3 ∈ S, ∃ x4 ∈ S, x1 < x2 ∧ x2 < x3 ∧ x3 < x4 := by
  set f := S.orderEmbOfFin rfl
  have hm : ∀ i, f i ∈ S := fun i => S.orderEmbOfFin_mem rfl i
  have hlt : ∀ (i j : ℕ) (hi : i < S.card) (hj : j < S.card), i < j → f ⟨i, hi⟩ < f ⟨j, hj⟩ := by
    intro i j hi hj hij
    exact f.strictMono hij
  exact ⟨_, hm ⟨0, by omega⟩, _, hm ⟨1, by omega⟩, _, hm ⟨2, by omega⟩, _, hm ⟨3, by omega⟩,
    hlt 0 1 _ _ (by omega), hlt 1 2 _ _ (by omega), hlt 2 3 _ _ (by omega)⟩

theorem card_roots {c0 h0 q e : ℝ} (hc : c0 ≠ 0) (hq : 0 < q) {S : Finset ℝ} (h : ∀ x ∈ S, 0 < x ∧ evalPoly (poly c0 h0 q e) x = 0) : S.card ≤ 3 := by
  by_contra hn
  push Not at hn
  obtain ⟨x1, m1, x2, m2, x3, m3, x4, m4, l1, l2, l3⟩ := four_sorted (by omega : 4 ≤ S.card)
  exact roots_le_three hc hq (h x1 m1).1 l1 l2 l3 (h x1 m1).2 (h x2 m2).2 (h x3 m3).2 (h x4 m4).2

/-- C106. With exact roots there are never more than three different distances from the Sun among the orbits returned, and never more
than three orbits if no root is listed twice. -/
theorem C106_three {roots : List ℝ → List (ℝ × ℝ)} {method : String} {lightTime : Bool} {mu : ℝ} {o : Obs} {l : List Iorbit}
    (hu : norm o.u2 = 1) (hroots : ∀ x, (x, (0 : ℝ)) ∈ roots (obsPoly mu o) → evalPoly (obsPoly mu o) x = 0)
    (h : gaussIOD roots method lightTime mu o = .ok (some l)) :
    (l.map fun w : Iorbit => V3.norm w.r).toFinset.card ≤ 3 ∧ ((roots (obsPoly mu o)).Nodup → l.length ≤ 3) := by
  have hdist := C106_distance hu hroots h
  obtain ⟨hb, hq, h | ⟨l', e, hc⟩⟩ := gaussIOD_ok h
  · simp at h
  · rw [Option.some.injEq] at e
    subst e
    rcases hrs : realRoots roots (obsPoly mu o) with _ | ⟨r, rs⟩
    · rw [hrs] at hc
      simp only [candidates, Except.ok.injEq] at hc
      subst hc
      simp
    · have hcand : ∃ c, candidate method lightTime mu o r = .ok c := by
        rw [hrs] at hc
        unfold candidates at hc
        cases hc1 : candidate method lightTime mu o r with
        | error e => rw [hc1] at hc; simp at hc
        | ok c => exact ⟨c, rfl⟩
      obtain ⟨c, hcand⟩ := hcand
      obtain ⟨hv, ht⟩ := c0_ne hcand
      have hqp : 0 < norm o.q2 := lt_of_le_of_ne (norm_nonneg _) (Ne.symm hq)
      have hc0 : calcV o.u1 o.u2 o.u3 * (o.t3 - o.t1) * norm o.q2 ^ 4 / calcB o.q1 o.q3 o.u1 o.u3 (o.t3 - o.t1) (o.t3 - o.t2) (o.t2 - o.t1) mu ≠ 0 :=
        div_ne_zero (mul_ne_zero (mul_ne_zero hv ht) (pow_ne_zero _ hq)) hb
      have hcard : ∀ S : Finset ℝ, (∀ x ∈ S, 0 < x ∧ evalPoly (obsPoly mu o) x = 0) → S.card ≤ 3 := fun S hS => card_roots hc0 hqp hS
      constructor
      · refine hcard _ (fun x hx => ?_)
        rw [List.mem_toFinset, List.mem_map] at hx
        obtain ⟨w, hw, rfl⟩ := hx
        exact hdist w hw
      · intro hnd
        refine le_trans (candidates_length hc) ?_
        have hn : (realRoots roots (obsPoly mu o)).Nodup := by
          unfold realRoots
          refine List.Nodup.map_on ?_ (hnd.filter _)
          rintro ⟨a, b⟩ ha ⟨a', b'⟩ ha' hab
          simp only [List.mem_filter, decide_eq_true_eq] at ha ha' hab
          rw [Prod.mk.injEq]
          exact ⟨hab, ha.2.1.trans ha'.2.1.symm⟩
        rw [← List.toFinset_card_of_nodup hn]
        refine hcard _ (fun x hx => ?_)
        rw [List.mem_toFinset, mem_realRoots] at hx
        have hz := hroots x hx.1
        refine ⟨lt_of_le_of_ne hx.2 ?_, hz⟩
        rintro rfl
        unfold obsPoly at hz
        rw [evalPoly_eq] at hz
        have : norm o.q2 ^ 8 ≠ 0 := pow_ne_zero _ hq
        apply this
        linarith

/-- C106. Observations on lines of sight that are not coplanar always have a positive root, so that exact and complete roots never
lead to the empty array in place of an orbit table. -/
theorem C106_table {roots : List ℝ → List (ℝ × ℝ)} {method : String} {lightTime : Bool} {mu : ℝ} {o : Obs}
    (hv : calcV o.u1 o.u2 o.u3 ≠ 0) (ht : o.t1 ≠ o.t3)
    (hroots : ∀ x, 0 < x → evalPoly (obsPoly mu o) x = 0 → (x, (0 : ℝ)) ∈ roots (obsPoly mu o)) :
    gaussIOD roots method lightTime mu o ≠ .ok none := by
  intro h
  obtain ⟨hb, hq, ⟨-, h⟩ | ⟨l, e, -⟩⟩ := gaussIOD_ok h
  · have hqp : 0 < norm o.q2 := lt_of_le_of_ne (norm_nonneg _) (Ne.symm hq)
    have hc0 : calcV o.u1 o.u2 o.u3 * (o.t3 - o.t1) * norm o.q2 ^ 4 / calcB o.q1 o.q3 o.u1 o.u3 (o.t3 - o.t1) (o.t3 - o.t2) (o.t2 - o.t1) mu ≠ 0 :=
      div_ne_zero (mul_ne_zero (mul_ne_zero hv (sub_ne_zero.mpr (Ne.symm ht))) (pow_ne_zero _ hq)) hb
    obtain ⟨r, hr, hz⟩ := root_exists (h0 := -calcA o.q1 o.q2 o.q3 o.u1 o.u3 (o.t3 - o.t1) (o.t3 - o.t2) (o.t2 - o.t1) /
      calcB o.q1 o.q3 o.u1 o.u3 (o.t3 - o.t1) (o.t3 - o.t2) (o.t2 - o.t1) mu) (e := dot o.q2 o.u2 / norm o.q2) hc0 hqp
    have := mem_realRoots.mpr ⟨hroots r hr hz, hr.le⟩
    rw [h] at this
    simp at this
  · simp at e

/-- C106. Calls that fail: observers and lines of sight with `B = 0` raise ZeroDivisionError, and otherwise the observer at the Sun
raises a ValueError; a velocity method that does not exist is refused only when a root puts the object in front of the observer. -/
theorem C106_errors {roots : List ℝ → List (ℝ × ℝ)} {method : String} {lightTime : Bool} {mu : ℝ} {o : Obs} :
    (calcB o.q1 o.q3 o.u1 o.u3 (o.t3 - o.t1) (o.t3 - o.t2) (o.t2 - o.t1) mu = 0 →
      gaussIOD roots method lightTime mu o = .error .zeroDivision) ∧
    (calcB o.q1 o.q3 o.u1 o.u3 (o.t3 - o.t1) (o.t3 - o.t2) (o.t2 - o.t1) mu ≠ 0 → norm o.q2 = 0 →
      gaussIOD roots method lightTime mu o = .error .valueError) ∧
    (∀ l, gaussIOD roots method lightTime mu o = .ok (some l) → l ≠ [] → method = "gauss" ∨ method = "gibbs" ∨ method = "herrick+gibbs") ∧
    ∀ e, gaussIOD roots method lightTime mu o = .error e → e = .zeroDivision ∨ e = .valueError := by
  have hvel : ∀ r1 r2 r3 t1 t2 t3, (∀ w, velocity method r1 r2 r3 t1 t2 t3 = .ok w → method = "gauss" ∨ method = "gibbs" ∨ method = "herrick+gibbs") ∧
      ∀ e, velocity method r1 r2 r3 t1 t2 t3 = .error e → e = .zeroDivision ∨ e = .valueError := by
    intro r1 r2 r3 t1 t2 t3
    unfold velocity
    split_ifs with h1 h2 h3
    · refine ⟨fun _ _ => .inl h1, fun e he => ?_⟩
      unfold calcGauss at he
      simp only at he
      split_ifs at he
      · exact .inl (Except.error.inj he).symm
      · exact .inl (Except.error.inj he).symm
    · exact ⟨fun _ _ => .inr (.inl h2), fun e he => by simp at he⟩
    · exact ⟨fun _ _ => .inr (.inr h3), fun e he => by simp at he⟩
    · exact ⟨fun _ h => by simp at h, fun e he => .inr (Except.error.inj he).symm⟩
  have hcand : ∀ r, (∀ w, candidate method lightTime mu o r = .ok (some w) → method = "gauss" ∨ method = "gibbs" ∨ method = "herrick+gibbs") ∧
      ∀ e, candidate method lightTime mu o r = .error e → e = .zeroDivision ∨ e = .valueError := by
    intro r
    unfold candidate
    cases hl : calcLambdas r (o.t3 - o.t1) (o.t3 - o.t2) (o.t2 - o.t1) mu with
    | error e =>
      unfold calcLambdas at hl
      split_ifs at hl
      simp only [Except.error.injEq] at hl ⊢
      exact ⟨fun w hw => by simp at hw, fun e' he => .inl (he.symm.trans hl.symm)⟩
    | ok l =>
      simp only
      cases hr : calcRhos l.1 l.2 o.q1 o.q2 o.q3 o.u1 o.u2 o.u3 (calcV o.u1 o.u2 o.u3) with
      | error e =>
        unfold calcRhos at hr
        simp only at hr
        split_ifs at hr
        simp only [Except.error.injEq] at hr ⊢
        exact ⟨fun w hw => by simp at hw, fun e' he => .inl (he.symm.trans hr.symm)⟩
      | ok rho =>
        simp only
        by_cases hd : dot rho.2.1 o.u2 < 0
        · rw [if_pos hd]
          exact ⟨fun w hw => by simp at hw, fun e' he => by simp at he⟩
        · rw [if_neg hd]
          have hv' := hvel (add o.q1 rho.1) (add o.q2 rho.2.1) (add o.q3 rho.2.2) o.t1 o.t2 o.t3
          cases hv : velocity method (add o.q1 rho.1) (add o.q2 rho.2.1) (add o.q3 rho.2.2) o.t1 o.t2 o.t3 with
          | error e =>
            simp only [Except.error.injEq]
            exact ⟨fun w hw => by simp at hw, fun e' he => hv'.2 e' (by rw [hv, he])⟩
          | ok v =>
            refine ⟨fun w _ => hv'.1 v hv, fun e' he => ?_⟩
            cases v with
            | none => simp at he
            | some v =>
              simp only at he
              by_cases h1 : norm v ≥ C
              · rw [if_pos h1] at he; simp at he
              · rw [if_neg h1] at he
                by_cases h2 : norm (add o.q2 rho.2.1) > 300 ∨ norm v > 1
                · rw [if_pos h2] at he; simp at he
                · rw [if_neg h2] at he; simp at he
  have hcands : ∀ rs, (∀ l, candidates method lightTime mu o rs = .ok l → l ≠ [] → method = "gauss" ∨ method = "gibbs" ∨ method = "herrick+gibbs") ∧
      ∀ e, candidates method lightTime mu o rs = .error e → e = .zeroDivision ∨ e = .valueError := by
    intro rs
    induction rs with
    | nil =>
      refine ⟨fun l hl hne => ?_, fun e he => by simp [candidates] at he⟩
      simp only [candidates, Except.ok.injEq] at hl
      exact absurd hl.symm hne
    | cons r rs ih =>
      unfold candidates
      cases hc : candidate method lightTime mu o r with
      | error e =>
        simp only [Except.error.injEq]
        exact ⟨fun l hl => by simp at hl, fun e' he => (hcand r).2 e' (by rw [hc, he])⟩
      | ok c =>
        simp only
        cases hcs : candidates method lightTime mu o rs with
        | error e =>
          simp only [Except.error.injEq]
          exact ⟨fun l hl => by simp at hl, fun e' he => ih.2 e' (by rw [hcs, he])⟩
        | ok l' =>
          simp only [Except.ok.injEq]
          refine ⟨fun l hl hne => ?_, fun e' he => by simp at he⟩
          cases c with
          | some w => exact (hcand r).1 w hc
          | none =>
            simp only [Option.toList_none, List.nil_append] at hl
            subst hl
            exact ih.1 l' hcs hne
  refine ⟨fun h => ?_, fun h h' => ?_, fun l h hne => ?_, fun e h => ?_⟩
  · unfold gaussIOD
    simp only
    rw [if_pos h]
  · unfold gaussIOD
    simp only
    rw [if_neg h, if_pos h']
  · obtain ⟨-, -, h | ⟨l', e, hc⟩⟩ := gaussIOD_ok h
    · simp at h
    · rw [Option.some.injEq] at e
      subst e
      exact (hcands _).1 l hc hne
  · unfold gaussIOD at h
    simp only at h
    split_ifs at h
    · exact .inl (Except.error.inj h).symm
    · exact .inr (Except.error.inj h).symm
    · change (match candidates method lightTime mu o (realRoots roots (obsPoly mu o)) with
        | .error e => Except.error e
        | .ok l => .ok (some l)) = _ at h
      cases hc : candidates method lightTime mu o (realRoots roots (obsPoly mu o)) with
      | error e' =>
        rw [hc] at h
        simp only [Except.error.injEq] at h
        exact (hcands _).2 e (by rw [hc, h])
      | ok l => rw [hc] at h; simp at h

/-- Three observations, a day apart with `mu = 6`, of an object at distance 1. -/
noncomputable def o0 : Obs where
  u1 := ⟨1, 0, 0⟩
  u2 := ⟨0, 0, 1⟩
  u3 := ⟨0, 3 / 5, 4 / 5⟩
  q1 := ⟨-3 / 8, 1 / 4, 0⟩
  q2 := ⟨0, 1, -3 / 4⟩
  q3 := ⟨3 / 16, -1 / 2, -1⟩
  t1 := -1
  t2 := 0
  t3 := 1

theorem norm_of {v : V3} {c : ℝ} (hc : 0 ≤ c) (h : v.x * v.x + v.y * v.y + v.z * v.z = c ^ 2) : norm v = c := by
  unfold V3.norm
  rw [h, Real.sqrt_sq hc]

theorem o0_b : calcB o0.q1 o0.q3 o0.u1 o0.u3 (o0.t3 - o0.t1) (o0.t3 - o0.t2) (o0.t2 - o0.t1) 6 = -(6 / 5) := by
  unfold calcB o0 dot cross add smul
  norm_num

theorem o0_v : calcV o0.u1 o0.u2 o0.u3 = -(3 / 5) := by
  unfold calcV o0 dot cross
  norm_num

theorem o0_l : calcLambdas 1 (o0.t3 - o0.t1) (o0.t3 - o0.t2) (o0.t2 - o0.t1) 6 = .ok (2, 2) := by
  unfold calcLambdas o0
  simp only
  rw [if_neg (by norm_num)]
  norm_num

theorem o0_rho : calcRhos 2 2 o0.q1 o0.q2 o0.q3 o0.u1 o0.u2 o0.u3 (calcV o0.u1 o0.u2 o0.u3) =
    .ok (⟨3 / 16, 0, 0⟩, ⟨0, 0, 3 / 4⟩, ⟨0, 3 / 4, 1⟩) := by
  rw [o0_v]
  unfold calcRhos o0 dot cross add sub smul
  norm_num

theorem o0_u : norm o0.u2 = 1 := norm_of zero_le_one (by unfold o0; norm_num)

theorem o0_q : norm o0.q2 = 5 / 4 := norm_of (by norm_num) (by unfold o0; norm_num)

/-- The case meets the hypotheses of `C106_orbits`, `C106_distance` and `C106_three`, with one orbit; the roots listed are roots. -/
example : ∃ v, gaussIOD (fun _ => [(1, 0)]) "herrick+gibbs" true 6 o0 = .ok (some [⟨-(3 / 4) / C, ⟨0, 1, 0⟩, v⟩]) ∧
    norm o0.u2 = 1 ∧ evalPoly (obsPoly 6 o0) 1 = 0 := by
  have hroot : evalPoly (obsPoly 6 o0) 1 = 0 := by
    refine (C42_root o0_u one_pos (by rw [o0_q]; norm_num) (by rw [o0_b]; norm_num) o0_l o0_rho).mpr ?_
    refine norm_of zero_le_one ?_
    unfold o0 add
    norm_num
  have n1 : norm (⟨-3 / 16, 1 / 4, 0⟩ : V3) = 5 / 16 := norm_of (by norm_num) (by norm_num)
  have n2 : norm (⟨0, 1, 0⟩ : V3) = 1 := norm_of (by norm_num) (by norm_num)
  have n3 : norm (⟨3 / 16, 1 / 4, 0⟩ : V3) = 5 / 16 := norm_of (by norm_num) (by norm_num)
  have hM := MU_pos
  have hM1 : MU < 1 / 1000 := by unfold MU; norm_num
  set w : ℝ := 3 / 8 * (1 / 2 + MU / (12 * (5 / 16) ^ 3)) with hw
  have hw0 : 0 < w := by rw [hw]; positivity
  have hw1 : w < 1 := by
    rw [hw]
    have : MU / (12 * (5 / 16) ^ 3) < 1 := by
      rw [div_lt_one (by norm_num)]
      norm_num
      linarith
    linarith
  have hv : velocity "herrick+gibbs" ⟨-3 / 16, 1 / 4, 0⟩ ⟨0, 1, 0⟩ ⟨3 / 16, 1 / 4, 0⟩ (-1) 0 1 = .ok (some ⟨w, 0, 0⟩) := by
    unfold velocity calcHerrickGibbs
    rw [if_neg (by decide), if_neg (by decide), if_pos rfl]
    simp only [n1, n2, n3]
    rw [if_neg (by norm_num)]
    congr 2
    unfold add smul
    rw [V3.ext_iff]
    simp only
    refine ⟨?_, ?_, ?_⟩
    · rw [hw]; ring
    · ring
    · ring
  have hc : candidate "herrick+gibbs" true 6 o0 1 = .ok (some ⟨-(3 / 4) / C, ⟨0, 1, 0⟩, ⟨w, 0, 0⟩⟩) := by
    unfold candidate
    rw [o0_l]
    simp only
    rw [o0_rho]
    simp only
    have e1 : add o0.q1 ⟨3 / 16, 0, 0⟩ = ⟨-3 / 16, 1 / 4, 0⟩ := by unfold o0 add; norm_num
    have e2 : add o0.q2 ⟨0, 0, 3 / 4⟩ = ⟨0, 1, 0⟩ := by unfold o0 add; norm_num
    have e3 : add o0.q3 ⟨0, 3 / 4, 1⟩ = ⟨3 / 16, 1 / 4, 0⟩ := by unfold o0 add; norm_num
    have nv : norm (⟨w, 0, 0⟩ : V3) = w := norm_of hw0.le (by ring)
    rw [e1, e2, e3, if_neg (by unfold o0 dot; norm_num)]
    have : velocity "herrick+gibbs" ⟨-3 / 16, 1 / 4, 0⟩ ⟨0, 1, 0⟩ ⟨3 / 16, 1 / 4, 0⟩ o0.t1 o0.t2 o0.t3 = .ok (some ⟨w, 0, 0⟩) := hv
    rw [this]
    simp only
    rw [nv, n2, if_neg (by have := C_gt; push Not; linarith), if_neg (by push Not; constructor <;> linarith), if_pos trivial]
    have : norm (sub ⟨0, 1, 0⟩ o0.q2) = 3 / 4 := norm_of (by norm_num) (by unfold o0 sub; norm_num)
    rw [this]
    congr 3
    unfold o0
    ring
  refine ⟨⟨w, 0, 0⟩, ?_, o0_u, hroot⟩
  unfold gaussIOD
  simp only
  rw [o0_b, if_neg (by norm_num), o0_q, if_neg (by norm_num)]
  simp only [List.filter_cons, List.filter_nil, zero_le_one, and_self, decide_true, if_true, List.map_cons, List.map_nil,
    List.length_cons, List.length_nil, candidates, hc, Option.toList_some, List.append_nil]
  simp

end Verif.Gauss.Props
