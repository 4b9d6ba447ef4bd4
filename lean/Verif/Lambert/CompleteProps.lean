import Verif.Lambert.Complete
import Verif.Lambert.Mono
import Verif.Lambert.IterProps

/-! # C180, C181: which transfers there are, and that the Lambert solver's answers are among them -/

namespace Verif.Lambert.CompleteProps

open Verif Verif.Univ Verif.Univ.Props Verif.Lambert Verif.Lambert.Props Verif.Lambert.IterProps Classical

/-- The semi-major axis of the orbit of a state, from its energy. -/
noncomputable def axis (mu : ℝ) (s : V3 × V3) : ℝ := -mu / (2 * energy mu s)

/-- The period of the orbit of a state of negative energy. -/
noncomputable def period (mu : ℝ) (s : V3 × V3) : ℝ := 2 * Real.pi * √(axis mu s ^ 3 / mu)

/-- What is asked of a solution of Lambert's problem: a motion under the attraction of the centre that starts at the first position
with the first velocity, is at the second position with the second velocity after the time `t`, goes around in the sense asked for,
and has completed exactly `M` revolutions. -/
def IsTransfer (mu : ℝ) (r1 r2 : V3) (t : ℝ) (prograde : Bool) (M : ℕ) (v : V3 × V3) : Prop :=
  (∃ p q : ℝ → E3, IsMotion mu p q ∧ p 0 = r1.toE ∧ q 0 = v.1.toE ∧ p t = r2.toE ∧ q t = v.2.toE) ∧
  (if prograde then 0 < (V3.cross r1 v.1).z else (V3.cross r1 v.1).z < 0) ∧
  (if energy mu (r1, v.1) < 0 then M * period mu (r1, v.1) ≤ t ∧ t < (M + 1) * period mu (r1, v.1) else M = 0)

theorem alpha_energy {mu : ℝ} {r v : V3} (hmu : 0 < mu) (hr : r ≠ ⟨0, 0, 0⟩) : alpha mu r v = -(2 * energy mu (r, v)) / mu := by
  have h0 := norm_pos' hr
  unfold alpha energy
  simp only
  rw [V3.norm_sq]
  field_simp
  ring

theorem period_eq {mu : ℝ} {r v : V3} (hmu : 0 < mu) (hr : r ≠ ⟨0, 0, 0⟩) (he : energy mu (r, v) < 0) :
    period mu (r, v) = 2 * Real.pi / (√mu * (alpha mu r v * √(alpha mu r v))) := by
  have ha := alpha_energy (v := v) hmu hr
  have hap : 0 < alpha mu r v := by rw [ha]; exact div_pos (by linarith) hmu
  have hax : axis mu (r, v) = 1 / alpha mu r v := by unfold axis; rw [ha, one_div_div, neg_div, div_neg]
  have hq := Real.sq_sqrt hap.le
  have hm := Real.sq_sqrt hmu.le
  have p1 := Real.sqrt_pos.mpr hap
  have p2 := Real.sqrt_pos.mpr hmu
  unfold period
  rw [hax, show (1 / alpha mu r v) ^ 3 / mu = (1 / (√mu * (alpha mu r v * √(alpha mu r v)))) ^ 2 by
    rw [div_pow 1 (√mu * _), mul_pow, mul_pow, hq, hm]; field_simp, Real.sqrt_sq (by positivity)]
  ring

theorem cross_ne {r1 r2 : V3} (hz : (V3.cross r1 r2).z ≠ 0) : V3.cross r1 r2 ≠ ⟨0, 0, 0⟩ := fun h => hz (congrArg V3.z h)

theorem alpha_pos_iff {r1 r2 v1 v2 : V3} {mu x : ℝ} {prograde : Bool} (hmu : 0 < mu) (hc : V3.cross r1 r2 ≠ ⟨0, 0, 0⟩) (hx : -1 < x)
    (hv : (v1, v2) = velocities mu (geometry r1 r2 prograde) x (computeY x (geometry r1 r2 prograde).ll)) :
    energy mu (r1, v1) < 0 ↔ x < 1 := by
  obtain ⟨rho, sg, C, S, F⟩ := geometry_facts r1 r2 hc prograde
  have ha := alpha_eq F hmu (x := x)
  rw [← hv] at ha
  simp only at ha
  rw [alpha_energy hmu (ne_zero_of_cross hc), div_eq_div_iff hmu.ne' F.spos.ne'] at ha
  have hs := F.spos
  constructor
  · intro h
    by_contra hn
    push Not at hn
    have h1 : 0 < -(2 * energy mu (r1, v1)) * (geometry r1 r2 prograde).s := mul_pos (by linarith) hs
    have h2 : 2 * (1 - x ^ 2) * mu ≤ 0 := mul_nonpos_of_nonpos_of_nonneg (by nlinarith) hmu.le
    linarith
  · intro h
    have h2 : 0 < 2 * (1 - x ^ 2) * mu := mul_pos (by nlinarith) hmu
    rw [← ha] at h2
    have := (mul_pos_iff_of_pos_right hs).mp h2
    linarith

/-- The transfers of a given time, in terms of the solver's `x`. -/
theorem transfer_iff {r1 r2 v1 v2 : V3} {mu t : ℝ} {prograde : Bool} {M : ℕ} (hmu : 0 < mu) (hz : (V3.cross r1 r2).z ≠ 0) (ht : 0 < t) :
    IsTransfer mu r1 r2 t prograde M (v1, v2) ↔ ∃ x, -1 < x ∧ (x < 1 ∨ M = 0) ∧
      (v1, v2) = velocities mu (geometry r1 r2 prograde) x (computeY x (geometry r1 r2 prograde).ll) ∧
      t = √((geometry r1 r2 prograde).s ^ 3 / (2 * mu)) * exactTime x (geometry r1 r2 prograde).ll M := by
  have hc := cross_ne hz
  have hr1 := ne_zero_of_cross hc
  constructor
  · rintro ⟨⟨p, q, hm, hp, hq, hp2, hq2⟩, hs, hrev⟩
    simp only at hs hrev hq hq2
    have hcz : (V3.cross r1 v1).z ≠ 0 := by
      intro h
      rw [h] at hs
      split at hs <;> exact lt_irrefl _ hs
    have hcr := cross_ne hcz
    obtain ⟨k, hk, hk0⟩ : ∃ k, V3.cross r1 v1 = V3.smul k (V3.cross r1 r2) ∧ k ≠ 0 := by
      obtain ⟨chi, hchi, -⟩ := exists_unique_chi hmu hcr t
      have hchi' : keplerF mu r1 v1 (t - 0) chi = 0 := by rw [sub_zero]; exact hchi
      obtain ⟨a1, -⟩ := C35_newton hmu hcr hm hp hq t hchi'
      obtain ⟨s1, -, -⟩ := state_coeffs hmu hcr hchi'
      rw [hp2] at a1
      have b1 := toE_injective a1
      rw [b1] at s1
      generalize (Univ.sigma mu r1 v1 * U2 (alpha mu r1 v1) chi + V3.norm r1 * U1 (alpha mu r1 v1) chi) / √mu = B at s1
      generalize 1 - U2 (alpha mu r1 v1) chi / V3.norm r1 = A at s1
      have e : V3.cross r1 r2 = V3.smul B (V3.cross r1 v1) := by
        rw [s1]
        ext <;> simp only [V3.cross, V3.add, V3.smul] <;> ring
      have hB : B ≠ 0 := by
        rintro rfl
        apply hz
        rw [e]
        simp [V3.smul]
      refine ⟨1 / B, ?_, one_div_ne_zero hB⟩
      rw [e]
      ext <;> simp only [V3.smul] <;> field_simp
    have hks : 0 < k ↔ (prograde = true ↔ 0 ≤ (V3.cross r1 r2).z) := by
      have e : (V3.cross r1 v1).z = k * (V3.cross r1 r2).z := by rw [hk]; rfl
      rw [e] at hs
      cases prograde
      · simp only [Bool.false_eq_true, if_false, false_iff, not_le] at hs ⊢
        constructor
        · intro h; by_contra hn; exact absurd hs (not_lt.mpr (mul_nonneg h.le (not_lt.mp hn)))
        · intro h; by_contra hn; exact absurd hs (not_lt.mpr (mul_nonneg_of_nonpos_of_nonpos (not_lt.mp hn) h.le))
      · simp only [if_true, true_iff] at hs ⊢
        constructor
        · intro h; exact ((mul_pos_iff_of_pos_left h).mp hs).le
        · intro h; by_contra hn; exact absurd hs (not_lt.mpr (mul_nonpos_of_nonpos_of_nonneg (not_lt.mp hn) h))
    obtain ⟨x, M', x1, x2, hv, hT⟩ := complete (t0 := 0) (t := t) (prograde := prograde) hmu hc hm hp hq ht (by rw [zero_add]; exact hp2)
      (by rw [zero_add]; exact hq2) hk hk0 hks
    have hM : M' = M := by
      by_cases hx1 : x < 1
      · have he := (alpha_pos_iff hmu hc x1 hv).mpr hx1
        rw [if_pos he, period_eq hmu hr1 he] at hrev
        obtain ⟨t', e', -, -, -, h5⟩ := arrives_x t M' hmu hc hv x1 x2
        rw [← hT] at e'
        subst e'
        obtain ⟨hap, l1, l2⟩ := h5 hx1
        have hP : 0 < 2 * Real.pi / (√mu * (alpha mu r1 v1 * √(alpha mu r1 v1))) := by
          have := Real.sqrt_pos.mpr hap; have := Real.sqrt_pos.mpr hmu; have := Real.pi_pos
          positivity
        have a1 := lt_of_mul_lt_mul_right (l1.trans hrev.2) hP.le
        have a2 := lt_of_mul_lt_mul_right (hrev.1.trans_lt l2) hP.le
        have a3 : M' < M + 1 := by exact_mod_cast a1
        have a4 : M < M' + 1 := by exact_mod_cast a2
        omega
      · have he : ¬ energy mu (r1, v1) < 0 := fun h => hx1 ((alpha_pos_iff hmu hc x1 hv).mp h)
        rw [if_neg he] at hrev
        rw [hrev, x2.resolve_left hx1]
    subst hM
    exact ⟨x, x1, x2, hv, hT⟩
  · rintro ⟨x, x1, x2, hv, hT⟩
    obtain ⟨t', e', -, -, h4, h5⟩ := arrives_x t M hmu hc hv x1 x2
    rw [← hT] at e'
    subst e'
    obtain ⟨⟨k, hk0, hk, -⟩, d1, d2⟩ := direction_x hmu hc hv
    have hcz : (V3.cross r1 v1).z ≠ 0 := by
      rw [hk]
      exact mul_ne_zero hk0 hz
    obtain ⟨p, q, hm, hp, hq⟩ := C35_motion_exists (t0 := 0) hmu (cross_ne hcz)
    obtain ⟨a1, a2⟩ := h4 p q 0 hm hp hq
    rw [zero_add] at a1 a2
    refine ⟨⟨p, q, hm, hp, hq, a1, a2⟩, ?_, ?_⟩
    · cases prograde
      · simpa using lt_of_le_of_ne (d2 rfl) hcz
      · simpa using lt_of_le_of_ne (d1 rfl) hcz.symm
    · simp only
      split
      · rename_i he
        obtain ⟨-, l1, l2⟩ := h5 ((alpha_pos_iff hmu hc x1 hv).mp he)
        rw [period_eq hmu hr1 he]
        exact ⟨l1.le, l2⟩
      · rename_i he
        exact x2.resolve_left fun h => he ((alpha_pos_iff hmu hc x1 hv).mpr h)

theorem unit_pos {r1 r2 : V3} {mu : ℝ} {prograde : Bool} (hmu : 0 < mu) (hc : V3.cross r1 r2 ≠ ⟨0, 0, 0⟩) :
    0 < √((geometry r1 r2 prograde).s ^ 3 / (2 * mu)) ∧ (geometry r1 r2 prograde).ll ^ 2 < 1 ∧ (geometry r1 r2 prograde).ll ≠ 0 := by
  obtain ⟨rho, sg, C, S, F⟩ := geometry_facts r1 r2 hc prograde
  have hs := F.spos
  refine ⟨Real.sqrt_pos.mpr (by positivity), F.hl, ?_⟩
  intro h0
  have := F.hS
  rw [h0] at this
  have h1 : (geometry r1 r2 prograde).r1Norm * (geometry r1 r2 prograde).r2Norm * S = 0 := by linarith
  have P1 := F.r1pos; have P2 := F.r2pos
  exact F.S0 ((mul_eq_zero.mp h1).resolve_left (by positivity))

/-- C180. Lambert's problem has exactly one solution of less than one revolution: for two positions that are not in one polar plane with
the centre, every positive time and either sense, there is one and only one pair of velocities. -/
theorem C180_lambert {r1 r2 : V3} {mu t : ℝ} (hmu : 0 < mu) (hz : (V3.cross r1 r2).z ≠ 0) (ht : 0 < t) (prograde : Bool) :
    ∃! v, IsTransfer mu r1 r2 t prograde 0 v := by
  have hc := cross_ne hz
  obtain ⟨hu, hl, -⟩ := unit_pos (prograde := prograde) hmu hc
  set g := geometry r1 r2 prograde
  obtain ⟨x, ⟨x1, x2⟩, x3⟩ := time_bijective hl (div_pos ht hu)
  obtain ⟨v1, v2, hv⟩ : ∃ v1 v2, (v1, v2) = velocities mu g x (computeY x g.ll) := ⟨_, _, rfl⟩
  refine ⟨(v1, v2), (transfer_iff hmu hz ht).mpr ⟨x, x1, Or.inr rfl, hv, ?_⟩, ?_⟩
  · rw [x2, mul_div_cancel₀ _ hu.ne']
  · rintro ⟨w1, w2⟩ hw
    obtain ⟨z, z1, -, hz', hzT⟩ := (transfer_iff hmu hz ht).mp hw
    have := x3 z ⟨z1, by rw [eq_div_iff hu.ne', mul_comm]; exact hzT.symm⟩
    rw [hv, hz', this]

/-- C180. What `izzo_lambert` returns is a solution, for a time that differs from the one asked for by no more than the residual of its
equation, in the sense and with the number of revolutions asked for. Without revolutions it is the only solution for that time. -/
theorem C180_solver {r1 r2 v1 v2 : V3} {tof mu : ℝ} {M : Nat} {prograde lowPath : Bool} {maxiter : Nat} {atol rtol : ℝ} (hmu : 0 < mu)
    (hz : (V3.cross r1 r2).z ≠ 0) (h : izzoLambert r1 r2 tof mu M prograde lowPath maxiter atol rtol = some (v1, v2)) :
    let g := geometry r1 r2 prograde; let T := √(2 * mu / g.s ^ 3) * tof
    let x := householder (initialGuess T g.ll M lowPath) T g.ll M atol rtol maxiter;
    (-1 : ℝ) < x → (x < 1 ∨ M = 0) → ∃ t : ℝ, 0 < t ∧
      |t - tof| ≤ √(g.s ^ 3 / (2 * mu)) * (|tofEquation x T g.ll M| + (if useSmall x M then 1 / 10 ^ 30 else 0)) ∧
      IsTransfer mu r1 r2 t prograde M (v1, v2) ∧ (M = 0 → ∀ w, IsTransfer mu r1 r2 t prograde 0 w → w = (v1, v2)) := by
  intro g T x h1 h2
  obtain ⟨t, e, ht, hb, -⟩ := arrives hmu (cross_ne hz) h h1 h2
  have hI : IsTransfer mu r1 r2 t prograde M (v1, v2) := (transfer_iff hmu hz ht).mpr ⟨x, h1, h2, izzo_some h, e⟩
  refine ⟨t, ht, hb, hI, ?_⟩
  rintro rfl w hw
  exact (C180_lambert hmu hz ht prograde).unique hw hI

/-- C180. With no time at all, or with a time before the start, `izzo_lambert` has nothing to find: no motion is at two places at once. -/
theorem C180_no_time {r1 r2 : V3} {mu : ℝ} (hz : (V3.cross r1 r2).z ≠ 0) (prograde : Bool) (M : ℕ) (v : V3 × V3) :
    ¬ IsTransfer mu r1 r2 0 prograde M v := by
  rintro ⟨⟨p, q, -, hp, -, hp2, -⟩, -⟩
  have := toE_injective (hp.symm.trans hp2)
  apply hz
  rw [this]
  simp [V3.cross]
  ring

/-- The hypotheses of C180 are met: a quarter turn in the plane of the ecliptic. -/
example : ∃! v, IsTransfer 1 ⟨1, 0, 0⟩ ⟨0, 1, 0⟩ 1 true 0 v := C180_lambert one_pos (by norm_num [V3.cross]) one_pos true

/-! ## C181: several revolutions -/

theorem time_right {l : ℝ} {M : ℕ} (hM : 1 ≤ M) (hl : l ^ 2 < 1) (T : ℝ) {c : ℝ} (hc : c < 1) :
    ∃ x, 0 < x ∧ c < x ∧ x < 1 ∧ T < exactTime x l M := by
  have hT := abs_nonneg T
  set d := min (1 / (2 * (|T| + 1))) ((1 - c) / 2) with hd
  have hdp : 0 < d := lt_min (by positivity) (by linarith)
  have hdT : 2 * d * (|T| + 1) ≤ 1 := by
    have : d ≤ 1 / (2 * (|T| + 1)) := min_le_left _ _
    rw [le_div_iff₀ (by positivity)] at this
    linarith
  have hd1 : d ≤ 1 / 2 := by nlinarith
  have hdc : d ≤ (1 - c) / 2 := min_le_right _ _
  refine ⟨1 - d, by linarith, by linarith, by linarith, ?_⟩
  have hx : 0 < 1 - (1 - d) ^ 2 := by nlinarith
  have hx2 : 1 - (1 - d) ^ 2 ≤ 1 := by nlinarith
  have hx3 : 1 - (1 - d) ^ 2 ≤ 2 * d := by nlinarith
  have h0 := time_pos (M := 0) hl (show -1 < 1 - d by linarith) (by linarith)
  have e : exactTime (1 - d) l M = exactTime (1 - d) l 0 + M * Real.pi / √(1 - (1 - d) ^ 2) / (1 - (1 - d) ^ 2) := by
    rw [exactTime_elliptic (by linarith) (by linarith), exactTime_elliptic (by linarith) (by linarith)]
    rw [Nat.cast_zero]
    ring
  rw [e]
  have hpi := Real.pi_gt_three
  have hM' : (1 : ℝ) ≤ M := by exact_mod_cast hM
  have hw : √(1 - (1 - d) ^ 2) ≤ 1 := Real.sqrt_le_one.mpr hx2
  have hwp := Real.sqrt_pos.mpr hx
  have h1 : 1 ≤ M * Real.pi / √(1 - (1 - d) ^ 2) := by rw [le_div_iff₀ hwp]; nlinarith
  have h2 : |T| + 1 ≤ M * Real.pi / √(1 - (1 - d) ^ 2) / (1 - (1 - d) ^ 2) := by
    rw [le_div_iff₀ hx]
    nlinarith
  linarith [le_abs_self T]

/-- The shortest time with `M` revolutions, and the two `x` for every longer one. -/
theorem time_multi {l : ℝ} {M : ℕ} (hM : 1 ≤ M) (hl : l ^ 2 < 1) : ∃ c, -1 < c ∧ c < 1 ∧
    (∀ x, -1 < x → x < 1 → x ≠ c → exactTime c l M < exactTime x l M) ∧
    ∀ T, exactTime c l M < T → ∃ a b, -1 < a ∧ a < c ∧ c < b ∧ b < 1 ∧ exactTime a l M = T ∧ exactTime b l M = T ∧
      ∀ x, -1 < x → x < 1 → exactTime x l M = T → x = a ∨ x = b := by
  have hcont : ∀ u v, -1 < u → v < 1 → ContinuousOn (fun x => exactTime x l M) (Set.Icc u v) := fun u v hu hv z hz =>
    (hasDerivAt_time hl (hu.trans_le hz.1) (hz.2.trans_lt hv).ne).continuousAt.continuousWithinAt
  obtain ⟨a0, a1, a2, a3⟩ := time_large M hl (exactTime 0 l M)
  obtain ⟨b0, b1, -, b2, b3⟩ := time_right hM hl (exactTime 0 l M) zero_lt_one
  obtain ⟨c, hc, hmin⟩ := isCompact_Icc.exists_isMinOn (Set.nonempty_Icc.mpr (by linarith : a0 ≤ b0)) (hcont a0 b0 a1 b2)
  have hc0 : exactTime c l M ≤ exactTime 0 l M := hmin ⟨a2.le, b1.le⟩
  have hca : a0 < c := lt_of_le_of_ne hc.1 (by rintro rfl; linarith)
  have hcb : c < b0 := lt_of_le_of_ne hc.2 (by rintro rfl; linarith)
  have hd : deriv (fun x => exactTime x l M) c = 0 := (hmin.isLocalMin (Icc_mem_nhds hca hcb)).deriv_eq_zero
  obtain ⟨-, hstrict⟩ := C179_minimum hl (a1.trans hca) (hcb.trans b2) hd
  refine ⟨c, a1.trans hca, hcb.trans b2, fun x u v w => (hstrict x u v w).1, ?_⟩
  intro T hT
  obtain ⟨a', p1, p2, p3⟩ := time_large M hl T
  obtain ⟨b', -, q1, q2, q3⟩ := time_right hM hl T (hcb.trans b2)
  -- two equal values on one side are impossible
  have inj : ∀ u v, -1 < u → u < v → v < 1 → (v < c ∨ c < u) → exactTime u l M ≠ exactTime v l M := by
    intro u v h1 h2 h3 h4 h5
    obtain ⟨w, hw, hw'⟩ := exists_deriv_eq_zero h2 (hcont u v h1 h3) h5
    refine (hstrict w (h1.trans hw.1) (hw.2.trans h3) ?_).2 hw'
    rintro rfl
    rcases h4 with h4 | h4
    · exact lt_asymm h4 hw.2
    · exact lt_asymm h4 hw.1
  -- a solution on the left
  obtain ⟨a, ha1, ha2, ha3⟩ : ∃ a, -1 < a ∧ a < c ∧ exactTime a l M = T := by
    rcases le_or_gt a' c with h | h
    · obtain ⟨a, h1, h2⟩ := intermediate_value_Icc' h (hcont a' c p1 (hcb.trans b2)) ⟨hT.le, p3.le⟩
      refine ⟨a, p1.trans_le h1.1, lt_of_le_of_ne h1.2 ?_, h2⟩
      rintro rfl
      simp only at h2
      linarith
    · -- `c` is positive and `a'` is negative
      have := (C179_minimum hl (a1.trans hca) (hcb.trans b2) hd).1
      linarith
  obtain ⟨b, hb1, hb2, hb3⟩ : ∃ b, c < b ∧ b < 1 ∧ exactTime b l M = T := by
    obtain ⟨b, h1, h2⟩ := intermediate_value_Icc q1.le (hcont c b' (a1.trans hca) q2) ⟨hT.le, q3.le⟩
    refine ⟨b, lt_of_le_of_ne h1.1 ?_, h1.2.trans_lt q2, h2⟩
    rintro rfl
    simp only at h2
    linarith
  refine ⟨a, b, ha1, ha2, hb1, hb2, ha3, hb3, ?_⟩
  intro x hx1 hx2 hx3
  rcases lt_trichotomy x c with h | h | h
  · left
    by_contra hne
    rcases lt_or_gt_of_ne hne with h' | h'
    · exact inj x a hx1 h' (ha2.trans (hcb.trans b2)) (Or.inl ha2) (hx3.trans ha3.symm)
    · exact inj a x ha1 h' hx2 (Or.inl h) (ha3.trans hx3.symm)
  · subst h; linarith
  · right
    by_contra hne
    rcases lt_or_gt_of_ne hne with h' | h'
    · exact inj x b hx1 h' hb2 (Or.inr h) (hx3.trans hb3.symm)
    · exact inj b x ((a1.trans hca).trans hb1) h' hx2 (Or.inr hb1) (hb3.trans hx3.symm)

theorem velocities_injective {r1 r2 : V3} {mu x z : ℝ} {prograde : Bool} (hmu : 0 < mu) (hc : V3.cross r1 r2 ≠ ⟨0, 0, 0⟩)
    (h : velocities mu (geometry r1 r2 prograde) x (computeY x (geometry r1 r2 prograde).ll) =
      velocities mu (geometry r1 r2 prograde) z (computeY z (geometry r1 r2 prograde).ll)) : x = z := by
  have hl0 := (unit_pos (prograde := prograde) hmu hc).2.2
  obtain ⟨rho, sg, C, S, F⟩ := geometry_facts r1 r2 hc prograde
  set g := geometry r1 r2 prograde
  have P1 := F.r1pos; have P2 := F.r2pos; have P3 := F.sgpos; have P4 := Real.sqrt_pos.mpr hmu
  obtain ⟨-, hqp⟩ := halfs F
  have e1 := (cross_eq F hmu (x := x) (computeY x g.ll)).1
  have e2 := (cross_eq F hmu (x := z) (computeY z g.ll)).1
  rw [h, e2] at e1
  have hS := F.S0
  have hk : √mu * √(g.s / 2) * sg * (computeY z g.ll + g.ll * z) / (g.r1Norm * g.r2Norm * S) =
      √mu * √(g.s / 2) * sg * (computeY x g.ll + g.ll * x) / (g.r1Norm * g.r2Norm * S) := by
    by_contra hne
    apply hc
    have hx := congrArg V3.x e1; have hy := congrArg V3.y e1; have hz := congrArg V3.z e1
    simp only [V3.smul] at hx hy hz
    have hd := sub_ne_zero.mpr hne
    ext
    · exact (mul_eq_zero.mp (show _ * (V3.cross r1 r2).x = 0 by rw [sub_mul, hx, sub_self])).resolve_left hd
    · exact (mul_eq_zero.mp (show _ * (V3.cross r1 r2).y = 0 by rw [sub_mul, hy, sub_self])).resolve_left hd
    · exact (mul_eq_zero.mp (show _ * (V3.cross r1 r2).z = 0 by rw [sub_mul, hz, sub_self])).resolve_left hd
  rw [div_left_inj' (by positivity)] at hk
  have hZ := mul_left_cancel₀ (show √mu * √(g.s / 2) * sg ≠ 0 by positivity) hk
  have y1 := y_sq (x := x) F.hl
  have y2 := y_sq (x := z) F.hl
  have hp := zeta_pos x F.hl
  -- `x` is a function of `y + l x`
  have h1 : 2 * (computeY x g.ll + g.ll * x) * (g.ll * x) = (computeY x g.ll + g.ll * x) ^ 2 - (1 - g.ll ^ 2) := by linear_combination -y1
  have h2 : 2 * (computeY z g.ll + g.ll * z) * (g.ll * z) = (computeY z g.ll + g.ll * z) ^ 2 - (1 - g.ll ^ 2) := by linear_combination -y2
  rw [hZ, ← h1] at h2
  have h3 := mul_left_cancel₀ (by positivity) h2
  exact (mul_left_cancel₀ hl0 h3).symm

/-- C181. With `M ≥ 1` complete revolutions there is a shortest time. For less time there is no transfer at all, for that time exactly one,
and for every longer time exactly two. -/
theorem C181_several {r1 r2 : V3} {mu : ℝ} {M : ℕ} (hmu : 0 < mu) (hz : (V3.cross r1 r2).z ≠ 0) (hM : 1 ≤ M) (prograde : Bool) :
    ∃ tmin, 0 < tmin ∧ (∀ t, 0 < t → t < tmin → ∀ v, ¬ IsTransfer mu r1 r2 t prograde M v) ∧
      (∃! v, IsTransfer mu r1 r2 tmin prograde M v) ∧
      ∀ t, tmin < t → ∃ v w, v ≠ w ∧ IsTransfer mu r1 r2 t prograde M v ∧ IsTransfer mu r1 r2 t prograde M w ∧
        ∀ u, IsTransfer mu r1 r2 t prograde M u → u = v ∨ u = w := by
  have hc := cross_ne hz
  obtain ⟨hu, hl, -⟩ := unit_pos (prograde := prograde) hmu hc
  have hiff : ∀ {t : ℝ} (_ : 0 < t) (v : V3 × V3), IsTransfer mu r1 r2 t prograde M v ↔ ∃ x, -1 < x ∧ x < 1 ∧
      v = velocities mu (geometry r1 r2 prograde) x (computeY x (geometry r1 r2 prograde).ll) ∧
      exactTime x (geometry r1 r2 prograde).ll M = t / √((geometry r1 r2 prograde).s ^ 3 / (2 * mu)) := by
    rintro t ht ⟨v1, v2⟩
    rw [transfer_iff hmu hz ht]
    refine exists_congr fun x => and_congr_right fun _ => and_congr ?_ (and_congr_right fun _ => ?_)
    · exact ⟨fun h => h.resolve_right (by omega), Or.inl⟩
    · rw [eq_div_iff hu.ne', mul_comm]; exact eq_comm
  have hinj := @velocities_injective r1 r2 mu
  obtain ⟨c, c1, c2, c3, c4⟩ := time_multi hM hl
  set U := √((geometry r1 r2 prograde).s ^ 3 / (2 * mu))
  have hcp := time_pos (M := M) hl c1 c2
  refine ⟨U * exactTime c (geometry r1 r2 prograde).ll M, mul_pos hu hcp, ?_, ?_, ?_⟩
  · intro t ht hlt v hv
    obtain ⟨x, x1, x2, -, x4⟩ := (hiff ht v).mp hv
    rw [eq_div_iff hu.ne', mul_comm] at x4
    rw [← x4] at hlt
    have h1 := lt_of_mul_lt_mul_left hlt hu.le
    rcases eq_or_ne x c with rfl | hne
    · exact lt_irrefl _ h1
    · exact lt_asymm h1 (c3 x x1 x2 hne)
  · refine ⟨_, (hiff (mul_pos hu hcp) _).mpr ⟨c, c1, c2, rfl, ?_⟩, ?_⟩
    · rw [mul_div_cancel_left₀ _ hu.ne']
    · intro w hw
      obtain ⟨x, x1, x2, rfl, x4⟩ := (hiff (mul_pos hu hcp) w).mp hw
      rw [mul_div_cancel_left₀ _ hu.ne'] at x4
      rcases eq_or_ne x c with rfl | hne
      · rfl
      · exact absurd x4 (c3 x x1 x2 hne).ne'
  · intro t ht
    have htp : 0 < t := (mul_pos hu hcp).trans ht
    obtain ⟨a, b, a1, a2, b1, b2, ea, eb, hall⟩ := c4 (t / U) (by rw [lt_div_iff₀ hu, mul_comm]; exact ht)
    refine ⟨_, _, ?_, (hiff htp _).mpr ⟨a, a1, a2.trans c2, rfl, ea⟩, (hiff htp _).mpr ⟨b, c1.trans b1, b2, rfl, eb⟩, ?_⟩
    · intro h
      have := hinj hmu hc h
      linarith
    · intro u hu'
      obtain ⟨x, x1, x2, rfl, x4⟩ := (hiff htp u).mp hu'
      rcases hall x x1 x2 x4 with rfl | rfl
      · exact Or.inl rfl
      · exact Or.inr rfl

/-- The hypotheses of C181 are met. -/
example : ∃ tmin, 0 < tmin ∧ ∃! v, IsTransfer 1 ⟨1, 0, 0⟩ ⟨0, 1, 0⟩ tmin true 1 v := by
  obtain ⟨t, h1, -, h2, -⟩ := C181_several (M := 1) (r1 := ⟨1, 0, 0⟩) (r2 := ⟨0, 1, 0⟩) one_pos (by norm_num [V3.cross]) le_rfl true
  exact ⟨t, h1, h2⟩

/-- C181. Not true: that a transfer exists whenever velocities are returned. There is no retrograde motion from `nearA` to `nearB` that takes 4
units of time and completes one revolution, and velocities are returned for it all the same. -/
theorem C181_refused_false (lowPath : Bool) (maxiter : Nat) (atol rtol : ℝ) :
    (∃ v, izzoLambert nearA nearB 4 (1 / 2) 1 false lowPath maxiter atol rtol = some v) ∧ ∀ v, ¬ IsTransfer (1 / 2) nearA nearB 4 false 1 v := by
  obtain ⟨⟨v1, v2, h1⟩, h2⟩ := C179_revolutions_false lowPath maxiter atol rtol
  refine ⟨⟨_, h1⟩, ?_⟩
  rintro ⟨w1, w2⟩ hw
  obtain ⟨x, x1, x2, -, x4⟩ := (transfer_iff (by norm_num) (by norm_num [V3.cross, nearA, nearB]) (by norm_num)).mp hw
  rw [near_geometry.1] at x4
  norm_num at x4
  exact absurd x4 (h2 x x1 (x2.resolve_right (by norm_num))).ne

theorem time_gt {x l : ℝ} (M : ℕ) (hl : l ^ 2 < 1) (h1 : -1 < x) (h2 : x < 1) : M * Real.pi < exactTime x l M := by
  have hx : 0 < 1 - x ^ 2 := by nlinarith
  have hx1 : 1 - x ^ 2 ≤ 1 := by nlinarith [sq_nonneg x]
  have hw := Real.sqrt_pos.mpr hx
  have hw1 : √(1 - x ^ 2) ≤ 1 := Real.sqrt_le_one.mpr hx1
  have h0 := time_pos (M := 0) hl h1 h2
  have hd : exactTime x l M = exactTime x l 0 + M * Real.pi / (√(1 - x ^ 2) * (1 - x ^ 2)) := by
    unfold exactTime
    rw [if_neg h2.ne, if_neg h2.ne, abs_of_pos hx]
    have := hw.ne'
    have := hx.ne'
    push_cast
    field_simp
    ring
  have hle : M * Real.pi ≤ M * Real.pi / (√(1 - x ^ 2) * (1 - x ^ 2)) := by
    rw [le_div_iff₀ (mul_pos hw hx)]
    have : √(1 - x ^ 2) * (1 - x ^ 2) ≤ 1 := mul_le_one₀ hw1 hx.le hx1
    have hp : 0 ≤ (M : ℝ) * Real.pi := by positivity
    nlinarith
  linarith

theorem time_zero {l : ℝ} (hl : l ^ 2 < 1) (M : ℕ) : exactTime 0 l M = Real.arccos l + l * √(1 - l ^ 2) + M * Real.pi := by
  obtain ⟨l1, l2⟩ := abs_lt.mp ((sq_lt_one_iff_abs_lt_one l).mp hl)
  unfold exactTime computePsi computeY
  norm_num
  rw [min_eq_right l2.le, max_eq_right l1.le]
  ring

theorem start_lt {l : ℝ} (hl : l ^ 2 < 1) : Real.arccos l + l * √(1 - l ^ 2) < Real.pi := by
  obtain ⟨l1, l2⟩ := abs_lt.mp ((sq_lt_one_iff_abs_lt_one l).mp hl)
  have h1 : Real.arccos l < Real.pi := by
    refine lt_of_le_of_ne (Real.arccos_le_pi l) fun h => ?_
    rw [Real.arccos_eq_pi] at h
    linarith
  have h2 := Real.sin_lt (x := Real.pi - Real.arccos l) (by linarith)
  rw [Real.sin_pi_sub, Real.sin_arccos] at h2
  have h3 := Real.sqrt_nonneg (1 - l ^ 2)
  nlinarith

theorem unit_inv {s mu T tof : ℝ} (hs : 0 < s) (hmu : 0 < mu) : √(2 * mu / s ^ 3) * tof = T ↔ tof = √(s ^ 3 / (2 * mu)) * T := by
  have h : √(2 * mu / s ^ 3) * √(s ^ 3 / (2 * mu)) = 1 := by
    rw [← Real.sqrt_mul (by positivity)]
    rw [show 2 * mu / s ^ 3 * (s ^ 3 / (2 * mu)) = 1 by field_simp]
    exact Real.sqrt_one
  constructor
  · rintro rfl; linear_combination (-tof) * h
  · rintro rfl; linear_combination T * h

/-- The period of the smallest ellipse about the centre that passes through both positions: its major axis is half the perimeter of the triangle
of the centre and the two positions. -/
noncomputable def smallestPeriod (mu : ℝ) (r1 r2 : V3) : ℝ :=
  2 * Real.pi * √(((V3.norm r1 + V3.norm r2 + V3.norm (V3.sub r2 r1)) / 4) ^ 3 / mu)

theorem smallest_eq (mu : ℝ) (r1 r2 : V3) (prograde : Bool) :
    smallestPeriod mu r1 r2 = √((geometry r1 r2 prograde).s ^ 3 / (2 * mu)) * Real.pi := by
  have hs : (geometry r1 r2 prograde).s = (V3.norm r1 + V3.norm r2 + V3.norm (V3.sub r2 r1)) * 0.5 := rfl
  unfold smallestPeriod
  rw [hs]
  generalize V3.norm r1 + V3.norm r2 + V3.norm (V3.sub r2 r1) = p
  have : (p * 0.5) ^ 3 / (2 * mu) = 2 ^ 2 * ((p / 4) ^ 3 / mu) := by
    by_cases h : mu = 0
    · simp [h]
    · field_simp; ring
  rw [this, Real.sqrt_mul (by norm_num), Real.sqrt_sq (by norm_num)]
  ring

/-- C181. In less than `M` periods of the smallest ellipse through both positions no transfer has `M` complete revolutions, and none is returned.
In exactly that time there is none either, and none is returned if the iteration for the shortest time ends at an elliptic transfer. -/
theorem C181_too_many {r1 r2 : V3} {mu tof : ℝ} {M : ℕ} (hmu : 0 < mu) (hz : (V3.cross r1 r2).z ≠ 0) (hM : 1 ≤ M) (prograde : Bool)
    (h : tof ≤ M * smallestPeriod mu r1 r2) :
    (0 < tof → ∀ v, ¬ IsTransfer mu r1 r2 tof prograde M v) ∧
    ∀ (lowPath : Bool) (maxiter : Nat) (atol rtol : ℝ),
      (tof < M * smallestPeriod mu r1 r2 ∨
        |halley (exactTime 0.1 (geometry r1 r2 prograde).ll M) (geometry r1 r2 prograde).ll atol rtol maxiter 0.1| < 1) →
      izzoLambert r1 r2 tof mu M prograde lowPath maxiter atol rtol = none := by
  have hc := cross_ne hz
  obtain ⟨hu, hl, -⟩ := unit_pos (mu := mu) (prograde := prograde) hmu hc
  obtain ⟨rho, sg, C, S, F⟩ := geometry_facts r1 r2 hc prograde
  have hs := F.spos
  rw [smallest_eq mu r1 r2 prograde] at h ⊢
  constructor
  · rintro ht ⟨v1, v2⟩ hv
    obtain ⟨x, x1, x2, -, hx⟩ := (transfer_iff hmu hz ht).mp hv
    have := mul_lt_mul_of_pos_left (time_gt M hl x1 (x2.resolve_right (by omega))) hu
    linarith
  · intro lowPath maxiter atol rtol hor
    unfold izzoLambert findXY
    simp only
    clear F
    generalize geometry r1 r2 prograde = g at *
    obtain ⟨T, hT⟩ : ∃ T, √(2 * mu / g.s ^ 3) * tof = T := ⟨_, rfl⟩
    have htof := (unit_inv hs hmu).mp hT
    rw [hT, if_neg]
    rintro ⟨-, hm⟩
    have hpi := Real.pi_pos
    have hle : T ≤ M * Real.pi := by
      rw [htof] at h
      exact le_of_mul_le_mul_left (by linarith) hu
    rcases hle.lt_or_eq with hlt | heq
    · have hfl : ⌊T / Real.pi⌋ < (M : ℤ) := by
        rw [Int.floor_lt, div_lt_iff₀ hpi]
        exact_mod_cast hlt
      unfold mMax at hm
      simp only at hm
      split at hm
      · split at hm <;> omega
      · omega
    · rcases hor with hor | hor
      · rw [htof, heq] at hor
        exact absurd hor (not_lt.mpr (le_of_eq (by ring)))
      · have hfl : ⌊T / Real.pi⌋ = (M : ℤ) := by
          rw [heq, mul_div_assoc, div_self hpi.ne', mul_one]
          exact_mod_cast Int.floor_natCast M
        obtain ⟨p1, p2⟩ := abs_lt.mp hor
        have hex : ∀ x : ℝ, x ≠ 1 → tofEquation x 0 g.ll M = exactTime x g.ll M := by
          intro x hx
          unfold tofEquation tofEquationY timeOfFlight exactTime useSmall
          rw [if_neg (by rintro ⟨h, -⟩; omega), if_neg hx, sub_zero]
        have hmin : T < computeTMin g.ll M maxiter atol rtol := by
          unfold computeTMin
          rw [heq]
          split
          · rw [hex 0 (by norm_num)]
            exact time_gt M hl (by norm_num) (by norm_num)
          · rw [if_neg (by omega), hex 0.1 (by norm_num), hex _ p2.ne]
            exact time_gt M hl p1 p2
        have h00 : 0 < Real.arccos |g.ll| + |g.ll| * √(1 - g.ll ^ 2) := by
          have h1 : 0 < Real.arccos |g.ll| := Real.arccos_pos.mpr ((sq_lt_one_iff_abs_lt_one _).mp hl)
          positivity
        unfold mMax at hm
        simp only at hm
        rw [hfl, if_pos ⟨by rw [heq]; push_cast; linarith, by exact_mod_cast hM⟩, Int.toNat_natCast, if_pos hmin] at hm
        omega

/-- The hypotheses of `C181_too_many` are met. -/
example : izzoLambert ⟨1, 0, 0⟩ ⟨0, 1, 0⟩ 0 1 1 true true 35 1e-10 1e-10 = none :=
  (C181_too_many (tof := 0) (M := 1) one_pos (by norm_num [V3.cross]) le_rfl true (by unfold smallestPeriod; positivity)).2 _ _ _ _
    (Or.inl (by
      rw [smallest_eq 1 ⟨1, 0, 0⟩ ⟨0, 1, 0⟩ true]
      have := (unit_pos (mu := 1) (prograde := true) (r1 := ⟨1, 0, 0⟩) (r2 := ⟨0, 1, 0⟩) one_pos (cross_ne (by norm_num [V3.cross]))).1
      have := Real.pi_pos
      positivity))

/-- C181. In `M + 1` periods of the smallest ellipse or more there are transfers with `M` complete revolutions, and velocities are returned. -/
theorem C181_enough {r1 r2 : V3} {mu tof : ℝ} {M : ℕ} (hmu : 0 < mu) (hz : (V3.cross r1 r2).z ≠ 0) (hM : 1 ≤ M) (prograde : Bool)
    (h : (M + 1) * smallestPeriod mu r1 r2 ≤ tof) :
    (∃ v w, v ≠ w ∧ IsTransfer mu r1 r2 tof prograde M v ∧ IsTransfer mu r1 r2 tof prograde M w) ∧
    ∀ (lowPath : Bool) (maxiter : Nat) (atol rtol : ℝ), (izzoLambert r1 r2 tof mu M prograde lowPath maxiter atol rtol).isSome := by
  have hc := cross_ne hz
  obtain ⟨hu, hl, -⟩ := unit_pos (mu := mu) (prograde := prograde) hmu hc
  obtain ⟨rho, sg, C, S, F⟩ := geometry_facts r1 r2 hc prograde
  have hs := F.spos
  have hpi := Real.pi_pos
  rw [smallest_eq mu r1 r2 prograde] at h
  constructor
  · obtain ⟨tmin, -, t2, -, t4⟩ := C181_several hmu hz hM prograde
    have h0 := time_pos (M := M) hl (by norm_num : (-1 : ℝ) < 0) (by norm_num)
    have hlt : exactTime 0 (geometry r1 r2 prograde).ll M < (M + 1) * Real.pi := by
      rw [time_zero hl]
      linarith [start_lt hl]
    have htf : √((geometry r1 r2 prograde).s ^ 3 / (2 * mu)) * exactTime 0 (geometry r1 r2 prograde).ll M < tof :=
      lt_of_lt_of_le (mul_lt_mul_of_pos_left hlt hu) (by linarith)
    have hmin : tmin < tof := by
      by_contra hn
      push Not at hn
      refine t2 _ (mul_pos hu h0) (htf.trans_le hn) (velocities mu (geometry r1 r2 prograde) 0 (computeY 0 (geometry r1 r2 prograde).ll)) ?_
      exact (transfer_iff hmu hz (mul_pos hu h0)).mpr ⟨0, by norm_num, Or.inl (by norm_num), rfl, rfl⟩
    obtain ⟨v, w, h1, h2, h3, -⟩ := t4 tof hmin
    exact ⟨v, w, h1, h2, h3⟩
  · intro lowPath maxiter atol rtol
    unfold izzoLambert findXY
    simp only
    clear F
    generalize geometry r1 r2 prograde = g at *
    obtain ⟨T, hT⟩ : ∃ T, √(2 * mu / g.s ^ 3) * tof = T := ⟨_, rfl⟩
    have htof := (unit_inv hs hmu).mp hT
    have hle : (M + 1) * Real.pi ≤ T := by
      rw [htof] at h
      exact le_of_mul_le_mul_left (by linarith) hu
    have hfl : (M : ℤ) + 1 ≤ ⌊T / Real.pi⌋ := by
      rw [Int.le_floor, le_div_iff₀ hpi]
      exact_mod_cast hle
    have hm : (M : ℤ) ≤ mMax g.ll T maxiter atol rtol := by
      unfold mMax
      simp only
      split
      · split <;> omega
      · omega
    rw [hT, if_pos ⟨(sq_lt_one_iff_abs_lt_one g.ll).mp hl, hm⟩]
    rfl

/-- The hypotheses of `C181_enough` are met. -/
example : ∃ tof, (izzoLambert ⟨1, 0, 0⟩ ⟨0, 1, 0⟩ tof 1 1 true true 35 1e-10 1e-10).isSome :=
  ⟨_, (C181_enough (M := 1) one_pos (by norm_num [V3.cross]) le_rfl true le_rfl).2 _ _ _ _⟩

end Verif.Lambert.CompleteProps
