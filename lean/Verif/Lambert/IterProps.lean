import Verif.Lambert.Deriv
import Verif.Lambert.Props
import Mathlib.Analysis.Calculus.LocalExtr.Rolle
import Mathlib.Analysis.Calculus.MeanValue
import Mathlib.Analysis.Real.Pi.Bounds
import Mathlib.Analysis.SpecialFunctions.Trigonometric.Bounds

/-! # C179: the iteration of the Lambert solver -/

namespace Verif.Lambert.IterProps

open Verif Verif.Univ Verif.Lambert Filter

/-- The time of flight near a point. -/
theorem time_nhds {x l : ℝ} {M : Nat} (hl : l ^ 2 < 1) (h1 : -1 < x) (h2 : x ≠ 1) :
    deriv (fun x => exactTime x l M) =ᶠ[nhds x] fun x => tofEquationP x (computeY x l) (exactTime x l M) l := by
  have : ∀ᶠ z in nhds x, -1 < z ∧ z ≠ 1 := (lt_mem_nhds h1).and (eventually_ne_nhds h2)
  filter_upwards [this] with z hz
  exact (hasDerivAt_time hl hz.1 hz.2).deriv

theorem time_nhds2 {x l : ℝ} {M : Nat} (hl : l ^ 2 < 1) (h1 : -1 < x) (h2 : x ≠ 1) :
    deriv (deriv fun x => exactTime x l M) =ᶠ[nhds x] fun x => tofEquationP2 x (computeY x l) (exactTime x l M)
      (tofEquationP x (computeY x l) (exactTime x l M) l) l := by
  have : ∀ᶠ z in nhds x, -1 < z ∧ z ≠ 1 := (lt_mem_nhds h1).and (eventually_ne_nhds h2)
  filter_upwards [this] with z hz
  rw [(time_nhds hl hz.1 hz.2).deriv_eq]
  exact (hasDerivAt_time2 hl (one_sub_sq_ne hz.1 hz.2) (hasDerivAt_time hl hz.1 hz.2)).deriv

/-- C179. The three formulas the iteration uses are the first three derivatives of the time of flight, for elliptic and hyperbolic
transfers and every number of revolutions. -/
theorem C179_derivatives {x l : ℝ} {M : Nat} (hl : l ^ 2 < 1) (h1 : -1 < x) (h2 : x ≠ 1) :
    let T := fun x => exactTime x l M
    HasDerivAt T (tofEquationP x (computeY x l) (T x) l) x ∧
    HasDerivAt (deriv T) (tofEquationP2 x (computeY x l) (T x) (deriv T x) l) x ∧
    HasDerivAt (deriv (deriv T)) (tofEquationP3 x (computeY x l) (deriv T x) (deriv (deriv T) x) l) x := by
  intro T
  have hw := one_sub_sq_ne h1 h2
  have d1 := hasDerivAt_time (M := M) hl h1 h2
  have d2 := hasDerivAt_time2 hl hw d1
  have d3 := hasDerivAt_time3 (g := fun x => tofEquationP x (computeY x l) (exactTime x l M) l) hl hw d1 d2
  have e1 : deriv T x = tofEquationP x (computeY x l) (T x) l := d1.deriv
  have e2 : deriv (deriv T) x = _ := (time_nhds2 (M := M) hl h1 h2).self_of_nhds
  refine ⟨d1, ?_, ?_⟩
  · rw [e1]; exact d2.congr_of_eventuallyEq (time_nhds hl h1 h2)
  · rw [e2, e1]; exact d3.congr_of_eventuallyEq (time_nhds2 hl h1 h2)

/-- Householder's method of third order for a function with value `f` and derivatives `d1`, `d2`, `d3`. -/
noncomputable def householder3 (f d1 d2 d3 : ℝ) : ℝ := f * (d1 ^ 2 - f * d2 / 2) / (d1 * (d1 ^ 2 - f * d2) + d3 * f ^ 2 / 6)

/-- Where the time is computed by the closed formula, a step is that of Householder's method for the equation "time of flight = `T0`",
limited to `max 0.1 |p|`, unless the denominator is nearly zero. -/
theorem C179_step {p l T0 : ℝ} {M : Nat} (hl : l ^ 2 < 1) (h1 : -1 < p) (h2 : p ≠ 1) (hs : ¬ useSmall p M) :
    let f := fun x => exactTime x l M - T0
    1e-15 ≤ |deriv f p * (deriv f p ^ 2 - f p * deriv (deriv f) p) + deriv (deriv (deriv f)) p * f p ^ 2 / 6| →
    householderStep p T0 l M = p - max (-max 0.1 |p|) (min (max 0.1 |p|)
      (householder3 (f p) (deriv f p) (deriv (deriv f) p) (deriv (deriv (deriv f)) p))) := by
  intro f hden
  obtain ⟨d1, d2, d3⟩ := C179_derivatives (M := M) hl h1 h2
  have hf : deriv f = deriv fun x => exactTime x l M := by
    funext z; exact deriv_sub_const (f := fun x => exactTime x l M) T0
  rw [hf] at hden ⊢
  have e1 := d1.deriv
  have e2 := d2.deriv
  have e3 := d3.deriv
  have ht : tofEquationY p (computeY p l) T0 l M = f p := by
    unfold tofEquationY timeOfFlight
    rw [if_neg hs]
    simp only [f]
    unfold exactTime
    rw [if_neg h2]
  unfold householderStep householder3
  simp only
  rw [ht, show f p + T0 = exactTime p l M by simp [f], ← e1, ← e2, ← e3, if_neg (not_lt.mpr hden)]
  have e : ∀ a b c : ℝ, a * (b / c) = a * b / c := fun a b c => (mul_div_assoc a b c).symm
  rw [e]

/-- A step of the iteration for the shortest time is that of Halley's method for the zero of the derivative of the time of flight, if it is
given the time at the point it starts from. -/
theorem C179_halley {p l : ℝ} {M : Nat} (hl : l ^ 2 < 1) (h1 : -1 < p) (h2 : p ≠ 1) :
    let T := fun x => exactTime x l M
    halleyStep p (T p) l = p - 2 * deriv T p * deriv (deriv T) p / (2 * deriv (deriv T) p ^ 2 - deriv T p * deriv (deriv (deriv T)) p) := by
  intro T
  obtain ⟨d1, d2, d3⟩ := C179_derivatives (M := M) hl h1 h2
  have e1 := d1.deriv
  have e2 := d2.deriv
  have e3 := d3.deriv
  unfold halleyStep
  simp only
  rw [show T p = exactTime p l M from rfl, ← e1, ← e2, ← e3]

example : (0 : ℝ) ^ 2 < 1 ∧ (-1 : ℝ) < 0.1 ∧ (0.1 : ℝ) ≠ 1 := by norm_num

/-- C179. At a transfer whose time has a derivative above 10⁻⁵ the steps of the iteration at least halve the distance to it, from every
point nearby. -/
theorem C179_local {x l T0 : ℝ} {M : Nat} (hl : l ^ 2 < 1) (h1 : -1 < x) (h2 : x ≠ 1) (hs : M = 0 → x < √0.6 ∨ √1.4 < x)
    (h0 : exactTime x l M = T0) (hd : 1e-5 < |deriv (fun x => exactTime x l M) x|) :
    ∃ δ > 0, ∀ p, |p - x| ≤ δ → |householderStep p T0 l M - x| ≤ |p - x| / 2 := by
  obtain ⟨d1, d2, d3⟩ := C179_derivatives (M := M) hl h1 h2
  set T := fun x => exactTime x l M with hT
  set f := fun x => T x - T0 with hf
  have hf0 : f x = 0 := by simp [f, T, h0]
  have hdf : ∀ z, deriv f z = deriv T z := fun z => deriv_sub_const (f := T) T0
  have df : HasDerivAt f (deriv T x) x := by rw [d1.deriv]; exact d1.sub_const T0
  set D3 := fun z => tofEquationP3 z (computeY z l) (deriv T z) (deriv (deriv T) z) l with hD3
  have hw := one_sub_sq_ne h1 h2
  have hy := y_pos x hl
  -- the third derivative
  have hD3c : ContinuousAt D3 x := by
    have c1 := d2.continuousAt
    have c2 := d3.continuousAt
    have c3 := (hasDerivAt_y x hl).continuousAt
    have c4 := (hasDerivAt_w x).continuousAt
    have c5 : ContinuousAt (fun z : ℝ => z) x := continuousAt_id
    simp only [hD3]
    unfold tofEquationP3
    exact ((((c5.const_mul 7).mul c2).add (c1.const_mul 8)).sub
      ((c5.const_mul (6 * (1 - l ^ 2) * l ^ 5)).div (c3.pow 5) (pow_pos hy 5).ne')).div c4 hw
  set num := fun z => deriv T z ^ 2 - f z * deriv (deriv T) z / 2 with hnum
  set den := fun z => deriv T z * (deriv T z ^ 2 - f z * deriv (deriv T) z) + D3 z * f z ^ 2 / 6 with hden
  have cf := df.continuousAt
  have c1 := d2.continuousAt
  have c2 := d3.continuousAt
  have cnum : ContinuousAt num x := (c1.pow 2).sub ((cf.mul c2).div_const 2)
  have cden : ContinuousAt den x := (c1.mul ((c1.pow 2).sub (cf.mul c2))).add ((hD3c.mul (cf.pow 2)).div_const 6)
  have hdne : deriv T x ≠ 0 := by intro h; rw [h, abs_zero] at hd; norm_num at hd
  have hdenx : den x = deriv T x ^ 3 := by simp only [hden, hf0]; ring
  have hnumx : num x = deriv T x ^ 2 := by simp only [hnum, hf0]; ring
  have hdenlt : 1e-15 < |den x| := by
    rw [hdenx, abs_pow]
    calc (1e-15 : ℝ) = 1e-5 ^ 3 := by norm_num
      _ < _ := pow_lt_pow_left₀ hd (by norm_num) (by norm_num)
  have hdenx0 : den x ≠ 0 := by rw [hdenx]; exact pow_ne_zero _ hdne
  -- the step as a multiple of the distance
  set k := fun z => dslope f x z * (num z / den z) with hk
  have ck : ContinuousAt k x := (continuousAt_dslope_same.mpr df.differentiableAt).mul (cnum.div cden hdenx0)
  have hkx : k x = 1 := by
    simp only [hk]
    rw [dslope_same, df.deriv, hnumx, hdenx]
    field_simp
  have hstep : ∀ z, f z * (num z / den z) = (z - x) * k z := by
    intro z
    have := sub_smul_dslope f x z
    rw [hf0, sub_zero, smul_eq_mul] at this
    simp only [hk]
    rw [← mul_assoc, this]
  have e1 : ∀ᶠ z in nhds x, |k z - 1| < 1 / 2 := by
    have := ck.eventually (Metric.ball_mem_nhds (k x) (by norm_num : (0 : ℝ) < 1 / 2))
    filter_upwards [this] with z hz
    rwa [Real.dist_eq, hkx] at hz
  have e2 : ∀ᶠ z in nhds x, 1e-15 < |den z| := cden.abs.eventually (lt_mem_nhds hdenlt)
  have e3 : ∀ᶠ z in nhds x, -1 < z ∧ z ≠ 1 := (lt_mem_nhds h1).and (eventually_ne_nhds h2)
  have e4 : ∀ᶠ z in nhds x, ¬ useSmall z M := by
    by_cases hM : M = 0
    · rcases hs hM with h | h
      · filter_upwards [gt_mem_nhds h] with z hz hu
        exact lt_asymm hu.2.1 hz
      · filter_upwards [lt_mem_nhds h] with z hz hu
        exact lt_asymm hu.2.2 hz
    · exact Eventually.of_forall fun z hu => hM hu.1
  have e5 : ∀ᶠ z in nhds x, |z - x| < 0.05 := by
    have := Metric.ball_mem_nhds x (by norm_num : (0 : ℝ) < 0.05)
    filter_upwards [this] with z hz
    rwa [Metric.mem_ball, Real.dist_eq] at hz
  obtain ⟨δ, hδ, hall⟩ := Metric.eventually_nhds_iff.mp (e1.and (e2.and (e3.and (e4.and e5))))
  refine ⟨δ / 2, by positivity, fun p hp => ?_⟩
  obtain ⟨q1, q2, q3, q4, q5⟩ := hall (show dist p x < δ by rw [Real.dist_eq]; linarith)
  obtain ⟨b1, b2, b3⟩ := C179_derivatives (M := M) hl q3.1 q3.2
  have hD3p : deriv (deriv (deriv T)) p = D3 p := b3.deriv
  have hst := C179_step (T0 := T0) hl q3.1 q3.2 q4
  simp only at hst
  have hff : deriv (fun x => exactTime x l M - T0) = deriv T := funext hdf
  rw [hff, hD3p] at hst
  have hst := hst q2.le
  have hval : householder3 (exactTime p l M - T0) (deriv T p) (deriv (deriv T) p) (D3 p) = (p - x) * k p := by
    rw [← hstep]
    unfold householder3
    simp only [hnum, hden, hf, hT]
    rw [mul_div_assoc]
  rw [hval] at hst
  have hb : |(p - x) * k p| ≤ 0.1 := by
    rw [abs_mul]
    have : |k p| ≤ 3 / 2 := by
      have := abs_add_le (k p - 1) 1
      rw [sub_add_cancel, abs_one] at this
      linarith
    nlinarith [abs_nonneg (p - x), abs_nonneg (k p)]
  obtain ⟨hb1, hb2⟩ := abs_le.mp hb
  have hm : (0.1 : ℝ) ≤ max 0.1 |p| := le_max_left _ _
  rw [min_eq_right (hb2.trans hm), max_eq_right (by linarith)] at hst
  rw [hst, show p - (p - x) * k p - x = -((p - x) * (k p - 1)) by ring, abs_neg, abs_mul]
  nlinarith [abs_nonneg (p - x)]

/-- The loop, from a point within `δ`. -/
theorem loop_near {x l T0 atol rtol δ : ℝ} {M : Nat} (h : ∀ p, |p - x| ≤ δ → |householderStep p T0 l M - x| ≤ |p - x| / 2) :
    ∀ (n : Nat) (p0 p : ℝ), |p0 - x| ≤ δ → |p - x| ≤ |p0 - x| / 2 →
      let r := householderLoop T0 l M atol rtol n p0 p
      |r - x| ≤ δ / 2 ^ (n + 1) ∨ ∃ p', |p' - x| ≤ δ ∧ |r - x| ≤ rtol * |p'| + atol
  | 0, p0, p, h0, hp => by
    left
    show |p - x| ≤ δ / 2 ^ (0 + 1)
    rw [zero_add, pow_one]
    linarith
  | n + 1, p0, p, h0, hp => by
    have hδ : 0 ≤ δ := (abs_nonneg _).trans h0
    intro r
    simp only [r]
    unfold householderLoop
    by_cases hc : |p - p0| < rtol * |p0| + atol
    · rw [if_pos hc]
      right
      refine ⟨p0, h0, ?_⟩
      have : |p0 - x| ≤ |p - p0| + |p - x| := by
        rw [abs_sub_comm p p0]
        exact abs_sub_le p0 p x
      linarith
    · rw [if_neg hc]
      -- from a point within δ / 2
      have hp' : |p - x| ≤ δ / 2 := by linarith
      rcases loop_near (δ := δ / 2) (fun q hq => h q (hq.trans (by linarith))) n p (householderStep p T0 l M) hp'
        (h p (by linarith)) with h1 | ⟨p', h2, h3⟩
      · left
        refine h1.trans (le_of_eq ?_)
        rw [pow_succ 2 (n + 1)]
        field_simp
      · exact Or.inr ⟨p', by linarith, h3⟩

/-- C179. So the iteration ends at the transfer when it starts near enough (and does not stop before its first step): within the
tolerance, or after `n` steps within `δ / 2ⁿ`. -/
theorem C179_converges {x l T0 : ℝ} {M : Nat} (hl : l ^ 2 < 1) (h1 : -1 < x) (h2 : x ≠ 1) (hs : M = 0 → x < √0.6 ∨ √1.4 < x)
    (h0 : exactTime x l M = T0) (hd : 1e-5 < |deriv (fun x => exactTime x l M) x|) :
    ∃ δ > 0, ∀ (p0 atol rtol : ℝ) (n : Nat), 0 < n → |p0 * 1.1 + 0.01 - x| ≤ δ → rtol * |p0| + atol ≤ |p0 * 0.1 + 0.01| →
      let r := householder p0 T0 l M atol rtol n
      |r - x| ≤ δ / 2 ^ n ∨ ∃ p, |p - x| ≤ δ ∧ |r - x| ≤ rtol * |p| + atol := by
  obtain ⟨δ, hδ, h⟩ := C179_local hl h1 h2 hs h0 hd
  refine ⟨δ, hδ, fun p0 atol rtol n hn hp ht => ?_⟩
  obtain ⟨m, rfl⟩ : ∃ m, n = m + 1 := ⟨n - 1, by omega⟩
  unfold householder householderLoop
  have : ¬ |p0 * 1.1 + 0.01 - p0| < rtol * |p0| + atol := by
    rw [show p0 * 1.1 + 0.01 - p0 = p0 * 0.1 + 0.01 by ring]
    exact not_lt.mpr ht
  rw [if_neg this]
  exact loop_near h m _ _ hp (h _ hp)

/-- The hypotheses of `C179_converges` are met, for half of a circle. -/
example : (0 : ℝ) < √0.6 ∧ 1e-5 < |deriv (fun x => exactTime x 0 0) 0| := by
  refine ⟨Real.sqrt_pos.mpr (by norm_num), ?_⟩
  rw [(hasDerivAt_time (by norm_num) (by norm_num) (by norm_num)).deriv]
  norm_num [tofEquationP]

/-- C179. Of the elliptic transfers with a given number of revolutions, the time has a vanishing derivative for no more than one. That one
is strictly the shortest of all of them, and its `x` is positive. -/
theorem C179_minimum {c l : ℝ} {M : Nat} (hl : l ^ 2 < 1) (h1 : -1 < c) (h2 : c < 1)
    (hc : deriv (fun x => exactTime x l M) c = 0) :
    0 < c ∧ ∀ x, -1 < x → x < 1 → x ≠ c → exactTime c l M < exactTime x l M ∧ deriv (fun x => exactTime x l M) x ≠ 0 := by
  set T := fun x => exactTime x l M with hT
  have hd : ∀ x, -1 < x → x < 1 → HasDerivAt T (deriv T x) x := fun x a b => by
    have := hasDerivAt_time (M := M) hl a b.ne
    exact this.differentiableAt.hasDerivAt
  have hdd : ∀ x, -1 < x → x < 1 → HasDerivAt (deriv T) (deriv (deriv T) x) x := fun x a b =>
    (C179_derivatives (M := M) hl a b.ne).2.1.differentiableAt.hasDerivAt
  have hpos : ∀ x, -1 < x → x < 1 → deriv T x = 0 → 0 < x ∧ 0 < deriv (deriv T) x := by
    intro x a b h0
    obtain ⟨d1, d2, -⟩ := C179_derivatives (M := M) hl a b.ne
    have e := d1.deriv
    rw [← hT, h0] at e
    rw [← hT] at d2
    rw [d2.deriv, h0]
    exact critical hl a b (time_pos hl a b) e.symm
  have huniq : ∀ x, -1 < x → x < 1 → x ≠ c → deriv T x ≠ 0 := by
    intro x a b hne h0
    rcases lt_or_gt_of_ne hne with h | h
    · exact unique_zero hdd (fun x a b h => (hpos x a b h).2) a h2 h h0 hc
    · exact unique_zero hdd (fun x a b h => (hpos x a b h).2) h1 b h hc h0
  refine ⟨(hpos c h1 h2 hc).1, fun x a b hne => ⟨?_, huniq x a b hne⟩⟩
  have hcont : ∀ u v, -1 < u → v < 1 → ContinuousOn T (Set.Icc u v) := fun u v hu hv z hz =>
    (hd z (hu.trans_le hz.1) (hz.2.trans_lt hv)).continuousAt.continuousWithinAt
  -- slopes of the derivative at `c`
  have hsl : ∀ᶠ z in nhdsWithin c {c}ᶜ, 0 < deriv T z / (z - c) := by
    have := (hasDerivAt_iff_tendsto_slope.mp (hdd c h1 h2)).eventually (lt_mem_nhds (hpos c h1 h2 hc).2)
    filter_upwards [this] with z hz
    rwa [slope_def_field, hc, sub_zero] at hz
  obtain ⟨ε, hε, hball⟩ := Metric.mem_nhdsWithin_iff.mp hsl
  have hnear : ∀ z, z ≠ c → |z - c| < ε → 0 < deriv T z / (z - c) := fun z hz hzε =>
    hball ⟨by rwa [Metric.mem_ball, Real.dist_eq], hz⟩
  by_contra hle
  push Not at hle
  rcases lt_or_gt_of_ne hne with h | h
  · -- before `c`
    set z := max ((x + c) / 2) (c - ε / 2) with hz
    have z1 : x < z := lt_of_lt_of_le (by linarith) (le_max_left _ _)
    have z2 : z < c := max_lt (by linarith) (by linarith)
    have z3 : c - ε / 2 ≤ z := le_max_right _ _
    have hTz : T c < T z := by
      obtain ⟨w, hw, hw'⟩ := exists_deriv_eq_slope T z2 (hcont z c (a.trans z1) h2)
        (fun w hw => (hd w (a.trans (z1.trans hw.1)) (hw.2.trans h2)).differentiableAt.differentiableWithinAt)
      have hneg : deriv T w < 0 := by
        have := hnear w hw.2.ne (by rw [abs_lt]; constructor <;> linarith [hw.1, hw.2])
        by_contra hn
        push Not at hn
        exact absurd this (not_lt.mpr (div_nonpos_of_nonneg_of_nonpos hn (by linarith [hw.2])))
      rw [hw', div_neg_iff] at hneg
      rcases hneg with ⟨_, hn⟩ | ⟨hn, _⟩
      · linarith
      · linarith
    obtain ⟨w, hw, hw'⟩ := intermediate_value_Icc z1.le (hcont x z a (z2.trans h2)) ⟨hle, hTz.le⟩
    have hwc : w < c := hw.2.trans_lt z2
    obtain ⟨v, hv, hv'⟩ := exists_deriv_eq_zero hwc (hcont w c (a.trans_le hw.1) h2) hw'
    exact huniq v (a.trans_le (hw.1.trans hv.1.le)) (hv.2.trans h2) hv.2.ne hv'
  · -- after `c`
    set z := min ((x + c) / 2) (c + ε / 2) with hz
    have z1 : z < x := lt_of_le_of_lt (min_le_left _ _) (by linarith)
    have z2 : c < z := lt_min (by linarith) (by linarith)
    have z3 : z ≤ c + ε / 2 := min_le_right _ _
    have hTz : T c < T z := by
      obtain ⟨w, hw, hw'⟩ := exists_deriv_eq_slope T z2 (hcont c z h1 (z1.trans b))
        (fun w hw => (hd w (h1.trans hw.1) (hw.2.trans (z1.trans b))).differentiableAt.differentiableWithinAt)
      have hp : 0 < deriv T w := by
        have := hnear w hw.1.ne' (by rw [abs_lt]; constructor <;> linarith [hw.1, hw.2])
        exact (div_pos_iff_of_pos_right (by linarith [hw.1])).mp this
      rw [hw', lt_div_iff₀ (by linarith)] at hp
      linarith
    obtain ⟨w, hw, hw'⟩ := intermediate_value_Icc' z1.le (hcont z x (h1.trans z2) b) ⟨hle, hTz.le⟩
    have hcw : c < w := z2.trans_le hw.1
    obtain ⟨v, hv, hv'⟩ := exists_deriv_eq_zero hcw (hcont c w h1 (hw.2.trans_lt b)) hw'.symm
    exact huniq v (h1.trans hv.1) (hv.2.trans_le hw.2 |>.trans b) hv.1.ne' hv'

theorem time_tenth (l : ℝ) (M : Nat) : tofEquation 0.1 0 l M = exactTime 0.1 l M := by
  have hs : ¬ useSmall 0.1 M := by
    intro h
    have := h.2.1
    rw [Real.sqrt_lt' (by norm_num)] at this
    norm_num at this
  unfold tofEquation tofEquationY timeOfFlight exactTime
  rw [if_neg hs, if_neg (by norm_num), sub_zero]

/-- C179. The iteration for the shortest time keeps the time of its first point, 0.1. A point `p` it comes to rest at because its first
derivative vanishes is not the shortest transfer, unless it is that first point: the derivative of the time does not vanish there, and
there are shorter transfers with as many revolutions. -/
theorem C179_shortest_stale {p l : ℝ} {M : Nat} (hl : l ^ 2 < 1) (h1 : -1 < p) (h2 : p < 1) (hp : p ≠ 0.1)
    (h : tofEquationP p (computeY p l) (tofEquation 0.1 0 l M) l = 0) :
    halleyStep p (tofEquation 0.1 0 l M) l = p ∧ deriv (fun x => exactTime x l M) p ≠ 0 ∧
    ∃ x, -1 < x ∧ x < 1 ∧ exactTime x l M < exactTime p l M := by
  rw [time_tenth] at h ⊢
  have hne : deriv (fun x => exactTime x l M) p ≠ 0 := by
    intro h0
    obtain ⟨hp0, hmin⟩ := C179_minimum hl h1 h2 h0
    have e := (C179_derivatives (M := M) hl h1 h2.ne).1.deriv
    rw [h0] at e
    have hlt := (hmin 0.1 (by norm_num) (by norm_num) hp.symm).1
    have hw : 0 < 1 - p ^ 2 := by nlinarith
    unfold tofEquationP at h e
    have a := (div_eq_zero_iff.mp h).resolve_right hw.ne'
    have b := (div_eq_zero_iff.mp e.symm).resolve_right hw.ne'
    simp only at b
    nlinarith
  refine ⟨by unfold halleyStep; simp only; rw [h]; simp, hne, ?_⟩
  by_contra hno
  push Not at hno
  apply hne
  apply IsLocalMin.deriv_eq_zero (f := fun x => exactTime x l M)
  filter_upwards [Ioo_mem_nhds h1 h2] with z hz
  exact hno z hz.1 hz.2

/-- C179. Not true: that this iteration comes to rest at the shortest transfer; for one revolution with `l = 0` it does not. -/
theorem C179_shortest_false : ∃ p : ℝ, -1 < p ∧ p < 1 ∧ halleyStep p (tofEquation 0.1 0 0 1) 0 = p ∧
    ∃ x, -1 < x ∧ x < 1 ∧ exactTime x 0 1 < exactTime p 0 1 := by
  have hpi := Real.pi_gt_three
  have hpi' := Real.pi_le_four
  -- the time at 0.1
  have hT : exactTime 0.1 0 1 = ((Real.arccos 0.1 + Real.pi) / √0.99 - 0.1) / 0.99 := by
    rw [exactTime_elliptic (by norm_num) (by norm_num)]
    norm_num [computeY]
  have hw1 : √0.99 ≤ 1 := Real.sqrt_le_one.mpr (by norm_num)
  have hw2 : (0.99 : ℝ) ≤ √0.99 := Real.le_sqrt_of_sq_le (by norm_num)
  have ha1 : 0 ≤ Real.arccos 0.1 := Real.arccos_nonneg _
  have ha2 : Real.arccos 0.1 ≤ Real.pi / 2 := Real.arccos_le_pi_div_two.mpr (by norm_num)
  have hpi2 := Real.pi_lt_d2
  set T0 := exactTime 0.1 0 1 with hT0
  have hlow : 2 < T0 := by
    rw [hT, lt_div_iff₀ (by norm_num)]
    have : Real.pi ≤ (Real.arccos 0.1 + Real.pi) / √0.99 := by
      rw [le_div_iff₀ (by linarith)]
      nlinarith
    linarith
  have hupp : T0 < 5 := by
    rw [hT, div_lt_iff₀ (by norm_num)]
    have : (Real.arccos 0.1 + Real.pi) / √0.99 ≤ 4.8 := by
      rw [div_le_iff₀ (by linarith)]
      nlinarith
    linarith
  have hp1 : 2 / (3 * T0) < 1 := by rw [div_lt_one (by linarith)]; linarith
  have hp0 : 0.1 < 2 / (3 * T0) := by rw [lt_div_iff₀ (by linarith)]; linarith
  have h := C179_shortest_stale (p := 2 / (3 * T0)) (l := 0) (M := 1) (by norm_num) (by linarith) hp1 hp0.ne' (by
    rw [time_tenth]
    unfold tofEquationP
    rw [← hT0, mul_div_cancel₀ 2 (by linarith : 3 * T0 ≠ 0)]
    simp)
  exact ⟨_, by linarith, hp1, h.1, h.2.2⟩

/-! ### a retrograde transfer between near positions -/

/-- Two positions at the same distance, with s = 1 and `l = -0.96` for a retrograde transfer. -/
noncomputable def nearA : V3 := ⟨1201 / 1250, 0, 0⟩
noncomputable def nearB : V3 := ⟨1437599 / 1501250, 117600 / 1501250, 0⟩

theorem near_cross : V3.cross nearA nearB ≠ ⟨0, 0, 0⟩ := by
  intro h
  have := congrArg V3.z h
  norm_num [V3.cross, nearA, nearB] at this

theorem near_geometry : (geometry nearA nearB false).s = 1 ∧ (geometry nearA nearB false).ll = -0.96 := by
  have n1 : V3.norm nearA = 1201 / 1250 := by
    unfold V3.norm nearA
    rw [Real.sqrt_eq_iff_mul_self_eq (by norm_num) (by norm_num)]
    norm_num
  have n2 : V3.norm nearB = 1201 / 1250 := by
    unfold V3.norm nearB
    rw [Real.sqrt_eq_iff_mul_self_eq (by norm_num) (by norm_num)]
    norm_num
  have n3 : V3.norm (V3.sub nearB nearA) = 0.0784 := by
    unfold V3.norm V3.sub nearA nearB
    rw [Real.sqrt_eq_iff_mul_self_eq (by norm_num) (by norm_num)]
    norm_num
  have n4 : √(1 - min 1 ((0.0784 : ℝ) / 1)) = 0.96 := by
    rw [Real.sqrt_eq_iff_mul_self_eq (by norm_num) (by norm_num)]
    norm_num
  have n5 : ∀ c : ℝ, 0 < c → ¬ (V3.smul c (V3.cross (V3.smul (1 / (1201 / 1250)) nearA) (V3.smul (1 / (1201 / 1250)) nearB))).z < 0 := by
    intro c hc
    rw [not_lt]
    norm_num [V3.smul, V3.cross, nearA, nearB]
    exact hc.le
  have hpos : ∀ w : V3, 0 < 1 / (if V3.norm w > 0 then V3.norm w else 1) := by
    intro w
    split
    · next h => exact one_div_pos.mpr h
    · norm_num
  unfold geometry
  simp only
  rw [n1, n2, n3, if_neg (n5 _ (hpos _)), show ((1201 / 1250 + 1201 / 1250 + 0.0784) * 0.5 : ℝ) = 1 by norm_num, n4]
  norm_num

theorem arccos_bounds : Real.arccos 0.96 ≤ 0.284 ∧ √(1 - (-0.96 : ℝ) ^ 2) = 0.28 := by
  constructor
  · have h1 : Real.arccos 0.96 = Real.arcsin 0.28 := by
      rw [Real.arccos_eq_arcsin (by norm_num)]
      congr 1
      rw [Real.sqrt_eq_iff_mul_self_eq (by norm_num) (by norm_num)]
      norm_num
    have hpi := Real.pi_gt_three
    rw [h1, Real.arcsin_le_iff_le_sin ⟨by norm_num, by norm_num⟩ ⟨by linarith, by linarith⟩]
    have := Real.sin_gt_sub_cube (x := 0.284) (by norm_num)
    norm_num at this ⊢
    linarith
  · rw [Real.sqrt_eq_iff_mul_self_eq (by norm_num) (by norm_num)]
    norm_num

/-- C179. Not true: that the iteration is carried out. It starts at `p0` and `1.1 p0 + 0.01`, which are the same number for `p0 = -0.1`, and
ends there at once. For this retrograde transfer and time of flight the velocities, with any number of iterations and any tolerance,
lead to the second position more than half a percent too early. -/
theorem C179_skipped_false : ∃ tof : ℝ, 0 < tof ∧ ∀ (lowPath : Bool) (maxiter : Nat) (atol rtol : ℝ), 0 < atol → 0 ≤ rtol →
    ∃ v1 v2, izzoLambert nearA nearB tof (1 / 2) 0 false lowPath maxiter atol rtol = some (v1, v2) ∧
    ∃ t, 0 < t ∧ t ≤ 0.995 * tof ∧ ∀ (p q : ℝ → E3) (t0 : ℝ), IsMotion (1 / 2) p q → p t0 = nearA.toE → q t0 = v1.toE →
      p (t0 + t) = nearB.toE ∧ q (t0 + t) = v2.toE := by
  obtain ⟨hs, hl⟩ := near_geometry
  obtain ⟨hac, hsq⟩ := arccos_bounds
  have hpi := Real.pi_gt_d2
  have hpi2 := Real.pi_lt_d2
  set T0 := Real.arccos (-0.96) + -0.96 * √(1 - (-0.96 : ℝ) ^ 2) with hT0
  have hT0v : Real.pi - 0.5528 ≤ T0 := by
    rw [hT0, hsq, Real.arccos_neg]
    linarith
  have hT0pos : 0 < T0 := by linarith
  have hk : (1.171 : ℝ) ≤ (10 / 9 : ℝ) ^ ((3 : ℝ) / 2) := by
    rw [show (3 : ℝ) / 2 = (3 : ℝ) * (1 / 2) by norm_num, Real.rpow_mul (by norm_num), ← Real.sqrt_eq_rpow]
    apply Real.le_sqrt_of_sq_le
    rw [show (3 : ℝ) = ((3 : ℕ) : ℝ) by norm_num, Real.rpow_natCast]
    norm_num
  set k := (10 / 9 : ℝ) ^ ((3 : ℝ) / 2) with hkd
  refine ⟨T0 * k, by nlinarith, fun lowPath maxiter atol rtol ha hr => ?_⟩
  have htof : 0 < T0 * k := by nlinarith
  obtain ⟨⟨v1, v2⟩, hv⟩ := Option.isSome_iff_exists.mp (Props.C40_defined (mu := 1 / 2) (prograde := false) (lowPath := lowPath)
    (maxiter := maxiter) (atol := atol) (rtol := rtol) near_cross htof.le)
  refine ⟨v1, v2, hv, ?_⟩
  have harr := Props.arrives (by norm_num) near_cross hv
  simp only at harr
  rw [hs, hl] at harr
  have hunit : √(2 * (1 / 2) / 1 ^ 3 : ℝ) * (T0 * k) = T0 * k := by norm_num
  have hunit' : √((1 : ℝ) ^ 3 / (2 * (1 / 2))) = 1 := by norm_num
  rw [hunit, hunit'] at harr
  -- the first guess
  have hguess : initialGuess (T0 * k) (-0.96) 0 lowPath = -0.1 := by
    unfold initialGuess
    simp only [Nat.cast_zero, zero_mul, add_zero, if_true, ← hT0]
    rw [if_pos (by nlinarith), show T0 / (T0 * k) = (9 / 10 : ℝ) ^ ((3 : ℝ) / 2) by
      rw [hkd, show (10 / 9 : ℝ) = (9 / 10)⁻¹ by norm_num, Real.inv_rpow (by norm_num)]
      field_simp, ← Real.rpow_mul (by norm_num)]
    norm_num
  have hx : householder (-0.1) (T0 * k) (-0.96) 0 atol rtol maxiter = -0.1 := by
    unfold householder
    rw [show (-0.1 * 1.1 + 0.01 : ℝ) = -0.1 by norm_num]
    cases maxiter with
    | zero => rfl
    | succ n =>
      unfold householderLoop
      rw [if_pos]
      have := mul_nonneg hr (abs_nonneg (-0.1 : ℝ))
      rw [sub_self, abs_zero]
      linarith
  rw [hguess, hx] at harr
  obtain ⟨t, ht, h0, -, hmo, -⟩ := harr (by norm_num) (Or.inl (by norm_num))
  refine ⟨t, h0, ?_, hmo⟩
  -- the time of the flight
  have hy : computeY (-0.1) (-0.96) = 0.296 := by
    unfold computeY
    rw [Real.sqrt_eq_iff_mul_self_eq (by norm_num) (by norm_num)]
    norm_num
  rw [ht, one_mul, exactTime_elliptic (by norm_num) (by norm_num), hy]
  have hle : Real.arccos (-0.1 * 0.296 + -0.96 * (1 - (-0.1) ^ 2)) ≤ Real.pi := Real.arccos_le_pi _
  generalize Real.arccos (-0.1 * 0.296 + -0.96 * (1 - (-0.1) ^ 2)) = a at hle
  have hw : (0.99498 : ℝ) ≤ √(1 - (-0.1) ^ 2) := Real.le_sqrt_of_sq_le (by norm_num)
  have hq : (a + (0 : ℕ) * Real.pi) / √(1 - (-0.1) ^ 2) ≤ 1.00505 * Real.pi := by
    rw [div_le_iff₀ (by linarith)]
    push_cast
    nlinarith
  rw [div_le_iff₀ (by norm_num)]
  have : 1.171 * (Real.pi - 0.5528) ≤ T0 * k := by nlinarith
  nlinarith

/-- Every elliptic retrograde transfer between the two positions with one revolution takes longer than 4. -/
theorem near_one {x : ℝ} (h1 : -1 < x) (h2 : x < 1) : 4 < exactTime x (-0.96) 1 := by
  have hx : 0 < 1 - x ^ 2 := by nlinarith
  have hl : (-0.96 : ℝ) ^ 2 < 1 := by norm_num
  have hy := y_pos x hl
  have hy2 := y_sq (x := x) hl
  have hpi := Real.pi_gt_d2
  rw [exactTime_elliptic h1 h2, lt_div_iff₀ hx]
  set s := √(1 - x ^ 2) with hs
  have hs0 : 0 < s := Real.sqrt_pos.mpr hx
  have hs2 : s ^ 2 = 1 - x ^ 2 := Real.sq_sqrt hx.le
  have hs1 : s ≤ 1 := by nlinarith [sq_nonneg x]
  rw [← hs2]
  rw [← hs2] at hy2
  generalize computeY x (-0.96) = y at *
  have hyb : y ≤ |x| + 0.28 * s := by
    apply abs_le_of_sq_le_sq' _ (by positivity) |>.2
    have := sq_abs x
    nlinarith [mul_nonneg (abs_nonneg x) hs0.le]
  set κ := x * y + -0.96 * s ^ 2 with hκ
  have key : ∀ A : ℝ, 0 ≤ A → A ≤ Real.arccos κ + (1 : ℕ) * Real.pi → 4 * s ^ 2 * s + (x + 0.96 * y) * s < A →
      4 * s ^ 2 < (Real.arccos κ + (1 : ℕ) * Real.pi) / s - x + -0.96 * y := by
    intro A _ hA h
    have : 4 * s ^ 2 + (x + 0.96 * y) < (Real.arccos κ + (1 : ℕ) * Real.pi) / s := by
      rw [lt_div_iff₀ hs0]
      calc (4 * s ^ 2 + (x + 0.96 * y)) * s = 4 * s ^ 2 * s + (x + 0.96 * y) * s := by ring
        _ < A := h
        _ ≤ _ := hA
    linarith
  by_cases hk : κ ≤ 0
  · have ha : Real.pi / 2 ≤ Real.arccos κ := by
      rw [← not_lt, Real.arccos_lt_pi_div_two]
      exact not_lt.mpr hk
    apply key 4.71 (by norm_num) (by push_cast; linarith)
    rcases le_total x 0 with hx0 | hx0
    · rw [abs_of_nonpos hx0] at hyb
      nlinarith [mul_pos hs0 hs0, mul_pos (mul_pos hs0 hs0) hs0]
    · rw [abs_of_nonneg hx0] at hyb
      -- 4 s³ + (1.96 x + 0.2688 s) s < 4.71
      have e : 1.96 * x ≤ 3 * x ^ 2 + 0.3202 := by nlinarith [sq_nonneg (3 * x - 0.98)]
      have : 4 * s ^ 2 * s + (x + 0.96 * y) * s ≤ s * (s ^ 2 + 0.2688 * s + 3.3202) := by nlinarith
      nlinarith [mul_pos hs0 hs0]
  · push Not at hk
    have hx0 : 0 < x := by
      by_contra hn
      push Not at hn
      have : x * y ≤ 0 := mul_nonpos_of_nonpos_of_nonneg hn hy.le
      nlinarith [mul_pos hs0 hs0]
    rw [abs_of_pos hx0] at hyb
    have hκ1 : κ ≤ 1 - 1.96 * s ^ 2 + 0.28 * x * s := by nlinarith
    have ha : Real.pi / 2 * (1 - κ) ≤ Real.arccos κ := by
      have h0 : 0 ≤ Real.arcsin κ := Real.arcsin_nonneg.mpr hk.le
      have h1 : Real.sin (Real.arcsin κ) ≤ κ := by
        rcases le_total κ 1 with h | h
        · exact (Real.sin_arcsin (by linarith) h).le
        · exact (Real.sin_le_one _).trans h
      have h2 := Real.mul_le_sin h0 (Real.arcsin_le_pi_div_two κ)
      have h3 : 2 / Real.pi * Real.arcsin κ ≤ κ := h2.trans h1
      have h4 : Real.arcsin κ ≤ Real.pi / 2 * κ := by
        have hp : 0 < Real.pi := by linarith
        rw [div_mul_eq_mul_div, div_le_iff₀ hp] at h3
        linarith
      unfold Real.arccos
      linarith
    apply key (1.57 * (2 + 1.96 * s ^ 2 - 0.28 * x * s)) (by nlinarith [mul_pos hx0 hs0]) (by
      push_cast
      have : 0 ≤ 2 + 1.96 * s ^ 2 - 0.28 * x * s := by nlinarith
      nlinarith)
    have e : 2.4 * x ≤ 2.5 * x ^ 2 + 0.576 := by nlinarith [sq_nonneg (5 * x - 2.4)]
    nlinarith [mul_pos hs0 hs0, mul_pos (mul_pos hs0 hs0) hs0]

/-- C179. Not true: that the number of revolutions is refused if no transfer with so many takes the given time. Retrograde from `nearA` to
`nearB` in 4 units of time with one revolution is answered, although every such transfer takes longer. -/
theorem C179_revolutions_false (lowPath : Bool) (maxiter : Nat) (atol rtol : ℝ) :
    (∃ v1 v2, izzoLambert nearA nearB 4 (1 / 2) 1 false lowPath maxiter atol rtol = some (v1, v2)) ∧
    ∀ x, -1 < x → x < 1 → 4 < exactTime x (geometry nearA nearB false).ll 1 := by
  obtain ⟨hs, hl⟩ := near_geometry
  rw [hl]
  refine ⟨?_, fun x => near_one⟩
  obtain ⟨hac, hsq⟩ := arccos_bounds
  have hpi := Real.pi_gt_d2
  have hpi2 := Real.pi_lt_d2
  have hm : (1 : ℤ) ≤ mMax (-0.96) 4 maxiter atol rtol := by
    have hfl : ⌊(4 : ℝ) / Real.pi⌋ = 1 := by
      rw [Int.floor_eq_iff]
      constructor
      · rw [le_div_iff₀ (by linarith)]; push_cast; linarith
      · rw [div_lt_iff₀ (by linarith)]; push_cast; linarith
    unfold mMax
    simp only
    rw [hfl, if_neg]
    rintro ⟨h, -⟩
    rw [show |(-0.96 : ℝ)| = 0.96 by norm_num, hsq] at h
    push_cast at h
    linarith
  unfold izzoLambert findXY
  simp only
  rw [hs, hl, show √(2 * (1 / 2) / 1 ^ 3 : ℝ) * 4 = 4 by norm_num, if_pos ⟨by norm_num, by exact_mod_cast hm⟩]
  exact ⟨_, _, rfl⟩

end Verif.Lambert.IterProps
