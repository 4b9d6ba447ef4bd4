import Verif.Aberr.Lemmas
import Verif.Univ.Props
import Mathlib.Topology.Order.IntermediateValue
import Mathlib.Topology.MetricSpace.Lipschitz

/-! # Properties of light time and stellar aberration (C38, C39) -/

namespace Verif.Aberr.Props

open Verif Verif.Aberr

/-! ## C38: light time -/

/-- C38. With the two-body propagator: the loop takes at most `max_lt_iter` rounds. When a light time is reported, the orbit
that comes with it is the given orbit propagated by exactly minus that light time; and the light time is the distance, over the
speed of light, to the given orbit propagated by minus a light time within the tolerance of the reported one. -/
theorem C38_emission {mu : ℝ} {orbit : State} {t0 : ℝ} {observer : V3} {ltTol tol : ℝ} {maxIter maxLtIter : Nat}
    (ht : ltTol < 1e30) (hfar : V3.norm (V3.sub orbit.1 observer) / lightSpeed + ltTol < 1e30) {lt : ℝ}
    (h : (addLightTime2body mu orbit t0 observer ltTol maxIter tol maxLtIter).2 = some lt) :
    (addLightTime2body mu orbit t0 observer ltTol maxIter tol maxLtIter).1 = Univ.propagate mu orbit t0 (t0 - lt) maxIter tol ∧
    ∃ ltPrev, |lt - ltPrev| ≤ ltTol ∧
      lt = V3.norm (V3.sub (Univ.propagate mu orbit t0 (t0 - ltPrev) maxIter tol).1 observer) / lightSpeed := by
  unfold addLightTime2body addLightTime at h ⊢
  simp only at h ⊢
  rcases Nat.eq_zero_or_pos maxLtIter with rfl | hm
  · simp [loop] at h
  have hi := result_inv (fun s a b => Univ.propagate mu s a b maxIter tol) orbit t0 observer ht hm
  generalize loop (fun s a b => Univ.propagate mu s a b maxIter tol) orbit observer ltTol maxLtIter maxLtIter
    ⟨orbit, t0, 1e30, 1e30, 0⟩ = p at h hi ⊢
  split at h
  · cases h
  rename_i hc
  push Not at hc
  simp only [Option.some.injEq] at h
  subst h
  obtain ⟨prev, l, h1, h2, ⟨a, h3⟩, h4⟩ := hi
  have hs : ∀ a x : ℝ, Univ.propagate mu orbit a (a - x) maxIter tol = Univ.propagate mu orbit t0 (t0 - x) maxIter tol := by
    intro a x
    unfold Univ.propagate
    simp only [show a - x - a = -x by ring, show t0 - x - t0 = -x by ring]
  refine ⟨h3.trans (hs a p.lt), l, by rw [← h2]; exact hc.1, ?_⟩
  rcases h4 with ⟨rfl, rfl, -⟩ | ⟨⟨b, rfl⟩, -⟩
  · exfalso
    have := hc.1
    rw [h2, h1] at this
    have := (abs_le.mp this).1
    linarith
  · rw [h1]
    simp only [hs]

/-- C38. For every body that moves slower than light there is exactly one light time. -/
theorem C38_light_time_exists {v : ℝ} {p : ℝ → E3} (hs : SpeedAtMost v p) (h0 : 0 ≤ v) (hv : v < lightSpeed) (observer : E3)
    (t : ℝ) : ∃! lt, IsLightTime lightSpeed p observer t lt := by
  have hc : Continuous p := by
    refine (LipschitzWith.of_dist_le_mul (K := ⟨v, h0⟩) fun x y => ?_).continuous
    rw [dist_eq_norm, Real.dist_eq]
    exact hs x y
  have hd : 0 < lightSpeed - v := by linarith
  have hcont : Continuous fun l : ℝ => lightSpeed * l - ‖p (t - l) - observer‖ := by fun_prop
  set d := ‖p t - observer‖ with hdd
  have hdn : 0 ≤ d := norm_nonneg _
  have hb : 0 ≤ d / (lightSpeed - v) := div_nonneg hdn hd.le
  obtain ⟨l, ⟨hl, -⟩, e⟩ := intermediate_value_Icc hb hcont.continuousOn
    (show (0 : ℝ) ∈ Set.Icc _ _ from by
      constructor
      · simp only [mul_zero, sub_zero, zero_sub]
        linarith
      · have h1 : ‖p (t - d / (lightSpeed - v)) - observer‖ ≤ v * (d / (lightSpeed - v)) + d := by
          have := hs (t - d / (lightSpeed - v)) t
          rw [show t - d / (lightSpeed - v) - t = -(d / (lightSpeed - v)) by ring, abs_neg, abs_of_nonneg hb] at this
          calc ‖p (t - d / (lightSpeed - v)) - observer‖ = ‖(p (t - d / (lightSpeed - v)) - p t) + (p t - observer)‖ := by
                rw [sub_add_sub_cancel]
            _ ≤ _ := (norm_add_le _ _).trans (by linarith)
        have h2 : (lightSpeed - v) * (d / (lightSpeed - v)) = d := by field_simp
        linarith)
  refine ⟨l, ⟨hl, by simp only at e; linarith⟩, ?_⟩
  rintro l' ⟨hl', e'⟩
  simp only at e
  have h1 : |‖p (t - l') - observer‖ - ‖p (t - l) - observer‖| ≤ v * |l' - l| := by
    refine (abs_norm_sub_norm_le _ _).trans ?_
    rw [sub_sub_sub_cancel_right]
    refine (hs _ _).trans_eq ?_
    rw [show t - l' - (t - l) = -(l' - l) by ring, abs_neg]
  rw [← e', show ‖p (t - l) - observer‖ = lightSpeed * l by linarith, ← mul_sub, abs_mul, abs_of_pos lightSpeed_pos] at h1
  have : (lightSpeed - v) * |l' - l| ≤ 0 := by linarith
  have h2 : |l' - l| ≤ 0 := by
    by_contra hcon
    push Not at hcon
    linarith [mul_pos hd hcon]
  have := abs_eq_zero.mp (le_antisymm h2 (abs_nonneg _))
  linarith

theorem dist_step {v ε : ℝ} {p : ℝ → E3} (hs : SpeedAtMost v p) {observer x : E3} {t l l' : ℝ}
    (hx : ‖x - p (t - l)‖ ≤ ε) : |‖x - observer‖ - ‖p (t - l') - observer‖| ≤ ε + v * |l - l'| := by
  refine (abs_norm_sub_norm_le _ _).trans ?_
  rw [sub_sub_sub_cancel_right]
  calc ‖x - p (t - l')‖ = ‖(x - p (t - l)) + (p (t - l) - p (t - l'))‖ := by rw [sub_add_sub_cancel]
    _ ≤ ‖x - p (t - l)‖ + ‖p (t - l) - p (t - l')‖ := norm_add_le _ _
    _ ≤ ε + v * |l - l'| := by
        have := hs (t - l) (t - l')
        rw [show t - l - (t - l') = -(l - l') by ring, abs_neg] at this
        linarith

/-- C38. For a body that moves along `p`, slower than `v`, and a propagator that is off by at most `ε`: a reported light time
agrees with the distance to the returned orbit, and with the true light time, as closely as the tolerance and the propagator
allow. -/
theorem C38_accuracy {prop : State → ℝ → ℝ → State} {orbit : State} {t0 : ℝ} {observer : V3} {ltTol : ℝ} {maxLtIter : Nat}
    (ht : ltTol < 1e30) (hfar : V3.norm (V3.sub orbit.1 observer) / lightSpeed + ltTol < 1e30)
    {p : ℝ → E3} {v ε : ℝ} (hs : SpeedAtMost v p) (h0 : 0 ≤ v) (hprop : ∀ a b, ‖(prop orbit a b).1.toE - p (t0 + (b - a))‖ ≤ ε)
    {lt : ℝ} (h : (addLightTime prop orbit t0 observer ltTol maxLtIter).2 = some lt) :
    ‖(addLightTime prop orbit t0 observer ltTol maxLtIter).1.1.toE - p (t0 - lt)‖ ≤ ε ∧
    |lightSpeed * lt - ‖(addLightTime prop orbit t0 observer ltTol maxLtIter).1.1.toE - observer.toE‖| ≤ v * ltTol + 2 * ε ∧
    (v < lightSpeed → ∀ L, IsLightTime lightSpeed p observer.toE t0 L → |lt - L| ≤ (v * ltTol + ε) / (lightSpeed - v)) := by
  have hcp := lightSpeed_pos
  unfold addLightTime at h ⊢
  simp only at h ⊢
  rcases Nat.eq_zero_or_pos maxLtIter with rfl | hm
  · simp [loop] at h
  have hi := result_inv prop orbit t0 observer ht hm
  generalize loop prop orbit observer ltTol maxLtIter maxLtIter ⟨orbit, t0, 1e30, 1e30, 0⟩ = q at h hi ⊢
  split at h
  · cases h
  rename_i hc
  push Not at hc
  simp only [Option.some.injEq] at h
  subst h
  obtain ⟨prev, l, h1, h2, ⟨a, h3⟩, h4⟩ := hi
  have hp : ∀ a x : ℝ, ‖(prop orbit a (a - x)).1.toE - p (t0 - x)‖ ≤ ε := by
    intro a x
    have := hprop a (a - x)
    rwa [show t0 + (a - x - a) = t0 - x by ring] at this
  rcases h4 with ⟨rfl, rfl, -⟩ | ⟨⟨b, rfl⟩, -⟩
  · exfalso
    have := hc.1
    rw [h2, h1] at this
    have := (abs_le.mp this).1
    linarith
  have hdl : |q.lt - l| ≤ ltTol := by rw [← h2]; exact hc.1
  have hlt : lightSpeed * q.lt = ‖(prop orbit b (b - l)).1.toE - observer.toE‖ := by
    rw [h1, ← V3.toE_sub, V3.norm_toE]; field_simp
  have hq : ‖q.orbit.1.toE - p (t0 - q.lt)‖ ≤ ε := by rw [h3]; exact hp _ _
  have hvt : v * |q.lt - l| ≤ v * ltTol := mul_le_mul_of_nonneg_left hdl h0
  refine ⟨hq, ?_, ?_⟩
  · have e1 := dist_step (observer := observer.toE) (l' := q.lt) hs (hp b l)
    have e2 := dist_step (observer := observer.toE) (l' := q.lt) hs hq
    rw [sub_self, abs_zero, mul_zero, add_zero] at e2
    rw [hlt]
    rw [abs_sub_comm l q.lt] at e1
    rw [abs_le] at *
    constructor <;> linarith
  · intro hv L hL
    have e1 := dist_step (observer := observer.toE) (l' := L) hs (hp b l)
    rw [← hlt, ← hL.2, ← mul_sub, abs_mul, abs_of_pos hcp] at e1
    have e2 : v * |l - L| ≤ v * |q.lt - l| + v * |q.lt - L| := by
      rw [← mul_add]
      refine mul_le_mul_of_nonneg_left ?_ h0
      rw [abs_sub_comm q.lt l]
      exact abs_sub_le _ _ _
    rw [le_div_iff₀ (by linarith)]
    linarith

/-- The position after each round is on the motion. -/
theorem exact_step {prop : State → ℝ → ℝ → State} {orbit : State} {t0 : ℝ} {observer : V3} {p : ℝ → E3} {v : ℝ}
    (hs : SpeedAtMost v p) (h0 : 0 ≤ v) (hp0 : orbit.1.toE = p t0)
    (hprop : ∀ a b, (prop orbit a b).1.toE = p (t0 + (b - a))) (k : Nat) :
    let d := V3.norm (V3.sub orbit.1 observer) / lightSpeed
    let q := (iterate prop orbit observer)^[k + 1] ⟨orbit, t0, 1e30, 1e30, 0⟩
    q.orbit.1.toE = p (t0 - q.lt) ∧ |V3.norm (V3.sub q.orbit.1 observer) / lightSpeed - q.lt| ≤ (v / lightSpeed) ^ (k + 1) * d := by
  have hcp := lightSpeed_pos
  have hst : ∀ q : Loop, (iterate prop orbit observer q).orbit.1.toE = p (t0 - (iterate prop orbit observer q).lt) := by
    intro q
    show (prop orbit q.t0 (q.t0 - _)).1.toE = _
    rw [hprop]
    congr 1
    show t0 + (q.t0 - (iterate prop orbit observer q).lt - q.t0) = _
    ring
  have hdist : ∀ (x y : V3) (l l' : ℝ), x.toE = p (t0 - l) → y.toE = p (t0 - l') →
      |V3.norm (V3.sub x observer) / lightSpeed - V3.norm (V3.sub y observer) / lightSpeed| ≤ v / lightSpeed * |l - l'| := by
    intro x y l l' hx hy
    have := dist_step (observer := observer.toE) (x := x.toE) (ε := 0) (t := t0) (l := l) (l' := l') hs (by rw [hx]; simp)
    rw [← hy, ← V3.toE_sub, ← V3.toE_sub, V3.norm_toE, V3.norm_toE, zero_add] at this
    rw [← sub_div, abs_div, abs_of_pos hcp, div_mul_eq_mul_div]
    exact div_le_div_of_nonneg_right this hcp.le
  intro d
  induction k with
  | zero =>
    refine ⟨hst _, ?_⟩
    have h1 := hdist (iterate prop orbit observer ⟨orbit, t0, 1e30, 1e30, 0⟩).orbit.1 orbit.1 _ 0 (hst _) (by rw [sub_zero]; exact hp0)
    rw [sub_zero] at h1
    have h2 : |(iterate prop orbit observer ⟨orbit, t0, 1e30, 1e30, 0⟩).lt| = d := by
      show |V3.norm (V3.sub orbit.1 observer) / lightSpeed| = d
      exact abs_of_nonneg (div_nonneg (V3.norm_nonneg _) hcp.le)
    rw [h2] at h1
    simp only [zero_add, pow_one]
    exact h1
  | succ n ih =>
    rw [Function.iterate_succ_apply']
    generalize (iterate prop orbit observer)^[n + 1] ⟨orbit, t0, 1e30, 1e30, 0⟩ = q at ih ⊢
    obtain ⟨i1, i2⟩ := ih
    refine ⟨hst q, ?_⟩
    have h1 := hdist (iterate prop orbit observer q).orbit.1 q.orbit.1 _ _ (hst q) i1
    have hl : (iterate prop orbit observer q).lt = V3.norm (V3.sub q.orbit.1 observer) / lightSpeed := rfl
    rw [← hl] at h1 i2
    calc _ ≤ v / lightSpeed * |(iterate prop orbit observer q).lt - q.lt| := h1
      _ ≤ v / lightSpeed * ((v / lightSpeed) ^ (n + 1) * d) := mul_le_mul_of_nonneg_left i2 (div_nonneg h0 hcp.le)
      _ = _ := by ring

/-- C38. For a body slower than light and an exact propagator the loop converges: a light time is reported as soon as the
limit leaves a round more than `(v / c) ^ k` needs to bring the distance below the tolerance. -/
theorem C38_converges {prop : State → ℝ → ℝ → State} {orbit : State} {t0 : ℝ} {observer : V3} {ltTol : ℝ} {maxLtIter : Nat}
    {p : ℝ → E3} {v : ℝ} (hs : SpeedAtMost v p) (h0 : 0 ≤ v)
    (hp0 : orbit.1.toE = p t0) (hprop : ∀ a b, (prop orbit a b).1.toE = p (t0 + (b - a))) {k : Nat}
    (hk : (v / lightSpeed) ^ (k + 1) * (V3.norm (V3.sub orbit.1 observer) / lightSpeed) ≤ ltTol) (hm : k + 3 ≤ maxLtIter) :
    ∃ lt, (addLightTime prop orbit t0 observer ltTol maxLtIter).2 = some lt := by
  unfold addLightTime
  simp only
  obtain ⟨j, e, hj⟩ := loop_iterate (prop := prop) (orbit := orbit) (observer := observer) (ltTol := ltTol)
    (maxLtIter := maxLtIter) maxLtIter (p := ⟨orbit, t0, 1e30, 1e30, 0⟩)
  have hstop := loop_stops (prop := prop) (orbit := orbit) (observer := observer) (ltTol := ltTol) (maxLtIter := maxLtIter)
    maxLtIter (p := ⟨orbit, t0, 1e30, 1e30, 0⟩) (by omega) (Nat.zero_le _)
  simp only at hstop
  rw [e] at hstop ⊢
  rw [iterations_iterate, zero_add] at hstop ⊢
  have hsmall : ((iterate prop orbit observer)^[k + 2] ⟨orbit, t0, 1e30, 1e30, 0⟩).dlt ≤ ltTol := by
    rw [Function.iterate_succ_apply']
    exact (exact_step (observer := observer) hs h0 hp0 hprop k).2.trans hk
  have hlt : j ≤ k + 2 := by
    by_contra hcon
    push Not at hcon
    exact absurd hsmall (not_le.mpr (hj _ hcon))
  rw [if_neg (by
    push Not
    refine ⟨?_, by omega⟩
    by_contra hcon
    push Not at hcon
    exact hstop.2 ⟨hcon, by omega⟩)]
  exact ⟨_, rfl⟩

/-- C38. What is reported, for every limit: with `D l` the light time to the orbit propagated by `-l`, the values
`D 0, D (D 0), …` are computed until two of them in a row agree to the tolerance; the last one is reported, unless it is
the `max_lt_iter`-th or later, when NaN is. -/
theorem C38_reported {mu : ℝ} {orbit : State} {t0 : ℝ} {observer : V3} {ltTol tol : ℝ} {maxIter maxLtIter : Nat}
    (hr : orbit.1 ≠ ⟨0, 0, 0⟩) (ht : ltTol < 1e30) (hfar : V3.norm (V3.sub orbit.1 observer) / lightSpeed + ltTol < 1e30)
    (D : ℝ → ℝ) (hD : ∀ l, D l = V3.norm (V3.sub (Univ.propagate mu orbit t0 (t0 - l) maxIter tol).1 observer) / lightSpeed)
    (lt : ℝ) :
    (addLightTime2body mu orbit t0 observer ltTol maxIter tol maxLtIter).2 = some lt ↔
      ∃ k, k + 2 < maxLtIter ∧ lt = D^[k + 2] 0 ∧ |D^[k + 2] 0 - D^[k + 1] 0| ≤ ltTol ∧
        ∀ j < k, ltTol < |D^[j + 2] 0 - D^[j + 1] 0| := by
  set prop : State → ℝ → ℝ → State := fun s a b => Univ.propagate mu s a b maxIter tol with hprop
  have hsh : ∀ a x : ℝ, prop orbit a (a - x) = Univ.propagate mu orbit t0 (t0 - x) maxIter tol := by
    intro a x
    show Univ.propagate mu orbit a (a - x) maxIter tol = _
    unfold Univ.propagate
    simp only [show a - x - a = -x by ring, show t0 - x - t0 = -x by ring]
  set p0 : Loop := ⟨orbit, t0, 1e30, 1e30, 0⟩ with hp0
  have hD0 : D 0 = V3.norm (V3.sub orbit.1 observer) / lightSpeed := by
    rw [hD, sub_zero, Univ.Props.C35_zero hr]
  have hit : ∀ k, ((iterate prop orbit observer)^[k + 1] p0).lt = D^[k + 1] 0 ∧
      V3.norm (V3.sub ((iterate prop orbit observer)^[k + 1] p0).orbit.1 observer) / lightSpeed = D^[k + 2] 0 := by
    intro k
    induction k with
    | zero =>
      have h1 : ((iterate prop orbit observer)^[0 + 1] p0).lt = D^[0 + 1] 0 := hD0.symm
      refine ⟨h1, ?_⟩
      rw [Function.iterate_succ_apply' D, ← h1, hD, ← hsh t0]
      rfl
    | succ n ih =>
      have h1 : ((iterate prop orbit observer)^[n + 1 + 1] p0).lt = D^[n + 1 + 1] 0 := by
        rw [Function.iterate_succ_apply']
        exact ih.2
      refine ⟨h1, ?_⟩
      rw [Function.iterate_succ_apply' D, ← h1, hD, ← hsh ((iterate prop orbit observer)^[n + 1] p0).t0,
        Function.iterate_succ_apply' (iterate prop orbit observer)]
      rfl
  have hdlt : ∀ k, ((iterate prop orbit observer)^[k + 2] p0).dlt = |D^[k + 2] 0 - D^[k + 1] 0| := by
    intro k
    rw [← (hit k).1, ← (hit k).2, Function.iterate_succ_apply']
    rfl
  have hd0 : ((iterate prop orbit observer)^[0] p0).dlt > ltTol := ht
  have hd1 : ((iterate prop orbit observer)^[1] p0).dlt > ltTol := by
    show |V3.norm (V3.sub orbit.1 observer) / lightSpeed - 1e30| > ltTol
    rw [abs_sub_comm]
    exact lt_of_lt_of_le (by linarith) (le_abs_self _)
  show (addLightTime prop orbit t0 observer ltTol maxLtIter).2 = some lt ↔ _
  unfold addLightTime
  simp only
  obtain ⟨j, e, hj⟩ := loop_iterate (prop := prop) (orbit := orbit) (observer := observer) (ltTol := ltTol)
    (maxLtIter := maxLtIter) maxLtIter (p := p0)
  have hstop := loop_stops (prop := prop) (orbit := orbit) (observer := observer) (ltTol := ltTol) (maxLtIter := maxLtIter)
    maxLtIter (p := p0) (by omega) (Nat.zero_le _)
  simp only at hstop
  have hp0' : p0.iterations = 0 := rfl
  rw [← hp0, e] at *
  rw [iterations_iterate, hp0', zero_add] at *
  constructor
  · intro h
    split at h
    · cases h
    rename_i hc
    push Not at hc
    simp only [Option.some.injEq] at h
    obtain ⟨k, rfl⟩ : ∃ k, j = k + 2 := by
      rcases j with _ | _ | k
      · exact absurd hc.1 (not_le.mpr hd0)
      · exact absurd hc.1 (not_le.mpr hd1)
      · exact ⟨k, rfl⟩
    refine ⟨k, hc.2, ?_, ?_, ?_⟩
    · rw [← h]; exact (hit (k + 1)).1
    · rw [← hdlt]; exact hc.1
    · intro i hi
      rw [← hdlt]
      exact hj _ (by omega)
  · rintro ⟨k, h1, rfl, h2, h3⟩
    rw [← hdlt] at h2
    have hjk : j = k + 2 := by
      rcases Nat.lt_trichotomy j (k + 2) with h | h | h
      · exfalso
        refine hstop.2 ⟨?_, by omega⟩
        rcases j with _ | _ | i
        · exact hd0
        · exact hd1
        · rw [hdlt]; exact h3 i (by omega)
      · exact h
      · exact absurd h2 (not_le.mpr (hj _ h))
    subst hjk
    rw [if_neg (by push Not; exact ⟨h2, h1⟩)]
    rw [(hit (k + 1)).1]

/-- The propagator of a body at rest. -/
def atRest : State → ℝ → ℝ → State := fun s _ _ => s

/-- C38. Not true that NaN means that the tolerance was not met: for a body at rest, one light day away, the two rounds that are
allowed agree, and NaN is reported. With one round more the light time is reported. -/
theorem C38_last_round_false : ¬ ∀ (prop : State → ℝ → ℝ → State) (orbit : State) (t0 : ℝ) (observer : V3) (ltTol : ℝ)
    (maxLtIter : Nat), (addLightTime prop orbit t0 observer ltTol maxLtIter).2 = none →
      ltTol < (loop prop orbit observer ltTol maxLtIter maxLtIter ⟨orbit, t0, 1e30, 1e30, 0⟩).dlt := by
  intro hall
  have hcp := lightSpeed_pos
  set orbit : State := (⟨lightSpeed, 0, 0⟩, ⟨0, 0, 0⟩) with ho
  have hn : V3.norm (V3.sub orbit.1 ⟨0, 0, 0⟩) = lightSpeed := by
    simp [V3.norm, V3.sub, ho, Real.sqrt_mul_self hcp.le]
  have h := hall atRest orbit 0 ⟨0, 0, 0⟩ 1e-10 2
  have i1 : iterate atRest orbit ⟨0, 0, 0⟩ ⟨orbit, 0, 1e30, 1e30, 0⟩ = ⟨orbit, -1, 1, |1 - 1e30|, 1⟩ := by
    unfold iterate atRest
    simp only [hn, div_self hcp.ne', zero_sub, zero_add]
  have i2 : iterate atRest orbit ⟨0, 0, 0⟩ ⟨orbit, -1, 1, |1 - 1e30|, 1⟩ = ⟨orbit, -1 - 1, 1, 0, 2⟩ := by
    unfold iterate atRest
    simp only [hn, div_self hcp.ne', sub_self, abs_zero]
  have hl : loop atRest orbit ⟨0, 0, 0⟩ 1e-10 2 2 ⟨orbit, 0, 1e30, 1e30, 0⟩ = ⟨orbit, -1 - 1, 1, 0, 2⟩ := by
    simp only [loop]
    rw [i1, i2, if_pos (by norm_num), if_pos (by norm_num)]
  have h' := h (by unfold addLightTime; simp only [hl]; simp)
  rw [hl] at h'
  norm_num at h'

/-- The hypotheses of `C38_converges` and `C38_accuracy` hold for a body at rest, and a light time is reported. -/
example : ∃ lt, (addLightTime atRest (⟨1, 0, 0⟩, ⟨0, 0, 0⟩) 0 ⟨0, 0, 0⟩ 1e-10 10).2 = some lt :=
  C38_converges (p := fun _ => V3.toE ⟨1, 0, 0⟩) (v := 0) (k := 0) (fun s t => by simp) le_rfl rfl (fun _ _ => rfl)
    (by norm_num) (by norm_num)

/-- The propagator of a body that moves in a straight line. -/
def straight : State → ℝ → ℝ → State := fun s a b => (V3.add s.1 (V3.smul (b - a) s.2), s.2)

/-- They hold too for a body that recedes at a hundredth of the speed of light. -/
example : ∃ lt, (addLightTime straight (⟨lightSpeed, 0, 0⟩, ⟨lightSpeed / 100, 0, 0⟩) 0 ⟨0, 0, 0⟩ 1e-10 10).2 = some lt := by
  have hcp := lightSpeed_pos
  refine C38_converges (p := fun t => V3.toE ⟨lightSpeed + t * (lightSpeed / 100), 0, 0⟩) (v := lightSpeed / 100) (k := 6) ?_ ?_ ?_ ?_ ?_ ?_
  · intro s t
    rw [← V3.toE_sub, V3.norm_toE]
    have : V3.sub ⟨lightSpeed + s * (lightSpeed / 100), 0, 0⟩ ⟨lightSpeed + t * (lightSpeed / 100), 0, 0⟩ =
        V3.smul (s - t) ⟨lightSpeed / 100, 0, 0⟩ := by
      ext
      · simp [V3.sub, V3.smul]; ring
      · simp [V3.sub, V3.smul]
      · simp [V3.sub, V3.smul]
    rw [this, V3.norm_smul]
    have : V3.norm ⟨lightSpeed / 100, 0, 0⟩ = lightSpeed / 100 := by
      simp [V3.norm, Real.sqrt_mul_self (show 0 ≤ lightSpeed / 100 by positivity)]
    rw [this, mul_comm]
  · positivity
  · simp
  · intro a b
    simp [straight, V3.add, V3.smul]
  · have : V3.norm (V3.sub ⟨lightSpeed, 0, 0⟩ ⟨0, 0, 0⟩) = lightSpeed := by
      simp [V3.norm, V3.sub, Real.sqrt_mul_self hcp.le]
    rw [this, div_self hcp.ne', show lightSpeed / 100 / lightSpeed = 1 / 100 by field_simp]
    norm_num
  · norm_num

/-! ## C39: stellar aberration -/

/-- C39. A value is returned exactly when the object is not at the observer and the observer is not faster than light, except for
an object straight behind an observer who moves at the speed of light. -/
theorem C39_defined (orbit observer : State) :
    (∃ r, addStellarAberration orbit observer = some r) ↔ orbit.1 ≠ observer.1 ∧ V3.norm observer.2 ≤ lightSpeed ∧
      V3.dot (V3.sub orbit.1 observer.1) observer.2 ≠ -(V3.norm (V3.sub orbit.1 observer.1) * lightSpeed) := by
  have hcp := lightSpeed_pos
  unfold addStellarAberration
  simp only
  set topo := V3.sub orbit.1 observer.1 with htopo
  have hd : V3.norm topo = 0 ↔ orbit.1 = observer.1 := by
    rw [V3.norm_eq_zero, htopo]
    unfold V3.sub
    constructor
    · intro h
      have hx := congrArg V3.x h
      have hy := congrArg V3.y h
      have hz := congrArg V3.z h
      simp only at hx hy hz
      ext <;> linarith
    · intro h; rw [h]; simp
  have hg : V3.norm (V3.smul (1 / lightSpeed) observer.2) = V3.norm observer.2 / lightSpeed := by
    rw [V3.norm_smul, abs_of_pos (by positivity)]; ring
  have h1 : 1 - V3.norm (V3.smul (1 / lightSpeed) observer.2) ^ 2 < 0 ↔ lightSpeed < V3.norm observer.2 := by
    rw [hg, div_pow, sub_neg, one_lt_div (by positivity)]
    exact sq_lt_sq₀ hcp.le (V3.norm_nonneg _)
  have h2 : V3.norm topo ≠ 0 → (1 + V3.dot (V3.smul (1 / V3.norm topo) topo) (V3.smul (1 / lightSpeed) observer.2) = 0 ↔
      V3.dot topo observer.2 = -(V3.norm topo * lightSpeed)) := by
    intro hn
    have : V3.dot (V3.smul (1 / V3.norm topo) topo) (V3.smul (1 / lightSpeed) observer.2) =
        V3.dot topo observer.2 / (V3.norm topo * lightSpeed) := by
      unfold V3.dot V3.smul
      field_simp
    rw [this]
    constructor
    · intro h; field_simp at h; linarith
    · intro h; rw [h]; field_simp; ring
  split
  · rename_i hc
    constructor
    · rintro ⟨r, h⟩; cases h
    · rintro ⟨a, b, c⟩
      rcases hc with h | h | h
      · exact absurd (hd.mp h) a
      · exact absurd (h1.mp h) (not_lt.mpr b)
      · exact absurd ((h2 (fun h => a (hd.mp h))).mp h) c
  · rename_i hc
    push Not at hc
    refine ⟨fun _ => ⟨fun h => hc.1 (hd.mpr h), ?_, fun h => hc.2.2 ((h2 hc.1).mpr h)⟩, fun _ => ⟨_, rfl⟩⟩
    by_contra h
    push Not at h
    exact absurd (h1.mpr h) (not_lt.mpr hc.2.1)

/-- The formula for a unit vector `u` and a velocity `g`. -/
theorem formula {u g : V3} {b d : ℝ} (hu : V3.dot u u = 1) (hb : b ^ 2 = 1 - V3.dot g g) (hb0 : 0 ≤ b) (hd : d = V3.dot u g)
    (h1 : 0 < 1 + d) {w : V3}
    (hw : w = V3.smul (1 / (1 + d)) (V3.add (V3.add (V3.smul b u) g) (V3.smul (1 / (1 + b)) (V3.smul d g)))) :
    V3.dot w w = 1 ∧ V3.dot w g * (1 + d) = d + V3.dot g g ∧
    w = V3.add (V3.smul (b / (1 + d)) u) (V3.smul ((1 + d / (1 + b)) / (1 + d)) g) := by
  have h2 : 1 + b ≠ 0 := by linarith
  have e3 : w = V3.add (V3.smul (b / (1 + d)) u) (V3.smul ((1 + d / (1 + b)) / (1 + d)) g) := by
    rw [hw]; ext <;> simp only [V3.add, V3.smul] <;> field_simp <;> ring
  have key : ∀ (A B : ℝ), V3.dot (V3.add (V3.smul A u) (V3.smul B g)) (V3.add (V3.smul A u) (V3.smul B g)) =
      A ^ 2 + 2 * A * B * d + B ^ 2 * (1 - b ^ 2) := by
    intro A B
    rw [hb, hd, show A ^ 2 = A ^ 2 * V3.dot u u by rw [hu, mul_one]]
    unfold V3.dot V3.add V3.smul
    ring
  have key2 : ∀ (A B : ℝ), V3.dot (V3.add (V3.smul A u) (V3.smul B g)) g = A * d + B * (1 - b ^ 2) := by
    intro A B
    rw [hb, hd]
    unfold V3.dot V3.add V3.smul
    ring
  refine ⟨?_, ?_, e3⟩
  · rw [e3, key]
    have h1' := h1.ne'
    field_simp
    ring
  · rw [e3, key2, show V3.dot g g = 1 - b ^ 2 by linarith]
    have h1' := h1.ne'
    field_simp
    ring

theorem unit_dot {t : V3} (h : V3.norm t ≠ 0) : V3.dot (V3.smul (1 / V3.norm t) t) (V3.smul (1 / V3.norm t) t) = 1 := by
  have := V3.norm_sq t
  have e : V3.dot (V3.smul (1 / V3.norm t) t) (V3.smul (1 / V3.norm t) t) = V3.dot t t / V3.norm t ^ 2 := by
    unfold V3.dot V3.smul; field_simp
  rw [e, ← this, div_self (pow_ne_zero 2 h)]

/-- The parts of a value. -/
theorem value {orbit observer : State} {r : V3} (h : addStellarAberration orbit observer = some r) :
    ∃ (u g w : V3) (b d δ : ℝ), δ = V3.norm (V3.sub orbit.1 observer.1) ∧ 0 < δ ∧ V3.sub orbit.1 observer.1 = V3.smul δ u ∧
      g = V3.smul (1 / lightSpeed) observer.2 ∧
      r = V3.smul δ w ∧ V3.dot u u = 1 ∧ b ^ 2 = 1 - V3.dot g g ∧ 0 ≤ b ∧ d = V3.dot u g ∧ 0 < 1 + d ∧
      w = V3.smul (1 / (1 + d)) (V3.add (V3.add (V3.smul b u) g) (V3.smul (1 / (1 + b)) (V3.smul d g))) := by
  unfold addStellarAberration at h
  simp only at h
  split at h
  · cases h
  rename_i hc
  push Not at hc
  simp only [Option.some.injEq] at h
  obtain ⟨h1, h2, h3⟩ := hc
  set topo := V3.sub orbit.1 observer.1 with ht
  set g := V3.smul (1 / lightSpeed) observer.2 with hg
  have hpos : 0 < V3.norm topo := lt_of_le_of_ne (V3.norm_nonneg _) (Ne.symm h1)
  refine ⟨V3.smul (1 / V3.norm topo) topo, g, _, Real.sqrt (1 - V3.norm g ^ 2),
    V3.dot (V3.smul (1 / V3.norm topo) topo) g, V3.norm topo, rfl, hpos, ?_, rfl, h.symm, unit_dot h1, ?_, Real.sqrt_nonneg _,
    rfl, ?_, rfl⟩
  · ext <;> simp only [V3.smul] <;> field_simp
  · rw [Real.sq_sqrt h2, V3.norm_sq]
  · have hu := unit_dot h1
    have hn : V3.norm (V3.smul (1 / V3.norm topo) topo) = 1 := by
      rw [V3.norm_smul, abs_of_pos (by positivity)]; field_simp
    have := V3.abs_dot_le (V3.smul (1 / V3.norm topo) topo) g
    rw [hn, one_mul] at this
    have hg1 : V3.norm g ≤ 1 := by nlinarith [V3.norm_nonneg g]
    have := (abs_le.mp this).1
    exact lt_of_le_of_ne (by linarith) (Ne.symm h3)

/-- C39. The distance to the observer is unchanged. -/
theorem C39_distance {orbit observer : State} {r : V3} (h : addStellarAberration orbit observer = some r) :
    ‖r.toE‖ = ‖orbit.1.toE - observer.1.toE‖ := by
  obtain ⟨u, g, w, b, d, δ, hδ, hp, -, -, hr, hu, hb, hb0, hd, h1, hw⟩ := value h
  rw [← V3.toE_sub, V3.norm_toE, V3.norm_toE, ← hδ, hr, V3.norm_smul, abs_of_pos hp]
  have : V3.norm w = 1 := by
    have e := (formula hu hb hb0 hd h1 hw).1
    rw [← V3.norm_sq] at e
    have := V3.norm_nonneg w
    nlinarith
  rw [this, mul_one]

/-- C39. The direction is the one that special relativity gives. -/
theorem C39_direction {orbit observer : State} {r : V3} (h : addStellarAberration orbit observer = some r)
    (hv : ‖observer.2.toE‖ < lightSpeed) :
    Aberrated ((1 / lightSpeed) • observer.2.toE)
      ((1 / ‖orbit.1.toE - observer.1.toE‖) • (orbit.1.toE - observer.1.toE)) ((1 / ‖r.toE‖) • r.toE) := by
  rw [C39_distance h]
  obtain ⟨u, g, w, b, d, δ, hδ, hp, htopo, hg, hr, hu, hb, hb0, hd, h1, hw⟩ := value h
  obtain ⟨e1, e2, e3⟩ := formula hu hb hb0 hd h1 hw
  have hcp := lightSpeed_pos
  rw [← V3.toE_sub, V3.norm_toE, ← hδ, ← V3.toE_smul, ← V3.toE_smul, ← V3.toE_smul, ← hg, htopo, hr]
  have hs : ∀ x : V3, V3.smul (1 / δ) (V3.smul δ x) = x := by
    intro x; ext <;> simp only [V3.smul] <;> field_simp
  rw [hs, hs]
  have hbpos : 0 < b := by
    refine lt_of_le_of_ne hb0 fun hb' => ?_
    rw [V3.norm_toE] at hv
    have : V3.norm g < 1 := by
      rw [hg, V3.norm_smul, abs_of_pos (by positivity), one_div, ← div_eq_inv_mul, div_lt_one hcp]; exact hv
    rw [← hb', ← V3.norm_sq] at hb
    nlinarith [V3.norm_nonneg g]
  refine ⟨?_, ?_, b / (1 + d), (1 + d / (1 + b)) / (1 + d), by positivity, ?_⟩
  · rw [V3.norm_toE]
    rw [← V3.norm_sq] at e1
    nlinarith [V3.norm_nonneg w]
  · rw [V3.inner_toE, V3.inner_toE, V3.norm_toE, V3.norm_sq, ← hd]; exact e2
  · rw [← V3.toE_smul, ← V3.toE_smul, ← V3.toE_add, ← e3]

/-- C39. Special relativity leaves no choice: at most one direction satisfies the specification. -/
theorem C39_direction_unique {γ u u₁ u₂ : E3} (h1 : 1 + inner ℝ u γ ≠ 0) (ha : Aberrated γ u u₁) (hb : Aberrated γ u u₂) :
    u₁ = u₂ := by
  obtain ⟨n1, i1, a1, b1, p1, e1⟩ := ha
  obtain ⟨n2, i2, a2, b2, p2, e2⟩ := hb
  have hγ : inner ℝ (u₁ - u₂) γ = (0 : ℝ) := by
    rw [inner_sub_left, sub_eq_zero]
    exact mul_right_cancel₀ h1 (i1.trans i2.symm)
  have hs : inner ℝ (u₁ - u₂) (u₁ + u₂) = (0 : ℝ) := by
    rw [inner_sub_left, inner_add_right, inner_add_right, real_inner_self_eq_norm_sq, real_inner_self_eq_norm_sq, n1, n2,
      real_inner_comm]
    ring
  have hu : inner ℝ (u₁ - u₂) u = (0 : ℝ) := by
    have : u₁ + u₂ = (a1 + a2) • u + (b1 + b2) • γ := by rw [e1, e2]; module
    rw [this, inner_add_right, inner_smul_right, inner_smul_right, hγ, mul_zero, add_zero] at hs
    exact (mul_eq_zero.mp hs).resolve_left (by linarith)
  have h0 : inner ℝ (u₁ - u₂) (u₁ - u₂) = (0 : ℝ) := by
    have : u₁ - u₂ = (a1 - a2) • u + (b1 - b2) • γ := by rw [e1, e2]; module
    nth_rewrite 2 [this]
    rw [inner_add_right, inner_smul_right, inner_smul_right, hγ, hu]
    ring
  exact sub_eq_zero.mp (inner_self_eq_zero.mp h0)

/-- C39. For an observer at rest the position is unchanged. -/
theorem C39_at_rest {orbit observer : State} (hne : orbit.1 ≠ observer.1) (hv : observer.2 = ⟨0, 0, 0⟩) :
    addStellarAberration orbit observer = some (V3.sub orbit.1 observer.1) := by
  have hz : V3.norm (⟨0, 0, 0⟩ : V3) = 0 := V3.norm_eq_zero.mpr rfl
  have hdz : ∀ x : V3, V3.dot x ⟨0, 0, 0⟩ = 0 := fun x => by simp [V3.dot]
  obtain ⟨r, hr⟩ := (C39_defined orbit observer).mpr ⟨hne, by rw [hv, hz]; exact lightSpeed_pos.le, by
    rw [hv, hdz]
    intro h
    have h2 : V3.norm (V3.sub orbit.1 observer.1) * lightSpeed = 0 := by linarith
    rcases mul_eq_zero.mp h2 with h3 | h3
    · rw [V3.norm_eq_zero] at h3
      have hx := congrArg V3.x h3
      have hy := congrArg V3.y h3
      have hz := congrArg V3.z h3
      simp only [V3.sub] at hx hy hz
      exact hne (by ext <;> linarith)
    · exact absurd h3 lightSpeed_pos.ne'⟩
  rw [hr]
  obtain ⟨u, g, w, b, d, δ, hδ, hp, htopo, hg, hr', hu, hb, hb0, hd, h1, hw⟩ := value hr
  have hg0 : g = ⟨0, 0, 0⟩ := by rw [hg, hv]; simp [V3.smul]
  subst hg0
  rw [hdz] at hd
  subst hd
  have hb1 : b = 1 := by rw [hdz] at hb; nlinarith
  subst hb1
  rw [htopo, hr', hw]
  congr 1
  ext <;> simp [V3.smul, V3.add]

/-- C39. The correction can be undone: what the observer sees is corrected back by the opposite velocity. -/
theorem C39_undo {orbit observer : State} {r : V3} (h : addStellarAberration orbit observer = some r)
    (hv : V3.norm observer.2 < lightSpeed) (vel : V3) :
    addStellarAberration (V3.add observer.1 r, vel) (observer.1, V3.smul (-1) observer.2) = some (V3.sub orbit.1 observer.1) := by
  have hcp := lightSpeed_pos
  obtain ⟨u, g, w, b, d, δ, hδ, hp, htopo, hg, hr, hu, hb, hb0, hd, h1, hw⟩ := value h
  obtain ⟨e1, e2, e3⟩ := formula hu hb hb0 hd h1 hw
  have hbpos : 0 < b := by
    refine lt_of_le_of_ne hb0 fun hb' => ?_
    have : V3.norm g < 1 := by
      rw [hg, V3.norm_smul, abs_of_pos (by positivity), one_div, ← div_eq_inv_mul, div_lt_one hcp]; exact hv
    rw [← hb', ← V3.norm_sq] at hb
    nlinarith [V3.norm_nonneg g]
  have hw1 : V3.norm w = 1 := by rw [← V3.norm_sq] at e1; nlinarith [V3.norm_nonneg w]
  have ht : V3.sub (V3.add observer.1 r) observer.1 = r := by
    ext <;> simp [V3.sub, V3.add]
  have hg' : V3.smul (1 / lightSpeed) (V3.smul (-1) observer.2) = V3.smul (-1) g := by
    rw [hg]; ext <;> simp only [V3.smul] <;> ring
  have hrn : V3.norm r = δ := by rw [hr, V3.norm_smul, hw1, abs_of_pos hp, mul_one]
  have hru : V3.smul (1 / δ) r = w := by rw [hr]; ext <;> simp only [V3.smul] <;> field_simp
  have hgn : V3.norm (V3.smul (-1) g) = V3.norm g := by rw [V3.norm_smul]; simp
  have hbs : Real.sqrt (1 - V3.norm g ^ 2) = b := by rw [V3.norm_sq, ← hb, Real.sqrt_sq hb0]
  have hdg : V3.dot w (V3.smul (-1) g) = -V3.dot w g := by unfold V3.dot V3.smul; ring
  have hwg : V3.dot w g = (d + 1 - b ^ 2) / (1 + d) := by
    rw [eq_div_iff h1.ne', e2]; linarith
  have h1' : 1 + -V3.dot w g = b ^ 2 / (1 + d) := by rw [hwg]; field_simp; ring
  have hpos : 0 < b ^ 2 / (1 + d) := by positivity
  unfold addStellarAberration
  simp only
  rw [ht, hg', hrn, hru, hgn, hbs, hdg, h1', if_neg (by
    push Not
    refine ⟨hp.ne', ?_, hpos.ne'⟩
    rw [V3.norm_sq, ← hb]; positivity), htopo]
  congr 1
  have hbb : 1 + b ≠ 0 := by linarith
  have h1n := h1.ne'
  rw [hwg, e3]
  ext <;> simp only [V3.smul, V3.add] <;> field_simp <;> ring

/-- C39. The object appears displaced towards the direction in which the observer moves. -/
theorem C39_towards {orbit observer : State} {r : V3} (h : addStellarAberration orbit observer = some r) :
    inner ℝ (orbit.1.toE - observer.1.toE) observer.2.toE ≤ inner ℝ r.toE observer.2.toE := by
  have hcp := lightSpeed_pos
  obtain ⟨u, g, w, b, d, δ, hδ, hp, htopo, hg, hr, hu, hb, hb0, hd, h1, hw⟩ := value h
  obtain ⟨e1, e2, -⟩ := formula hu hb hb0 hd h1 hw
  have hv : observer.2 = V3.smul lightSpeed g := by rw [hg]; ext <;> simp only [V3.smul] <;> field_simp
  rw [← V3.toE_sub, V3.inner_toE, V3.inner_toE, htopo, hr, hv]
  have hdd : ∀ x : V3, V3.dot (V3.smul δ x) (V3.smul lightSpeed g) = δ * lightSpeed * V3.dot x g := by
    intro x; unfold V3.dot V3.smul; ring
  rw [hdd, hdd, ← hd]
  refine mul_le_mul_of_nonneg_left ?_ (by positivity)
  have hcs := V3.abs_dot_le u g
  have hun : V3.norm u = 1 := by rw [← V3.norm_sq] at hu; nlinarith [V3.norm_nonneg u]
  rw [hun, one_mul, ← hd] at hcs
  have hd2 : d ^ 2 ≤ V3.dot g g := by rw [← V3.norm_sq, ← sq_abs]; exact pow_le_pow_left₀ (abs_nonneg _) hcs 2
  by_contra hcon
  push Not at hcon
  have := mul_lt_mul_of_pos_right hcon h1
  nlinarith

/-- The hypotheses hold for an observer who moves at half the speed of light across the line of sight. -/
example : ∃ r, addStellarAberration (⟨1, 0, 0⟩, ⟨0, 0, 0⟩) (⟨0, 0, 0⟩, ⟨0, lightSpeed / 2, 0⟩) = some r := by
  have hcp := lightSpeed_pos
  refine (C39_defined _ _).mpr ⟨fun h => by simpa using congrArg V3.x h, ?_, ?_⟩
  · have : V3.norm ⟨0, lightSpeed / 2, 0⟩ = lightSpeed / 2 := by
      simp [V3.norm, Real.sqrt_mul_self (show 0 ≤ lightSpeed / 2 by positivity)]
    rw [this]; linarith
  · have h1 : V3.norm (V3.sub ⟨1, 0, 0⟩ ⟨0, 0, 0⟩) = 1 := by simp [V3.norm, V3.sub]
    rw [h1]
    simp [V3.dot, V3.sub]
    exact hcp.ne'

end Verif.Aberr.Props
