import Verif.Univ.ConvergeProps
import Verif.Kep.ConvergeProps

/-! # Convergence of two-body propagation away from the centre on parabolas and hyperbolas (C192), and time reversal and units (C193) -/

namespace Verif.Univ.Props

open Verif Verif.Univ Verif.Kep.Props Set

/-! ## The equation is convex on the way out -/

theorem U_sign {a : ℝ} (ha : a ≤ 0) (x : ℝ) : 0 < U0 a x ∧ (0 ≤ x → 0 ≤ U1 a x) := by
  rcases ha.lt_or_eq with h | h
  · obtain ⟨f0, f1, -, -⟩ := neg_form h x
    have hs := Real.sqrt_pos.mpr (neg_pos.mpr h)
    rw [f0, f1]
    exact ⟨Real.cosh_pos _, fun hx => div_nonneg (Real.sinh_nonneg_iff.mpr (by positivity)) hs.le⟩
  · rw [h]
    obtain ⟨f0, f1, -, -⟩ := zero_form x
    rw [f0, f1]
    exact ⟨one_pos, id⟩

theorem RR_mono {rho s a : ℝ} (hr : 0 < rho) (hs : 0 ≤ s) (ha : a ≤ 0) {u v : ℝ} (hu : 0 ≤ u) (huv : u ≤ v) :
    RR rho s a u ≤ RR rho s a v := by
  have m1 : Monotone (U1 a) := monotone_of_deriv_nonneg (fun x => (U_deriv a x).2.1.differentiableAt) fun x => by
    rw [(U_deriv a x).2.1.deriv]; exact (U_sign ha x).1.le
  have m2 : MonotoneOn (U2 a) (Ici 0) := by
    apply monotoneOn_of_deriv_nonneg (convex_Ici 0)
    · exact fun x _ => (U_deriv a x).2.2.1.continuousAt.continuousWithinAt
    · exact fun x _ => (U_deriv a x).2.2.1.differentiableAt.differentiableWithinAt
    · intro x hx
      rw [interior_Ici] at hx
      rw [(U_deriv a x).2.2.1.deriv]
      exact (U_sign ha x).2 (le_of_lt hx)
  have h1 := m1 huv
  have h2 := m2 (show u ∈ Ici 0 from hu) (show v ∈ Ici 0 from hu.trans huv) huv
  unfold RR
  rw [(U_rel a u).1, (U_rel a v).1]
  have e1 : 0 ≤ (rho * -a + 1) * (U2 a v - U2 a u) := mul_nonneg (by nlinarith) (by linarith)
  have e2 : 0 ≤ s * (U1 a v - U1 a u) := mul_nonneg hs (by linarith)
  nlinarith

section outbound
variable {mu : ℝ} {r v : V3} (hmu : 0 < mu) (h : V3.cross r v ≠ ⟨0, 0, 0⟩) (ha : alpha mu r v ≤ 0) (hs : 0 ≤ sigma mu r v)
include hmu h ha hs

omit hmu in
theorem kepler_tangent (dt : ℝ) {a x : ℝ} (h0 : 0 ≤ a) (hx : 0 ≤ x) :
    keplerF mu r v dt x + keplerFp mu r v x * (a - x) ≤ keplerF mu r v dt a := by
  have hr := norm_pos' (ne_zero_of_cross h)
  have := tangent_le (g := FF (V3.norm r) (sigma mu r v) (alpha mu r v)) (g' := RR (V3.norm r) (sigma mu r v) (alpha mu r v))
    (FF_deriv _ _ _) (lo := 0) (hi := max a x) (fun u w hu huw _ => RR_mono hr hs ha hu huw) (a := a) (x := x)
    ⟨h0, le_max_left _ _⟩ ⟨hx, le_max_right _ _⟩
  rw [keplerF_eq, keplerF_eq, keplerFp_eq]
  linarith

/-- A correction goes to the right of the solution. -/
theorem right_of {dt x z : ℝ} (hx : keplerF mu r v dt x = 0) (hx0 : 0 ≤ x) (hz : 0 ≤ z) :
    x ≤ z - keplerF mu r v dt z / keplerFp mu r v z := by
  have hp : 0 < keplerFp mu r v z := by
    rw [keplerFp_eq]; exact RR_pos (norm_pos' (ne_zero_of_cross h)) (disc_pos hmu h) z
  have := kepler_tangent h ha hs dt hx0 hz
  rw [hx] at this
  rw [le_sub_iff_add_le, ← le_sub_iff_add_le', div_le_iff₀ hp]
  linarith

omit ha hs in
theorem root_nonneg {dt x : ℝ} (hdt : 0 ≤ dt) (hx : keplerF mu r v dt x = 0) : 0 ≤ x := by
  have h0 := norm_pos' (ne_zero_of_cross h)
  have hD := disc_pos hmu h
  rw [keplerF_eq] at hx
  by_contra hlt
  have := FF_strictMono h0 hD (not_le.mp hlt)
  rw [FF_zero] at this
  have := mul_nonneg (Real.sqrt_nonneg mu) hdt
  linarith

end outbound

/-- The loop stops after a correction within the tolerance. -/
theorem univ_loop_stops (mu : ℝ) (r v : V3) (dt tol : ℝ) (maxIter : Nat) : ∀ (k fuel : Nat) (p : Loop),
    |keplerF mu r v dt (orbit (keplerF mu r v dt) (keplerFp mu r v) p.chi k) / keplerFp mu r v (orbit (keplerF mu r v dt) (keplerFp mu r v) p.chi k)| ≤ tol →
    (loop mu r v dt tol maxIter fuel p).iterations ≤ p.iterations + k + 1 := by
  intro k
  induction k with
  | zero =>
    intro fuel p h
    cases fuel with
    | zero => simp [loop]
    | succ fuel =>
      unfold loop
      split
      · cases fuel with
        | zero => simp [loop, newton]
        | succ fuel =>
          unfold loop
          rw [if_neg]
          · simp [newton]
          · rintro ⟨h1, -⟩
            exact absurd h (not_le.mpr h1)
      · omega
  | succ k ih =>
    intro fuel p h
    cases fuel with
    | zero => simp [loop]; omega
    | succ fuel =>
      unfold loop
      split
      · have := ih fuel (newton mu r v dt p) (by
          show |keplerF mu r v dt (orbit _ _ (p.chi - keplerF mu r v dt p.chi / keplerFp mu r v p.chi) k) / _| ≤ tol
          rw [← orbit_succ']; exact h)
        have e : (newton mu r v dt p).iterations = p.iterations + 1 := rfl
        omega
      · omega

section outbound
variable {mu : ℝ} {r v : V3} (hmu : 0 < mu) (h : V3.cross r v ≠ ⟨0, 0, 0⟩) (ha : alpha mu r v ≤ 0) (hs : 0 ≤ sigma mu r v)
include hmu h ha hs

/-- The anomalies stay in a bounded interval. -/
theorem out_loop {dt tol x M : ℝ} {maxIter : Nat} (hx : keplerF mu r v dt x = 0) (hx0 : 0 ≤ x)
    {x0 : ℝ} (hM0 : 0 ≤ x0) (hM : x0 ≤ M) (hM1 : x0 - keplerF mu r v dt x0 / keplerFp mu r v x0 ≤ M) :
    ∀ (fuel : Nat) (p : Loop), (p.chi = x0 ∨ x ≤ p.chi ∧ p.chi ≤ M) →
      (p.iterations = 0 ∨ p.chi + p.ratio ≤ M ∧ 0 ≤ p.chi + p.ratio) →
      (let e := loop mu r v dt tol maxIter fuel p
      e.iterations = 0 ∨ e.chi + e.ratio ≤ M ∧ 0 ≤ e.chi + e.ratio) := by
  intro fuel
  induction fuel with
  | zero => intro p _ h2; exact h2
  | succ n ih =>
    intro p h1 h2
    unfold loop
    split
    · have hb : p.chi ≤ M ∧ 0 ≤ p.chi := by
        rcases h1 with h1 | h1
        · rw [h1]; exact ⟨hM, hM0⟩
        · exact ⟨h1.2, hx0.trans h1.1⟩
      refine ih _ (Or.inr ?_) (Or.inr ?_)
      · show x ≤ p.chi - keplerF mu r v dt p.chi / keplerFp mu r v p.chi ∧ p.chi - keplerF mu r v dt p.chi / keplerFp mu r v p.chi ≤ M
        refine ⟨right_of hmu h ha hs hx hx0 hb.2, ?_⟩
        rcases h1 with h1 | h1
        · rw [h1]; exact hM1
        · have hF : 0 ≤ keplerF mu r v dt p.chi := by
            have := kepler_tangent h ha hs dt (hx0.trans h1.1) hx0
            rw [hx] at this
            have h5 : 0 < keplerFp mu r v x := by
              rw [keplerFp_eq]; exact RR_pos (norm_pos' (ne_zero_of_cross h)) (disc_pos hmu h) x
            nlinarith [mul_nonneg h5.le (sub_nonneg.mpr h1.1)]
          have hp : 0 < keplerFp mu r v p.chi := by
            rw [keplerFp_eq]; exact RR_pos (norm_pos' (ne_zero_of_cross h)) (disc_pos hmu h) _
          have := div_nonneg hF hp.le
          linarith
      · show p.chi - keplerF mu r v dt p.chi / keplerFp mu r v p.chi + keplerF mu r v dt p.chi / keplerFp mu r v p.chi ≤ M ∧
          0 ≤ p.chi - keplerF mu r v dt p.chi / keplerFp mu r v p.chi + keplerF mu r v dt p.chi / keplerFp mu r v p.chi
        rw [sub_add_cancel]
        exact hb
    · exact h2

theorem out_stops {dt : ℝ} (hdt : 0 ≤ dt) {tol : ℝ} (ht : 0 < tol) :
    ∃ K : Nat, ∀ maxIter ≥ K, (calcChi mu r v dt maxIter tol).iterations ≤ K ∧ |(calcChi mu r v dt maxIter tol).ratio| ≤ tol := by
  have h0 := norm_pos' (ne_zero_of_cross h)
  have hD := disc_pos hmu h
  obtain ⟨x, hx, -⟩ := exists_unique_chi hmu h dt
  have hx0 := root_nonneg hmu h hdt hx
  set x0 := Real.sqrt mu * |alpha mu r v| * dt with hx0d
  have hs0 : 0 ≤ x0 := by positivity
  set x1 := x0 - keplerF mu r v dt x0 / keplerFp mu r v x0 with hx1d
  have hr1 : x ≤ x1 := right_of hmu h ha hs hx hx0 hs0
  have hc := floorR_pos h0 hD
  set c := floorR (V3.norm r) (sigma mu r v) (alpha mu r v)
  have hfp : ∀ z ∈ Icc x x1, c ≤ keplerFp mu r v z := fun z _ => by rw [keplerFp_eq]; exact floorR_le h0 hD z
  have hT : ∀ a ∈ Icc x x1, ∀ z ∈ Icc x x1, keplerF mu r v dt z + keplerFp mu r v z * (a - z) ≤ keplerF mu r v dt a :=
    fun a ha' z hz => kepler_tangent h ha hs dt (hx0.trans ha'.1) (hx0.trans hz.1)
  obtain ⟨n, hn⟩ := pow_unbounded_of_one_lt (keplerF mu r v dt x1 * keplerFp mu r v x1 / (c ^ 2 * tol)) (show (1 : ℝ) < 4 by norm_num)
  have hsmall := newton_ratio hT hc hfp hx (x := x1) ⟨hr1, le_rfl⟩ n
  have hle : keplerF mu r v dt x1 * keplerFp mu r v x1 / (4 ^ n * c ^ 2) ≤ tol := by
    rw [div_lt_iff₀ (by positivity)] at hn
    rw [div_le_iff₀ (by positivity)]
    linarith
  refine ⟨n + 2, fun maxIter hm => ?_⟩
  have hst := univ_loop_stops mu r v dt tol maxIter (n + 1) (maxIter + 1) ⟨x0, ⟨0, 0, 0, 0, 0, 0⟩, 1e15, 0⟩ (by
    simp only
    rw [orbit_succ', ← hx1d]
    exact hsmall.trans hle)
  change (calcChi mu r v dt maxIter tol).iterations ≤ 0 + (n + 1) + 1 at hst
  obtain ⟨i1, -, -⟩ := calcChi_inv mu r v dt tol maxIter
  refine ⟨by omega, ?_⟩
  rcases i1 with i1 | i1
  · exact i1
  · omega

theorem out_near {dt : ℝ} (hdt : 0 ≤ dt) {x : ℝ} (hx : keplerF mu r v dt x = 0) : ∃ L > 0, ∀ tol : ℝ, 0 < tol → tol < 1 → ∃ K : Nat, ∀ maxIter ≥ K,
      let e := calcChi mu r v dt maxIter tol
      e.c = calcStumpff (alpha mu r v * (e.chi + e.ratio) ^ 2) ∧ |e.chi + e.ratio - x| ≤ L * tol ∧ |e.chi - x| ≤ L * tol := by
  have h0 := norm_pos' (ne_zero_of_cross h)
  have hD := disc_pos hmu h
  have hx0 := root_nonneg hmu h hdt hx
  obtain ⟨c, hc, -, hacc⟩ := C35_accuracy hmu h
  set x0 := Real.sqrt mu * |alpha mu r v| * dt with hx0d
  have hs0 : 0 ≤ x0 := by positivity
  set M := max x0 (x0 - keplerF mu r v dt x0 / keplerFp mu r v x0) with hM
  have hFM : 0 < keplerFp mu r v M := by rw [keplerFp_eq]; exact RR_pos h0 hD M
  have hL1 : 0 < keplerFp mu r v M / c := div_pos hFM hc
  refine ⟨1 + keplerFp mu r v M / c, by linarith, fun tol ht ht1 => ?_⟩
  obtain ⟨K, hK⟩ := out_stops hmu h ha hs hdt ht
  refine ⟨K, fun maxIter hm => ?_⟩
  obtain ⟨-, g2⟩ := hK maxIter hm
  obtain ⟨a1, a2, a3⟩ := hacc dt tol maxIter x (ht1.trans (by norm_num)) hx
  have hb := out_loop hmu h ha hs (tol := tol) (maxIter := maxIter) hx hx0 hs0 (le_max_left _ _ : x0 ≤ M) (le_max_right _ _) (maxIter + 1)
    ⟨x0, ⟨0, 0, 0, 0, 0, 0⟩, 1e15, 0⟩ (Or.inl rfl) (Or.inl rfl)
  change (calcChi mu r v dt maxIter tol).iterations = 0 ∨ (calcChi mu r v dt maxIter tol).chi + (calcChi mu r v dt maxIter tol).ratio ≤ M ∧
    0 ≤ (calcChi mu r v dt maxIter tol).chi + (calcChi mu r v dt maxIter tol).ratio at hb
  obtain ⟨i1, -, i3⟩ := calcChi_inv mu r v dt tol maxIter
  simp only at a1 a2 a3 ⊢
  generalize calcChi mu r v dt maxIter tol = e at *
  have hb : e.chi + e.ratio ≤ M ∧ 0 ≤ e.chi + e.ratio := by
    rcases hb with hb | hb
    · exfalso
      rcases i3 with ⟨j, -⟩ | ⟨_, -, j⟩
      · rw [j, abs_of_nonneg (by norm_num)] at g2
        norm_num at g2 ht1
        linarith
      · omega
    · exact hb
  have hmono : keplerFp mu r v (e.chi + e.ratio) ≤ keplerFp mu r v M := by
    rw [keplerFp_eq, keplerFp_eq]
    exact RR_mono h0 hs ha hb.2 hb.1
  have hq : keplerFp mu r v (e.chi + e.ratio) / c ≤ keplerFp mu r v M / c := div_le_div_of_nonneg_right hmono hc.le
  have hq0 : 0 ≤ keplerFp mu r v (e.chi + e.ratio) / c := by
    refine div_nonneg ?_ hc.le
    rw [keplerFp_eq]; exact (RR_pos h0 hD _).le
  refine ⟨a1, a2.trans (mul_le_mul (by linarith) g2 (abs_nonneg _) (by linarith)), a3.trans (mul_le_mul (by linarith) g2 (abs_nonneg _) (by linarith))⟩

end outbound

/-! ## C193: time reversal and units -/

/-- The opposite vector. -/
def opp (a : V3) : V3 := ⟨-a.x, -a.y, -a.z⟩

theorem norm_opp (a : V3) : V3.norm (opp a) = V3.norm a := by
  unfold V3.norm opp
  simp only [neg_mul_neg]

theorem dot_opp (a b : V3) : V3.dot a (opp b) = -V3.dot a b := by
  unfold V3.dot opp
  ring

theorem alpha_opp (mu : ℝ) (r v : V3) : alpha mu r (opp v) = alpha mu r v := by
  unfold alpha
  rw [norm_opp]

theorem sigma_opp (mu : ℝ) (r v : V3) : sigma mu r (opp v) = -sigma mu r v := by
  unfold sigma
  rw [dot_opp]
  ring

theorem kepler_opp (mu : ℝ) (r v : V3) (dt x : ℝ) : keplerF mu r (opp v) (-dt) (-x) = -keplerF mu r v dt x ∧
    keplerFp mu r (opp v) (-x) = keplerFp mu r v x := by
  unfold keplerF keplerFp
  simp only [alpha_opp, sigma_opp, neg_sq]
  constructor <;> ring

theorem loop_opp (mu : ℝ) (r v : V3) (dt tol : ℝ) (maxIter : Nat) : ∀ (fuel : Nat) (p q : Loop), q.chi = -p.chi → q.c = p.c →
    |q.ratio| = |p.ratio| → q.iterations = p.iterations → (p.iterations = 0 ∨ q.ratio = -p.ratio) →
    (let e := loop mu r v dt tol maxIter fuel p
    let e' := loop mu r (opp v) (-dt) tol maxIter fuel q
    e'.chi = -e.chi ∧ e'.c = e.c ∧ e'.iterations = e.iterations ∧ (e.iterations = 0 ∨ e'.ratio = -e.ratio)) := by
  intro fuel
  induction fuel with
  | zero => intro p q h1 h2 _ h4 h5; exact ⟨h1, h2, h4, h5⟩
  | succ n ih =>
    intro p q h1 h2 h3 h4 h5
    unfold loop
    rw [h3, h4]
    split
    · have hr : keplerF mu r (opp v) (-dt) q.chi / keplerFp mu r (opp v) q.chi = -(keplerF mu r v dt p.chi / keplerFp mu r v p.chi) := by
        rw [h1, (kepler_opp mu r v dt p.chi).1, (kepler_opp mu r v dt p.chi).2, neg_div]
      refine ih _ _ ?_ ?_ ?_ ?_ (Or.inr hr)
      · show q.chi - _ = -(p.chi - _)
        rw [hr, h1]; ring
      · show calcStumpff (alpha mu r (opp v) * q.chi ^ 2) = calcStumpff (alpha mu r v * p.chi ^ 2)
        rw [alpha_opp, h1, neg_sq]
      · show |keplerF mu r (opp v) (-dt) q.chi / keplerFp mu r (opp v) q.chi| = _
        rw [hr, abs_neg]; rfl
      · show q.iterations + 1 = p.iterations + 1
        rw [h4]
    · exact ⟨h1, h2, h4, h5⟩

theorem calcChi_opp (mu : ℝ) (r v : V3) (dt : ℝ) (maxIter : Nat) (tol : ℝ) :
    (calcChi mu r (opp v) (-dt) maxIter tol).chi = -(calcChi mu r v dt maxIter tol).chi ∧
    (calcChi mu r (opp v) (-dt) maxIter tol).c = (calcChi mu r v dt maxIter tol).c ∧
    (calcChi mu r (opp v) (-dt) maxIter tol).iterations = (calcChi mu r v dt maxIter tol).iterations ∧
    ((calcChi mu r v dt maxIter tol).iterations = 0 ∨
      (calcChi mu r (opp v) (-dt) maxIter tol).ratio = -(calcChi mu r v dt maxIter tol).ratio) := by
  unfold calcChi
  rw [alpha_opp]
  exact loop_opp mu r v dt tol maxIter (maxIter + 1) _ _ (by simp) rfl rfl rfl (Or.inl rfl)

/-- C193. Time reversal: from the same position with the opposite velocity, the same time back, the same position is reached with the
opposite velocity, and after the same number of corrections. This holds for every state, tolerance and limit, whether or not the
iteration has converged. -/
theorem C193_reversal (mu : ℝ) (r v : V3) (t0 t1 : ℝ) (maxIter : Nat) (tol : ℝ) :
    propagate mu (r, ⟨-v.x, -v.y, -v.z⟩) (-t0) (-t1) maxIter tol =
      ((propagate mu (r, v) t0 t1 maxIter tol).1,
        ⟨-(propagate mu (r, v) t0 t1 maxIter tol).2.x, -(propagate mu (r, v) t0 t1 maxIter tol).2.y, -(propagate mu (r, v) t0 t1 maxIter tol).2.z⟩) ∧
    (calcChi mu r ⟨-v.x, -v.y, -v.z⟩ (-t1 - -t0) maxIter tol).iterations = (calcChi mu r v (t1 - t0) maxIter tol).iterations := by
  have hd : -t1 - -t0 = -(t1 - t0) := by ring
  obtain ⟨h1, h2, h3, -⟩ := calcChi_opp mu r v (t1 - t0) maxIter tol
  refine ⟨?_, by rw [hd]; exact h3⟩
  change propagate mu (r, opp v) (-t0) (-t1) maxIter tol = _
  unfold propagate
  simp only [hd]
  rw [h1, h2]
  generalize calcChi mu r v (t1 - t0) maxIter tol = e
  have hg : ∀ f g : ℝ, V3.add (V3.smul f r) (V3.smul (-g) (opp v)) = V3.add (V3.smul f r) (V3.smul g v) := fun f g => by
    unfold V3.add V3.smul opp
    simp only [neg_mul_neg]
  have hgd : -(t1 - t0) - 1 / Real.sqrt mu * (-e.chi) ^ 3 * e.c.c3 = -((t1 - t0) - 1 / Real.sqrt mu * e.chi ^ 3 * e.c.c3) := by ring
  unfold applyLagrange lagrange
  simp only [neg_sq, hgd, hg, alpha_opp]
  refine Prod.ext rfl ?_
  simp only [V3.add, V3.smul, opp]
  refine V3.ext ?_ ?_ ?_ <;> simp only <;> ring

section units
variable {k tau : ℝ} (hk : 0 < k) (ht : 0 < tau)
include hk ht

theorem sqrt_units (mu : ℝ) : Real.sqrt (k ^ 6 / tau ^ 2 * mu) = k ^ 3 / tau * Real.sqrt mu := by
  rw [show k ^ 6 / tau ^ 2 = (k ^ 3 / tau) ^ 2 by rw [div_pow, ← pow_mul], Real.sqrt_mul (by positivity), Real.sqrt_sq (by positivity)]

theorem alpha_units (mu : ℝ) (r v : V3) :
    alpha (k ^ 6 / tau ^ 2 * mu) (V3.smul (k ^ 2) r) (V3.smul (k ^ 2 / tau) v) = alpha mu r v / k ^ 2 := by
  unfold alpha
  rw [V3.norm_smul, V3.norm_smul, abs_of_pos (show 0 < k ^ 2 by positivity), abs_of_pos (show 0 < k ^ 2 / tau by positivity)]
  by_cases h1 : mu = 0 <;> by_cases h2 : V3.norm r = 0 <;> try simp only [h1, h2, mul_zero, div_zero, add_zero, zero_add]
  · simp
  all_goals field_simp

theorem sigma_units (mu : ℝ) (r v : V3) :
    sigma (k ^ 6 / tau ^ 2 * mu) (V3.smul (k ^ 2) r) (V3.smul (k ^ 2 / tau) v) = k * sigma mu r v := by
  unfold sigma
  have hd : V3.dot (V3.smul (k ^ 2) r) (V3.smul (k ^ 2 / tau) v) = k ^ 4 / tau * V3.dot r v := by
    unfold V3.dot V3.smul
    field_simp
  rw [V3.norm_smul, hd, sqrt_units hk ht, abs_of_pos (show 0 < k ^ 2 by positivity)]
  by_cases h1 : Real.sqrt mu = 0 <;> by_cases h2 : V3.norm r = 0 <;> try simp only [h1, h2, mul_zero, div_zero, zero_div]
  all_goals field_simp

theorem kepler_units (mu : ℝ) (r v : V3) (dt x : ℝ) :
    keplerF (k ^ 6 / tau ^ 2 * mu) (V3.smul (k ^ 2) r) (V3.smul (k ^ 2 / tau) v) (tau * dt) (k * x) = k ^ 3 * keplerF mu r v dt x ∧
    keplerFp (k ^ 6 / tau ^ 2 * mu) (V3.smul (k ^ 2) r) (V3.smul (k ^ 2 / tau) v) (k * x) = k ^ 2 * keplerFp mu r v x := by
  have hpsi : alpha mu r v / k ^ 2 * (k * x) ^ 2 = alpha mu r v * x ^ 2 := by field_simp
  unfold keplerF keplerFp
  simp only [alpha_units hk ht, sigma_units hk ht, sqrt_units hk ht, hpsi, V3.norm_smul, abs_of_pos (show 0 < k ^ 2 by positivity)]
  constructor <;> field_simp

theorem loop_units (mu : ℝ) (r v : V3) (dt tol : ℝ) (maxIter : Nat) : ∀ (fuel : Nat) (p q : Loop), q.chi = k * p.chi → q.c = p.c →
    (|q.ratio| > k * tol ↔ |p.ratio| > tol) → q.iterations = p.iterations →
    (let e := loop mu r v dt tol maxIter fuel p
    let e' := loop (k ^ 6 / tau ^ 2 * mu) (V3.smul (k ^ 2) r) (V3.smul (k ^ 2 / tau) v) (tau * dt) (k * tol) maxIter fuel q
    e'.chi = k * e.chi ∧ e'.c = e.c ∧ e'.iterations = e.iterations) := by
  intro fuel
  induction fuel with
  | zero => intro p q h1 h2 _ h4; exact ⟨h1, h2, h4⟩
  | succ n ih =>
    intro p q h1 h2 h3 h4
    unfold loop
    simp only [h3, h4]
    split
    · obtain ⟨g1, g2⟩ := kepler_units hk ht mu r v dt p.chi
      have hr : keplerF (k ^ 6 / tau ^ 2 * mu) (V3.smul (k ^ 2) r) (V3.smul (k ^ 2 / tau) v) (tau * dt) q.chi /
          keplerFp (k ^ 6 / tau ^ 2 * mu) (V3.smul (k ^ 2) r) (V3.smul (k ^ 2 / tau) v) q.chi =
          k * (keplerF mu r v dt p.chi / keplerFp mu r v p.chi) := by
        rw [h1, g1, g2]
        by_cases h0 : keplerFp mu r v p.chi = 0
        · simp [h0]
        · field_simp
      refine ih _ _ ?_ ?_ ?_ ?_
      · show q.chi - _ = k * (p.chi - _)
        rw [hr, h1]; ring
      · show calcStumpff (alpha (k ^ 6 / tau ^ 2 * mu) (V3.smul (k ^ 2) r) (V3.smul (k ^ 2 / tau) v) * q.chi ^ 2) = calcStumpff (alpha mu r v * p.chi ^ 2)
        rw [alpha_units hk ht, h1]
        congr 1
        field_simp
      · show |keplerF (k ^ 6 / tau ^ 2 * mu) (V3.smul (k ^ 2) r) (V3.smul (k ^ 2 / tau) v) (tau * dt) q.chi /
          keplerFp (k ^ 6 / tau ^ 2 * mu) (V3.smul (k ^ 2) r) (V3.smul (k ^ 2 / tau) v) q.chi| > k * tol ↔ |keplerF mu r v dt p.chi / keplerFp mu r v p.chi| > tol
        rw [hr, abs_mul, abs_of_pos hk]
        exact mul_lt_mul_iff_right₀ hk
      · show q.iterations + 1 = p.iterations + 1
        rw [h4]
    · exact ⟨h1, h2, h4⟩

/-- C193. Units: with lengths multiplied by `k²`, times by `τ`, the gravitational parameter by `k⁶ / τ²` and the tolerance by `k` (both
tolerances below the 10¹⁵ that the iteration starts with), positions are multiplied by `k²` and velocities by `k² / τ`, for every state
and limit, whether or not the iteration has converged. -/
theorem C193_units (mu : ℝ) (r v : V3) (t0 t1 : ℝ) (maxIter : Nat) {tol : ℝ} (h1 : tol < 1e15) (h2 : k * tol < 1e15) :
    propagate (k ^ 6 / tau ^ 2 * mu) (⟨k ^ 2 * r.x, k ^ 2 * r.y, k ^ 2 * r.z⟩, ⟨k ^ 2 / tau * v.x, k ^ 2 / tau * v.y, k ^ 2 / tau * v.z⟩)
        (tau * t0) (tau * t1) maxIter (k * tol) =
      (V3.smul (k ^ 2) (propagate mu (r, v) t0 t1 maxIter tol).1, V3.smul (k ^ 2 / tau) (propagate mu (r, v) t0 t1 maxIter tol).2) := by
  have hd : tau * t1 - tau * t0 = tau * (t1 - t0) := by ring
  have hb : |(1e15 : ℝ)| = 1e15 := abs_of_nonneg (by norm_num)
  obtain ⟨g1, g2, -⟩ : (calcChi (k ^ 6 / tau ^ 2 * mu) (V3.smul (k ^ 2) r) (V3.smul (k ^ 2 / tau) v) (tau * (t1 - t0)) maxIter (k * tol)).chi =
      k * (calcChi mu r v (t1 - t0) maxIter tol).chi ∧
      (calcChi (k ^ 6 / tau ^ 2 * mu) (V3.smul (k ^ 2) r) (V3.smul (k ^ 2 / tau) v) (tau * (t1 - t0)) maxIter (k * tol)).c =
      (calcChi mu r v (t1 - t0) maxIter tol).c ∧ _ := by
    unfold calcChi
    refine loop_units hk ht mu r v (t1 - t0) tol maxIter (maxIter + 1) _ _ ?_ rfl ?_ rfl
    · simp only [alpha_units hk ht, sqrt_units hk ht, abs_div, abs_of_pos (show 0 < k ^ 2 by positivity)]
      field_simp
    · simp only [hb]
      exact ⟨fun _ => h1, fun _ => h2⟩
  change propagate (k ^ 6 / tau ^ 2 * mu) (V3.smul (k ^ 2) r, V3.smul (k ^ 2 / tau) v) (tau * t0) (tau * t1) maxIter (k * tol) = _
  unfold propagate
  simp only [hd]
  rw [g1, g2]
  generalize calcChi mu r v (t1 - t0) maxIter tol = e
  have hn : V3.norm (V3.smul (k ^ 2) r) = k ^ 2 * V3.norm r := by rw [V3.norm_smul, abs_of_pos (show 0 < k ^ 2 by positivity)]
  have hf : 1 - (k * e.chi) ^ 2 / (k ^ 2 * V3.norm r) * e.c.c2 = 1 - e.chi ^ 2 / V3.norm r * e.c.c2 := by
    rw [mul_pow, mul_div_mul_left _ _ (by positivity)]
  have hg : tau * (t1 - t0) - 1 / (k ^ 3 / tau * Real.sqrt mu) * (k * e.chi) ^ 3 * e.c.c3 = tau * ((t1 - t0) - 1 / Real.sqrt mu * e.chi ^ 3 * e.c.c3) := by
    by_cases h0 : Real.sqrt mu = 0
    · simp [h0]
    · field_simp
  have hv : ∀ f g : ℝ, V3.add (V3.smul f (V3.smul (k ^ 2) r)) (V3.smul (tau * g) (V3.smul (k ^ 2 / tau) v)) =
      V3.smul (k ^ 2) (V3.add (V3.smul f r) (V3.smul g v)) := fun f g => by
    unfold V3.add V3.smul
    refine V3.ext ?_ ?_ ?_ <;> simp only <;> field_simp
  unfold applyLagrange lagrange
  simp only [hn, sqrt_units hk ht, alpha_units hk ht, hf, hg, hv]
  refine Prod.ext rfl ?_
  simp only
  rw [V3.norm_smul, abs_of_pos (show 0 < k ^ 2 by positivity)]
  set R := V3.norm (V3.add (V3.smul (1 - e.chi ^ 2 / V3.norm r * e.c.c2) r) (V3.smul (t1 - t0 - 1 / Real.sqrt mu * e.chi ^ 3 * e.c.c3) v))
  have hfd : k ^ 3 / tau * Real.sqrt mu / (k ^ 2 * V3.norm r * (k ^ 2 * R)) * (alpha mu r v / k ^ 2 * (k * e.chi) ^ 3 * e.c.c3 - k * e.chi) =
      1 / tau * (Real.sqrt mu / (V3.norm r * R) * (alpha mu r v * e.chi ^ 3 * e.c.c3 - e.chi)) := by
    by_cases h3 : V3.norm r = 0 <;> by_cases h4 : R = 0 <;> try simp only [h3, h4, mul_zero, zero_mul, div_zero]
    all_goals field_simp
  have hgd : 1 - (k * e.chi) ^ 2 / (k ^ 2 * R) * e.c.c2 = 1 - e.chi ^ 2 / R * e.c.c2 := by
    rw [mul_pow, mul_div_mul_left _ _ (by positivity)]
  rw [hfd, hgd]
  unfold V3.add V3.smul
  refine V3.ext ?_ ?_ ?_ <;> simp only <;> field_simp

end units

/-- From au and days to units of a thousandth of an au and hours, with the default tolerance. -/
example : (0 : ℝ) < Real.sqrt 1000 ∧ (0 : ℝ) < 24 ∧ (1e-14 : ℝ) < 1e15 ∧ Real.sqrt 1000 * 1e-14 < 1e15 := by
  have h : Real.sqrt 1000 < 1000 := by
    rw [Real.sqrt_lt' (by norm_num)]
    norm_num
  refine ⟨Real.sqrt_pos.mpr (by norm_num), by norm_num, by norm_num, ?_⟩
  calc Real.sqrt 1000 * 1e-14 ≤ 1000 * 1e-14 := mul_le_mul_of_nonneg_right h.le (by norm_num)
    _ < 1e15 := by norm_num

/-! ## C192: parabolas and hyperbolas -/

theorem alpha_sign {mu : ℝ} {r v : V3} (hmu : 0 < mu) (hE : 0 ≤ energy mu (r, v)) : alpha mu r v ≤ 0 := by
  rw [alpha_energy hmu]
  exact div_nonpos_of_nonpos_of_nonneg (by linarith) hmu.le

theorem sigma_sign {mu : ℝ} {r v : V3} (hmu : 0 < mu) (h : V3.cross r v ≠ ⟨0, 0, 0⟩) (hd : 0 ≤ V3.dot r v) : 0 ≤ sigma mu r v := by
  rw [sigma_eq hmu (ne_zero_of_cross h)] at hd
  exact nonneg_of_mul_nonneg_left hd (Real.sqrt_pos.mpr hmu)

theorem opp_opp (v : V3) : opp (opp v) = v := by
  unfold opp
  simp only [neg_neg]

theorem cross_opp {r v : V3} (h : V3.cross r v ≠ ⟨0, 0, 0⟩) : V3.cross r (opp v) ≠ ⟨0, 0, 0⟩ := by
  intro h0
  apply h
  have hx := congrArg V3.x h0
  have hy := congrArg V3.y h0
  have hz := congrArg V3.z h0
  simp only [V3.cross, opp] at hx hy hz
  refine V3.ext ?_ ?_ ?_ <;> simp only [V3.cross] <;> linarith

/-- Without a correction the last correction is the number the iteration starts with. -/
theorem calcChi_none {mu : ℝ} {r v : V3} {dt : ℝ} {maxIter : Nat} {tol : ℝ} (h : (calcChi mu r v dt maxIter tol).iterations = 0) :
    (calcChi mu r v dt maxIter tol).ratio = 1e15 := by
  rcases (calcChi_inv mu r v dt tol maxIter).2.2 with ⟨j, -⟩ | ⟨_, -, j⟩
  · exact j
  · omega

/-- C192. On parabolas and hyperbolas, away from the centre forward in time or towards it backward in time, the iteration converges for
every time step: for every positive tolerance there is a number of corrections after which it stops by itself whatever larger limit is
given, the last correction being within the tolerance. -/
theorem C192_outbound {mu : ℝ} {r v : V3} (hmu : 0 < mu) (h : V3.cross r v ≠ ⟨0, 0, 0⟩) (hE : 0 ≤ energy mu (r, v)) {dt : ℝ}
    (hd : 0 ≤ V3.dot r v ∧ 0 ≤ dt ∨ V3.dot r v ≤ 0 ∧ dt ≤ 0) {tol : ℝ} (ht : 0 < tol) :
    ∃ K : Nat, ∀ maxIter ≥ K, (calcChi mu r v dt maxIter tol).iterations ≤ K ∧ |(calcChi mu r v dt maxIter tol).ratio| ≤ tol := by
  have ha := alpha_sign hmu hE
  rcases hd with ⟨h1, h2⟩ | ⟨h1, h2⟩
  · exact out_stops hmu h ha (sigma_sign hmu h h1) h2 ht
  · obtain ⟨K, hK⟩ := out_stops (v := opp v) hmu (cross_opp h) (by rw [alpha_opp]; exact ha)
      (sigma_sign hmu (cross_opp h) (by rw [dot_opp]; linarith)) (dt := -dt) (by linarith) ht
    refine ⟨K, fun maxIter hm => ?_⟩
    obtain ⟨k1, k2⟩ := hK maxIter hm
    obtain ⟨-, -, g3, g4⟩ := calcChi_opp mu r v dt maxIter tol
    refine ⟨by omega, ?_⟩
    rcases g4 with g4 | g4
    · rw [calcChi_none g4]
      rwa [calcChi_none (by omega)] at k2
    · rwa [g4, abs_neg] at k2

/-- C192. And the propagated state tends to that of the motion under Newton's equation, with an error at most proportional to the
tolerance. -/
theorem C192_outbound_state {mu : ℝ} {s : V3 × V3} (hmu : 0 < mu) (h : V3.cross s.1 s.2 ≠ ⟨0, 0, 0⟩) (hE : 0 ≤ energy mu s) {t0 t1 : ℝ}
    (hd : 0 ≤ V3.dot s.1 s.2 ∧ t0 ≤ t1 ∨ V3.dot s.1 s.2 ≤ 0 ∧ t1 ≤ t0) {p q : ℝ → E3} (hmo : IsMotion mu p q) (hp : p t0 = s.1.toE)
    (hq : q t0 = s.2.toE) :
    ∃ C > 0, ∃ δ > 0, ∀ tol : ℝ, 0 < tol → tol < δ → ∃ K : Nat, ∀ maxIter ≥ K,
      ‖(propagate mu s t0 t1 maxIter tol).1.toE - p t1‖ ≤ C * tol ∧ ‖(propagate mu s t0 t1 maxIter tol).2.toE - q t1‖ ≤ C * tol := by
  obtain ⟨r, v⟩ := s
  simp only at h hE hd hp hq
  have ha := alpha_sign hmu hE
  obtain ⟨x, hx, -⟩ := exists_unique_chi hmu h (t1 - t0)
  rcases hd with ⟨h1, h2⟩ | ⟨h1, h2⟩
  · obtain ⟨L, hL, hn⟩ := out_near hmu h ha (sigma_sign hmu h h1) (dt := t1 - t0) (by linarith) hx
    exact state_limit hmu h hmo hp hq t1 hx hL hn
  · obtain ⟨L, hL, hn⟩ := out_near (v := opp v) (dt := -(t1 - t0)) (x := -x) hmu (cross_opp h) (by rw [alpha_opp]; exact ha)
      (sigma_sign hmu (cross_opp h) (by rw [dot_opp]; linarith)) (by linarith) (by rw [(kepler_opp mu r v (t1 - t0) x).1, hx, neg_zero])
    refine state_limit hmu h hmo hp hq t1 hx hL fun tol ht ht1 => ?_
    obtain ⟨K, hK⟩ := hn tol ht ht1
    refine ⟨K, fun maxIter hm => ?_⟩
    obtain ⟨k1, k2, k3⟩ := hK maxIter hm
    obtain ⟨g1, g2, g3, g4⟩ := calcChi_opp mu r v (t1 - t0) maxIter tol
    have hne : (calcChi mu r v (t1 - t0) maxIter tol).iterations ≠ 0 := by
      intro h0
      rcases (calcChi_inv mu r v (t1 - t0) tol maxIter).1 with i | i
      · rw [calcChi_none h0, abs_of_nonneg (by norm_num)] at i
        norm_num at i
        linarith
      · omega
    have g4 := g4.resolve_left hne
    rw [g2, alpha_opp, g1, g4, ← neg_add, neg_sq] at k1
    rw [g1, g4, ← neg_add, ← neg_sub', abs_neg] at k2
    rw [g1, ← neg_sub', abs_neg] at k3
    exact ⟨k1, k2, k3⟩

/-- The hypotheses hold for a hyperbola at its closest point, and for a parabola. -/
example : V3.cross ⟨1, 0, 0⟩ ⟨0, 2, 0⟩ ≠ ⟨0, 0, 0⟩ ∧ 0 < energy 1 (⟨1, 0, 0⟩, ⟨0, 2, 0⟩) ∧ 0 ≤ V3.dot ⟨1, 0, 0⟩ ⟨0, 2, 0⟩ ∧
    V3.cross ⟨2, 0, 0⟩ ⟨3 / 5, 4 / 5, 0⟩ ≠ ⟨0, 0, 0⟩ ∧ energy 1 (⟨2, 0, 0⟩, ⟨3 / 5, 4 / 5, 0⟩) = 0 ∧ 0 < V3.dot ⟨2, 0, 0⟩ ⟨3 / 5, 4 / 5, 0⟩ := by
  have h1 : V3.norm ⟨1, 0, 0⟩ = 1 := by simp [V3.norm]
  have h2 : V3.norm ⟨2, 0, 0⟩ = 2 := by
    unfold V3.norm
    rw [show (2 : ℝ) * 2 + 0 * 0 + 0 * 0 = 2 ^ 2 by norm_num, Real.sqrt_sq (by norm_num)]
  refine ⟨?_, ?_, ?_, ?_, ?_, ?_⟩
  · simp [V3.cross]
  · simp only [energy, h1, V3.dot]; norm_num
  · simp only [V3.dot]; norm_num
  · simp [V3.cross]
  · simp only [energy, h2, V3.dot]; norm_num
  · simp only [V3.dot]; norm_num

end Verif.Univ.Props
