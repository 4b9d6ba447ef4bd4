import Verif.Kep.OrbitProps
import Mathlib.Analysis.Complex.ExponentialBounds
import Mathlib.Analysis.SpecialFunctions.Trigonometric.Bounds

/-! # Convergence of the solver of Kepler's equation (C140, C141) -/

namespace Verif.Kep.Props

open Verif Verif.Kep Verif.Univ Real Set

/-! ## Newton's iteration for a convex function -/

/-- The anomalies the iteration goes through. -/
noncomputable def orbit (f fp : ℝ → ℝ) (x : ℝ) (k : Nat) : ℝ := (fun z => z - f z / fp z)^[k] x

theorem orbit_succ (f fp : ℝ → ℝ) (x : ℝ) (k : Nat) : orbit f fp x (k + 1) = orbit f fp x k - f (orbit f fp x k) / fp (orbit f fp x k) := by
  unfold orbit
  rw [Function.iterate_succ_apply']

theorem orbit_succ' (f fp : ℝ → ℝ) (x : ℝ) (k : Nat) : orbit f fp x (k + 1) = orbit f fp (x - f x / fp x) k := by
  unfold orbit
  rw [Function.iterate_succ_apply]

/-- To the right of the root of a convex increasing function the iteration decreases to the root, and the product of the function and
its derivative falls to a quarter in every step. -/
theorem newton_convex {f fp : ℝ → ℝ} {y b c : ℝ} (hT : ∀ a ∈ Icc y b, ∀ x ∈ Icc y b, f x + fp x * (a - x) ≤ f a) (hc : 0 < c)
    (hfp : ∀ x ∈ Icc y b, c ≤ fp x) (hy : f y = 0) {x : ℝ} (hx : x ∈ Icc y b) (k : Nat) :
    orbit f fp x k ∈ Icc y x ∧ 0 ≤ f (orbit f fp x k) ∧
      f (orbit f fp x k) * fp (orbit f fp x k) ≤ f x * fp x / 4 ^ k := by
  have hyb : y ∈ Icc y b := ⟨le_rfl, hx.1.trans hx.2⟩
  have hnn : ∀ z ∈ Icc y b, 0 ≤ f z := fun z hz => by
    have := hT z hz y hyb
    have h1 := mul_nonneg (hc.le.trans (hfp y hyb)) (sub_nonneg.mpr hz.1)
    linarith
  induction k with
  | zero => simp only [orbit, Function.iterate_zero, id, pow_zero, div_one]; exact ⟨⟨hx.1, le_rfl⟩, hnn x hx, le_rfl⟩
  | succ k ih =>
    obtain ⟨⟨h1, h2⟩, h3, h4⟩ := ih
    rw [orbit_succ]
    set z := orbit f fp x k with hz
    have hzb : z ∈ Icc y b := ⟨h1, h2.trans hx.2⟩
    have hg : 0 < fp z := hc.trans_le (hfp z hzb)
    have hw1 : y ≤ z - f z / fp z := by
      have := hT y hyb z hzb
      rw [hy] at this
      rw [le_sub_iff_add_le, ← le_sub_iff_add_le', div_le_iff₀ hg]
      linarith
    have hw2 : z - f z / fp z ≤ z := by
      have := div_nonneg h3 hg.le
      linarith
    set w := z - f z / fp z with hw
    have hwb : w ∈ Icc y b := ⟨hw1, hw2.trans hzb.2⟩
    refine ⟨⟨hw1, hw2.trans h2⟩, hnn w hwb, ?_⟩
    have hgw : 0 < fp w := hc.trans_le (hfp w hwb)
    have hfw := hnn w hwb
    have hq : 4 * (f w * fp w) ≤ f z * fp z := by
      have ht := hT z hzb w hwb
      have hzw : z - w = f z / fp z := by rw [hw]; ring
      rw [hzw] at ht
      have ht' : f w * fp z + fp w * f z ≤ f z * fp z := by
        have := mul_le_mul_of_nonneg_right ht hg.le
        have e1 : (f w + fp w * (f z / fp z)) * fp z = f w * fp z + fp w * f z := by field_simp
        linarith
      rcases eq_or_lt_of_le h3 with h0 | h0
      · have hwz : w = z := by rw [hw, ← h0]; simp
        rw [hwz, ← h0]; simp
      · have hpos : 0 < f z * fp z := mul_pos h0 hg
        have h5 : (f w * fp z + fp w * f z) ^ 2 ≤ (f z * fp z) ^ 2 := by
          apply pow_le_pow_left₀ _ ht'
          positivity
        have h6 : 4 * (f w * fp w) * (f z * fp z) ≤ (f z * fp z) * (f z * fp z) := by
          nlinarith [sq_nonneg (f w * fp z - fp w * f z)]
        exact le_of_mul_le_mul_right h6 hpos
    calc f w * fp w ≤ f z * fp z / 4 := by linarith
      _ ≤ f x * fp x / 4 ^ k / 4 := by linarith
      _ = f x * fp x / 4 ^ (k + 1) := by rw [pow_succ, div_div]

/-- So the corrections fall to a quarter too. -/
theorem newton_ratio {f fp : ℝ → ℝ} {y b c : ℝ} (hT : ∀ a ∈ Icc y b, ∀ x ∈ Icc y b, f x + fp x * (a - x) ≤ f a) (hc : 0 < c)
    (hfp : ∀ x ∈ Icc y b, c ≤ fp x) (hy : f y = 0) {x : ℝ} (hx : x ∈ Icc y b) (k : Nat) :
    |f (orbit f fp x k) / fp (orbit f fp x k)| ≤ f x * fp x / (4 ^ k * c ^ 2) := by
  obtain ⟨h1, h2, h3⟩ := newton_convex hT hc hfp hy hx k
  have hg := hfp _ ⟨h1.1, h1.2.trans hx.2⟩
  have hg0 := hc.trans_le hg
  rw [abs_of_nonneg (div_nonneg h2 hg0.le), div_le_div_iff₀ hg0 (by positivity)]
  have e1 : c ^ 2 ≤ fp (orbit f fp x k) ^ 2 := pow_le_pow_left₀ hc.le hg 2
  have e2 : f (orbit f fp x k) * fp (orbit f fp x k) * 4 ^ k ≤ f x * fp x := by
    rwa [le_div_iff₀ (by positivity)] at h3
  calc f (orbit f fp x k) * (4 ^ k * c ^ 2) ≤ f (orbit f fp x k) * (4 ^ k * fp (orbit f fp x k) ^ 2) := by gcongr
    _ = f (orbit f fp x k) * fp (orbit f fp x k) * 4 ^ k * fp (orbit f fp x k) := by ring
    _ ≤ f x * fp x * fp (orbit f fp x k) := by gcongr

/-! ## The loop -/

/-- The loop stops after a correction within the tolerance. -/
theorem loop_stops (f fp : ℝ → ℝ) (tol : ℝ) (maxIter : Nat) : ∀ (k fuel : Nat) (p : Iter),
    |f (orbit f fp p.x k) / fp (orbit f fp p.x k)| ≤ tol → (loop f fp tol maxIter fuel p).iterations ≤ p.iterations + k + 1 := by
  intro k
  induction k with
  | zero =>
    intro fuel p h
    cases fuel with
    | zero => simp [loop]
    | succ fuel =>
      unfold loop
      split
      · cases fuel with
        | zero => simp [loop, step]
        | succ fuel =>
          unfold loop
          rw [if_neg]
          · simp [step]
          · rintro ⟨h1, -⟩
            exact absurd h (not_le.mpr h1)
      · omega
  | succ k ih =>
    intro fuel p h
    cases fuel with
    | zero => simp [loop]; omega
    | succ fuel =>
      unfold loop
      split
      · have := ih fuel (step f fp p) (by
          show |f (orbit f fp (p.x - f p.x / fp p.x) k) / fp (orbit f fp (p.x - f p.x / fp p.x) k)| ≤ tol
          rw [← orbit_succ']; exact h)
        have e : (step f fp p).iterations = p.iterations + 1 := rfl
        omega
      · omega

/-- Two runs that are mirror images or shifted make the same number of steps. -/
theorem loop_congr {f fp f2 fp2 : ℝ → ℝ} {s t : ℝ} (hs : |s| = 1) (hf : ∀ x, f2 (s * x + t) = s * f x)
    (hfp : ∀ x, fp2 (s * x + t) = fp x) (tol : ℝ) (maxIter : Nat) : ∀ (fuel : Nat) (p q : Iter), q.x = s * p.x + t →
      |q.ratio| = |p.ratio| → q.iterations = p.iterations →
      (loop f2 fp2 tol maxIter fuel q).x = s * (loop f fp tol maxIter fuel p).x + t ∧
      (loop f2 fp2 tol maxIter fuel q).iterations = (loop f fp tol maxIter fuel p).iterations := by
  intro fuel
  induction fuel with
  | zero => intro p q h1 _ h; exact ⟨h1, h⟩
  | succ fuel ih =>
    intro p q h1 h2 h3
    unfold loop
    rw [h2, h3]
    split
    · refine ih _ _ ?_ ?_ ?_
      · show q.x - f2 q.x / fp2 q.x = s * (p.x - f p.x / fp p.x) + t
        rw [h1, hf, hfp]; ring
      · show |f2 q.x / fp2 q.x| = |f p.x / fp p.x|
        rw [h1, hf, hfp, mul_div_assoc, abs_mul, hs, one_mul]
      · show q.iterations + 1 = p.iterations + 1
        rw [h3]
    · exact ⟨h1, h3⟩

/-- Tangents of a function whose derivative increases. -/
theorem tangent_le {g g' : ℝ → ℝ} (hd : ∀ x, HasDerivAt g (g' x) x) {lo hi : ℝ}
    (hm : ∀ u v, lo ≤ u → u ≤ v → v ≤ hi → g' u ≤ g' v) {a x : ℝ} (ha : a ∈ Icc lo hi) (hx : x ∈ Icc lo hi) :
    g x + g' x * (a - x) ≤ g a := by
  rcases lt_trichotomy a x with h | h | h
  · obtain ⟨ξ, hξ, he⟩ := exists_hasDerivAt_eq_slope g g' h (fun z _ => (hd z).continuousAt.continuousWithinAt) fun z _ => hd z
    rw [eq_div_iff (sub_ne_zero.mpr h.ne')] at he
    have := hm ξ x (ha.1.trans hξ.1.le) hξ.2.le hx.2
    nlinarith
  · rw [h]; simp
  · obtain ⟨ξ, hξ, he⟩ := exists_hasDerivAt_eq_slope g g' h (fun z _ => (hd z).continuousAt.continuousWithinAt) fun z _ => hd z
    rw [eq_div_iff (sub_ne_zero.mpr h.ne')] at he
    have := hm x ξ hx.1 hξ.1.le (hξ.2.le.trans ha.2)
    nlinarith

/-! ## C140: ellipses -/

theorem ell_tangent {e m : ℝ} (he : 0 ≤ e) {a x : ℝ} (ha : a ∈ Icc 0 π) (hx : x ∈ Icc 0 π) :
    ellF e m x + ellFp e x * (a - x) ≤ ellF e m a := by
  refine tangent_le (g := ellF e m) (g' := ellFp e) (fun z => ?_) (lo := 0) (hi := π) (fun u v hu huv hv => ?_) ha hx
  · exact ((hasDerivAt_id z).sub ((Real.hasDerivAt_sin z).const_mul e)).sub_const m
  · have := Real.cos_le_cos_of_nonneg_of_le_pi hu hv huv
    unfold ellFp
    nlinarith

/-- The first correction stays on the near half of the ellipse for eccentricities up to 0.9. -/
theorem first_step {e m : ℝ} (he : 0 ≤ e) (he' : e ≤ 9 / 10) (hm : m ∈ Icc 0 π) : e * sin m ≤ (π - m) * (1 - e * cos m) := by
  obtain ⟨h0, h1⟩ := hm
  have hpi := Real.pi_gt_d2
  have hpi' := Real.pi_lt_d2
  have hs := Real.sin_nonneg_of_nonneg_of_le_pi h0 h1
  -- it is enough that sin m + (π - m) cos m ≤ (10/9) (π - m)
  suffices h : sin m + (π - m) * cos m ≤ 10 / 9 * (π - m) by
    by_cases hneg : sin m + (π - m) * cos m ≤ 0
    · nlinarith
    · have hneg := not_le.mp hneg
      nlinarith
  rcases le_total m 1 with hm1 | hm1
  · have hb := (abs_le.mp (Real.cos_bound (x := m) (by rw [abs_of_nonneg h0]; exact hm1))).2
    rw [abs_of_nonneg h0] at hb
    have h4 : m ^ 4 ≤ m ^ 2 := by
      have : m ^ 4 = m ^ 2 * m ^ 2 := by ring
      have h2 : m ^ 2 ≤ 1 := by nlinarith
      nlinarith [sq_nonneg m]
    have hcos : cos m ≤ 1 - 43 / 96 * m ^ 2 := by nlinarith
    have hsin := Real.sin_le h0
    have hw : 0 ≤ π - m := by linarith
    have hk : m ≤ (π - m) * (1 / 9 + 43 / 96 * m ^ 2) := by
      have h314 : (3.14 - m) * (1 / 9 + 43 / 96 * m ^ 2) ≤ (π - m) * (1 / 9 + 43 / 96 * m ^ 2) := by
        apply mul_le_mul_of_nonneg_right (by linarith); positivity
      have : m ≤ (3.14 - m) * (1 / 9 + 43 / 96 * m ^ 2) := by
        nlinarith [sq_nonneg (m - 53 / 100), mul_nonneg h0 (sq_nonneg (m - 53 / 100)), mul_nonneg (sub_nonneg.mpr hm1) (sq_nonneg (m - 53 / 100)),
          mul_nonneg h0 (sub_nonneg.mpr hm1)]
      linarith
    nlinarith
  · rcases le_total m (π / 2) with hm2 | hm2
    · have hsin := Real.sin_le_one m
      rcases le_total m 1.35 with hm3 | hm3
      · have hb := (abs_le.mp (Real.cos_bound (x := 1) (by norm_num))).2
        have hc1 : cos m ≤ cos 1 := Real.cos_le_cos_of_nonneg_of_le_pi (by norm_num) (by linarith) hm1
        norm_num at hb
        nlinarith
      · have hc : cos m ≤ π / 2 - m := by
          rw [← Real.sin_pi_div_two_sub]
          exact Real.sin_le (by linarith)
        nlinarith
    · have hc : cos m ≤ 0 := Real.cos_nonpos_of_pi_div_two_le_of_le hm2 (by linarith)
      have : sin m ≤ π - m := by
        rw [← Real.sin_pi_sub]
        exact Real.sin_le (by linarith)
      nlinarith

/-- The corrections of a run that stays on the near half after the first step. -/
theorem ell_corrections {e m : ℝ} (he : 0 ≤ e ∧ e < 1) (hm : m ∈ Icc 0 π) (h1 : e * sin m ≤ (π - m) * (1 - e * cos m)) (k : Nat) :
    |ellF e m (orbit (ellF e m) (ellFp e) m (k + 1)) / ellFp e (orbit (ellF e m) (ellFp e) m (k + 1))| ≤
      2 * π / (4 ^ k * (1 - e) ^ 2) := by
  obtain ⟨y, hy⟩ := ell_surjective he m
  have hy : ellF e m y = 0 := by unfold ellF; simp only at hy; linarith
  have hmono : StrictMono fun E : ℝ => E - e * sin E := ell_strictMono he
  have hpi := Real.pi_pos
  have hym : m ≤ y := by
    by_contra h
    have := hmono (not_le.mp h)
    simp only at this
    have hs := mul_nonneg he.1 (Real.sin_nonneg_of_nonneg_of_le_pi hm.1 hm.2)
    unfold ellF at hy
    linarith
  have hyp : y ≤ π := by
    by_contra h
    have := hmono (not_le.mp h)
    simp only [Real.sin_pi, mul_zero, sub_zero] at this
    unfold ellF at hy
    linarith [hm.2]
  have hyI : y ∈ Icc 0 π := ⟨hm.1.trans hym, hyp⟩
  have hg : ∀ x, 1 - e ≤ ellFp e x := fun x => by unfold ellFp; nlinarith [Real.cos_le_one x]
  have hc : 0 < 1 - e := by linarith [he.2]
  have hgm := hc.trans_le (hg m)
  set x1 := m - ellF e m m / ellFp e m with hx1
  have hx1y : y ≤ x1 := by
    have := ell_tangent (m := m) he.1 hyI hm
    rw [hy] at this
    rw [hx1, le_sub_iff_add_le, ← le_sub_iff_add_le', div_le_iff₀ hgm]
    linarith
  have hx1p : x1 ≤ π := by
    rw [hx1, sub_le_comm, le_div_iff₀ hgm]
    unfold ellF ellFp
    linarith
  have hT : ∀ a ∈ Icc y π, ∀ x ∈ Icc y π, ellF e m x + ellFp e x * (a - x) ≤ ellF e m a := fun a ha x hx =>
    ell_tangent he.1 ⟨hyI.1.trans ha.1, ha.2⟩ ⟨hyI.1.trans hx.1, hx.2⟩
  rw [orbit_succ']
  refine (newton_ratio hT hc (fun x _ => hg x) hy (x := x1) ⟨hx1y, hx1p⟩ k).trans ?_
  have hf : ellF e m x1 ≤ π := by
    have hs := mul_nonneg he.1 (Real.sin_nonneg_of_nonneg_of_le_pi (hyI.1.trans hx1y) hx1p)
    unfold ellF
    linarith [hm.1]
  have hg2 : ellFp e x1 ≤ 2 := by
    unfold ellFp
    nlinarith [Real.neg_one_le_cos x1]
  have hg0 := hc.trans_le (hg x1)
  apply div_le_div_of_nonneg_right _ (by positivity)
  nlinarith

theorem ell_near {e m : ℝ} (he : 0 ≤ e ∧ e < 1) (hm : m ∈ Icc 0 π) (h1 : e * sin m ≤ (π - m) * (1 - e * cos m)) {maxIter k : Nat} {tol : ℝ}
    (hk : 2 * π / (4 ^ k * (1 - e) ^ 2) ≤ tol) : (iterate (ellF e m) (ellFp e) m maxIter tol).iterations ≤ k + 2 := by
  have := loop_stops (ellF e m) (ellFp e) tol maxIter (k + 1) (maxIter + 1) ⟨m, 1e15, 0⟩ ((ell_corrections he hm h1 k).trans hk)
  simpa [iterate, Nat.add_assoc] using this

/-- The mean anomaly folded to the half ellipse on which it is. -/
theorem fold (M : ℝ) : ∃ (s : ℝ) (n : ℤ) (m : ℝ), |s| = 1 ∧ s * s = 1 ∧ m ∈ Icc 0 π ∧ M = s * m + n * (2 * π) := by
  have hpi := Real.two_pi_pos
  have hr := abs_sub_round (M / (2 * π))
  have e1 : |M - round (M / (2 * π)) * (2 * π)| ≤ π := by
    have : M - round (M / (2 * π)) * (2 * π) = (M / (2 * π) - round (M / (2 * π))) * (2 * π) := by field_simp
    rw [this, abs_mul, abs_of_pos hpi]
    nlinarith
  rcases le_total 0 (M - round (M / (2 * π)) * (2 * π)) with h | h
  · refine ⟨1, round (M / (2 * π)), M - round (M / (2 * π)) * (2 * π), by simp, by norm_num, ⟨h, (le_abs_self _).trans e1⟩, by ring⟩
  · refine ⟨-1, round (M / (2 * π)), -(M - round (M / (2 * π)) * (2 * π)), by simp, by norm_num, ⟨by linarith, ?_⟩, by ring⟩
    exact (neg_le_abs _).trans e1

theorem ell_fold {e s m : ℝ} {n : ℤ} (hs : |s| = 1) (hs2 : s * s = 1) (maxIter : Nat) (tol : ℝ) :
    (iterate (ellF e (s * m + n * (2 * π))) (ellFp e) (s * m + n * (2 * π)) maxIter tol).iterations =
      (iterate (ellF e m) (ellFp e) m maxIter tol).iterations := by
  have hsc : ∀ x : ℝ, sin (s * x) = s * sin x ∧ cos (s * x) = cos x := by
    intro x
    rcases mul_self_eq_one_iff.mp hs2 with rfl | rfl
    · simp
    · simp
  refine (loop_congr hs (t := n * (2 * π)) ?_ ?_ tol maxIter (maxIter + 1) ⟨m, 1e15, 0⟩ ⟨_, 1e15, 0⟩ rfl rfl rfl).2
  · intro x
    unfold ellF
    rw [Real.sin_add_int_mul_two_pi, (hsc x).1]
    ring
  · intro x
    unfold ellFp
    rw [Real.cos_add_int_mul_two_pi, (hsc x).2]

/-- C140. For eccentricities up to 0.9 the default settings are enough, for every mean anomaly: at most 32 corrections are made, and the
true anomaly returned is that of a mean anomaly within `e 10⁻³⁰` of the one asked for. -/
theorem C140_elliptic (e M : ℝ) (he : 0 ≤ e ∧ e ≤ 9 / 10) :
    (solveIter e M 100 1e-15).iterations ≤ 32 ∧
      ∃ M', EllipticMean e (solveKepler e M 100 1e-15) M' ∧ |M' - M| ≤ e * 1e-30 := by
  have he1 : 0 ≤ e ∧ e < 1 := ⟨he.1, by linarith [he.2]⟩
  obtain ⟨s, n, m, hs, hs2, hm, rfl⟩ := fold M
  have hit : (solveIter e (s * m + n * (2 * π)) 100 1e-15).iterations ≤ 32 := by
    unfold solveIter
    rw [if_pos he1.2, ell_fold hs hs2]
    refine ell_near (k := 30) he1 hm (first_step he.1 he.2 hm) ?_
    have hpi := Real.pi_lt_d2
    have h1 : (1 / 10 : ℝ) ≤ 1 - e := by linarith [he.2]
    have h2 : (1 / 100 : ℝ) ≤ (1 - e) ^ 2 := by nlinarith
    rw [div_le_iff₀ (by positivity)]
    have : (4 : ℝ) ^ 30 * (1 / 100) ≤ 4 ^ 30 * (1 - e) ^ 2 := by gcongr
    norm_num at this ⊢
    nlinarith
  refine ⟨hit, ?_⟩
  obtain ⟨M', h1, h2⟩ := C97_elliptic e (s * m + n * (2 * π)) he1 100 1e-15 (by norm_num) (by omega)
  exact ⟨M', h1, h2.trans (le_of_eq (by norm_num))⟩

/-- C140. For every ellipse, however eccentric, the iteration converges for the mean anomalies whose first correction does not cross
apoapsis; then for every tolerance there is a number of steps after which it stops, whatever the limit. -/
theorem C140_limit (e M : ℝ) (he : 0 ≤ e ∧ e < 1) (hM : 0 ≤ M ∧ M ≤ π) (h : M + e * sin M / (1 - e * cos M) ≤ π) (tol : ℝ) (ht : 0 < tol) :
    ∃ n, ∀ maxIter, (solveIter e M maxIter tol).iterations ≤ n := by
  have hc : 0 < 1 - e := by linarith [he.2]
  obtain ⟨k, hk⟩ := pow_unbounded_of_one_lt (2 * π / ((1 - e) ^ 2 * tol)) (by norm_num : (1 : ℝ) < 4)
  refine ⟨k + 2, fun maxIter => ?_⟩
  unfold solveIter
  rw [if_pos he.2]
  have hp : 0 < 1 - e * cos M := by nlinarith [Real.cos_le_one M]
  refine ell_near he hM ?_ ?_
  · have : e * sin M / (1 - e * cos M) ≤ π - M := by linarith
    rwa [div_le_iff₀ hp] at this
  · rw [div_lt_iff₀ (by positivity)] at hk
    rw [div_le_iff₀ (by positivity)]
    linarith

/-- The condition holds at a comet's eccentricity for mean anomalies a quarter of a turn away from periapsis. -/
example : (π / 2) + (99 / 100) * sin (π / 2) / (1 - 99 / 100 * cos (π / 2)) ≤ π := by
  simp only [Real.sin_pi_div_two, Real.cos_pi_div_two]
  have := Real.pi_gt_three
  linarith

/-- C140. The states of elliptic elements with the default settings: the state of the motion at the time `M / n`, up to `e 10⁻³⁰ / n`,
for every mean anomaly. -/
theorem C140_state (k : Six) (mu : ℝ) (hmu : 0 < mu) (ha : 0 < k.size) (he : 0 ≤ k.e ∧ k.e ≤ 9 / 10) {p v : ℝ → E3}
    (hm : PeriapsisMotion mu (k.size * (1 - k.e)) k.e (radians k.i) (radians k.raan) (radians k.ap) p v) :
    ∃ s t, keplerianToCartesianA k mu 100 1e-15 = some s ∧ s.1.toE = p t ∧ s.2.toE = v t ∧
      |t - radians k.m / √(mu / k.size ^ 3)| ≤ k.e * 1e-30 / √(mu / k.size ^ 3) := by
  obtain ⟨s, t, h1, h2, h3, h4⟩ := C98_elliptic k mu hmu ha ⟨he.1, by have : tolerance = 1e-15 := rfl; rw [this]; linarith [he.2]⟩ hm 100 1e-15
    (by norm_num) (by have := (C140_elliptic k.e (radians k.m) he).1; omega)
  exact ⟨s, t, h1, h2, h3, h4.trans (le_of_eq (by norm_num))⟩

/-! ## C141: hyperbolas -/

theorem hyp_tangent {e m : ℝ} (he : 0 ≤ e) {a x : ℝ} (ha : 0 ≤ a) (hx : 0 ≤ x) : hypF e m x + hypFp e x * (a - x) ≤ hypF e m a := by
  refine tangent_le (g := hypF e m) (g' := hypFp e) (fun z => ?_) (lo := 0) (hi := max a x) (fun u v hu huv hv => ?_)
    ⟨ha, le_max_left _ _⟩ ⟨hx, le_max_right _ _⟩
  · exact (hyp_deriv e z).sub_const m
  · have : cosh u ≤ cosh v := Real.cosh_le_cosh.mpr (by rw [abs_of_nonneg hu, abs_of_nonneg (hu.trans huv)]; exact huv)
    unfold hypFp
    nlinarith

theorem hyp_corrections {e m : ℝ} (he : 1 < e) (hm : 0 ≤ m) (k : Nat) :
    let x1 := m - hypF e m m / hypFp e m
    0 ≤ x1 ∧ |hypF e m (orbit (hypF e m) (hypFp e) m (k + 1)) / hypFp e (orbit (hypF e m) (hypFp e) m (k + 1))| ≤
      hypF e m x1 * hypFp e x1 / (4 ^ k * (e - 1) ^ 2) := by
  intro x1
  obtain ⟨y, hy⟩ := hyp_surjective he m
  have hy : hypF e m y = 0 := by unfold hypF; simp only at hy; linarith
  have hmono : StrictMono fun H : ℝ => e * sinh H - H := hyp_strictMono he
  have hy0 : 0 ≤ y := by
    by_contra h
    have := hmono (not_le.mp h)
    simp only [Real.sinh_zero, mul_zero, sub_zero] at this
    unfold hypF at hy
    linarith
  have hg : ∀ x, e - 1 ≤ hypFp e x := fun x => by unfold hypFp; nlinarith [Real.one_le_cosh x]
  have hc : 0 < e - 1 := by linarith
  have hgm := hc.trans_le (hg m)
  have hx1y : y ≤ x1 := by
    have := hyp_tangent (m := m) (by linarith : (0 : ℝ) ≤ e) hy0 hm
    rw [hy] at this
    rw [le_sub_iff_add_le, ← le_sub_iff_add_le', div_le_iff₀ hgm]
    linarith
  refine ⟨hy0.trans hx1y, ?_⟩
  rw [orbit_succ']
  exact newton_ratio (b := x1) (fun a ha x hx => hyp_tangent (by linarith) (hy0.trans ha.1) (hy0.trans hx.1)) hc (fun x _ => hg x) hy
    ⟨hx1y, le_rfl⟩ k

theorem hyp_fold {e s m : ℝ} (hs : |s| = 1) (hs2 : s * s = 1) (maxIter : Nat) (tol : ℝ) :
    (iterate (hypF e (s * m)) (hypFp e) (s * m) maxIter tol).x = s * (iterate (hypF e m) (hypFp e) m maxIter tol).x ∧
    (iterate (hypF e (s * m)) (hypFp e) (s * m) maxIter tol).iterations = (iterate (hypF e m) (hypFp e) m maxIter tol).iterations := by
  have hsc : ∀ x : ℝ, sinh (s * x) = s * sinh x ∧ cosh (s * x) = cosh x := by
    intro x
    rcases mul_self_eq_one_iff.mp hs2 with rfl | rfl
    · simp
    · simp
  rw [← add_zero (s * (iterate (hypF e m) (hypFp e) m maxIter tol).x)]
  refine loop_congr hs (t := 0) ?_ ?_ tol maxIter _ _ _ (by simp) rfl rfl
  · intro x
    unfold hypF
    rw [add_zero, (hsc x).1]
    ring
  · intro x
    unfold hypFp
    rw [add_zero, (hsc x).2]

theorem sign_fold (M : ℝ) : ∃ s m : ℝ, |s| = 1 ∧ s * s = 1 ∧ 0 ≤ m ∧ m = |M| ∧ M = s * m := by
  rcases le_total 0 M with h | h
  · exact ⟨1, M, by simp, by norm_num, h, (abs_of_nonneg h).symm, by ring⟩
  · exact ⟨-1, -M, by simp, by norm_num, by linarith, (abs_of_nonpos h).symm, by ring⟩

theorem hyp_steps {e m : ℝ} (he : 1 < e) (hm : 0 ≤ m) {maxIter k : Nat} {tol : ℝ}
    (hk : hypF e m (m - hypF e m m / hypFp e m) * hypFp e (m - hypF e m m / hypFp e m) / (4 ^ k * (e - 1) ^ 2) ≤ tol) :
    (iterate (hypF e m) (hypFp e) m maxIter tol).iterations ≤ k + 2 := by
  have := loop_stops (hypF e m) (hypFp e) tol maxIter (k + 1) (maxIter + 1) ⟨m, 1e15, 0⟩ ((hyp_corrections he hm k).2.trans hk)
  simpa [iterate, Nat.add_assoc] using this

/-- C141. On every hyperbola the iteration converges for every mean anomaly: for every tolerance there is a number of steps after
which it stops, whatever the limit. -/
theorem C141_limit (e M : ℝ) (he : 1 < e) (tol : ℝ) (ht : 0 < tol) : ∃ n, ∀ maxIter, (solveIter e M maxIter tol).iterations ≤ n := by
  obtain ⟨s, m, hs, hs2, hm, -, rfl⟩ := sign_fold M
  have hc : 0 < e - 1 := by linarith
  obtain ⟨k, hk⟩ := pow_unbounded_of_one_lt
    (hypF e m (m - hypF e m m / hypFp e m) * hypFp e (m - hypF e m m / hypFp e m) / ((e - 1) ^ 2 * tol)) (by norm_num : (1 : ℝ) < 4)
  refine ⟨k + 2, fun maxIter => ?_⟩
  unfold solveIter
  rw [if_neg (by linarith), if_pos he, (hyp_fold hs hs2 _ _).2]
  refine hyp_steps he hm ?_
  rw [div_lt_iff₀ (by positivity)] at hk
  rw [div_le_iff₀ (by positivity)]
  linarith

/-- C141. The default settings are enough for mean anomalies up to 35 radians and eccentricities from 1.01. -/
theorem C141_default (e M : ℝ) (he : 1.01 ≤ e) (hM : |M| ≤ 35) :
    (solveIter e M 100 1e-15).iterations ≤ 99 ∧
      ∃ H, HyperbolicAt e (solveKepler e M 100 1e-15) H ∧ |e * sinh H - H - M| ≤ e * (1e-30 * sinh (|H| + 1e-15)) := by
  have he1 : 1 < e := by norm_num at he; linarith
  have hit : (solveIter e M 100 1e-15).iterations ≤ 99 := by
    obtain ⟨s, m, hs, hs2, hm, habs, rfl⟩ := sign_fold M
    rw [← habs] at hM
    unfold solveIter
    rw [if_neg (by linarith), if_pos he1, (hyp_fold hs hs2 _ _).2]
    refine hyp_steps (k := 97) he1 hm ?_
    have hc : 0 < e - 1 := by linarith
    have hgm : 0 < hypFp e m := hyp_pos he1 m
    obtain ⟨hx0, -⟩ := hyp_corrections he1 hm 0
    have hx1 : m - hypF e m m / hypFp e m ≤ 43 := by
      -- the correction is at least -8
      have : -8 ≤ hypF e m m / hypFp e m := by
        rw [le_div_iff₀ hgm]
        have h1 : 1 + m ^ 2 / 2 ≤ cosh m := by
          have e1 : cosh m = 1 + 2 * sinh (m / 2) ^ 2 := by
            have := Real.cosh_two_mul (m / 2)
            rw [Real.cosh_sq, mul_div_cancel₀ m (two_ne_zero)] at this
            linarith
          have e2 : (m / 2) ^ 2 ≤ sinh (m / 2) ^ 2 := pow_le_pow_left₀ (by linarith) (Real.self_le_sinh_iff.mpr (by linarith)) 2
          nlinarith
        have h2 : m ≤ sinh m := Real.self_le_sinh_iff.mpr hm
        unfold hypF hypFp
        have h3 : e * (1 + m ^ 2 / 2) ≤ e * cosh m := by gcongr
        have h4 : e * m ≤ e * sinh m := by gcongr
        norm_num at he
        nlinarith [sq_nonneg (8 * m - 1), sq_nonneg m]
      linarith
    set x1 := m - hypF e m m / hypFp e m with hx1d
    have hch : cosh x1 ≤ cosh 43 := Real.cosh_le_cosh.mpr (by rw [abs_of_nonneg hx0]; norm_num; exact hx1)
    have hexp : exp 43 ≤ 2.7183 ^ 43 := by
      have : exp 43 = exp 1 ^ 43 := by rw [← Real.exp_nat_mul]; norm_num
      rw [this]
      exact pow_le_pow_left₀ (Real.exp_pos 1).le (by linarith [Real.exp_one_lt_d9]) 43
    have hc43 : cosh 43 ≤ 2.7183 ^ 43 := by
      rw [Real.cosh_eq]
      have : exp (-43) ≤ exp 43 := Real.exp_le_exp.mpr (by norm_num)
      linarith
    have hb : cosh x1 ≤ 2.7183 ^ 43 := hch.trans hc43
    have hsl : sinh x1 ≤ cosh x1 := (Real.sinh_lt_cosh x1).le
    have hf : hypF e m x1 ≤ e * 2.7183 ^ 43 := by
      unfold hypF
      have : e * sinh x1 ≤ e * 2.7183 ^ 43 := by gcongr; linarith
      linarith
    have hg : hypFp e x1 ≤ e * 2.7183 ^ 43 := by
      unfold hypFp
      have : e * cosh x1 ≤ e * 2.7183 ^ 43 := by gcongr
      linarith
    have hg0 : 0 < hypFp e x1 := hyp_pos he1 x1
    have hprod : hypF e m x1 * hypFp e x1 ≤ (e * 2.7183 ^ 43) * (e * 2.7183 ^ 43) := by
      calc hypF e m x1 * hypFp e x1 ≤ e * 2.7183 ^ 43 * hypFp e x1 := mul_le_mul_of_nonneg_right hf hg0.le
        _ ≤ _ := mul_le_mul_of_nonneg_left hg (by positivity)
    have hee : e ≤ 101 * (e - 1) := by norm_num at he; linarith
    have hee2 : e ^ 2 ≤ 10201 * (e - 1) ^ 2 := by nlinarith
    rw [div_le_iff₀ (by positivity)]
    have e1 : e * 2.7183 ^ 43 * (e * 2.7183 ^ 43) = e ^ 2 * (2.7183 ^ 43) ^ 2 := by ring
    have e2 : e ^ 2 * (2.7183 ^ 43) ^ 2 ≤ 10201 * (e - 1) ^ 2 * (2.7183 ^ 43) ^ 2 := by gcongr
    have e3 : (10201 : ℝ) * (2.7183 ^ 43) ^ 2 ≤ 1e-15 * 4 ^ 97 := by norm_num
    have e4 : 10201 * (2.7183 ^ 43) ^ 2 * (e - 1) ^ 2 ≤ 1e-15 * 4 ^ 97 * (e - 1) ^ 2 := by gcongr
    linarith
  refine ⟨hit, ?_⟩
  obtain ⟨H, h1, h2⟩ := C97_hyperbolic e M he1 100 1e-15 (by norm_num) (by omega)
  refine ⟨H, h1, h2.trans (le_of_eq ?_)⟩
  norm_num

example : (1.01 : ℝ) ≤ 3 / 2 ∧ |(-20 : ℝ)| ≤ 35 := by norm_num

/-- C141. The states of hyperbolic elements with the default settings. -/
theorem C141_state (k : Six) (mu : ℝ) (hmu : 0 < mu) (ha : k.size < 0) (he : 1.01 ≤ k.e) (hM : |radians k.m| ≤ 35) {p v : ℝ → E3}
    (hm : PeriapsisMotion mu (k.size * (1 - k.e)) k.e (radians k.i) (radians k.raan) (radians k.ap) p v) :
    ∃ s t H, keplerianToCartesianA k mu 100 1e-15 = some s ∧ s.1.toE = p t ∧ s.2.toE = v t ∧ ‖p t‖ = -k.size * (k.e * cosh H - 1) ∧
      |t - radians k.m / √(mu / |k.size| ^ 3)| ≤ k.e * (1e-30 * sinh (|H| + 1e-15)) / √(mu / |k.size| ^ 3) := by
  obtain ⟨s, t, H, h1, h2, h3, h4, h5⟩ := C98_hyperbolic k mu hmu ha
    (by have : tolerance = 1e-15 := rfl; rw [this]; norm_num at he ⊢; linarith) hm 100 1e-15
    (by norm_num) (by have := (C141_default k.e (radians k.m) he hM).1; omega)
  exact ⟨s, t, H, h1, h2, h3, h4, h5.trans (le_of_eq (by norm_num))⟩

/-- The loop runs to its limit when no correction is within the tolerance. -/
theorem loop_exhausts (f fp : ℝ → ℝ) (tol : ℝ) (maxIter : Nat) : ∀ (fuel : Nat) (p : Iter), p.iterations + fuel = maxIter + 1 →
    tol < |p.ratio| → (∀ j < fuel, tol < |f (orbit f fp p.x j) / fp (orbit f fp p.x j)|) →
    (loop f fp tol maxIter fuel p).x = orbit f fp p.x fuel ∧ (loop f fp tol maxIter fuel p).iterations = maxIter + 1 := by
  intro fuel
  induction fuel with
  | zero => intro p h _ _; exact ⟨rfl, h⟩
  | succ fuel ih =>
    intro p h hr hj
    unfold loop
    rw [if_pos ⟨hr, by omega⟩]
    obtain ⟨h1, h2⟩ := ih (step f fp p) (by show p.iterations + 1 + fuel = _; omega) (hj 0 (by omega)) fun j hjf => by
      show tol < |f (orbit f fp (p.x - f p.x / fp p.x) j) / fp (orbit f fp (p.x - f p.x / fp p.x) j)|
      rw [← orbit_succ']
      exact hj (j + 1) (by omega)
    exact ⟨by rw [h1, orbit_succ']; rfl, h2⟩

theorem exp_large {x : ℝ} (hx : 9 ≤ x) : 7600 * (x - 8) ≤ exp x := by
  have h9 : 7600 ≤ exp 9 := by
    have e1 : exp 9 = exp 1 ^ 9 := by rw [← Real.exp_nat_mul]; norm_num
    rw [e1]
    calc (7600 : ℝ) ≤ 2.71 ^ 9 := by norm_num
      _ ≤ exp 1 ^ 9 := pow_le_pow_left₀ (by norm_num) (by linarith [Real.exp_one_gt_d9]) 9
  have h1 : exp x = exp 9 * exp (x - 9) := by rw [← Real.exp_add]; ring_nf
  have h2 := Real.add_one_le_exp (x - 9)
  rw [h1]
  nlinarith

theorem sinh_large {x : ℝ} (hx : 9 ≤ x) : 2 * x + 101 + 3000 < sinh x ∧ 2 * x + 101 ≤ sinh x - cosh x / 2 := by
  have h1 := exp_large hx
  have h2 : exp (-x) ≤ 1 := Real.exp_le_one_iff.mpr (by linarith)
  rw [Real.sinh_eq, Real.cosh_eq]
  constructor <;> linarith

/-- Far out on a hyperbola every correction is between a half and one radian. -/
theorem hyp_slow {e m x : ℝ} (he : 1 < e) (hm : 1 ≤ m) (hx : 9 ≤ x) (hmx : m ≤ x + 101) :
    1 / 2 ≤ hypF e m x / hypFp e x ∧ hypF e m x / hypFp e x ≤ 1 := by
  have hg : 0 < hypFp e x := hyp_pos he x
  have h1 := (sinh_large hx).2
  have h2 := (Real.sinh_lt_cosh x).le
  rw [le_div_iff₀ hg, div_le_iff₀ hg]
  unfold hypF hypFp
  constructor <;> nlinarith

theorem hyp_far {e m : ℝ} (he : 1 < e) (hm : 110 ≤ m) : ∀ k : Nat, k ≤ 101 → m - k ≤ orbit (hypF e m) (hypFp e) m k := by
  intro k
  induction k with
  | zero => intro _; simp [orbit]
  | succ k ih =>
    intro hk
    have h1 := ih (by omega)
    have hkr : (k : ℝ) ≤ 100 := by exact_mod_cast (by omega : k ≤ 100)
    have h2 := (hyp_slow he (by linarith : (1 : ℝ) ≤ m) (by linarith : 9 ≤ orbit (hypF e m) (hypFp e) m k) (by linarith)).2
    rw [orbit_succ]
    push_cast
    linarith

theorem hyp_unique {e ν H H' : ℝ} (he : 1 < e) (h : HyperbolicAt e ν H) (h' : HyperbolicAt e ν H') : H = H' := by
  obtain ⟨a1, a2⟩ := h
  obtain ⟨b1, b2⟩ := h'
  have hsq := sqrt_hyp he
  have e1 : (e * cosh H - 1) * (1 + e * cos ν) = e ^ 2 - 1 := by linear_combination e * a1
  have e2 : (e * cosh H' - 1) * (1 + e * cos ν) = e ^ 2 - 1 := by linear_combination e * b1
  have hpos : 0 < e ^ 2 - 1 := by nlinarith
  have hne : 1 + e * cos ν ≠ 0 := by
    intro h0
    rw [h0, mul_zero] at e1
    linarith
  have e3 : e * cosh H - 1 = e * cosh H' - 1 := mul_right_cancel₀ hne (e1.trans e2.symm)
  rw [e3] at a2
  exact Real.sinh_injective (mul_left_cancel₀ hsq.2.ne' (a2.symm.trans b2))

/-- C141. They are not enough from 110 radians on, whatever the eccentricity: the run is cut off after 101 corrections, and the true
anomaly returned, without any error, is that of a mean anomaly more than 3000 radians beyond the one asked for. -/
theorem C141_default_false (e M : ℝ) (he : 1 < e) (hM : 110 ≤ |M|) :
    (solveIter e M 100 1e-15).iterations = 101 ∧
      (∃ H, HyperbolicAt e (solveKepler e M 100 1e-15) H) ∧
      ∀ H, HyperbolicAt e (solveKepler e M 100 1e-15) H → |M| + 3000 < |e * sinh H - H| := by
  have hsI : solveIter e M 100 1e-15 = iterate (hypF e M) (hypFp e) M 100 1e-15 := by
    unfold solveIter; rw [if_neg (by linarith), if_pos he]
  obtain ⟨s, m, hs, hs2, hm, habs, hMs⟩ := sign_fold M
  rw [← habs] at hM ⊢
  have hrun := loop_exhausts (hypF e m) (hypFp e) 1e-15 100 101 ⟨m, 1e15, 0⟩ rfl (by norm_num) (by
    intro j hj
    have h1 := hyp_far he hM j (by omega)
    have hkr : (j : ℝ) ≤ 100 := by exact_mod_cast (by omega : j ≤ 100)
    have h2 := (hyp_slow he (by linarith : (1 : ℝ) ≤ m) (by linarith : 9 ≤ orbit (hypF e m) (hypFp e) m j) (by linarith)).1
    exact lt_of_lt_of_le (lt_of_lt_of_le (by norm_num) h2) (le_abs_self _))
  have hf := hyp_fold (e := e) (m := m) hs hs2 100 1e-15
  rw [← hMs, ← hsI] at hf
  obtain ⟨hfx, hfi⟩ := hf
  change _ = s * (loop (hypF e m) (hypFp e) 1e-15 100 101 ⟨m, 1e15, 0⟩).x at hfx
  rw [hrun.1] at hfx
  set x := orbit (hypF e m) (hypFp e) m 101 with hx
  have hat : HyperbolicAt e (solveKepler e M 100 1e-15) (s * x) := by
    obtain ⟨hat, hlo, -⟩ := rawNu_hyperbolic (m := M) (H := (solveIter e M 100 1e-15).x) he
    obtain ⟨hc, hs⟩ := angle_congr (wrapTrue_spec (nu := rawNu e M (solveIter e M 100 1e-15).x) (by linarith [Real.pi_pos])).2.2
    unfold HyperbolicAt solveKepler
    rw [hc, hs]
    have := hat
    rw [hfx] at this ⊢
    exact this
  refine ⟨hfi.trans hrun.2, ⟨_, hat⟩, fun H hH => ?_⟩
  rw [hyp_unique he hH hat]
  have hfar : m - 101 ≤ x := by have := hyp_far he hM 101 le_rfl; push_cast at this; exact this
  have h9 : 9 ≤ x := by linarith
  have hl := (sinh_large h9).1
  have hsx : e * sinh (s * x) - s * x = s * (e * sinh x - x) := by
    rcases mul_self_eq_one_iff.mp hs2 with rfl | rfl
    · ring_nf
    · simp [Real.sinh_neg]; ring
  rw [hsx, abs_mul, hs, one_mul]
  refine lt_of_lt_of_le ?_ (le_abs_self _)
  nlinarith

end Verif.Kep.Props
