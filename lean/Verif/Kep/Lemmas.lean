import Verif.Kep.Model
import Verif.Kep.Spec
import Mathlib.Analysis.Calculus.MeanValue
import Mathlib.Tactic.LinearCombination
import Mathlib.Tactic.FieldSimp
import Mathlib.Analysis.SpecialFunctions.Trigonometric.Deriv
import Mathlib.Analysis.SpecialFunctions.Trigonometric.Bounds

/-! # Facts about the anomalies -/

namespace Verif.Kep

open Real

/-! ### wrapping -/

theorem pyMod_spec {x m : ℝ} (hm : 0 < m) : 0 ≤ pyMod x m ∧ pyMod x m < m ∧ ∃ k : ℤ, pyMod x m = x - k * m := by
  unfold pyMod
  have h1 := Int.floor_le (x / m)
  have h2 := Int.lt_floor_add_one (x / m)
  rw [le_div_iff₀ hm] at h1
  rw [div_lt_iff₀ hm] at h2
  exact ⟨by linarith, by linarith, ⌊x / m⌋, by ring⟩

theorem wrapNu_spec (nu : ℝ) : ∃ k : ℤ, wrapNu nu = nu - k * (2 * π) := by
  unfold wrapNu
  split
  · exact (pyMod_spec Real.two_pi_pos).2.2
  · exact ⟨0, by simp⟩

theorem cos_wrapNu (nu : ℝ) : cos (wrapNu nu) = cos nu := by
  obtain ⟨k, hk⟩ := wrapNu_spec nu
  rw [hk, Real.cos_sub_int_mul_two_pi]

theorem sin_wrapNu (nu : ℝ) : sin (wrapNu nu) = sin nu := by
  obtain ⟨k, hk⟩ := wrapNu_spec nu
  rw [hk, Real.sin_sub_int_mul_two_pi]

theorem wrapTrue_spec {nu : ℝ} (h : -(2 * π) ≤ nu) : 0 ≤ wrapTrue nu ∧ wrapTrue nu < 2 * π ∧ ∃ k : ℤ, wrapTrue nu = nu - k * (2 * π) := by
  have hp := Real.two_pi_pos
  have key : ∃ nu', 0 ≤ nu' ∧ (∃ k : ℤ, nu' = nu - k * (2 * π)) ∧ wrapTrue nu = if nu' ≥ 2 * π then pyMod nu' (2 * π) else nu' := by
    refine ⟨if nu < 0 then nu + 2 * π else nu, ?_, ?_, rfl⟩
    · split <;> linarith
    · split
      · exact ⟨-1, by push_cast; ring⟩
      · exact ⟨0, by simp⟩
  obtain ⟨nu', h0, ⟨k, hk⟩, e⟩ := key
  rw [e]
  split
  · obtain ⟨a, b, j, c⟩ := pyMod_spec (x := nu') hp
    exact ⟨a, b, j + k, by rw [c, hk]; push_cast; ring⟩
  · exact ⟨h0, by linarith, k, hk⟩

theorem angle_congr {a b : ℝ} (h : ∃ k : ℤ, a = b - k * (2 * π)) : cos a = cos b ∧ sin a = sin b := by
  obtain ⟨k, hk⟩ := h
  rw [hk, Real.cos_sub_int_mul_two_pi, Real.sin_sub_int_mul_two_pi]
  exact ⟨rfl, rfl⟩

theorem angle_of_eq {a b : ℝ} (hc : cos a = cos b) (hs : sin a = sin b) : ∃ k : ℤ, a = b - k * (2 * π) := by
  have : (a : Real.Angle) = b := Real.Angle.cos_sin_inj hc hs
  rw [Real.Angle.angle_eq_iff_two_pi_dvd_sub] at this
  obtain ⟨k, hk⟩ := this
  exact ⟨-k, by push_cast; linarith⟩

theorem angle_unique {a b : ℝ} (ha : 0 ≤ a ∧ a < 2 * π) (hb : 0 ≤ b ∧ b < 2 * π) (hc : cos a = cos b) (hs : sin a = sin b) :
    a = b := by
  obtain ⟨k, hk⟩ := angle_of_eq hc hs
  have hp := Real.two_pi_pos
  have h1 : (k : ℝ) < 1 := by nlinarith
  have h2 : (-1 : ℝ) < k := by nlinarith
  have h1' : k < 1 := by exact_mod_cast h1
  have h2' : -1 < k := by exact_mod_cast h2
  have : k = 0 := by omega
  rw [hk, this]; simp

theorem arctan2_spec {y x r : ℝ} (hr : 0 < r) (h : x ^ 2 + y ^ 2 = r ^ 2) :
    cos (arctan2 y x) = x / r ∧ sin (arctan2 y x) = y / r ∧ -π < arctan2 y x ∧ arctan2 y x ≤ π := by
  have hn : ‖(⟨x, y⟩ : ℂ)‖ = r := by
    rw [Complex.norm_def, Complex.normSq_mk, show x * x + y * y = r ^ 2 by linarith [h, sq x, sq y]]
    exact Real.sqrt_sq hr.le
  have hne : (⟨x, y⟩ : ℂ) ≠ 0 := by
    rw [← norm_pos_iff, hn]; exact hr
  refine ⟨?_, ?_, Complex.neg_pi_lt_arg _, Complex.arg_le_pi _⟩
  · rw [arctan2, Complex.cos_arg hne, hn]
  · rw [arctan2, Complex.sin_arg, hn]

/-! ### the ellipse -/

theorem ell_pos {e : ℝ} (he : 0 ≤ e ∧ e < 1) (x : ℝ) : 0 < 1 - e * cos x := by
  nlinarith [Real.cos_le_one x, he.1, he.2]

theorem ell_pos' {e : ℝ} (he : 0 ≤ e ∧ e < 1) (x : ℝ) : 0 < 1 + e * cos x := by
  nlinarith [Real.neg_one_le_cos x, he.1, he.2]

theorem sqrt_ell {e : ℝ} (he : 0 ≤ e ∧ e < 1) : √(1 - e ^ 2) ^ 2 = 1 - e ^ 2 ∧ 0 < √(1 - e ^ 2) :=
  ⟨Real.sq_sqrt (by nlinarith), Real.sqrt_pos.mpr (by nlinarith)⟩

/-- The relation solved for the eccentric anomaly. -/
theorem elliptic_inv {e ν E : ℝ} (he : 0 ≤ e ∧ e < 1) :
    EllipticAt e ν E ↔ cos E = (e + cos ν) / (1 + e * cos ν) ∧ sin E = √(1 - e ^ 2) * sin ν / (1 + e * cos ν) := by
  have h1 := (ell_pos he E).ne'
  have h2 := (ell_pos' he ν).ne'
  obtain ⟨hs, hp⟩ := sqrt_ell he
  have hE := Real.sin_sq_add_cos_sq E
  have hν := Real.sin_sq_add_cos_sq ν
  constructor
  · rintro ⟨a, b⟩
    have hc : cos E * (1 + e * cos ν) = e + cos ν := by linear_combination -a
    refine ⟨by rw [eq_div_iff h2, hc], ?_⟩
    rw [eq_div_iff h2]
    have : (1 - e * cos E) * (1 + e * cos ν) = 1 - e ^ 2 := by linear_combination -e * hc
    have h3 : √(1 - e ^ 2) * (sin E * (1 + e * cos ν)) = √(1 - e ^ 2) * (√(1 - e ^ 2) * sin ν) := by
      linear_combination -(1 + e * cos ν) * b + sin ν * this - sin ν * hs
    exact mul_left_cancel₀ hp.ne' h3
  · rintro ⟨a, b⟩
    have h3 : 1 - e * ((e + cos ν) / (1 + e * cos ν)) = (1 - e ^ 2) / (1 + e * cos ν) := by field_simp; ring
    constructor
    · rw [a, h3]; field_simp; ring
    · rw [a, b, h3]; field_simp; linear_combination -sin ν * hs

theorem elliptic_congr {e ν ν' E E' : ℝ} (hν : cos ν' = cos ν ∧ sin ν' = sin ν) (hE : cos E' = cos E ∧ sin E' = sin E) :
    EllipticAt e ν' E' ↔ EllipticAt e ν E := by
  unfold EllipticAt
  rw [hν.1, hν.2, hE.1, hE.2]

/-- Mean anomalies of a true anomaly differ by full turns. -/
theorem elliptic_mean_unique {e ν M M' : ℝ} (he : 0 ≤ e ∧ e < 1) (h : EllipticMean e ν M) (h' : EllipticMean e ν M') :
    ∃ k : ℤ, M' = M - k * (2 * π) := by
  obtain ⟨E, hE, rfl⟩ := h
  obtain ⟨E', hE', rfl⟩ := h'
  rw [elliptic_inv he] at hE hE'
  obtain ⟨k, hk⟩ := angle_of_eq (hE'.1.trans hE.1.symm) (hE'.2.trans hE.2.symm)
  refine ⟨k, ?_⟩
  rw [(hE'.2.trans hE.2.symm), hk]; ring

theorem sin_bound {e : ℝ} (he : 0 ≤ e ∧ e < 1) (E : ℝ) : (E < 0 → E - e * sin E < 0) ∧ (0 ≤ E → 0 ≤ E - e * sin E) := by
  constructor
  · intro h
    have h1 : E < sin E := by
      have := Real.sin_lt (x := -E) (by linarith)
      rw [Real.sin_neg] at this; linarith
    nlinarith
  · intro h
    have := Real.sin_le h
    nlinarith [mul_le_mul_of_nonneg_left this he.1]

theorem ell_strictMono {e : ℝ} (he : 0 ≤ e ∧ e < 1) : StrictMono fun E : ℝ => E - e * sin E := by
  refine strictMono_of_deriv_pos fun x => ?_
  have : HasDerivAt (fun E : ℝ => E - e * sin E) (1 - e * cos x) x :=
    (hasDerivAt_id x).sub ((Real.hasDerivAt_sin x).const_mul e)
  rw [this.deriv]
  exact ell_pos he x

theorem ell_surjective {e : ℝ} (he : 0 ≤ e ∧ e < 1) : Function.Surjective fun E : ℝ => E - e * sin E := by
  have hc : Continuous fun E : ℝ => E - e * sin E := continuous_id.sub (Real.continuous_sin.const_mul e)
  refine hc.surjective ?_ ?_
  · refine Filter.tendsto_atTop_mono (f := fun x : ℝ => x + -1) (fun x => ?_) (Filter.tendsto_atTop_add_const_right _ _ Filter.tendsto_id)
    nlinarith [Real.sin_le_one x, Real.neg_one_le_sin x]
  · refine Filter.tendsto_atBot_mono (f := fun x : ℝ => x + 1) (fun x => ?_) (Filter.tendsto_atBot_add_const_right _ _ Filter.tendsto_id)
    nlinarith [Real.sin_le_one x, Real.neg_one_le_sin x]

/-! ### the hyperbola -/

theorem hyp_pos {e : ℝ} (he : 1 < e) (x : ℝ) : 0 < e * cosh x - 1 := by
  nlinarith [Real.one_le_cosh x]

theorem sqrt_hyp {e : ℝ} (he : 1 < e) : √(e ^ 2 - 1) ^ 2 = e ^ 2 - 1 ∧ 0 < √(e ^ 2 - 1) :=
  ⟨Real.sq_sqrt (by nlinarith), Real.sqrt_pos.mpr (by nlinarith)⟩

theorem hyperbolic_range {e ν H : ℝ} (he : 1 < e) (h : HyperbolicAt e ν H) : 0 < 1 + e * cos ν := by
  have h1 := hyp_pos he H
  have h2 : (e * cosh H - 1) * (1 + e * cos ν) = e ^ 2 - 1 := by linear_combination e * h.1
  nlinarith

theorem hyperbolic_inv {e ν H : ℝ} (he : 1 < e) (h2 : 0 < 1 + e * cos ν) :
    HyperbolicAt e ν H ↔ cosh H = (e + cos ν) / (1 + e * cos ν) ∧ sinh H = √(e ^ 2 - 1) * sin ν / (1 + e * cos ν) := by
  have h1 := (hyp_pos he H).ne'
  have h2 := h2.ne'
  obtain ⟨hs, hp⟩ := sqrt_hyp he
  constructor
  · rintro ⟨a, b⟩
    have hc : cosh H * (1 + e * cos ν) = e + cos ν := by linear_combination a
    refine ⟨by rw [eq_div_iff h2, hc], ?_⟩
    rw [eq_div_iff h2]
    have : (e * cosh H - 1) * (1 + e * cos ν) = e ^ 2 - 1 := by linear_combination e * hc
    have h3 : √(e ^ 2 - 1) * (sinh H * (1 + e * cos ν)) = √(e ^ 2 - 1) * (√(e ^ 2 - 1) * sin ν) := by
      linear_combination -(1 + e * cos ν) * b + sin ν * this - sin ν * hs
    exact mul_left_cancel₀ hp.ne' h3
  · rintro ⟨a, b⟩
    have h3 : e * ((e + cos ν) / (1 + e * cos ν)) - 1 = (e ^ 2 - 1) / (1 + e * cos ν) := by field_simp; ring
    constructor
    · rw [a, h3]; field_simp; ring
    · rw [a, b, h3]; field_simp; linear_combination -sin ν * hs

theorem sinh_bound {e : ℝ} (he : 1 < e) (H : ℝ) : (H < 0 → e * sinh H - H < 0) ∧ (0 ≤ H → 0 ≤ e * sinh H - H) := by
  constructor
  · intro h
    have h1 : sinh H < H := by
      have := Real.self_lt_sinh_iff (x := -H)
      rw [Real.sinh_neg] at this
      have := this.mpr (by linarith); linarith
    nlinarith
  · intro h
    have := Real.self_le_sinh_iff.mpr h
    nlinarith

theorem hyp_deriv (e x : ℝ) : HasDerivAt (fun H : ℝ => e * sinh H - H) (e * cosh x - 1) x :=
  ((Real.hasDerivAt_sinh x).const_mul e).sub (hasDerivAt_id x)

theorem hyp_strictMono {e : ℝ} (he : 1 < e) : StrictMono fun H : ℝ => e * sinh H - H := by
  refine strictMono_of_deriv_pos fun x => ?_
  rw [(hyp_deriv e x).deriv]
  exact hyp_pos he x

theorem hyp_surjective {e : ℝ} (he : 1 < e) : Function.Surjective fun H : ℝ => e * sinh H - H := by
  have hc : Continuous fun H : ℝ => e * sinh H - H := (Real.continuous_sinh.const_mul e).sub continuous_id
  have hpos : 0 < e - 1 := by linarith
  refine hc.surjective ?_ ?_
  · refine Filter.tendsto_atTop_mono' _ (f₁ := fun x : ℝ => (e - 1) * x) ?_ (Filter.Tendsto.const_mul_atTop hpos Filter.tendsto_id)
    filter_upwards [Filter.eventually_ge_atTop 0] with x hx
    have := Real.self_le_sinh_iff.mpr hx
    nlinarith
  · refine Filter.tendsto_atBot_mono' _ (f₁ := fun x : ℝ => (e - 1) * x) ?_ (Filter.Tendsto.const_mul_atBot hpos Filter.tendsto_id)
    filter_upwards [Filter.eventually_le_atBot 0] with x hx
    have := Real.sinh_le_self_iff.mpr hx
    nlinarith

theorem hyperbolic_mean_unique {e ν M M' : ℝ} (he : 1 < e) (h : HyperbolicMean e ν M) (h' : HyperbolicMean e ν M') : M' = M := by
  obtain ⟨E, hE, rfl⟩ := h
  obtain ⟨E', hE', rfl⟩ := h'
  have h2 := hyperbolic_range he hE
  rw [hyperbolic_inv he h2] at hE hE'
  rw [Real.sinh_injective (hE'.2.trans hE.2.symm)]

/-! ### the solver -/

theorem ell_newton {e m E : ℝ} (he : 0 ≤ e ∧ e < 1) :
    |ellF e m (E - ellF e m E / ellFp e E)| ≤ e * (ellF e m E / ellFp e E) ^ 2 := by
  set ρ := ellF e m E / ellFp e E with hρ
  have hp := ell_pos he E
  have hf : E - e * sin E - m = ρ * (1 - e * cos E) := by
    rw [hρ]; unfold ellF ellFp; field_simp
  set F := E - ρ with hF
  have hE : E = F + ρ := by rw [hF]; ring
  have key : ellF e m F = e * (sin (F + ρ) - sin F - ρ * cos (F + ρ)) := by
    unfold ellF
    rw [← hE]
    linear_combination hf + hF
  rw [key, abs_mul, abs_of_nonneg he.1]
  refine mul_le_mul_of_nonneg_left ?_ he.1
  have hd : ∀ x, HasDerivAt (fun x => sin (F + x) - sin F - x * cos (F + x)) (x * sin (F + x)) x := fun x => by
    have h1 : HasDerivAt (fun x => F + x) 1 x := (hasDerivAt_id x).const_add F
    have hs : HasDerivAt (fun x => sin (F + x)) (cos (F + x) * 1) x := (Real.hasDerivAt_sin (F + x)).comp x h1
    have hc : HasDerivAt (fun x => cos (F + x)) (-sin (F + x) * 1) x := (Real.hasDerivAt_cos (F + x)).comp x h1
    refine ((hs.sub_const (sin F)).sub ((hasDerivAt_id x).mul hc)).congr_deriv ?_
    simp only [id]; ring
  have := Convex.norm_image_sub_le_of_norm_hasDerivWithin_le (s := Set.uIcc 0 ρ) (x := 0) (y := ρ) (C := |ρ|)
    (f := fun x => sin (F + x) - sin F - x * cos (F + x)) (f' := fun x => x * sin (F + x))
    (fun x _ => (hd x).hasDerivWithinAt) (fun x hx => by
      rw [Real.norm_eq_abs, abs_mul]
      have h1 := Real.abs_sin_le_one (F + x)
      have h2 : |x| ≤ |ρ| := by
        have := Set.abs_sub_left_of_mem_uIcc hx
        simpa using this
      nlinarith [abs_nonneg x, abs_nonneg ρ, abs_nonneg (sin (F + x))]) (convex_uIcc 0 ρ) Set.left_mem_uIcc Set.right_mem_uIcc
  simp only [Real.norm_eq_abs, add_zero, sub_self, zero_mul, sub_zero] at this
  rw [← sq_abs ρ, sq]
  exact this

theorem hyp_newton {e m E : ℝ} (he : 1 < e) :
    |hypF e m (E - hypF e m E / hypFp e E)| ≤
      e * ((hypF e m E / hypFp e E) ^ 2 * sinh (|E - hypF e m E / hypFp e E| + |hypF e m E / hypFp e E|)) := by
  set ρ := hypF e m E / hypFp e E with hρ
  have hp := hyp_pos he E
  have hf : e * sinh E - E - m = ρ * (e * cosh E - 1) := by
    rw [hρ]; unfold hypF hypFp; field_simp
  set F := E - ρ with hF
  have hE : E = F + ρ := by rw [hF]; ring
  have key : hypF e m F = e * (sinh F - sinh (F + ρ) + ρ * cosh (F + ρ)) := by
    unfold hypF
    rw [← hE]
    linear_combination hf - hF
  have he0 : 0 ≤ e := by linarith
  rw [key, abs_mul, abs_of_nonneg he0]
  refine mul_le_mul_of_nonneg_left ?_ he0
  have hd : ∀ x, HasDerivAt (fun x => sinh F - sinh (F + x) + x * cosh (F + x)) (x * sinh (F + x)) x := fun x => by
    have h1 : HasDerivAt (fun x => F + x) 1 x := (hasDerivAt_id x).const_add F
    have hs : HasDerivAt (fun x => sinh (F + x)) (cosh (F + x) * 1) x := (Real.hasDerivAt_sinh (F + x)).comp x h1
    have hc : HasDerivAt (fun x => cosh (F + x)) (sinh (F + x) * 1) x := (Real.hasDerivAt_cosh (F + x)).comp x h1
    refine ((hs.const_sub (sinh F)).add ((hasDerivAt_id x).mul hc)).congr_deriv ?_
    simp only [id]; ring
  have := Convex.norm_image_sub_le_of_norm_hasDerivWithin_le (s := Set.uIcc 0 ρ) (x := 0) (y := ρ) (C := |ρ| * sinh (|F| + |ρ|))
    (f := fun x => sinh F - sinh (F + x) + x * cosh (F + x)) (f' := fun x => x * sinh (F + x))
    (fun x _ => (hd x).hasDerivWithinAt) (fun x hx => by
      rw [Real.norm_eq_abs, abs_mul, Real.abs_sinh]
      have h2 : |x| ≤ |ρ| := by
        have := Set.abs_sub_left_of_mem_uIcc hx
        simpa using this
      have h1 : sinh |F + x| ≤ sinh (|F| + |ρ|) := Real.sinh_le_sinh.mpr ((abs_add_le F x).trans (by linarith))
      exact mul_le_mul h2 h1 (Real.sinh_nonneg_iff.mpr (abs_nonneg _)) (abs_nonneg _)) (convex_uIcc 0 ρ) Set.left_mem_uIcc
      Set.right_mem_uIcc
  simp only [Real.norm_eq_abs, add_zero, sub_self, zero_mul, sub_zero] at this
  rw [← sq_abs ρ, sq]
  calc _ ≤ _ := this
    _ = _ := by ring

/-- The loop ends with the last step's correction below the tolerance, or after one step more than `maxIter`. -/
theorem loop_spec (f fp : ℝ → ℝ) (tol : ℝ) (maxIter : Nat) (P : Iter → Prop) (hP : ∀ p, P (step f fp p)) :
    ∀ fuel p, P p ∨ p.iterations = 0 ∧ |p.ratio| > tol → p.iterations + fuel = maxIter + 1 →
      (P (loop f fp tol maxIter fuel p) ∨ fuel = 0) ∧
      (|(loop f fp tol maxIter fuel p).ratio| ≤ tol ∨ (loop f fp tol maxIter fuel p).iterations = maxIter + 1) ∧
      (loop f fp tol maxIter fuel p).iterations ≤ maxIter + 1 := by
  intro fuel
  induction fuel with
  | zero =>
    intro p _ h
    simp only [loop]
    exact ⟨Or.inr trivial, Or.inr (by omega), by omega⟩
  | succ n ih =>
    intro p hp h
    simp only [loop]
    split
    · next hc =>
      obtain ⟨a, b, c⟩ := ih (step f fp p) (Or.inl (hP p)) (by simp only [step]; omega)
      refine ⟨Or.inl ?_, b, c⟩
      rcases a with a | a
      · exact a
      · subst a; exact hP p
    · next hc =>
      have hi : p.iterations ≤ maxIter := by omega
      have hr : |p.ratio| ≤ tol := by
        by_contra hcon
        exact hc ⟨not_le.mp hcon, hi⟩
      refine ⟨?_, Or.inl hr, by omega⟩
      rcases hp with hp | ⟨_, hp⟩
      · exact Or.inl hp
      · exact absurd hr (not_le.mpr hp)

/-- The last state of the iteration is a Newton step from some anomaly. -/
theorem iterate_spec (f fp : ℝ → ℝ) (m : ℝ) (maxIter : Nat) {tol : ℝ} (ht : tol < 1e15) :
    (∃ x, (iterate f fp m maxIter tol).x = x - f x / fp x ∧ (iterate f fp m maxIter tol).ratio = f x / fp x) ∧
    (|(iterate f fp m maxIter tol).ratio| ≤ tol ∨ (iterate f fp m maxIter tol).iterations = maxIter + 1) ∧
    (iterate f fp m maxIter tol).iterations ≤ maxIter + 1 := by
  have h := loop_spec f fp tol maxIter (fun p => ∃ x, p.x = x - f x / fp x ∧ p.ratio = f x / fp x)
    (fun p => ⟨p.x, rfl, rfl⟩) (maxIter + 1) ⟨m, 1e15, 0⟩ (Or.inr ⟨rfl, by
      show |(1e15 : ℝ)| > tol
      rw [abs_of_pos (by norm_num)]; exact ht⟩) (by simp)
  refine ⟨?_, h.2⟩
  rcases h.1 with h1 | h1
  · exact h1
  · omega

theorem rawNu_elliptic {e m E : ℝ} (he : 0 ≤ e ∧ e < 1) :
    EllipticAt e (rawNu e m E) E ∧ -(2 * π) ≤ rawNu e m E := by
  unfold rawNu
  rw [if_pos he.2]
  have hp := ell_pos he E
  have c1 : cos E = 2 * cos (E / 2) ^ 2 - 1 := by rw [← Real.cos_two_mul]; congr 1; ring
  have s1 : sin E = 2 * sin (E / 2) * cos (E / 2) := by rw [← Real.sin_two_mul]; congr 1; ring
  have hE := Real.sin_sq_add_cos_sq (E / 2)
  have q1 := Real.sq_sqrt (show 0 ≤ 1 + e by linarith)
  have q2 := Real.sq_sqrt (show 0 ≤ 1 - e by linarith)
  have q3 : √(1 + e) * √(1 - e) = √(1 - e ^ 2) := by
    rw [← Real.sqrt_mul (by linarith)]; congr 1; ring
  have hr := Real.sqrt_pos.mpr hp
  have hr2 := Real.sq_sqrt hp.le
  obtain ⟨hc, hs, lo, hi⟩ := arctan2_spec (y := √(1 + e) * sin (E / 2)) (x := √(1 - e) * cos (E / 2)) hr (by
    rw [hr2, mul_pow, mul_pow, q1, q2, c1]; linear_combination (1 + e) * hE)
  refine ⟨?_, by linarith⟩
  set θ := arctan2 (√(1 + e) * sin (E / 2)) (√(1 - e) * cos (E / 2))
  have h1 : (1 - e * cos E) * cos θ ^ 2 = (1 - e) * cos (E / 2) ^ 2 := by
    rw [hc, div_pow, hr2, mul_pow, q2]; field_simp
  have h2 : (1 - e * cos E) * (sin θ * cos θ) = √(1 - e ^ 2) * (sin (E / 2) * cos (E / 2)) := by
    rw [hc, hs, ← q3, div_mul_div_comm, ← sq, hr2]; field_simp
  constructor
  · rw [Real.cos_two_mul]; linear_combination 2 * h1 - (1 - e) * c1
  · rw [Real.sin_two_mul, s1]; linear_combination 2 * h2

theorem rawNu_hyperbolic {e m H : ℝ} (he : 1 < e) :
    HyperbolicAt e (rawNu e m H) H ∧ -π < rawNu e m H ∧ rawNu e m H < π := by
  unfold rawNu
  rw [if_neg (by linarith), if_pos he]
  set y := √(e + 1) * sinh (H / 2) / (√(e - 1) * cosh (H / 2)) with hy
  have hch := Real.cosh_pos (H / 2)
  have q1 := Real.sq_sqrt (show 0 ≤ e + 1 by linarith)
  have q2 := Real.sq_sqrt (show 0 ≤ e - 1 by linarith)
  have p2 := Real.sqrt_pos.mpr (show 0 < e - 1 by linarith)
  have q3 : √(e + 1) * √(e - 1) = √(e ^ 2 - 1) := by
    rw [← Real.sqrt_mul (by linarith)]; congr 1; ring
  have hH := Real.cosh_sq (H / 2)
  have c1 : cosh H = 2 * cosh (H / 2) ^ 2 - 1 := by
    have := Real.cosh_two_mul (H / 2)
    rw [show 2 * (H / 2) = H by ring] at this
    linarith
  have s1 : sinh H = 2 * sinh (H / 2) * cosh (H / 2) := by
    rw [← Real.sinh_two_mul]; congr 1; ring
  have hy' : y * (√(e - 1) * cosh (H / 2)) = √(e + 1) * sinh (H / 2) := by rw [hy]; field_simp
  have hyy : y ^ 2 * ((e - 1) * cosh (H / 2) ^ 2) = (e + 1) * sinh (H / 2) ^ 2 := by
    have := congrArg (· ^ 2) hy'
    simp only [mul_pow, q1, q2] at this
    exact this
  have hcos := Real.cos_sq_arctan y
  have h1y : (0 : ℝ) < 1 + y ^ 2 := by positivity
  have hsc : sin (arctan y) = y * cos (arctan y) := by
    rw [← Real.tan_mul_cos (Real.cos_arctan_pos y).ne', Real.tan_arctan]
  have hden : (e * cosh H - 1) * cos (arctan y) ^ 2 = (e - 1) * cosh (H / 2) ^ 2 := by
    rw [hcos, c1]
    field_simp
    linear_combination -hyy + (e + 1) * hH
  refine ⟨⟨?_, ?_⟩, ?_, ?_⟩
  · rw [Real.cos_two_mul]; linear_combination 2 * hden - (e - 1) * c1
  · rw [Real.sin_two_mul, hsc, s1]
    have : √(e ^ 2 - 1) * (2 * sinh (H / 2) * cosh (H / 2)) = 2 * y * ((e - 1) * cosh (H / 2) ^ 2) := by
      rw [← q3]
      linear_combination -(2 * cosh (H / 2) * √(e - 1)) * hy' + 2 * y * cosh (H / 2) ^ 2 * q2
    rw [this, ← hden]; ring
  · linarith [Real.neg_pi_div_two_lt_arctan y]
  · linarith [Real.arctan_lt_pi_div_two y]

end Verif.Kep
