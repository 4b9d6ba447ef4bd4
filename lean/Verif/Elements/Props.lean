import Verif.Elements.Model
import Verif.Kep.OrbitProps
import Mathlib.Analysis.SpecialFunctions.Arcosh

/-! C131: what the derived elements of a row say about the motion of the orbit. -/

namespace Verif.Elements.Props

open Verif Verif.OrbitClass Verif.Kep Verif.Kep.Props Verif.Univ Real

/-! ## Specification, in terms of a motion alone -/

/-- The least distance from the origin. -/
def Nearest (p : ℝ → E3) (d : ℝ) : Prop := IsLeast (Set.range fun t => ‖p t‖) d

/-- The greatest distance from the origin, infinite if the distances are not bounded. -/
def Farthest (p : ℝ → E3) (d : EReal) : Prop := IsLUB (Set.range fun t => ((‖p t‖ : ℝ) : EReal)) d

/-- The shortest time after which position and velocity always recur, infinite if there is none. -/
def Period (p v : ℝ → E3) (d : EReal) : Prop :=
  IsGLB {x : EReal | ∃ T : ℝ, x = T ∧ 0 < T ∧ ∀ t, p (t + T) = p t ∧ v (t + T) = v t} d

/-- The distance a quarter of a turn from periapsis. -/
def SemiLatus (i Ω ω : ℝ) (p : ℝ → E3) (d : ℝ) : Prop :=
  (∃ t, inner ℝ (p t) (periDir i Ω ω).toE = (0 : ℝ)) ∧ ∀ t, inner ℝ (p t) (periDir i Ω ω).toE = (0 : ℝ) → ‖p t‖ = d

/-- The elements of a bound or an unbound orbit that is not a parabola. -/
def Consistent (a e : ℝ) : Prop := (0 < a ∧ 0 ≤ e ∧ e < 1) ∨ (a < 0 ∧ 1 < e)

/-! ## Lemmas about the three kinds of motion -/

theorem inner_comb {P Q : E3} (hP : inner ℝ P P = (1 : ℝ)) (hPQ : inner ℝ P Q = (0 : ℝ)) (x y : ℝ) :
    inner ℝ (x • P + y • Q) P = x := by
  rw [inner_add_left, inner_smul_left, inner_smul_left, hP, real_inner_comm, hPQ]
  simp

theorem no_period {p v : ℝ → E3} (h : ∀ T, 0 < T → p T ≠ p 0) : Period p v ⊤ := by
  refine ⟨?_, fun x _ => le_top⟩
  rintro x ⟨T, rfl, hT, hp⟩
  have := (hp 0).1
  rw [zero_add] at this
  exact absurd this (h T hT)

theorem unbounded {p : ℝ → E3} (h : ∀ B : ℝ, ∃ t, B ≤ ‖p t‖) : Farthest p ⊤ := by
  refine ⟨fun x _ => le_top, fun x hx => ?_⟩
  rw [top_le_iff, EReal.eq_top_iff_forall_lt]
  intro B
  obtain ⟨t, ht⟩ := h (B + 1)
  refine lt_of_lt_of_le ?_ (hx ⟨t, rfl⟩)
  exact EReal.coe_lt_coe_iff.mpr (by linarith)

section ellipse
variable {mu a e i Ω ω : ℝ} {p v : ℝ → E3}

theorem ellipse (hmu : 0 < mu) (ha : 0 < a) (he : 0 ≤ e ∧ e < 1) (hm : PeriapsisMotion mu (a * (1 - e)) e i Ω ω p v) :
    Nearest p (a * (1 - e)) ∧ Farthest p ((a * (1 + e) : ℝ) : EReal) ∧ (∃ t, ‖p t‖ = a * (1 + e)) ∧
    SemiLatus i Ω ω p (a * (1 - e ^ 2)) ∧ Period p v ((2 * π * √(a ^ 3 / mu) : ℝ) : EReal) := by
  set n := √(mu / a ^ 3) with hn
  have hn0 : 0 < n := Real.sqrt_pos.mpr (by positivity)
  obtain ⟨X, hX⟩ := ell_anomaly he n
  obtain ⟨hP, hQ, hPQ⟩ := inner_frame i Ω ω
  have hsame := motion_same hm (elliptic_motion hmu ha he hX)
  have hnorm : ∀ t, ‖p t‖ = a * (1 - e * cos (X t)) := fun t => by
    rw [hsame.1]; exact ellPos_norm ha he hP hQ hPQ _
  have hin : ∀ t, inner ℝ (p t) (periDir i Ω ω).toE = a * (cos (X t) - e) := fun t => by
    rw [hsame.1]; unfold ellPos; exact inner_comb hP hPQ _ _
  have hat : ∀ E, X ((E - e * sin E) / n) = E := fun E => (ell_strictMono he).injective
    (show X _ - e * sin (X _) = E - e * sin E by rw [hX]; field_simp)
  have hle : ∀ t, ‖p t‖ ≤ a * (1 + e) := fun t => by
    rw [hnorm]
    have := mul_nonneg he.1 (show 0 ≤ 1 + cos (X t) by linarith [neg_one_le_cos (X t)])
    exact mul_le_mul_of_nonneg_left (by linarith) ha.le
  have hmax : ‖p (π / n)‖ = a * (1 + e) := by
    have := hat π
    rw [sin_pi, mul_zero, sub_zero] at this
    rw [hnorm, this, cos_pi]; ring
  refine ⟨⟨⟨0, ?_⟩, ?_⟩, ⟨?_, fun x hx => ?_⟩, ⟨π / n, hmax⟩, ⟨?_, fun t ht => ?_⟩, ?_⟩
  · have := hat 0
    rw [sin_zero, mul_zero, sub_zero, zero_div] at this
    simp only
    rw [hnorm, this, cos_zero, mul_one]
  · rintro _ ⟨t, rfl⟩
    simp only
    rw [hnorm]
    have := mul_nonneg he.1 (show 0 ≤ 1 - cos (X t) by linarith [cos_le_one (X t)])
    exact mul_le_mul_of_nonneg_left (by linarith) ha.le
  · rintro _ ⟨t, rfl⟩
    exact EReal.coe_le_coe_iff.mpr (hle t)
  · have := hx ⟨π / n, rfl⟩
    simp only [hmax] at this
    exact this
  · refine ⟨(arccos e - e * sin (arccos e)) / n, ?_⟩
    rw [hin, hat, cos_arccos (by linarith [he.1]) he.2.le]
    ring
  · rw [hin] at ht
    have : cos (X t) = e := by
      rcases mul_eq_zero.mp ht with h | h
      · exact absurd h ha.ne'
      · linarith
    rw [hnorm, this]; ring
  · have hT : 2 * π * √(a ^ 3 / mu) = 2 * π / n := by
      rw [hn, div_eq_mul_inv (2 * π), ← Real.sqrt_inv, inv_div]
    rw [hT]
    refine ⟨?_, fun x hx => hx ⟨2 * π / n, rfl, by positivity, fun t => ?_⟩⟩
    · rintro x ⟨T, rfl, hT, hp⟩
      refine EReal.coe_le_coe_iff.mpr ?_
      have h0 : inner ℝ (p T) (periDir i Ω ω).toE = inner ℝ (p 0) (periDir i Ω ω).toE := by
        have := (hp 0).1
        rw [zero_add] at this
        rw [this]
      have hX0 := hat 0
      rw [sin_zero, mul_zero, sub_zero, zero_div] at hX0
      rw [hin, hin, hX0, cos_zero] at h0
      have h1 : cos (X T) = 1 := by linarith [mul_left_cancel₀ ha.ne' h0]
      obtain ⟨k, hk⟩ := (Real.cos_eq_one_iff _).mp h1
      have hs : sin (X T) = 0 := by
        rw [← hk, show (k : ℝ) * (2 * π) = ((2 * k : ℤ) : ℝ) * π by push_cast; ring, Real.sin_int_mul_pi]
      have h2 := hX T
      rw [hs, mul_zero, sub_zero, ← hk] at h2
      have hk0 : 0 < k := by
        have : 0 < (k : ℝ) * (2 * π) := by rw [h2]; positivity
        exact_mod_cast (pos_iff_pos_of_mul_pos this).mpr (by positivity)
      have hk1 : (1 : ℝ) ≤ k := by exact_mod_cast hk0
      rw [div_le_iff₀ hn0, mul_comm T, ← h2]
      nlinarith [Real.pi_pos]
    · exact C98_period hmu ha he hm t

end ellipse

theorem le_cosh (x : ℝ) : x ≤ cosh x := by
  rcases le_total 0 x with h | h
  · exact (self_le_sinh_iff.mpr h).trans (sinh_lt_cosh x).le
  · exact h.trans (cosh_pos x).le

theorem hyperbola {mu a e i Ω ω : ℝ} {p v : ℝ → E3} (hmu : 0 < mu) (ha : a < 0) (he : 1 < e)
    (hm : PeriapsisMotion mu (a * (1 - e)) e i Ω ω p v) :
    Nearest p (a * (1 - e)) ∧ Farthest p ⊤ ∧ SemiLatus i Ω ω p (a * (1 - e ^ 2)) ∧ Period p v ⊤ := by
  obtain ⟨A, rfl⟩ : ∃ A, a = -A := ⟨-a, by ring⟩
  have hA : 0 < A := by linarith
  rw [show -A * (1 - e) = A * (e - 1) by ring] at hm ⊢
  set n := √(mu / A ^ 3) with hn
  have hn0 : 0 < n := Real.sqrt_pos.mpr (by positivity)
  obtain ⟨X, hX⟩ := hyp_anomaly he n
  obtain ⟨hP, hQ, hPQ⟩ := inner_frame i Ω ω
  have hsame := motion_same hm (hyperbolic_motion hmu hA he hX)
  have hnorm : ∀ t, ‖p t‖ = A * (e * cosh (X t) - 1) := fun t => by
    rw [hsame.1]; exact hypPos_norm hA he hP hQ hPQ _
  have hin : ∀ t, inner ℝ (p t) (periDir i Ω ω).toE = A * (e - cosh (X t)) := fun t => by
    rw [hsame.1]; unfold hypPos; exact inner_comb hP hPQ _ _
  have hat : ∀ H, X ((e * sinh H - H) / n) = H := fun H => (hyp_strictMono he).injective
    (show e * sinh (X _) - X _ = e * sinh H - H by rw [hX]; field_simp)
  have hX0 := hat 0
  rw [sinh_zero, mul_zero, sub_zero, zero_div] at hX0
  refine ⟨⟨⟨0, ?_⟩, ?_⟩, unbounded fun B => ?_, ⟨?_, fun t ht => ?_⟩, no_period fun T hT h => ?_⟩
  · simp only
    rw [hnorm, hX0, cosh_zero, mul_one]
  · rintro _ ⟨t, rfl⟩
    simp only
    rw [hnorm]
    have := mul_nonneg (show 0 ≤ e by linarith) (show 0 ≤ cosh (X t) - 1 by linarith [one_le_cosh (X t)])
    exact mul_le_mul_of_nonneg_left (by linarith) hA.le
  · refine ⟨(e * sinh (B / A + 1) - (B / A + 1)) / n, ?_⟩
    rw [hnorm, hat]
    have h1 := le_cosh (B / A + 1)
    have h2 : B / A ≤ e * cosh (B / A + 1) - 1 := by nlinarith [cosh_pos (B / A + 1)]
    calc B = A * (B / A) := by field_simp
      _ ≤ _ := mul_le_mul_of_nonneg_left h2 hA.le
  · refine ⟨(e * sinh (arcosh e) - arcosh e) / n, ?_⟩
    rw [hin, hat, cosh_arcosh he.le]
    ring
  · rw [hin] at ht
    have : cosh (X t) = e := by
      rcases mul_eq_zero.mp ht with h | h
      · exact absurd h hA.ne'
      · linarith
    rw [hnorm, this]; ring
  · have h1 := hin T
    rw [h, hin, hX0, cosh_zero] at h1
    have h2 : cosh (X T) = 1 := by linarith [mul_left_cancel₀ hA.ne' h1]
    have h3 : X T = 0 := by
      by_contra hne
      exact absurd h2 (one_lt_cosh.mpr hne).ne'
    have h4 := hX T
    rw [h3, sinh_zero, mul_zero, sub_zero] at h4
    have : 0 < n * T := by positivity
    linarith

theorem parabola {mu q i Ω ω : ℝ} {p v : ℝ → E3} (hmu : 0 < mu) (hq : 0 < q) (hm : PeriapsisMotion mu q 1 i Ω ω p v) :
    Nearest p q ∧ Farthest p ⊤ ∧ SemiLatus i Ω ω p (2 * q) ∧ Period p v ⊤ := by
  set n := √(mu / (2 * q ^ 3)) with hn
  have hn0 : 0 < n := Real.sqrt_pos.mpr (by positivity)
  obtain ⟨X, hX⟩ := par_anomaly n
  obtain ⟨hP, hQ, hPQ⟩ := inner_frame i Ω ω
  have hsame := motion_same hm (parabolic_motion hmu hq hX)
  have hnorm : ∀ t, ‖p t‖ = q * (1 + X t ^ 2) := fun t => by
    rw [hsame.1]; exact parPos_norm hq hP hQ hPQ _
  have hin : ∀ t, inner ℝ (p t) (periDir i Ω ω).toE = q * (1 - X t ^ 2) := fun t => by
    rw [hsame.1]; unfold parPos; exact inner_comb hP hPQ _ _
  have hmono : ∀ x y : ℝ, x + x ^ 3 / 3 = y + y ^ 3 / 3 → x = y := fun x y h => by
    have : (x - y) * (1 + (x ^ 2 + x * y + y ^ 2) / 3) = 0 := by linear_combination h
    rcases mul_eq_zero.mp this with h | h
    · linarith
    · nlinarith [sq_nonneg (x + y), sq_nonneg x, sq_nonneg y]
  have hat : ∀ D, X ((D + D ^ 3 / 3) / n) = D := fun D => hmono _ _ (by rw [hX]; field_simp)
  have hX0 := hat 0
  rw [show ((0 : ℝ) + 0 ^ 3 / 3) / n = 0 by norm_num] at hX0
  refine ⟨⟨⟨0, ?_⟩, ?_⟩, unbounded fun B => ?_, ⟨?_, fun t ht => ?_⟩, no_period fun T hT h => ?_⟩
  · simp only
    rw [hnorm, hX0]; ring
  · rintro _ ⟨t, rfl⟩
    simp only
    rw [hnorm]
    nlinarith [sq_nonneg (X t)]
  · refine ⟨(B / q + (B / q) ^ 3 / 3) / n, ?_⟩
    rw [hnorm, hat]
    have : B / q ≤ 1 + (B / q) ^ 2 := by nlinarith [sq_nonneg (B / q - 1), sq_nonneg (B / q)]
    calc B = q * (B / q) := by field_simp
      _ ≤ _ := mul_le_mul_of_nonneg_left this hq.le
  · refine ⟨(1 + 1 ^ 3 / 3) / n, ?_⟩
    rw [hin, hat]
    ring
  · rw [hin] at ht
    have : X t ^ 2 = 1 := by
      rcases mul_eq_zero.mp ht with h | h
      · exact absurd h hq.ne'
      · linarith
    rw [hnorm, this]; ring
  · have h1 := hin T
    rw [h, hin, hX0] at h1
    have h2 : X T ^ 2 = 0 := by
      have := mul_left_cancel₀ hq.ne' h1
      linarith
    have h3 : X T = 0 := by simpa using h2
    have h4 := hX T
    rw [h3] at h4
    have : 0 < n * T := by positivity
    norm_num at h4
    rcases h4 with h4 | h4 <;> linarith

/-! ## Values -/

theorem kep_ell {a e mu : ℝ} (ha : 0 < a) (he : e < 1) : ofKeplerian a e mu =
    ⟨num a, num (a * (1 - e)), num (a * (1 + e)), num (a * (1 - e ^ 2)), num (2 * π * √(a ^ 3 / mu)),
      num (√(mu / a ^ 3) * (180 / π))⟩ := by
  unfold ofKeplerian periapsis apoapsis semiLatus period meanMotion num
  have h0 : ¬ ((a : EReal) < 0) := by
    rw [← EReal.coe_zero, EReal.coe_lt_coe_iff]; linarith
  have h1 : ¬ ((a : EReal) = 0) := by
    rw [← EReal.coe_zero, EReal.coe_eq_coe_iff]; exact ha.ne'
  simp only [EReal.coe_ne_top, EReal.coe_ne_bot, or_self, false_and, if_false, h0, h1, EReal.toReal_coe, ge_iff_le,
    not_le.mpr he, abs_of_pos ha, EReal.coe_mul]

theorem kep_hyp {a e mu : ℝ} (ha : a < 0) (he : 1 < e) : ofKeplerian a e mu =
    ⟨num a, num (a * (1 - e)), some ⊤, num (a * (1 - e ^ 2)), some ⊤, num (√(mu / |a| ^ 3) * (180 / π))⟩ := by
  unfold ofKeplerian periapsis apoapsis semiLatus period meanMotion num
  have h0 : (a : EReal) < 0 := by
    rw [← EReal.coe_zero, EReal.coe_lt_coe_iff]; exact ha
  simp only [EReal.coe_ne_top, EReal.coe_ne_bot, or_self, false_and, if_false, h0, if_true, h0.ne, EReal.toReal_coe, ge_iff_le,
    he.le, EReal.coe_mul]

/-! ## C131 -/

/-- A Keplerian row of a bound orbit or a hyperbola: for the motion of these elements, `q` is the least distance, `Q` the greatest
(infinite if there is none), `p` the distance a quarter of a turn from periapsis and `P` the least period (infinite if there is
none). -/
theorem C131_keplerian {a e mu i Ω ω : ℝ} {p v : ℝ → E3} (hmu : 0 < mu) (hc : Consistent a e)
    (hm : PeriapsisMotion mu (a * (1 - e)) e i Ω ω p v) :
    ∃ q Q l P, (ofKeplerian a e mu).q = num q ∧ (ofKeplerian a e mu).Q = some Q ∧ (ofKeplerian a e mu).p = num l ∧
      (ofKeplerian a e mu).P = some P ∧ Nearest p q ∧ Farthest p Q ∧ SemiLatus i Ω ω p l ∧ Period p v P := by
  rcases hc with ⟨ha, h0, h1⟩ | ⟨ha, h1⟩
  · rw [kep_ell ha h1]
    obtain ⟨h1, h2, -, h3, h4⟩ := ellipse hmu ha ⟨h0, h1⟩ hm
    exact ⟨_, _, _, _, rfl, rfl, rfl, rfl, h1, h2, h3, h4⟩
  · rw [kep_hyp ha h1]
    obtain ⟨h1, h2, h3, h4⟩ := hyperbola hmu ha h1 hm
    exact ⟨_, _, _, _, rfl, rfl, rfl, rfl, h1, h2, h3, h4⟩

/-- In a bound orbit mean motion times period is 360 degrees, and the distance `Q` is reached. -/
theorem C131_turn {a e mu i Ω ω : ℝ} {p v : ℝ → E3} (hmu : 0 < mu) (ha : 0 < a) (he : 0 ≤ e ∧ e < 1)
    (hm : PeriapsisMotion mu (a * (1 - e)) e i Ω ω p v) :
    ∃ n P Q, (ofKeplerian a e mu).n = num n ∧ (ofKeplerian a e mu).P = num P ∧ (ofKeplerian a e mu).Q = num Q ∧ n * P = 360 ∧
      ∃ t, ‖p t‖ = Q := by
  rw [kep_ell ha he.2]
  refine ⟨_, _, _, rfl, rfl, rfl, ?_, (ellipse hmu ha he hm).2.2.1⟩
  have h1 : √(mu / a ^ 3) * √(a ^ 3 / mu) = 1 := by
    rw [← Real.sqrt_mul (by positivity), div_mul_div_cancel₀ (by positivity), div_self hmu.ne', Real.sqrt_one]
  have h2 := Real.pi_ne_zero
  field_simp
  linear_combination 360 * h1

/-- A cometary row that is not a parabola has the derived elements of the Keplerian row of its semi-major axis, which is
consistent, and that row has its periapsis distance. -/
theorem C131_cometary {q e mu : ℝ} (hq : 0 < q) (he : 0 ≤ e) (h1 : e ≠ 1) :
    ∃ a, Consistent a e ∧ a * (1 - e) = q ∧ ofCometary q e mu = ofKeplerian a e mu := by
  have h : 1 - e ≠ 0 := fun h => h1 (by linarith)
  refine ⟨q / (1 - e), ?_, div_mul_cancel₀ _ h, ?_⟩
  · rcases lt_or_gt_of_ne h1 with h2 | h2
    · exact Or.inl ⟨div_pos hq (by linarith), he, h2⟩
    · exact Or.inr ⟨div_neg_of_pos_of_neg hq (by linarith), h2⟩
  · unfold ofCometary ofKeplerian semiMajorAxis periapsis
    simp only [if_neg h1, div_mul_cancel₀ _ h]

/-- A cometary row of a parabola: `q`, `Q` and `P` are right, the semi-major axis is infinite and the mean motion zero, but `p`
is NaN although the distance a quarter of a turn from periapsis is `2 q`. -/
theorem C131_parabola {q mu i Ω ω : ℝ} {p v : ℝ → E3} (hmu : 0 < mu) (hq : 0 < q) (hm : PeriapsisMotion mu q 1 i Ω ω p v) :
    ofCometary q 1 mu = ⟨some ⊤, num q, some ⊤, none, some ⊤, num 0⟩ ∧
      Nearest p q ∧ Farthest p ⊤ ∧ SemiLatus i Ω ω p (2 * q) ∧ Period p v ⊤ := by
  refine ⟨?_, parabola hmu hq hm⟩
  unfold ofCometary semiMajorAxis apoapsis semiLatus period meanMotion
  have h0 : ¬ ((⊤ : EReal) < 0) := not_top_lt
  simp [hq, h0]

/-- Nothing checks that semi-major axis and eccentricity go together: `q` is positive exactly if they do, and for `a > 0` and
`e > 1` the table reports a finite period and an infinite apoapsis. -/
theorem C131_inconsistent (a e mu : ℝ) (he : 0 ≤ e) :
    ((∃ q > 0, (ofKeplerian a e mu).q = num q) ↔ Consistent a e) ∧
    (0 < a → 1 < e → ∃ P : ℝ, (ofKeplerian a e mu).P = num P ∧ (ofKeplerian a e mu).Q = some ⊤) := by
  constructor
  · unfold ofKeplerian periapsis num Consistent
    constructor
    · rintro ⟨q, hq, h⟩
      have h : a * (1 - e) = q := EReal.coe_eq_coe_iff.mp (Option.some.inj h)
      rw [← h] at hq
      rcases pos_and_pos_or_neg_and_neg_of_mul_pos hq with ⟨h1, h2⟩ | ⟨h1, h2⟩
      · exact Or.inl ⟨h1, he, by linarith⟩
      · exact Or.inr ⟨h1, by linarith⟩
    · rintro (⟨h1, h2, h3⟩ | ⟨h1, h2⟩)
      · exact ⟨_, mul_pos h1 (by linarith), rfl⟩
      · exact ⟨_, mul_pos_of_neg_of_neg h1 (by linarith), rfl⟩
  · intro ha h1
    refine ⟨2 * π * √(a ^ 3 / mu), ?_, ?_⟩
    · unfold ofKeplerian period num
      have h0 : ¬ ((a : EReal) < 0) := by
        rw [← EReal.coe_zero, EReal.coe_lt_coe_iff]; linarith
      simp only [h0, if_false, EReal.coe_ne_top, EReal.toReal_coe]
    · unfold ofKeplerian apoapsis
      simp only [ge_iff_le, h1.le, if_true]

/-- The hypotheses hold for an ellipse, a hyperbola and a parabola. -/
theorem C131_case : Consistent 2 (1 / 2) ∧ Consistent (-2) 3 ∧
    (∃ p v, PeriapsisMotion 1 (2 * (1 - 1 / 2)) (1 / 2) 1 2 3 p v) ∧ (∃ p v, PeriapsisMotion 1 (-2 * (1 - 3)) 3 1 2 3 p v) ∧
    ∃ p v, PeriapsisMotion 1 5 1 1 2 3 p v :=
  ⟨Or.inl (by norm_num), Or.inr (by norm_num), (C98_motion 1 _ _ 1 2 3 (by norm_num) (by norm_num) (by norm_num)).1,
    (C98_motion 1 _ _ 1 2 3 (by norm_num) (by norm_num) (by norm_num)).1,
    (C98_motion 1 _ _ 1 2 3 (by norm_num) (by norm_num) (by norm_num)).1⟩

end Verif.Elements.Props
