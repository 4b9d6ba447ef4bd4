import Verif.Lsq.Step
import Verif.Resid.Props
import Mathlib.Analysis.Calculus.Deriv.Basic
import Mathlib.Analysis.Calculus.Deriv.Slope
import Mathlib.Analysis.Calculus.Deriv.Add
import Mathlib.Analysis.Calculus.Deriv.Mul
import Mathlib.Algebra.Order.Floor.Ring

/-! # Partial derivatives and normal equations: the properties -/

namespace Verif.Lsq.Step.Props

open Verif Resid Resid.Props

/-- Observation `n` is predicted at right ascension `ra` and declination `dec` (degrees), right ascensions in [0, 360). -/
structure Sees (predict : (Fin 6 → ℝ) → List Coord) (n : Nat) (ra dec : (Fin 6 → ℝ) → ℝ) : Prop where
  row : ∀ s, ∃ v, (predict s)[n]? = some v ∧ v 1 = some (ra s) ∧ v 2 = some (dec s)
  range : ∀ s, 0 ≤ ra s ∧ ra s < 360

theorem columns_eq {v w : Coord} {a b a' b' : ℝ} (h1 : v 1 = some a) (h2 : v 2 = some b) (h3 : w 1 = some a') (h4 : w 2 = some b') :
    columns v w = ((boundLongitude (some a) (some (a - a'))).map (· * Real.cos (b * (Real.pi / 180))), some (b - b')) := by
  unfold columns Resid.residual
  have hlat : latitude v = some b := by
    unfold latitude
    rw [dif_pos (by norm_num)]
    exact h2
  rw [if_pos rfl, hlat]
  have e1 : ((1 : Fin 6) : Nat) = 1 := rfl
  have e2 : ((2 : Fin 6) : Nat) = 2 := rfl
  unfold scaleVec boundVec
  simp only [e1, e2, h1, h2, h3, h4, lift2]
  cases boundLongitude (some a) (some (a - a')) with
  | none => simp
  | some z => simp

/-- The two states compared and what the difference is divided by. -/
def compared (central : Bool) (x : Fin 6 → ℝ) (i : Fin 6) (d : ℝ) : (Fin 6 → ℝ) × (Fin 6 → ℝ) × ℝ :=
  if central then ((fun k => x k + if k = i then d else 0), (fun k => x k + if k = i then -d else 0), 2 * d)
  else ((fun k => x k + if k = i then d else 0), x, d)

theorem zipWith_get {α β γ : Type} (f : α → β → γ) {l : List α} {l' : List β} {n : Nat} {a : α} {b : β} (h : l[n]? = some a)
    (h' : l'[n]? = some b) : (List.zipWith f l l')[n]? = some (f a b) := by
  rw [List.getElem?_zipWith, h, h']

theorem partials_get {predict : (Fin 6 → ℝ) → List Coord} {n : Nat} {ra dec : (Fin 6 → ℝ) → ℝ} (hs : Sees predict n ra dec) (central : Bool)
    (x : Fin 6 → ℝ) (delta : ℝ) (i : Fin 6) :
    (partials central predict (predict x) x delta i)[n]? = some (over (compared central x i (step x delta i)).2.2
      ((boundLongitude (some (ra (compared central x i (step x delta i)).1))
        (some (ra (compared central x i (step x delta i)).1 - ra (compared central x i (step x delta i)).2.1))).map
          (· * Real.cos (dec (compared central x i (step x delta i)).1 * (Real.pi / 180))),
        some (dec (compared central x i (step x delta i)).1 - dec (compared central x i (step x delta i)).2.1))) := by
  obtain ⟨v, hv, v1, v2⟩ := hs.row (compared central x i (step x delta i)).1
  obtain ⟨w, hw, w1, w2⟩ := hs.row (compared central x i (step x delta i)).2.1
  rw [← columns_eq v1 v2 w1 w2]
  cases central with
  | true => exact zipWith_get _ hv hw
  | false => exact zipWith_get _ hv hw

theorem step_eq_zero (x : Fin 6 → ℝ) (delta : ℝ) (i : Fin 6) : step x delta i = 0 ↔ delta = 0 := by
  unfold step
  split
  · rename_i h
    split <;> simp
  · rename_i h
    constructor
    · intro h0
      rw [h0] at h
      norm_num at h
    · rintro rfl
      simp at h

/-- The perturbation is never zero when a fraction other than zero is asked for: it is that fraction of the coordinate, or, when that
would be below 1e-20, of 1 for positions and 0.01 for velocities. With zero nothing is computed. -/
theorem C148_step (x : Fin 6 → ℝ) (delta : ℝ) (i : Fin 6) :
    (step x delta i = 0 ↔ delta = 0) ∧
    (1 / 10 ^ 20 ≤ |x i * delta| → step x delta i = x i * delta) ∧
    (|x i * delta| < 1 / 10 ^ 20 → i.val < 3 → step x delta i = delta) ∧
    (|x i * delta| < 1 / 10 ^ 20 → 3 ≤ i.val → step x delta i = delta / 100) ∧
    ∀ {predict n ra dec}, Sees predict n ra dec → ∀ central, (partials central predict (predict x) x 0 i)[n]? = some (none, none) := by
  refine ⟨step_eq_zero x delta i, ?_, ?_, ?_, ?_⟩
  · intro h
    unfold step
    rw [if_neg (not_lt.mpr h)]
  · intro h hi
    unfold step
    rw [if_pos h, if_pos hi, one_mul]
  · intro h hi
    unfold step
    rw [if_pos h, if_neg (not_lt.mpr hi)]
    ring
  · intro predict n ra dec hs central
    rw [partials_get hs]
    have h0 : step x 0 i = 0 := (step_eq_zero x 0 i).mpr rfl
    have : (compared central x i (step x 0 i)).2.2 = 0 := by
      cases central <;> simp [compared, h0]
    rw [this]
    simp [over]

theorem compared_ne (central : Bool) (x : Fin 6 → ℝ) (i : Fin 6) {d : ℝ} (h : d ≠ 0) : (compared central x i d).2.2 ≠ 0 := by
  cases central <;> simp [compared, h]

/-- What a column contains. The declination is the difference quotient. So is the right ascension, times the cosine of the declination,
as long as the two right ascensions are at most 180 degrees apart; when 0 lies between them, it is minus the difference quotient of the
direction in the sky. -/
theorem C148_columns {predict : (Fin 6 → ℝ) → List Coord} {n : Nat} {ra dec : (Fin 6 → ℝ) → ℝ} (hs : Sees predict n ra dec)
    (central : Bool) (x : Fin 6 → ℝ) {delta : ℝ} (hd : delta ≠ 0) (i : Fin 6) :
    let p := (compared central x i (step x delta i)).1
    let m := (compared central x i (step x delta i)).2.1
    let h := (compared central x i (step x delta i)).2.2
    ∃ c e, (partials central predict (predict x) x delta i)[n]? = some (some c, some e) ∧
      e = (dec p - dec m) / h ∧
      (|ra p - ra m| ≤ 180 → c = (ra p - ra m) / h * Real.cos (dec p * (Real.pi / 180))) ∧
      (180 < ra p - ra m → c = -((ra p - 360 - ra m) / h * Real.cos (dec p * (Real.pi / 180)))) ∧
      (180 < ra m - ra p → c = -((ra p + 360 - ra m) / h * Real.cos (dec p * (Real.pi / 180)))) := by
  intro p m h
  have hne : h ≠ 0 := compared_ne central x i (fun h0 => hd ((step_eq_zero x delta i).mp h0))
  obtain ⟨z, hz, -, -, -, h1, -, -, h2, h3⟩ := C49_short_way (hs.range p) (hs.range m)
  refine ⟨z * Real.cos (dec p * (Real.pi / 180)) / h, (dec p - dec m) / h, ?_, rfl, ?_, ?_, ?_⟩
  · rw [partials_get hs]
    show some (over h ((boundLongitude (some (ra p)) (some (ra p - ra m))).map _, _)) = _
    rw [hz]
    unfold over
    rw [if_neg hne]
    rfl
  · intro hle
    rw [h1 hle]
    ring
  · intro hlt
    rw [(h2 hlt).1]
    ring
  · intro hlt
    rw [(h3 hlt).1]
    ring

/-! ## The limit of small perturbations -/

theorem step_small (x : Fin 6 → ℝ) (delta : ℝ) (i : Fin 6) : |step x delta i| ≤ (|x i| + 1) * |delta| := by
  unfold step
  split
  · rw [abs_mul]
    have : |(if i.val < 3 then (1 : ℝ) else 1 / 100)| ≤ |x i| + 1 := by
      have := abs_nonneg (x i)
      split
      · rw [abs_one]; linarith
      · rw [abs_of_pos (by norm_num)]; linarith
    exact mul_le_mul_of_nonneg_right this (abs_nonneg _)
  · rw [abs_mul]
    exact mul_le_mul_of_nonneg_right (by linarith) (abs_nonneg _)

/-- One-sided and central difference quotients both converge to the derivative. -/
theorem quotient_limit {f : ℝ → ℝ} {f' : ℝ} (hf : HasDerivAt f f' 0) :
    Filter.Tendsto (fun d => (f d - f 0) / d) (nhdsWithin 0 {0}ᶜ) (nhds f') ∧
    Filter.Tendsto (fun d => (f d - f (-d)) / (2 * d)) (nhdsWithin 0 {0}ᶜ) (nhds f') := by
  have h1 : Filter.Tendsto (fun d => (f d - f 0) / d) (nhdsWithin 0 {0}ᶜ) (nhds f') := by
    have := hasDerivAt_iff_tendsto_slope_zero.mp hf
    refine this.congr fun d => ?_
    rw [zero_add, smul_eq_mul, div_eq_inv_mul]
  refine ⟨h1, ?_⟩
  have hneg : Filter.Tendsto (fun d : ℝ => -d) (nhdsWithin 0 {0}ᶜ) (nhdsWithin 0 {0}ᶜ) := by
    have : Filter.Tendsto (fun d : ℝ => -d) (nhds 0) (nhds 0) := by simpa using (continuous_neg (G := ℝ)).tendsto 0
    refine tendsto_nhdsWithin_iff.mpr ⟨this.mono_left nhdsWithin_le_nhds, ?_⟩
    filter_upwards [self_mem_nhdsWithin] with d hd
    simpa using hd
  have h2 := h1.comp hneg
  have h3 := (h1.add h2).div_const 2
  have : (f' + f') / 2 = f' := by ring
  rw [this] at h3
  refine h3.congr' ?_
  filter_upwards [self_mem_nhdsWithin] with d hd
  have hd' : d ≠ 0 := hd
  simp only [Function.comp]
  field_simp
  ring

/-- A right ascension strictly between 0 and 360 does not jump nearby. -/
theorem no_jump {r θ : ℝ → ℝ} (hr : ∀ t, 0 ≤ r t ∧ r t < 360) (hsame : ∀ t, SameAngle (r t) (θ t)) (hc : ContinuousAt θ 0) (h0 : 0 < r 0) :
    ∀ᶠ t in nhds 0, r t - r 0 = θ t - θ 0 := by
  obtain ⟨k, hk⟩ := hsame 0
  have hc' : ContinuousAt (fun t => θ t + 360 * (k : ℝ)) 0 := hc.add continuousAt_const
  have hlo : ∀ᶠ t in nhds 0, 0 < θ t + 360 * (k : ℝ) := hc'.eventually (lt_mem_nhds (by show 0 < θ 0 + 360 * (k : ℝ); rw [← hk]; exact h0))
  have hhi : ∀ᶠ t in nhds 0, θ t + 360 * (k : ℝ) < 360 := hc'.eventually (gt_mem_nhds (by show θ 0 + 360 * (k : ℝ) < 360; rw [← hk]; exact (hr 0).2))
  filter_upwards [hlo, hhi] with t h1 h2
  obtain ⟨j, hj⟩ := hsame t
  have hb := hr t
  rw [hj] at hb
  have hjk : j = k := by
    have e1 : (360 * ((j : ℝ) - k)) < 360 := by linarith
    have e2 : -360 < 360 * ((j : ℝ) - k) := by linarith
    have e3 : ((j - k : ℤ) : ℝ) < 1 := by push_cast; linarith
    have e4 : (-1 : ℝ) < ((j - k : ℤ) : ℝ) := by push_cast; linarith
    have e5 : j - k < 1 := by exact_mod_cast e3
    have e6 : -1 < j - k := by exact_mod_cast e4
    omega
  rw [hj, hk, hjk]
  ring

/-- The state along coordinate `i`. -/
def along (x : Fin 6 → ℝ) (i : Fin 6) (t : ℝ) : Fin 6 → ℝ := fun k => x k + if k = i then t else 0

theorem along_zero (x : Fin 6 → ℝ) (i : Fin 6) : along x i 0 = x := by
  funext k
  simp [along]

theorem ok_near {P : ℝ → Prop} (x : Fin 6 → ℝ) (i : Fin 6) (h : ∀ᶠ d in nhdsWithin (0 : ℝ) {0}ᶜ, P d) :
    ∃ η > 0, ∀ delta : ℝ, delta ≠ 0 → |delta| < η → P (step x delta i) := by
  rw [eventually_nhdsWithin_iff, Metric.eventually_nhds_iff] at h
  obtain ⟨η, hη, h⟩ := h
  have hpos : 0 < |x i| + 1 := by have := abs_nonneg (x i); linarith
  refine ⟨η / (|x i| + 1), by positivity, ?_⟩
  intro delta hd hlt
  refine h ?_ ?_
  · rw [Real.dist_eq, sub_zero]
    refine lt_of_le_of_lt (step_small x delta i) ?_
    rw [lt_div_iff₀ hpos] at hlt
    linarith
  · intro h0
    exact hd ((step_eq_zero x delta i).mp h0)

/-- For small perturbations the columns are as close as wanted to the derivatives of the direction in the sky, the one of right ascension
times the cosine of the declination, one-sided or central, for every coordinate, wherever the predicted right ascension is not 0. -/
theorem C148_limit {predict : (Fin 6 → ℝ) → List Coord} {n : Nat} {ra dec : (Fin 6 → ℝ) → ℝ} (hs : Sees predict n ra dec)
    (central : Bool) (x : Fin 6 → ℝ) (i : Fin 6) {θ : ℝ → ℝ} {θ' dec' : ℝ} (hsame : ∀ t, SameAngle (ra (along x i t)) (θ t))
    (hθ : HasDerivAt θ θ' 0) (hdec : HasDerivAt (fun t => dec (along x i t)) dec' 0) (h0 : 0 < ra x) :
    ∀ ε > 0, ∃ η > 0, ∀ delta : ℝ, delta ≠ 0 → |delta| < η →
      ∃ c e, (partials central predict (predict x) x delta i)[n]? = some (some c, some e) ∧
        |c - θ' * Real.cos (dec x * (Real.pi / 180))| < ε ∧ |e - dec'| < ε := by
  intro ε hε
  have hr : ∀ t, 0 ≤ ra (along x i t) ∧ ra (along x i t) < 360 := fun t => hs.range _
  have hjump := no_jump (r := fun t => ra (along x i t)) hr hsame hθ.continuousAt (by simpa [along_zero] using h0)
  have hneg : Filter.Tendsto (fun d : ℝ => -d) (nhds 0) (nhds 0) := by simpa using (continuous_neg (G := ℝ)).tendsto 0
  have hcos : Filter.Tendsto (fun d => Real.cos (dec (along x i d) * (Real.pi / 180))) (nhdsWithin 0 {0}ᶜ)
      (nhds (Real.cos (dec x * (Real.pi / 180)))) := by
    have hc : ContinuousAt (fun d => Real.cos (dec (along x i d) * (Real.pi / 180))) 0 :=
      Real.continuous_cos.continuousAt.comp (hdec.continuousAt.mul continuousAt_const)
    have := hc.tendsto
    simp only [along_zero] at this
    exact this.mono_left nhdsWithin_le_nhds
  have hθ0 : ∀ᶠ d in nhds (0 : ℝ), |θ d - θ 0| < 90 := by
    have := (Metric.tendsto_nhds.mp hθ.continuousAt.tendsto) 90 (by norm_num)
    simpa [Real.dist_eq] using this
  have key : ∀ᶠ d in nhdsWithin (0 : ℝ) {0}ᶜ, ∀ delta : ℝ, delta ≠ 0 → step x delta i = d →
      ∃ c e, (partials central predict (predict x) x delta i)[n]? = some (some c, some e) ∧
        |c - θ' * Real.cos (dec x * (Real.pi / 180))| < ε ∧ |e - dec'| < ε := by
    cases central with
    | false =>
      have hq := ((quotient_limit hθ).1.mul hcos)
      have he := (quotient_limit hdec).1
      filter_upwards [(Metric.tendsto_nhds.mp hq) ε hε, (Metric.tendsto_nhds.mp he) ε hε, nhdsWithin_le_nhds hjump,
        nhdsWithin_le_nhds hθ0] with d h1 h2 h3 h4 delta hd hstep
      obtain ⟨c, e, hp, hee, hcc, -, -⟩ := C148_columns hs false x hd i
      rw [hstep] at hee hcc
      simp only [compared, Bool.false_eq_true, if_false] at hee hcc
      simp only [along_zero] at h2 h3
      have hcc := hcc (by
        show |ra (along x i d) - ra x| ≤ 180
        rw [h3]; linarith)
      refine ⟨c, e, hp, ?_, ?_⟩
      · rw [hcc]
        rw [Real.dist_eq] at h1
        have : (ra (along x i d) - ra x) / d * Real.cos (dec (along x i d) * (Real.pi / 180)) =
          (θ d - θ 0) / d * Real.cos (dec (along x i d) * (Real.pi / 180)) := by rw [h3]
        show |(ra (along x i d) - ra x) / d * Real.cos (dec (along x i d) * (Real.pi / 180)) - _| < ε
        rw [this]
        exact h1
      · rw [hee]
        rw [Real.dist_eq] at h2
        exact h2
    | true =>
      have hq := ((quotient_limit hθ).2.mul hcos)
      have he := (quotient_limit hdec).2
      filter_upwards [(Metric.tendsto_nhds.mp hq) ε hε, (Metric.tendsto_nhds.mp he) ε hε, nhdsWithin_le_nhds hjump,
        nhdsWithin_le_nhds (hneg.eventually hjump), nhdsWithin_le_nhds hθ0, nhdsWithin_le_nhds (hneg.eventually hθ0)]
        with d h1 h2 h3 h3' h4 h4' delta hd hstep
      obtain ⟨c, e, hp, hee, hcc, -, -⟩ := C148_columns hs true x hd i
      rw [hstep] at hee hcc
      simp only [compared, if_true] at hee hcc
      simp only [along_zero] at h2 h3 h3'
      have hdiff : ra (along x i d) - ra (along x i (-d)) = θ d - θ (-d) := by linarith
      have hcc := hcc (by
        show |ra (along x i d) - ra (along x i (-d))| ≤ 180
        rw [hdiff]
        rw [abs_lt] at h4 h4'
        rw [abs_le]
        constructor <;> linarith)
      refine ⟨c, e, hp, ?_, ?_⟩
      · rw [hcc]
        rw [Real.dist_eq] at h1
        show |(ra (along x i d) - ra (along x i (-d))) / (2 * d) * Real.cos (dec (along x i d) * (Real.pi / 180)) - _| < ε
        rw [hdiff]
        exact h1
      · rw [hee]
        rw [Real.dist_eq] at h2
        exact h2
  obtain ⟨η, hη, h⟩ := ok_near x i key
  exact ⟨η, hη, fun delta hd hlt => h delta hd hlt delta hd rfl⟩

/-- One object whose right ascension is minus the first coordinate (degrees), on the equator. -/
noncomputable def turning (s : Fin 6 → ℝ) : List Coord := [fun k => if k = 1 then some (360 * Int.fract (-s 0 / 360)) else some 0]

theorem turning_sees : Sees turning 0 (fun s => 360 * Int.fract (-s 0 / 360)) fun _ => 0 := by
  refine ⟨fun s => ⟨_, rfl, rfl, rfl⟩, fun s => ?_⟩
  have h1 := Int.fract_nonneg (-s 0 / 360)
  have h2 := Int.fract_lt_one (-s 0 / 360)
  constructor <;> linarith

theorem turning_angle (x : Fin 6 → ℝ) (t : ℝ) : SameAngle (360 * Int.fract (-(along x 0 t) 0 / 360)) (-(x 0 + t)) := by
  refine ⟨-⌊-(along x 0 t) 0 / 360⌋, ?_⟩
  unfold Int.fract
  push_cast
  have : (along x 0 t) 0 = x 0 + t := by simp [along]
  rw [this]
  ring

/-- Where the right ascension is 0 the limit can be minus the derivative: for an object moving to smaller right ascensions every
one-sided column has the wrong sign. -/
theorem C148_limit_false :
    ¬ ∀ (predict : (Fin 6 → ℝ) → List Coord) (n : Nat) (ra dec : (Fin 6 → ℝ) → ℝ) (x : Fin 6 → ℝ) (i : Fin 6) (θ : ℝ → ℝ) (θ' dec' : ℝ),
      Sees predict n ra dec → (∀ t, SameAngle (ra (along x i t)) (θ t)) → HasDerivAt θ θ' 0 →
      HasDerivAt (fun t => dec (along x i t)) dec' 0 →
      ∀ ε > 0, ∃ η > 0, ∀ delta : ℝ, delta ≠ 0 → |delta| < η →
        ∃ c e, (partials false predict (predict x) x delta i)[n]? = some (some c, some e) ∧
          |c - θ' * Real.cos (dec x * (Real.pi / 180))| < ε ∧ |e - dec'| < ε := by
  intro h
  obtain ⟨η, hη, h⟩ := h turning 0 _ _ (fun _ => 0) 0 (fun t => -(0 + t)) (-1) 0 turning_sees (turning_angle _)
    ((hasDerivAt_id (0 : ℝ)).const_add 0).neg (hasDerivAt_const _ _) 1 (by norm_num)
  have hm : 0 < min (η / 2) 1 := lt_min (by linarith) (by norm_num)
  have hm1 : min (η / 2) 1 ≤ 1 := min_le_right _ _
  have hm2 : min (η / 2) 1 ≤ η / 2 := min_le_left _ _
  generalize min (η / 2) 1 = δ at hm hm1 hm2
  obtain ⟨c, e, hp, hc, -⟩ := h δ hm.ne' (by rw [abs_of_pos hm]; linarith)
  obtain ⟨c', e', hp', -, -, hc', -⟩ := C148_columns turning_sees false (fun _ => 0) hm.ne' 0
  rw [hp] at hp'
  obtain ⟨rfl, -⟩ : c = c' ∧ e = e' := by simpa using hp'
  have hstep : step (fun _ => 0) δ 0 = δ := by
    unfold step
    rw [if_pos (by norm_num), if_pos (by norm_num), one_mul]
  rw [hstep] at hc'
  have hfract : Int.fract (-δ / 360) = 1 - δ / 360 := by
    rw [Int.fract_eq_iff]
    refine ⟨by linarith, by linarith, -1, ?_⟩
    push_cast
    ring
  have hfract0 : Int.fract (-(0 : ℝ) / 360) = 0 := by simp
  simp only [compared, Bool.false_eq_true, if_false, if_true, zero_add, hfract, hfract0] at hc'
  have hc'' := hc' (by linarith)
  have : c = 1 := by
    rw [hc'']
    simp
    field_simp
    ring
  rw [this] at hc
  simp at hc
  norm_num at hc

/-- `C148_limit` applies to that object at right ascension 90. -/
example : Sees turning 0 (fun s => 360 * Int.fract (-s 0 / 360)) (fun _ => 0) ∧
    (∀ t, SameAngle (360 * Int.fract (-(along (fun _ => -90) 0 t) 0 / 360)) (-(-90 + t))) ∧
    HasDerivAt (fun t : ℝ => -(-90 + t)) (-1) 0 ∧ 0 < 360 * Int.fract (-(-90 : ℝ) / 360) := by
  refine ⟨turning_sees, turning_angle _, ?_, ?_⟩
  · exact ((hasDerivAt_id (0 : ℝ)).const_add (-90)).neg
  · have : Int.fract (-(-90 : ℝ) / 360) = 1 / 4 := by
      rw [Int.fract_eq_iff]
      exact ⟨by norm_num, by norm_num, 0, by norm_num⟩
    rw [this]
    norm_num

/-! ## The normal equations -/

/-- The weighted sum of squares left by a correction, for predictions that change linearly. -/
def cost (terms : List Term) (c : Fin 6 → ℝ) : ℝ := (terms.map fun t => ∑ j, t.w j * (t.b j - ∑ k, t.a j k * c k) ^ 2).sum

theorem accumulate_foldl (terms : List Term) (M : Matrix (Fin 6) (Fin 6) ℝ) (r : Fin 6 → ℝ) :
    terms.foldl (fun acc t => (acc.1 + t.a.transpose * Matrix.diagonal t.w * t.a,
      acc.2 + (t.a.transpose * Matrix.diagonal t.w).mulVec t.b)) (M, r) = (M + (accumulate terms).1, r + (accumulate terms).2) := by
  unfold accumulate
  induction terms generalizing M r with
  | nil => simp
  | cons t l ih =>
    rw [List.foldl_cons, ih, List.foldl_cons, ih (0 + _) (0 + _)]
    simp only [zero_add, add_assoc]

theorem accumulate_cons (t : Term) (l : List Term) : accumulate (t :: l) =
    (t.a.transpose * Matrix.diagonal t.w * t.a + (accumulate l).1, (t.a.transpose * Matrix.diagonal t.w).mulVec t.b + (accumulate l).2) := by
  conv_lhs => unfold accumulate
  rw [List.foldl_cons, accumulate_foldl]
  simp

theorem accumulate_mulVec (terms : List Term) (c : Fin 6 → ℝ) (k : Fin 6) :
    (accumulate terms).1.mulVec c k = (terms.map fun t => ∑ j, t.w j * t.a j k * ∑ l, t.a j l * c l).sum := by
  induction terms with
  | nil => simp [accumulate]
  | cons t l ih =>
    rw [accumulate_cons, List.map_cons, List.sum_cons, ← ih, Matrix.add_mulVec, Pi.add_apply]
    congr 1
    rw [← Matrix.mulVec_mulVec]
    simp only [Matrix.mulVec, dotProduct, Matrix.mul_apply, Matrix.transpose_apply, Matrix.diagonal_apply]
    apply Finset.sum_congr rfl
    intro j _
    simp [mul_comm]

theorem accumulate_rhs (terms : List Term) (k : Fin 6) :
    (accumulate terms).2 k = (terms.map fun t => ∑ j, t.w j * t.a j k * t.b j).sum := by
  induction terms with
  | nil => simp [accumulate]
  | cons t l ih =>
    rw [accumulate_cons, List.map_cons, List.sum_cons, ← ih]
    show ((t.a.transpose * Matrix.diagonal t.w).mulVec t.b) k + (accumulate l).2 k = _
    congr 1
    simp only [Matrix.mulVec, dotProduct, Matrix.mul_apply, Matrix.transpose_apply, Matrix.diagonal_apply]
    apply Finset.sum_congr rfl
    intro j _
    simp [mul_comm]

/-- Expansion of the cost around a correction. -/
theorem cost_expand (terms : List Term) (c e : Fin 6 → ℝ) :
    cost terms (c + e) = cost terms c + (terms.map fun t => ∑ j, t.w j * (∑ k, t.a j k * e k) ^ 2).sum -
      2 * ∑ k, e k * ((accumulate terms).2 k - (accumulate terms).1.mulVec c k) := by
  simp only [accumulate_mulVec, accumulate_rhs]
  unfold cost
  induction terms with
  | nil => simp
  | cons t l ih =>
    simp only [List.map_cons, List.sum_cons]
    rw [ih]
    have hk : ∑ k, e k * (∑ j, t.w j * t.a j k * t.b j - ∑ j, t.w j * t.a j k * ∑ l, t.a j l * c l) =
        ∑ j, t.w j * (∑ k, t.a j k * e k) * (t.b j - ∑ l, t.a j l * c l) := by
      have : ∀ j, t.w j * (∑ k, t.a j k * e k) * (t.b j - ∑ l, t.a j l * c l) =
          ∑ k, e k * (t.w j * t.a j k * t.b j - t.w j * t.a j k * ∑ l, t.a j l * c l) := by
        intro j
        generalize ∑ l, t.a j l * c l = z
        rw [Finset.mul_sum, Finset.sum_mul]
        apply Finset.sum_congr rfl
        intro k _
        ring
      simp only [this]
      rw [Finset.sum_comm]
      apply Finset.sum_congr rfl
      intro k _
      rw [← Finset.sum_sub_distrib, Finset.mul_sum]
    have hsplit : ∑ k, e k * ((∑ j, t.w j * t.a j k * t.b j) + (l.map fun t => ∑ j, t.w j * t.a j k * t.b j).sum -
        ((∑ j, t.w j * t.a j k * ∑ l, t.a j l * c l) + (l.map fun t => ∑ j, t.w j * t.a j k * ∑ l, t.a j l * c l).sum)) =
        ∑ k, e k * (∑ j, t.w j * t.a j k * t.b j - ∑ j, t.w j * t.a j k * ∑ l, t.a j l * c l) +
        ∑ k, e k * ((l.map fun t => ∑ j, t.w j * t.a j k * t.b j).sum - (l.map fun t => ∑ j, t.w j * t.a j k * ∑ l, t.a j l * c l).sum) := by
      rw [← Finset.sum_add_distrib]
      apply Finset.sum_congr rfl
      intro k _
      ring
    rw [hsplit, hk]
    have hone : ∑ j, t.w j * (t.b j - ∑ k, t.a j k * (c + e) k) ^ 2 = ∑ j, t.w j * (t.b j - ∑ k, t.a j k * c k) ^ 2 +
        ∑ j, t.w j * (∑ k, t.a j k * e k) ^ 2 - 2 * ∑ j, t.w j * (∑ k, t.a j k * e k) * (t.b j - ∑ l, t.a j l * c l) := by
      rw [Finset.mul_sum, ← Finset.sum_add_distrib, ← Finset.sum_sub_distrib]
      apply Finset.sum_congr rfl
      intro j _
      have : ∑ k, t.a j k * (c + e) k = ∑ k, t.a j k * c k + ∑ k, t.a j k * e k := by
        rw [← Finset.sum_add_distrib]
        apply Finset.sum_congr rfl
        intro k _
        rw [Pi.add_apply]
        ring
      rw [this]
      ring
    rw [hone]
    ring

/-- Positive weights. -/
def Weighted (terms : List Term) : Prop := ∀ t ∈ terms, ∀ j, 0 < t.w j

theorem quad_nonneg {terms : List Term} (hw : Weighted terms) (e : Fin 6 → ℝ) :
    0 ≤ (terms.map fun t => ∑ j, t.w j * (∑ k, t.a j k * e k) ^ 2).sum := by
  apply List.sum_nonneg
  intro a ha
  obtain ⟨t, ht, rfl⟩ := List.mem_map.mp ha
  exact Finset.sum_nonneg fun j _ => mul_nonneg (hw t ht j).le (sq_nonneg _)

theorem quad_zero {terms : List Term} (hw : Weighted terms) (e : Fin 6 → ℝ)
    (h : (terms.map fun t => ∑ j, t.w j * (∑ k, t.a j k * e k) ^ 2).sum = 0) : ∀ t ∈ terms, ∀ j, ∑ k, t.a j k * e k = 0 := by
  induction terms with
  | nil => simp
  | cons t l ih =>
    rw [List.map_cons, List.sum_cons] at h
    have h1 : 0 ≤ ∑ j, t.w j * (∑ k, t.a j k * e k) ^ 2 :=
      Finset.sum_nonneg fun j _ => mul_nonneg (hw t (by simp) j).le (sq_nonneg _)
    have h2 := quad_nonneg (fun t ht => hw t (List.mem_cons_of_mem _ ht)) e (terms := l)
    have h3 : ∑ j, t.w j * (∑ k, t.a j k * e k) ^ 2 = 0 := by linarith
    intro t' ht' j
    rcases List.mem_cons.mp ht' with rfl | ht'
    · have := (Finset.sum_eq_zero_iff_of_nonneg fun j _ => mul_nonneg (hw t' (by simp) j).le (sq_nonneg _)).mp h3 j (Finset.mem_univ _)
      have hpos := hw t' (by simp) j
      have := (mul_eq_zero.mp this).resolve_left hpos.ne'
      exact pow_eq_zero_iff (two_ne_zero) |>.mp this
    · exact ih (fun t ht => hw t (List.mem_cons_of_mem _ ht)) (by linarith) t' ht' j

/-- The correction is the only one that minimises the weighted sum of squares of the linearised residuals, and the covariance is the
inverse of the normal matrix. -/
theorem C149_minimum {terms : List Term} (hw : Weighted terms) {x y : Fin 6 → ℝ} {P : Matrix (Fin 6) (Fin 6) ℝ}
    (h : correct x terms = .ok (y, P)) :
    (∀ c, c ≠ y - x → cost terms (y - x) < cost terms c) ∧
    ∀ v, P.mulVec (fun k => (terms.map fun t => ∑ j, t.w j * t.a j k * ∑ l, t.a j l * v l).sum) = v := by
  unfold correct at h
  split at h
  swap
  · cases h
  rename_i hu
  simp only [Except.ok.injEq, Prod.mk.injEq] at h
  obtain ⟨h1, h2⟩ := h
  have hu' := (Matrix.isUnit_iff_isUnit_det _).mp hu
  have hy : y - x = ((accumulate terms).1⁻¹).mulVec (accumulate terms).2 := by rw [← h1]; simp
  have hsolve : (accumulate terms).1.mulVec (y - x) = (accumulate terms).2 := by
    rw [hy, Matrix.mulVec_mulVec, Matrix.mul_nonsing_inv _ hu', Matrix.one_mulVec]
  constructor
  · intro c hc
    have hexp := cost_expand terms (y - x) (c - (y - x))
    rw [add_sub_cancel, hsolve] at hexp
    simp only [sub_self, mul_zero, Finset.sum_const_zero, sub_zero] at hexp
    rw [hexp]
    have hnn := quad_nonneg hw (c - (y - x))
    rcases hnn.lt_or_eq with hlt | heq
    · linarith
    · exfalso
      have hz := quad_zero hw _ heq.symm
      have hker : (accumulate terms).1.mulVec (c - (y - x)) = 0 := by
        funext k
        rw [accumulate_mulVec]
        apply List.sum_eq_zero
        intro a ha
        obtain ⟨t, ht, rfl⟩ := List.mem_map.mp ha
        apply Finset.sum_eq_zero
        intro j _
        rw [hz t ht j, mul_zero]
      have := Matrix.mulVec_injective_iff_isUnit.mpr hu (hker.trans (Matrix.mulVec_zero _).symm)
      exact hc (sub_eq_zero.mp this)
  · intro v
    have : (fun k => (terms.map fun t => ∑ j, t.w j * t.a j k * ∑ l, t.a j l * v l).sum) = (accumulate terms).1.mulVec v := by
      funext k
      rw [accumulate_mulVec]
    rw [this, ← h2, Matrix.mulVec_mulVec, Matrix.nonsing_inv_mul _ hu', Matrix.one_mulVec]

/-- There is an error exactly when some change of the state changes no predicted component. -/
theorem C149_error {terms : List Term} (hw : Weighted terms) (x : Fin 6 → ℝ) :
    (correct x terms = .error .valueError ↔ ∃ e : Fin 6 → ℝ, e ≠ 0 ∧ ∀ t ∈ terms, ∀ j, ∑ k, t.a j k * e k = 0) ∧
    (correct x terms ≠ .error .valueError → ∃ y P, correct x terms = .ok (y, P)) := by
  have hker : (¬ IsUnit (accumulate terms).1) ↔ ∃ e : Fin 6 → ℝ, e ≠ 0 ∧ ∀ t ∈ terms, ∀ j, ∑ k, t.a j k * e k = 0 := by
    constructor
    · intro hn
      have hdet : (accumulate terms).1.det = 0 := by
        by_contra hd
        exact hn ((Matrix.isUnit_iff_isUnit_det _).mpr (isUnit_iff_ne_zero.mpr hd))
      obtain ⟨e, he, h0⟩ := Matrix.exists_mulVec_eq_zero_iff.mpr hdet
      refine ⟨e, he, quad_zero hw e ?_⟩
      have hexp := cost_expand terms 0 e
      have hexp' := cost_expand terms e (-e)
      rw [zero_add] at hexp
      rw [add_neg_cancel, h0] at hexp'
      simp only [Matrix.mulVec_zero, Pi.zero_apply, sub_zero, Pi.neg_apply, neg_mul, mul_neg, Finset.sum_neg_distrib, neg_sq] at hexp hexp'
      linarith
    · rintro ⟨e, he, hz⟩ hu
      apply he
      apply Matrix.mulVec_injective_iff_isUnit.mpr hu
      rw [Matrix.mulVec_zero]
      funext k
      rw [accumulate_mulVec]
      apply List.sum_eq_zero
      intro a ha
      obtain ⟨t, ht, rfl⟩ := List.mem_map.mp ha
      apply Finset.sum_eq_zero
      intro j _
      rw [hz t ht j, mul_zero]
  unfold correct
  by_cases hu : IsUnit (accumulate terms).1
  · rw [if_pos hu]
    refine ⟨⟨(fun h => by cases h), fun h => absurd hu (hker.mpr h)⟩, fun _ => ⟨_, _, rfl⟩⟩
  · rw [if_neg hu]
    exact ⟨⟨fun _ => hker.mp hu, fun _ => rfl⟩, fun h => absurd rfl h⟩

/-- When the predictions change linearly the RMS does not increase. -/
theorem C149_rms {terms : List Term} (hw : Weighted terms) {x y : Fin 6 → ℝ} {P : Matrix (Fin 6) (Fin 6) ℝ}
    (h : correct x terms = .ok (y, P)) :
    rms (terms.map fun t => { t with b := fun j => t.b j - ∑ k, t.a j k * (y k - x k) }) ≤ rms terms ∧
    rms terms ^ 2 * (2 * terms.length) = if terms = [] then 0 else (terms.map fun t => ∑ j, t.w j * t.b j ^ 2).sum := by
  have hmin : cost terms (y - x) ≤ cost terms 0 := by
    by_cases h0 : (0 : Fin 6 → ℝ) = y - x
    · rw [← h0]
    · exact ((C149_minimum hw h).1 0 h0).le
  have hc0 : cost terms 0 = (terms.map fun t => ∑ j, t.b j ^ 2 * t.w j).sum := by
    unfold cost
    simp only [Pi.zero_apply, mul_zero, Finset.sum_const_zero, sub_zero]
    congr 1
    apply List.map_congr_left
    intro t _
    exact Finset.sum_congr rfl fun j _ => mul_comm _ _
  have hcy : cost terms (y - x) = ((terms.map fun t => ({ t with b := fun j => t.b j - ∑ k, t.a j k * (y k - x k) } : Term)).map
      fun t => ∑ j, t.b j ^ 2 * t.w j).sum := by
    unfold cost
    rw [List.map_map]
    congr 1
    apply List.map_congr_left
    intro t _
    exact Finset.sum_congr rfl fun j _ => mul_comm _ _
  refine ⟨?_, ?_⟩
  · unfold rms
    rw [← hcy, ← hc0, List.length_map]
    exact Real.sqrt_le_sqrt (div_le_div_of_nonneg_right hmin (by positivity))
  · have hnn : 0 ≤ cost terms 0 := by
      unfold cost
      apply List.sum_nonneg
      intro a ha
      obtain ⟨t, ht, rfl⟩ := List.mem_map.mp ha
      exact Finset.sum_nonneg fun j _ => mul_nonneg (hw t ht j).le (sq_nonneg _)
    have hsw : (terms.map fun t => ∑ j, t.w j * t.b j ^ 2).sum = cost terms 0 := by
      unfold cost
      simp
    unfold rms
    rw [hsw, ← hc0, Real.sq_sqrt (by positivity)]
    by_cases hn : terms = []
    · subst hn
      simp
    · rw [if_neg hn]
      have : (terms.length : ℝ) ≠ 0 := by
        rw [Nat.cast_ne_zero]
        intro h0
        exact hn (List.length_eq_zero_iff.mp h0)
      field_simp

/-- Three observations that each determine two coordinates. -/
def three : List Term := [⟨Matrix.of ![Pi.single 0 1, Pi.single 1 1], ![1, 2], ![1, 1]⟩,
  ⟨Matrix.of ![Pi.single 2 1, Pi.single 3 1], ![3, 4], ![1, 4]⟩, ⟨Matrix.of ![Pi.single 4 1, Pi.single 5 2], ![5, 6], ![1, 1]⟩]

/-- They meet the hypotheses and have a correction. -/
example : Weighted three ∧ ∃ y P, correct 0 three = .ok (y, P) := by
  have hw : Weighted three := by
    intro t ht j
    simp only [three, List.mem_cons, List.not_mem_nil, or_false] at ht
    rcases ht with rfl | rfl | rfl <;> fin_cases j <;> norm_num
  refine ⟨hw, (C149_error hw 0).2 ?_⟩
  intro h
  obtain ⟨e, he, hz⟩ := ((C149_error hw 0).1).mp h
  apply he
  have h1 := hz _ (List.mem_cons_self)
  have h2 := hz _ (List.mem_cons_of_mem _ List.mem_cons_self)
  have h3 := hz _ (List.mem_cons_of_mem _ (List.mem_cons_of_mem _ List.mem_cons_self))
  have a0 := h1 0
  have a1 := h1 1
  have a2 := h2 0
  have a3 := h2 1
  have a4 := h3 0
  have a5 := h3 1
  simp [Pi.single_apply] at a0 a1 a2 a3 a4 a5
  funext k
  fin_cases k <;> simp [a0, a1, a2, a3, a4, a5]

end Verif.Lsq.Step.Props
