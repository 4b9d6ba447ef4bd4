import Verif.Rot.Spec
import Verif.Sched.Lemmas
import Mathlib.Tactic.Ring
import Mathlib.Tactic.Linarith
import Mathlib.Tactic.Positivity
import Mathlib.Tactic.FieldSimp
import Mathlib.Algebra.Order.BigOperators.Group.List

/-! # Fits at one frequency, and the choice of the order: C71 -/

namespace Verif.Rot.Props

open Verif Sched

variable {lstsq : List (List ℝ) → List ℝ → List ℝ} {p : Problem} {f : ℝ} {order : Nat} {clip : ℝ}

/-! ## Rows and the model -/

theorem dot_nil_left (c : List ℝ) : dot [] c = 0 := by simp [dot]

theorem dot_nil_right (r : List ℝ) : dot r [] = 0 := by simp [dot]

theorem dot_cons (x : ℝ) (r : List ℝ) (y : ℝ) (c : List ℝ) : dot (x :: r) (y :: c) = x * y + dot r c := by simp [dot]

theorem dot_append (a b : List ℝ) : ∀ c : List ℝ, dot (a ++ b) c = dot a c + dot b (c.drop a.length) := by
  induction a with
  | nil => intro c; simp [dot_nil_left]
  | cons x a ih =>
    intro c
    cases c with
    | nil => simp [dot_nil_right]
    | cons y c =>
      rw [List.cons_append, dot_cons, dot_cons, ih]
      simp only [List.length_cons, List.drop_succ_cons]
      ring

theorem dot_eq_sum (r : List ℝ) : ∀ c : List ℝ, dot r c = ((List.range r.length).map fun j => r.getD j 0 * c.getD j 0).sum := by
  induction r with
  | nil => intro c; simp [dot_nil_left]
  | cons x r ih =>
    intro c
    cases c with
    | nil => simp [dot_nil_right]
    | cons y c =>
      rw [dot_cons, ih c, List.length_cons, List.range_succ_eq_map, List.map_cons, List.sum_cons, List.map_map]
      rfl

theorem fourier_length (t f : ℝ) (order : Nat) : (fourier t f order).length = 2 * order := by
  unfold fourier
  rw [List.length_flatMap]
  simp [mul_comm]

theorem dot_fourier (t f : ℝ) : ∀ (order : Nat) (c : List ℝ), dot (fourier t f order) c =
    ((List.range order).map fun h : Nat => Real.cos ((h + 1 : ℝ) * (2 * Real.pi * f * t)) * c.getD (2 * h) 0 +
      Real.sin ((h + 1 : ℝ) * (2 * Real.pi * f * t)) * c.getD (2 * h + 1) 0).sum := by
  intro order
  induction order with
  | zero => intro c; simp [fourier, dot_nil_left]
  | succ k ih =>
    intro c
    have e : fourier t f (k + 1) = fourier t f k ++ [Real.cos ((k + 1 : ℝ) * (2 * Real.pi * f * t)), Real.sin ((k + 1 : ℝ) * (2 * Real.pi * f * t))] := by
      unfold fourier
      rw [List.range_succ, List.flatMap_append]
      simp
    rw [e, dot_append, ih, fourier_length, List.range_succ, List.map_append, List.sum_append, dot_eq_sum]
    simp [List.range_succ, List.getD_eq_getElem?_getD]

theorem dot_designRow {n : Nat} {q : Pt} (h : q.fixed.length = n) (c : List ℝ) : dot (designRow f order q) c = modelMag n f order c q := by
  unfold designRow modelMag
  rw [dot_append, dot_eq_sum, h, dot_fourier]
  simp [List.getD_eq_getElem?_getD, Nat.add_assoc]

theorem dot_unitRow (n i : Nat) (h : i < n) (c : List ℝ) : dot (unitRow n i) c = c.getD i 0 := by
  have hl : (unitRow n i).length = n := by simp [unitRow]
  rw [dot_eq_sum, hl]
  have : ((List.range n).map fun j => (unitRow n i).getD j 0 * c.getD j 0) = (List.range n).map fun j => if j = i then c.getD i 0 else 0 := by
    refine List.map_congr_left fun j hj => ?_
    have hj := List.mem_range.1 hj
    have : (unitRow n i).getD j 0 = if j = i then 1 else 0 := by
      simp [unitRow, List.getD_eq_getElem?_getD, hj]
    rw [this]
    split_ifs with e
    · rw [e, one_mul]
    · rw [zero_mul]
  rw [this]
  have key : ∀ m, ((List.range m).map fun j => if j = i then c.getD i 0 else 0).sum = if i < m then c.getD i 0 else 0 := by
    intro m
    induction m with
    | zero => simp
    | succ m ih =>
      rw [List.range_succ, List.map_append, List.sum_append, ih]
      by_cases h1 : i < m
      · have h2 : m ≠ i := by omega
        simp [h1, h2, Nat.lt_succ_of_lt h1]
      · by_cases h2 : m = i
        · subst h2; simp
        · have : ¬ i < m + 1 := by omega
          simp [h1, h2, this]
  rw [key, if_pos h]

theorem residual_eq {q : Pt} (h : q.fixed.length = p.nFixed) (c : List ℝ) :
    residual f order c q = q.y - modelMag p.nFixed f order c q := by
  unfold residual
  rw [dot_designRow h]

/-! ## The solution of least squares -/

theorem dot_scale (s : ℝ) (r : List ℝ) : ∀ c : List ℝ, dot (r.map (· * s)) c = s * dot r c := by
  induction r with
  | nil => intro c; simp [dot_nil_left]
  | cons x r ih =>
    intro c
    cases c with
    | nil => simp [dot_nil_right]
    | cons y c =>
      rw [List.map_cons, dot_cons, dot_cons, ih]
      ring

theorem scaled_sum (x : List ℝ) : ∀ (design : List (List ℝ)) (target weights : List ℝ), (∀ w ∈ weights, 0 ≤ w) →
    (List.zipWith (fun row y => (y - dot row x) ^ 2) (List.zipWith (fun row w => row.map (· * Real.sqrt w)) design weights)
      (List.zipWith (fun y w => y * Real.sqrt w) target weights)).sum =
    (List.zipWith (fun w (e : List ℝ × ℝ) => w * (e.2 - dot e.1 x) ^ 2) weights (design.zip target)).sum := by
  intro design
  induction design with
  | nil => intro t w _; simp
  | cons row design ih =>
    intro target weights hw
    cases target with
    | nil => simp
    | cons y target =>
      cases weights with
      | nil => simp
      | cons w weights =>
        have h0 := hw w (by simp)
        simp only [List.zipWith_cons_cons, List.sum_cons, List.zip_cons_cons]
        rw [ih target weights fun v hv => hw v (List.mem_cons_of_mem _ hv), dot_scale]
        have : (y * Real.sqrt w - Real.sqrt w * dot row x) ^ 2 = w * (y - dot row x) ^ 2 := by
          have := Real.sq_sqrt h0
          calc (y * Real.sqrt w - Real.sqrt w * dot row x) ^ 2 = Real.sqrt w ^ 2 * (y - dot row x) ^ 2 := by ring
            _ = _ := by rw [this]
        rw [this]

theorem objective_eq (hp : p.Ok) {kept : List Pt} (hk : ∀ q ∈ kept, q ∈ p.points) (x : List ℝ) :
    (List.zipWith (fun w (e : List ℝ × ℝ) => w * (e.2 - dot e.1 x) ^ 2)
      ((kept.map fun q => if p.weighted then q.w else 1) ++ [p.priors.1.2, p.priors.2.2])
      ((kept.map (designRow f order) ++ [unitRow (p.nFixed + 2 * order) (p.nFixed - 2), unitRow (p.nFixed + 2 * order) (p.nFixed - 1)]).zip
        (kept.map Pt.y ++ [p.priors.1.1, p.priors.2.1]))).sum = objective p f order kept x := by
  unfold objective
  have h2 := hp.two
  rw [List.zip_append (by simp), List.zipWith_append (by simp), List.sum_append, add_assoc]
  congr 1
  · clear h2
    induction kept with
    | nil => simp
    | cons q kept ih =>
      simp only [List.map_cons, List.zip_cons_cons, List.zipWith_cons_cons, List.sum_cons]
      rw [ih fun v hv => hk v (List.mem_cons_of_mem _ hv), dot_designRow (hp.rows q (hk q (by simp)))]
      rfl
  · simp only [List.zip_cons_cons, List.zipWith_cons_cons, List.sum_cons, List.zip_nil_left, List.zipWith_nil_right, List.sum_nil]
    rw [dot_unitRow _ _ (by omega), dot_unitRow _ _ (by omega)]
    ring

theorem solve_least (hl : LeastSquares lstsq) (hp : p.Ok) {kept : List Pt} (hk : ∀ q ∈ kept, q ∈ p.points) :
    (solve lstsq p f order kept).length = p.nFixed + 2 * order ∧
    ∀ x : List ℝ, x.length = p.nFixed + 2 * order →
      objective p f order kept (solve lstsq p f order kept) ≤ objective p f order kept x := by
  have hw : ∀ w ∈ (kept.map fun q => if p.weighted then q.w else 1) ++ [p.priors.1.2, p.priors.2.2], 0 ≤ w := by
    intro w hw
    rcases List.mem_append.1 hw with hw | hw
    · obtain ⟨q, hq, rfl⟩ := List.mem_map.1 hw
      exact hp.weights q (hk q hq)
    · simp only [List.mem_cons, List.not_mem_nil, or_false] at hw
      rcases hw with rfl | rfl
      · exact hp.priors.1
      · exact hp.priors.2
  obtain ⟨h1, h2⟩ := hl (p.nFixed + 2 * order)
    (List.zipWith (fun row w => row.map (· * Real.sqrt w))
      (kept.map (designRow f order) ++ [unitRow (p.nFixed + 2 * order) (p.nFixed - 2), unitRow (p.nFixed + 2 * order) (p.nFixed - 1)])
      ((kept.map fun q => if p.weighted then q.w else 1) ++ [p.priors.1.2, p.priors.2.2]))
    (List.zipWith (fun y w => y * Real.sqrt w) (kept.map Pt.y ++ [p.priors.1.1, p.priors.2.1])
      ((kept.map fun q => if p.weighted then q.w else 1) ++ [p.priors.1.2, p.priors.2.2]))
    (by simp [← List.length_eq_zero_iff]) (by simp) (by
      intro row hrow
      rw [← List.map_uncurry_zip_eq_zipWith] at hrow
      obtain ⟨⟨a, w⟩, ha, rfl⟩ := List.mem_map.1 hrow
      have ha := (List.of_mem_zip ha).1
      simp only [Function.uncurry, List.length_map]
      rcases List.mem_append.1 ha with ha | ha
      · obtain ⟨q, hq, rfl⟩ := List.mem_map.1 ha
        rw [designRow, List.length_append, fourier_length, hp.rows q (hk q hq)]
      · simp only [List.mem_cons, List.not_mem_nil, or_false] at ha
        rcases ha with rfl | rfl <;> simp [unitRow])
  refine ⟨h1, fun x hx => ?_⟩
  have := h2 x hx
  rw [scaled_sum _ _ _ _ hw, scaled_sum _ _ _ _ hw, objective_eq hp hk, objective_eq hp hk] at this
  exact this

/-! ## The loop -/

theorem sigmaOf_some (hp : p.Ok) {kept : List Pt} (hk : ∀ q ∈ kept, q ∈ p.points) (hn : p.nFixed + 2 * order < kept.length) {c : List ℝ} {s : ℝ × ℝ}
    (h : sigmaOf p f order kept c = some s) : s.1 = scatter p f order kept c ∧
      s.2 = (kept.map fun q => p.weight q * (q.y - modelMag p.nFixed f order c q) ^ 2).sum ∧
      (p.weighted = true → 0 < (kept.map Pt.w).sum) := by
  have hdf : (((kept.length : ℤ) - (p.nFixed + 2 * order : Nat) : ℤ) : ℝ) = (kept.length : ℝ) - (p.nFixed + 2 * order) := by push_cast; ring
  have hpos : (0 : ℝ) < (kept.length : ℝ) - (p.nFixed + 2 * order) := by
    have : ((p.nFixed + 2 * order : Nat) : ℝ) < kept.length := by exact_mod_cast hn
    push_cast at this
    linarith
  unfold sigmaOf paperSigma at h
  unfold scatter
  cases hw : p.weighted with
  | false =>
    rw [hw] at h
    simp only [Bool.false_eq_true, if_false, Option.some.injEq] at h
    have e : ((kept.map (residual f order c)).map (· ^ 2)).sum = (kept.map fun q => p.weight q * (q.y - modelMag p.nFixed f order c q) ^ 2).sum := by
      rw [List.map_map]
      congr 1
      refine List.map_congr_left fun q hq => ?_
      simp only [Function.comp, Problem.weight, hw, Bool.false_eq_true, if_false, one_mul]
      rw [residual_eq (hp.rows q (hk q hq))]
    subst h
    refine ⟨?_, e, fun h => by cases h⟩
    simp only [Bool.false_eq_true, if_false, one_mul]
    rw [e, hdf, max_eq_left]
    refine div_nonneg (List.sum_nonneg fun x hx => ?_) hpos.le
    obtain ⟨q, hq, rfl⟩ := List.mem_map.1 hx
    exact mul_nonneg (hp.weights q (hk q hq)) (sq_nonneg _)
  | true =>
    rw [hw] at h
    simp only [if_true] at h
    by_cases hsum : (kept.map Pt.w).sum ≤ 0
    · rw [if_pos hsum] at h
      cases h
    · rw [if_neg hsum, Option.some.injEq] at h
      have e : (List.zipWith (fun w r => w * r ^ 2) (kept.map Pt.w) (kept.map (residual f order c))).sum =
          (kept.map fun q => p.weight q * (q.y - modelMag p.nFixed f order c q) ^ 2).sum := by
        rw [List.zipWith_map, List.zipWith_self]
        congr 1
        refine List.map_congr_left fun q hq => ?_
        simp only [Problem.weight, hw, if_true]
        rw [residual_eq (hp.rows q (hk q hq))]
      subst h
      refine ⟨?_, e, fun _ => not_le.1 hsum⟩
      simp only [if_true]
      rw [e, hdf, max_eq_left]
      refine div_nonneg (mul_nonneg (div_nonneg (Nat.cast_nonneg _) (not_le.1 hsum).le) (List.sum_nonneg fun x hx => ?_)) hpos.le
      obtain ⟨q, hq, rfl⟩ := List.mem_map.1 hx
      exact mul_nonneg (hp.weights q (hk q hq)) (sq_nonneg _)

theorem sigmaOf_none {kept : List Pt} {c : List ℝ} : sigmaOf p f order kept c = none ↔ p.weighted = true ∧ (kept.map Pt.w).sum ≤ 0 := by
  unfold sigmaOf paperSigma
  cases hw : p.weighted with
  | false => simp
  | true =>
    simp only [if_true, true_and]
    by_cases h : (kept.map Pt.w).sum ≤ 0
    · simp [h]
    · simp [h]

/-- The points that one round of clipping leaves: those within `clip` times the scatter of the fit to all of them. -/
noncomputable def round (lstsq : List (List ℝ) → List ℝ → List ℝ) (p : Problem) (f : ℝ) (order : Nat) (clip : ℝ) (kept : List Pt) : List Pt :=
  open Classical in kept.filter fun q => |q.y - modelMag p.nFixed f order (solve lstsq p f order kept) q| ≤
    clip * scatter p f order kept (solve lstsq p f order kept)

/-- What a fit of some of the points is. -/
structure IsFit (lstsq : List (List ℝ) → List ℝ → List ℝ) (p : Problem) (f : ℝ) (order : Nat) (kept : List Pt) (r : Fit) : Prop where
  enough : p.nFixed + 2 * order < kept.length
  total : p.weighted = true → 0 < (kept.map Pt.w).sum
  frequency : r.frequency = f
  orderEq : r.order = order
  coeffs : r.coeffs = solve lstsq p f order kept
  sigma : r.sigma = scatter p f order kept r.coeffs
  rss : r.rss = (kept.map fun q => p.weight q * (q.y - modelMag p.nFixed f order r.coeffs q) ^ 2).sum
  nPar : r.nPar = p.nFixed + 2 * order
  df : r.df = (r.nFit : ℤ) - r.nPar
  nFit : r.nFit = kept.length
  nClipped : r.nClipped = p.points.length - kept.length

theorem isFit_result (hp : p.Ok) {kept : List Pt} (hk : ∀ q ∈ kept, q ∈ p.points) (hn : p.nFixed + 2 * order < kept.length) {s : ℝ × ℝ}
    (h : sigmaOf p f order kept (solve lstsq p f order kept) = some s) :
    IsFit lstsq p f order kept (result p f order kept (solve lstsq p f order kept) s) := by
  obtain ⟨h1, h2, h3⟩ := sigmaOf_some hp hk hn h
  exact ⟨hn, h3, rfl, rfl, rfl, h1, h2, rfl, rfl, rfl, rfl⟩

theorem filter_lt_of_not_all {α : Type} {P : α → Bool} {l : List α} (h : ¬ l.all P = true) : (l.filter P).length < l.length := by
  refine lt_of_le_of_ne (List.length_filter_le _ _) fun e => h ?_
  rw [List.all_eq_true]
  exact List.length_filter_eq_length_iff.1 e

theorem iterate_last {α : Type} (g : α → α) (n : Nat) (x : α) : g^[n + 1] x = g^[n] (g x) := rfl

theorem clipLoop_rounds (hp : p.Ok) : ∀ (k : Nat) (kept : List Pt), (∀ q ∈ kept, q ∈ p.points) →
    ∃ n ≤ k, (∀ i < n, ((round lstsq p f order clip)^[i + 1] kept).length < ((round lstsq p f order clip)^[i] kept).length) ∧
      (∀ r, clipLoop lstsq p f order clip k kept = some r → IsFit lstsq p f order ((round lstsq p f order clip)^[n] kept) r ∧
        (n = k ∨ (round lstsq p f order clip)^[n + 1] kept = (round lstsq p f order clip)^[n] kept)) ∧
      (clipLoop lstsq p f order clip k kept = none → ((round lstsq p f order clip)^[n] kept).length ≤ p.nFixed + 2 * order ∨
        p.weighted = true ∧ (((round lstsq p f order clip)^[n] kept).map Pt.w).sum ≤ 0) := by
  intro k
  induction k with
  | zero =>
    intro kept hk
    refine ⟨0, le_rfl, fun i hi => by omega, fun r hr => ?_, fun hr => ?_⟩
    · unfold clipLoop lastFit at hr
      by_cases hn : kept.length ≤ p.nFixed + 2 * order
      · rw [if_pos hn] at hr; cases hr
      · rw [if_neg hn] at hr
        obtain ⟨s, hs, rfl⟩ := Option.map_eq_some_iff.1 hr
        exact ⟨isFit_result hp hk (by omega) hs, Or.inl rfl⟩
    · unfold clipLoop lastFit at hr
      by_cases hn : kept.length ≤ p.nFixed + 2 * order
      · exact Or.inl hn
      · rw [if_neg hn, Option.map_eq_none_iff, sigmaOf_none] at hr
        exact Or.inr hr
  | succ k ih =>
    intro kept hk
    unfold clipLoop
    by_cases hn : kept.length ≤ p.nFixed + 2 * order
    · refine ⟨0, by omega, fun i hi => by omega, fun r hr => ?_, fun _ => Or.inl hn⟩
      rw [if_pos hn] at hr; cases hr
    rw [if_neg hn]
    cases hs : sigmaOf p f order kept (solve lstsq p f order kept) with
    | none =>
      simp only [hs]
      exact ⟨0, by omega, fun i hi => by omega, (fun r hr => by cases hr), fun _ => Or.inr (sigmaOf_none.1 hs)⟩
    | some s =>
      have hfit := isFit_result hp hk (by omega) hs
      have hs1 := (sigmaOf_some hp hk (by omega) hs).1
      have hr : round lstsq p f order clip kept =
          kept.filter fun q => decide (|residual f order (solve lstsq p f order kept) q| ≤ clip * s.1) := by
        unfold round
        refine List.filter_congr fun q hq => ?_
        rw [residual_eq (hp.rows q (hk q hq)), hs1]
      simp only [hs]
      by_cases ha : (kept.all fun q => decide (|residual f order (solve lstsq p f order kept) q| ≤ clip * s.1)) = true
      · rw [if_pos ha]
        refine ⟨0, by omega, fun i hi => by omega, fun r h => ?_, (fun h => by cases h)⟩
        cases h
        refine ⟨hfit, Or.inr ?_⟩
        show round lstsq p f order clip kept = kept
        rw [hr, List.filter_eq_self]
        exact List.all_eq_true.1 ha
      · have hlt := filter_lt_of_not_all ha
        rw [if_neg ha, if_neg hlt.ne, ← hr]
        rw [← hr] at hlt
        obtain ⟨n, hnk, h1, h2, h3⟩ := ih (round lstsq p f order clip kept)
          (fun q hq => hk q (by unfold round at hq; exact (List.mem_filter.1 hq).1))
        refine ⟨n + 1, by omega, fun i hi => ?_, fun r h => ?_, h3⟩
        · cases i with
          | zero => exact hlt
          | succ i => exact h1 i (by omega)
        · obtain ⟨h4, h5⟩ := h2 r h
          refine ⟨h4, ?_⟩
          rcases h5 with h5 | h5
          · exact Or.inl (by omega)
          · exact Or.inr h5

theorem iterate_length {k : Nat} {kept : List Pt}
    (h : ∀ i < k, ((round lstsq p f order clip)^[i + 1] kept).length < ((round lstsq p f order clip)^[i] kept).length) :
    ∀ i ≤ k, ((round lstsq p f order clip)^[i] kept).length + i ≤ kept.length := by
  intro i
  induction i with
  | zero => intro _; simp
  | succ i ih =>
    intro hi
    have := ih (by omega)
    have := h i (by omega)
    omega

/-! ## The theorems about a fit -/

/-- C71: what `_fit_frequency` returns is the fit to the observations left by some rounds of clipping; each round removes from the observations
those further than `clip` times the scatter from the fit to what is there, and at least one; and the rounds end when a round removes nothing,
or after `max 1 max_clip_iterations` of them. If it returns None, then some number of rounds has left no more observations than parameters, or
observations whose weights do not add up to a positive number. -/
theorem C71_rounds (hp : p.Ok) (maxIterations : ℤ) :
    ∃ n ≤ (max 1 maxIterations).toNat,
      (∀ i < n, ((round lstsq p f order clip)^[i + 1] p.points).length < ((round lstsq p f order clip)^[i] p.points).length) ∧
      (∀ r, fitFrequency lstsq p f order clip maxIterations = some r → IsFit lstsq p f order ((round lstsq p f order clip)^[n] p.points) r ∧
        (n = (max 1 maxIterations).toNat ∨ (round lstsq p f order clip)^[n + 1] p.points = (round lstsq p f order clip)^[n] p.points)) ∧
      (fitFrequency lstsq p f order clip maxIterations = none → ((round lstsq p f order clip)^[n] p.points).length ≤ p.nFixed + 2 * order ∨
        p.weighted = true ∧ (((round lstsq p f order clip)^[n] p.points).map Pt.w).sum ≤ 0) := by
  unfold fitFrequency
  by_cases hn : p.points.length ≤ p.nFixed + 2 * order
  · rw [if_pos hn]
    exact ⟨0, Nat.zero_le _, fun i hi => by omega, (fun r hr => by cases hr), fun _ => Or.inl hn⟩
  · rw [if_neg hn]
    exact clipLoop_rounds hp _ _ fun q hq => hq

theorem round_sublist (kept : List Pt) : (round lstsq p f order clip kept).Sublist kept := by
  unfold round
  exact List.filter_sublist

theorem rounds_sublist (n : Nat) : ∀ kept : List Pt, ((round lstsq p f order clip)^[n] kept).Sublist kept := by
  induction n with
  | zero => intro kept; exact List.Sublist.refl _
  | succ n ih => intro kept; exact (ih _).trans (round_sublist kept)

/-- C71: the counts of a fit: every observation is fitted or clipped, there are more fitted observations than parameters, and the degrees of
freedom are the difference. -/
theorem C71_counts (hp : p.Ok) {maxIterations : ℤ} {r : Fit} (h : fitFrequency lstsq p f order clip maxIterations = some r) :
    r.frequency = f ∧ r.order = order ∧ r.nPar = p.nFixed + 2 * order ∧ r.nFit + r.nClipped = p.points.length ∧ r.nPar < r.nFit ∧
    r.df = (r.nFit : ℤ) - r.nPar ∧ 0 < r.df ∧ 0 ≤ r.sigma ∧ 0 ≤ r.rss := by
  obtain ⟨n, -, -, h1, -⟩ := C71_rounds (lstsq := lstsq) (f := f) (order := order) (clip := clip) hp maxIterations
  obtain ⟨h1, -⟩ := h1 r h
  have hs := rounds_sublist (lstsq := lstsq) (p := p) (f := f) (order := order) (clip := clip) n p.points
  have := h1.enough
  have h3 := hs.length_le
  have h4 := h1.nFit
  have h5 := h1.nClipped
  have h6 := h1.nPar
  have h7 := h1.df
  refine ⟨h1.frequency, h1.orderEq, h6, by omega, by omega, h7, by omega, ?_, ?_⟩
  · rw [h1.sigma]; exact Real.sqrt_nonneg _
  · rw [h1.rss]
    refine List.sum_nonneg fun x hx => ?_
    obtain ⟨q, hq, rfl⟩ := List.mem_map.1 hx
    exact mul_nonneg (hp.weights q (hs.subset hq)) (sq_nonneg _)

/-- C71: with a right solution of least squares, the coefficients minimise the weighted squares of the residuals of the observations that were
not clipped plus the penalties. -/
theorem C71_least (hl : LeastSquares lstsq) (hp : p.Ok) {maxIterations : ℤ} {r : Fit}
    (h : fitFrequency lstsq p f order clip maxIterations = some r) :
    ∃ kept : List Pt, kept.Sublist p.points ∧ kept.length = r.nFit ∧ r.coeffs.length = r.nPar ∧
      r.sigma = scatter p f order kept r.coeffs ∧
      ∀ x : List ℝ, x.length = r.nPar → objective p f order kept r.coeffs ≤ objective p f order kept x := by
  obtain ⟨n, -, -, h1, -⟩ := C71_rounds (lstsq := lstsq) (f := f) (order := order) (clip := clip) hp maxIterations
  obtain ⟨h1, -⟩ := h1 r h
  have hs := rounds_sublist (lstsq := lstsq) (p := p) (f := f) (order := order) (clip := clip) n p.points
  obtain ⟨h2, h3⟩ := solve_least (f := f) (order := order) hl hp fun q hq => hs.subset hq
  refine ⟨_, hs, h1.nFit.symm, ?_, h1.sigma, ?_⟩
  · rw [h1.coeffs, h1.nPar, h2]
  · rw [h1.coeffs, h1.nPar]
    exact h3

/-- C71: if there may be as many rounds as there are observations to spare, the fit is consistent: what was kept lies within `clip` times the
scatter of the final fit. -/
theorem C71_converged (hp : p.Ok) {maxIterations : ℤ} {r : Fit} (h : fitFrequency lstsq p f order clip maxIterations = some r)
    (hi : (p.points.length : ℤ) - r.nPar ≤ maxIterations) :
    ∃ kept : List Pt, kept.Sublist p.points ∧ IsFit lstsq p f order kept r ∧
      ∀ q ∈ kept, |q.y - modelMag p.nFixed f order r.coeffs q| ≤ clip * r.sigma := by
  obtain ⟨n, hn, h0, h1, -⟩ := C71_rounds (lstsq := lstsq) (f := f) (order := order) (clip := clip) hp maxIterations
  obtain ⟨h1, h2⟩ := h1 r h
  have hs := rounds_sublist (lstsq := lstsq) (p := p) (f := f) (order := order) (clip := clip) n p.points
  refine ⟨_, hs, h1, fun q hq => ?_⟩
  have hlen := iterate_length h0 n le_rfl
  have := h1.enough
  have h6 := h1.nPar
  rcases h2 with h2 | h2
  · exfalso
    have : (n : ℤ) = max 1 maxIterations := by
      rw [h2]
      exact Int.toNat_of_nonneg (by omega)
    omega
  · rw [Function.iterate_succ', Function.comp] at h2
    generalize (round lstsq p f order clip)^[n] p.points = kept at *
    rw [← h2] at hq
    unfold round at hq
    have := (List.mem_filter.1 hq).2
    rw [h1.sigma, h1.coeffs]
    exact of_decide_eq_true this

/-- C71: what was clipped had been further than `clip` times the scatter from a fit to observations among which were itself and all that were
kept. -/
theorem C71_clipped (hp : p.Ok) {maxIterations : ℤ} {r : Fit} (h : fitFrequency lstsq p f order clip maxIterations = some r) :
    ∃ kept : List Pt, kept.Sublist p.points ∧ IsFit lstsq p f order kept r ∧
      ∀ q ∈ p.points, q ∉ kept → ∃ stage : List Pt, kept.Sublist stage ∧ stage.Sublist p.points ∧ q ∈ stage ∧
        clip * scatter p f order stage (solve lstsq p f order stage) < |q.y - modelMag p.nFixed f order (solve lstsq p f order stage) q| := by
  obtain ⟨n, hn, h0, h1, -⟩ := C71_rounds (lstsq := lstsq) (f := f) (order := order) (clip := clip) hp maxIterations
  obtain ⟨h1, -⟩ := h1 r h
  refine ⟨_, rounds_sublist n p.points, h1, ?_⟩
  have key : ∀ (n : Nat) (start : List Pt), ∀ q ∈ start, q ∉ (round lstsq p f order clip)^[n] start → ∃ stage : List Pt,
      ((round lstsq p f order clip)^[n] start).Sublist stage ∧ stage.Sublist start ∧ q ∈ stage ∧
        clip * scatter p f order stage (solve lstsq p f order stage) < |q.y - modelMag p.nFixed f order (solve lstsq p f order stage) q| := by
    intro n
    induction n with
    | zero => intro start q hq hn; exact absurd hq hn
    | succ n ih =>
      intro start q hq hn
      by_cases hr : q ∈ round lstsq p f order clip start
      · obtain ⟨stage, h1, h2, h3⟩ := ih _ q hr hn
        exact ⟨stage, h1, h2.trans (round_sublist start), h3⟩
      · refine ⟨start, rounds_sublist (n + 1) start, List.Sublist.refl _, hq, ?_⟩
        by_contra hc
        refine hr ?_
        unfold round
        exact List.mem_filter.2 ⟨hq, decide_eq_true (not_lt.1 hc)⟩
  exact key n p.points

/-- C71: `_fit_frequency_unclipped` fits everything; it returns None exactly if there are no more observations than parameters or the weights
do not add up to a positive number. -/
theorem C71_unclipped (hp : p.Ok) :
    (∀ r, fitUnclipped lstsq p f order = some r → IsFit lstsq p f order p.points r ∧ r.nClipped = 0) ∧
    (fitUnclipped lstsq p f order = none ↔ p.points.length ≤ p.nFixed + 2 * order ∨ p.weighted = true ∧ (p.points.map Pt.w).sum ≤ 0) := by
  unfold fitUnclipped lastFit
  by_cases hn : p.points.length ≤ p.nFixed + 2 * order
  · rw [if_pos hn]
    exact ⟨(fun r h => by cases h), fun _ => Or.inl hn, fun _ => rfl⟩
  · rw [if_neg hn]
    refine ⟨fun r h => ?_, ?_⟩
    · obtain ⟨s, hs, rfl⟩ := Option.map_eq_some_iff.1 h
      exact ⟨isFit_result hp (fun q hq => hq) (by omega) hs, Nat.sub_self _⟩
    · rw [Option.map_eq_none_iff, sigmaOf_none]
      exact ⟨Or.inr, fun h => h.resolve_left hn⟩

/-- C71: with too few observations there is no fit. -/
theorem C71_few (maxIterations : ℤ) (h : p.points.length ≤ p.nFixed + 2 * order) : fitFrequency lstsq p f order clip maxIterations = none := by
  unfold fitFrequency
  rw [if_pos h]

/-- C71: weights that are all the same do not give the scatter of a fit without weights, if some observations have been clipped: it is larger by
the root of the number of observations over the number of those that were fitted. -/
theorem C71_equal_weights {kept : List Pt} {c : List ℝ} {w : ℝ} (hw : 0 < w) (hweights : p.weighted = true) (hk : ∀ q ∈ kept, q.w = w)
    (hn : kept ≠ []) : scatter p f order kept c = Real.sqrt ((p.points.length : ℝ) / kept.length) *
      Real.sqrt ((kept.map fun q => (q.y - modelMag p.nFixed f order c q) ^ 2).sum / ((kept.length : ℝ) - (p.nFixed + 2 * order))) := by
  have h1 : (kept.map Pt.w).sum = kept.length * w := by
    rw [List.map_congr_left hk]
    simp
  have h2 : (kept.map fun q => p.weight q * (q.y - modelMag p.nFixed f order c q) ^ 2).sum =
      w * (kept.map fun q => (q.y - modelMag p.nFixed f order c q) ^ 2).sum := by
    rw [← List.sum_map_mul_left]
    congr 1
    refine List.map_congr_left fun q hq => ?_
    rw [Problem.weight, if_pos hweights, hk q hq]
  unfold scatter
  rw [if_pos hweights, h1, h2, ← Real.sqrt_mul (div_nonneg (Nat.cast_nonneg _) (Nat.cast_nonneg _))]
  congr 1
  have : (0 : ℝ) < kept.length := by exact_mod_cast List.length_pos_iff.2 hn
  field_simp

/-! ## The order -/

/-- A fit of higher order that is significantly better, by the cumulative distribution function of the ratio of the variances. -/
def Better (cdf : ℝ → ℤ → ℤ → ℝ) (confidence : ℝ) (small large : Fit) : Prop :=
  small.nPar < large.nPar ∧ 0 < small.df ∧ 0 < large.df ∧ large.sigma ^ 2 < small.sigma ^ 2 ∧ 0 < large.sigma ^ 2 ∧
  confidence < cdf (small.sigma ^ 2 / large.sigma ^ 2) small.df large.df

theorem fTest_better {cdf : ℝ → ℤ → ℤ → ℝ} {confidence : ℝ} (hc : 0 ≤ confidence) (a b : Fit) :
    confidence < fTest cdf a b ↔ Better cdf confidence a b := by
  unfold fTest Better
  by_cases h1 : b.nPar ≤ a.nPar
  · rw [if_pos h1]
    exact ⟨fun h => absurd h (not_lt.2 hc), fun h => absurd h.1 (not_lt.2 h1)⟩
  rw [if_neg h1]
  by_cases h2 : a.df ≤ 0 ∨ b.df ≤ 0
  · rw [if_pos h2]
    exact ⟨fun h => absurd h (not_lt.2 hc), fun h => by omega⟩
  rw [if_neg h2]
  by_cases h3 : a.sigma ^ 2 ≤ b.sigma ^ 2 ∨ b.sigma ^ 2 ≤ 0
  · rw [if_pos h3]
    refine ⟨fun h => absurd h (not_lt.2 hc), fun h => ?_⟩
    rcases h3 with h3 | h3
    · exact absurd h.2.2.2.1 (not_lt.2 h3)
    · exact absurd h.2.2.2.2.1 (not_lt.2 h3)
  rw [if_neg h3]
  push Not at h1 h2 h3
  have : ¬ a.sigma ^ 2 / b.sigma ^ 2 ≤ 1 := by
    rw [not_le, lt_div_iff₀ h3.2, one_mul]
    exact h3.1
  rw [if_neg this]
  exact ⟨fun h => ⟨h1, h2.1, h2.2, h3.1, h3.2, h⟩, fun h => h.2.2.2.2.2⟩

theorem selectLoop_spec {cdf : ℝ → ℤ → ℤ → ℝ} {confidence : ℝ} (last : Fit) : ∀ l : List (Nat × Fit), l ≠ [] → l.Pairwise (fun a b => a.1 < b.1) →
    ∃ o, (o, selectLoop cdf confidence last l) ∈ l ∧
      (∀ c ∈ l, o < c.1 → ¬ confidence < fTest cdf (selectLoop cdf confidence last l) c.2) ∧
      ∀ c ∈ l, c.1 < o → ∃ d ∈ l, c.1 < d.1 ∧ confidence < fTest cdf c.2 d.2 := by
  intro l
  induction l with
  | nil => intro h; exact absurd rfl h
  | cons c l ih =>
    intro _ hs
    rw [List.pairwise_cons] at hs
    unfold selectLoop
    by_cases h : (l.any fun h => decide (confidence < fTest cdf c.2 h.2)) = true
    · rw [if_pos h]
      obtain ⟨d, hd, hd'⟩ := List.any_eq_true.1 h
      obtain ⟨o, h1, h2, h3⟩ := ih (List.ne_nil_of_mem hd) hs.2
      have hco := hs.1 _ h1
      refine ⟨o, List.mem_cons_of_mem _ h1, fun e he hoe => ?_, fun e he hoe => ?_⟩
      · rcases List.mem_cons.1 he with rfl | he
        · exact absurd hoe (by simp only at hco; omega)
        · exact h2 e he hoe
      · rcases List.mem_cons.1 he with rfl | he
        · exact ⟨d, List.mem_cons_of_mem _ hd, hs.1 d hd, of_decide_eq_true hd'⟩
        · obtain ⟨d, hd, h4⟩ := h3 e he hoe
          exact ⟨d, List.mem_cons_of_mem _ hd, h4⟩
    · rw [if_neg h]
      refine ⟨c.1, by simp, fun e he hoe => ?_, fun e he hoe => ?_⟩
      · rcases List.mem_cons.1 he with rfl | he
        · exact absurd hoe (lt_irrefl _)
        · intro hlt
          exact h (List.any_eq_true.2 ⟨e, he, decide_eq_true hlt⟩)
      · rcases List.mem_cons.1 he with rfl | he
        · exact absurd hoe (lt_irrefl _)
        · exact absurd (hs.1 e he) (by omega)

/-- C71: the order that is chosen is the smallest to which no higher order is significantly better. -/
theorem C71_select {cdf : ℝ → ℤ → ℤ → ℝ} {confidence : ℝ} (hc : 0 ≤ confidence) {candidates : List (Nat × Fit)}
    (hn : (candidates.map Prod.fst).Nodup) :
    (selectOrder cdf candidates confidence = .error .indexError ↔ candidates = []) ∧
    (candidates ≠ [] → ∃ o r, selectOrder cdf candidates confidence = .ok r ∧ (o, r) ∈ candidates ∧
      (∀ c ∈ candidates, o < c.1 → ¬ Better cdf confidence r c.2) ∧
      ∀ c ∈ candidates, c.1 < o → ∃ d ∈ candidates, c.1 < d.1 ∧ Better cdf confidence c.2 d.2) := by
  have hperm := sortBy_perm (key := Prod.fst) candidates
  unfold selectOrder
  constructor
  · constructor
    · intro h
      cases hl : (sortBy Prod.fst candidates).getLast? with
      | none =>
        rw [List.getLast?_eq_none_iff] at hl
        rw [hl] at hperm
        exact hperm.symm.eq_nil
      | some l => simp only [hl] at h; cases h
    · rintro rfl
      rfl
  · intro hne
    have hne' : sortBy Prod.fst candidates ≠ [] := fun h => hne (by rw [h] at hperm; exact hperm.symm.eq_nil)
    have hs : (sortBy Prod.fst candidates).Pairwise (fun a b => a.1 < b.1) := by
      have h1 : ((sortBy Prod.fst candidates).map Prod.fst).Nodup := (hperm.map Prod.fst).nodup_iff.2 hn
      have h2 := sortBy_sorted (key := Prod.fst) candidates
      rw [List.nodup_iff_pairwise_ne, List.pairwise_map] at h1
      exact (h1.and h2).imp fun h => lt_of_le_of_ne h.2 h.1
    obtain ⟨o, h1, h2, h3⟩ := selectLoop_spec (cdf := cdf) (confidence := confidence)
      (((sortBy Prod.fst candidates).getLast hne').2) _ hne' hs
    refine ⟨o, _, ?_, hperm.mem_iff.1 h1, fun c hc' ho => ?_, fun c hc' ho => ?_⟩
    · simp only [List.getLast?_eq_some_getLast hne']
    · rw [← fTest_better hc]
      exact h2 c (hperm.mem_iff.2 hc') ho
    · obtain ⟨d, hd, h4, h5⟩ := h3 c (hperm.mem_iff.2 hc') ho
      exact ⟨d, hperm.mem_iff.1 hd, h4, (fTest_better hc _ _).1 h5⟩

/-- C71: not so that a higher order that fits exactly is taken: a fit without any scatter never counts as better, whatever the confidence. -/
theorem C71_exact_false {cdf : ℝ → ℤ → ℤ → ℝ} {confidence : ℝ} (hc : 0 ≤ confidence) {a b : Fit} (hb : b.sigma = 0) {m n : Nat} (hmn : m < n) :
    selectOrder cdf [(m, a), (n, b)] confidence = .ok a := by
  obtain ⟨-, h⟩ := C71_select (cdf := cdf) hc (candidates := [(m, a), (n, b)]) (by simp [hmn.ne])
  obtain ⟨o, r, h1, h2, h3, h4⟩ := h (by simp)
  rw [h1]
  simp only [List.mem_cons, Prod.mk.injEq, List.not_mem_nil, or_false] at h2
  rcases h2 with ⟨rfl, rfl⟩ | ⟨rfl, rfl⟩
  · rfl
  · obtain ⟨d, hd, hmd, hbet⟩ := h4 (m, a) (by simp) hmn
    simp only [List.mem_cons, List.not_mem_nil, or_false] at hd
    rcases hd with rfl | rfl
    · exact absurd hmd (lt_irrefl _)
    · have := hbet.2.2.2.2.1
      rw [hb] at this
      norm_num at this

end Verif.Rot.Props
