import Verif.Od.Lemmas

/-! # Differential correction: the properties -/

namespace Verif.Od.Props

open Verif Spec

set_option linter.unusedSectionVars false

section
variable {O R N V : Type} [DecidableEq N]

/-- In exact arithmetic the budget is the largest integer `m` with `num_obs - m ≥ min_obs` and
`m ≤ num_obs * percentage / 100`; it is not negative. Too few observations or a percentage outside 0 to 100 fail the
assertion. -/
theorem C54_budget (n k : Int) (pct : ℚ) :
    (¬ (k ≤ n ∧ 0 ≤ pct ∧ pct ≤ 100) ↔ maxOutliers id n k pct = .error .assertionError) ∧
    (k ≤ n → 0 ≤ pct → pct ≤ 100 → 0 ≤ n → ∃ m, maxOutliers id n k pct = .ok m ∧ 0 ≤ m ∧
      ∀ j : Int, (j ≤ m ↔ k ≤ n - j ∧ (j : ℚ) ≤ n * pct / 100)) := by
  constructor
  · unfold maxOutliers
    constructor
    · intro h
      split
      · rfl
      · split
        · rfl
        · rename_i h1 h2
          exact absurd ⟨by omega, not_not.mp h2⟩ h
    · intro h hc
      rw [if_neg (by omega), if_neg (by tauto)] at h
      cases h
  · intro h1 h2 h3 h0
    refine ⟨_, by unfold maxOutliers; rw [if_neg (by omega), if_neg (by tauto)], ?_, ?_⟩
    · rw [Int.floor_nonneg]
      apply le_min
      · exact mul_nonneg (by exact_mod_cast h0) (div_nonneg h2 (by norm_num))
      · exact_mod_cast (by omega : 0 ≤ n - k)
    · intro j
      rw [Int.le_floor, le_min_iff]
      simp only [id]
      rw [mul_div_assoc, and_comm]
      refine and_congr_left fun _ => ?_
      rw [show ((j : ℚ) ≤ ((n - k : Int) : ℚ)) ↔ j ≤ n - k by norm_cast]
      omega

/-- With float64 rounding the budget still leaves `min_obs` observations and is not negative. -/
theorem C54_float_safe (n k : Int) (pct : ℚ) (m : Int) (h0 : 0 ≤ n) (h : maxOutliers F64.fl n k pct = .ok m) :
    0 ≤ m ∧ k ≤ n - m := by
  unfold maxOutliers at h
  split at h
  · cases h
  · split at h
    · cases h
    · rename_i h1 h2
      rw [not_not] at h2
      cases h
      constructor
      · rw [Int.floor_nonneg]
        apply le_min
        · exact F64.fl_nonneg (mul_nonneg (by exact_mod_cast h0) (F64.fl_nonneg (div_nonneg h2.1 (by norm_num))))
        · exact_mod_cast (by omega : 0 ≤ n - k)
      · have : ⌊min (F64.fl (n * F64.fl (pct / 100))) ((n - k : Int) : ℚ)⌋ ≤ n - k := by
          have := Int.floor_le_floor (min_le_right (F64.fl (n * F64.fl (pct / 100))) ((n - k : Int) : ℚ))
          rwa [Int.floor_intCast] at this
        omega

/-- With float64 rounding it is not the largest such integer: 29 percent of 100 observations yields 28. -/
theorem C54_largest_false :
    ¬ ∀ (n k : Int) (pct : ℚ) (m : Int), maxOutliers F64.fl n k pct = .ok m → k ≤ n - (m + 1) →
      (n * pct / 100 : ℚ) < m + 1 := by
  intro h
  have := h 100 6 29 28 (by decide +kernel) (by decide)
  norm_num at this

/-- The product of `calculate_max_outliers` in float64, against the exact one. -/
theorem product_near {n : Int} (h0 : 0 ≤ n) (h1 : n ≤ 1099511627776) {pct : ℚ} (hp : 0 ≤ pct ∧ pct ≤ 100) :
    |F64.fl (n * F64.fl (pct / 100)) - n * pct / 100| < 1 / 100 := by
  have hn : (0 : ℚ) ≤ n := by exact_mod_cast h0
  have hn' : (n : ℚ) ≤ 1099511627776 := by exact_mod_cast h1
  have hc : 0 ≤ pct / 100 := by linarith [hp.1]
  have hc' : pct / 100 ≤ 1 := by linarith [hp.2]
  have e1 := F64.fl_error (pct / 100)
  rw [abs_of_nonneg hc] at e1
  have e1 : |F64.fl (pct / 100) - pct / 100| ≤ 1 / 2 ^ 53 := e1.trans (by gcongr)
  have f0 : 0 ≤ F64.fl (pct / 100) := F64.fl_nonneg hc
  obtain ⟨l1, u1⟩ := abs_le.mp e1
  have f1 : F64.fl (pct / 100) ≤ 2 := by
    have : (1 : ℚ) / 2 ^ 53 ≤ 1 := by norm_num
    linarith
  generalize F64.fl (pct / 100) = c at *
  have e2 := F64.fl_error (n * c)
  rw [abs_of_nonneg (mul_nonneg hn f0)] at e2
  have hx : (n : ℚ) * c ≤ 1099511627776 * 2 := mul_le_mul hn' f1 f0 (by norm_num)
  have e2 : |F64.fl (n * c) - n * c| ≤ 1 / 1024 := e2.trans (by
    rw [div_le_div_iff₀ (by norm_num) (by norm_num)]
    norm_num
    linarith)
  have e3 : |(n : ℚ) * c - n * pct / 100| ≤ 1 / 1024 := by
    have : (n : ℚ) * c - n * pct / 100 = n * (c - pct / 100) := by ring
    rw [this, abs_mul, abs_of_nonneg hn]
    calc (n : ℚ) * |c - pct / 100| ≤ 1099511627776 * (1 / 2 ^ 53) := mul_le_mul hn' e1 (abs_nonneg _) (by norm_num)
      _ ≤ 1 / 1024 := by norm_num
  calc |F64.fl (n * c) - n * pct / 100| ≤ |F64.fl (n * c) - n * c| + |n * c - n * pct / 100| := abs_sub_le _ _ _
    _ ≤ 1 / 1024 + 1 / 1024 := add_le_add e2 e3
    _ < 1 / 100 := by norm_num

/-- With float64 rounding the budget is at most one off. For a whole percentage it is never above the exact one, and below
it only if the percentage of the observations is a whole number. -/
theorem C54_float_near (n k : Int) (pct : ℚ) (m m' : Int) (h0 : 0 ≤ n) (h1 : n ≤ 1099511627776)
    (h : maxOutliers F64.fl n k pct = .ok m) (h' : maxOutliers id n k pct = .ok m') :
    |m - m'| ≤ 1 ∧ ∀ p : Int, pct = p → m ≤ m' ∧ (¬ (100 : Int) ∣ n * p → m = m') := by
  unfold maxOutliers at h h'
  split at h
  · cases h
  · split at h
    · cases h
    · rename_i g1 g2
      rw [not_not] at g2
      rw [if_neg g1, if_neg (not_not.mpr g2)] at h'
      have hnear := product_near h0 h1 g2
      injection h with h
      injection h' with h'
      simp only [id] at h'
      rw [← mul_div_assoc] at h'
      generalize F64.fl (n * F64.fl (pct / 100)) = x at *
      obtain ⟨l, u⟩ := abs_lt.mp hnear
      have hm1 : (m : ℚ) ≤ min x ((n - k : Int) : ℚ) := h ▸ Int.floor_le _
      have hm2 : min x ((n - k : Int) : ℚ) < m + 1 := h ▸ Int.lt_floor_add_one _
      have hm3 : (m' : ℚ) ≤ min (n * pct / 100) ((n - k : Int) : ℚ) := h' ▸ Int.floor_le _
      have hm4 : min (n * pct / 100) ((n - k : Int) : ℚ) < m' + 1 := h' ▸ Int.lt_floor_add_one _
      obtain ⟨a1, a2⟩ := le_min_iff.mp hm1
      obtain ⟨a3, a4⟩ := le_min_iff.mp hm3
      refine ⟨?_, ?_⟩
      · rw [abs_le]
        constructor
        · have : (m' : ℚ) - 1 ≤ min x ((n - k : Int) : ℚ) := le_min (by linarith) (by linarith)
          have : (m' : ℚ) < ((m + 2 : Int) : ℚ) := by push_cast; linarith
          have := Int.cast_lt.mp this
          omega
        · have : (m : ℚ) - 1 ≤ min (n * pct / 100) ((n - k : Int) : ℚ) := le_min (by linarith) (by linarith)
          have : (m : ℚ) < ((m' + 2 : Int) : ℚ) := by push_cast; linarith
          have := Int.cast_lt.mp this
          omega
      · intro p hp
        subst hp
        have hle : m ≤ m' := by
          have hz : ((100 * m : Int) : ℚ) < ((n * p + 1 : Int) : ℚ) := by push_cast; linarith
          have hz := Int.cast_lt.mp hz
          have hz : ((100 * m : Int) : ℚ) ≤ ((n * p : Int) : ℚ) := Int.cast_le.mpr (by omega)
          push_cast at hz
          have : (m : ℚ) ≤ min ((n : ℚ) * p / 100) ((n - k : Int) : ℚ) := le_min (by linarith) a2
          have : (m : ℚ) < ((m' + 1 : Int) : ℚ) := by push_cast; linarith
          have := Int.cast_lt.mp this
          omega
        refine ⟨hle, fun hd => le_antisymm hle ?_⟩
        have hz : ((100 * m' : Int) : ℚ) ≤ ((n * p : Int) : ℚ) := by push_cast; linarith
        have hz := Int.cast_le.mp hz
        have hne : 100 * m' ≠ n * p := fun e => hd ⟨m', e.symm⟩
        have hz : ((100 * m' + 1 : Int) : ℚ) ≤ ((n * p : Int) : ℚ) := Int.cast_le.mpr (by omega)
        push_cast at hz
        have : (m' : ℚ) ≤ min x ((n - k : Int) : ℚ) := le_min (by linarith) a4
        have : (m' : ℚ) < ((m + 1 : Int) : ℚ) := by push_cast; linarith
        have := Int.cast_lt.mp this
        omega

/-- For other percentages float64 may allow one observation too many: 29.999999999999996 percent of 10 are 3. -/
theorem C54_above_false :
    maxOutliers F64.fl 10 6 (30 - 1 / 2 ^ 48) = .ok 3 ∧ maxOutliers id 10 6 (30 - 1 / 2 ^ 48) = .ok 2 ∧
    F64.fl (30 - 1 / 2 ^ 48) = 30 - 1 / 2 ^ 48 := by
  decide +kernel

/-- A whole percentage with a remainder, and one without. -/
example : maxOutliers F64.fl 10 6 25 = .ok 2 ∧ maxOutliers id 10 6 25 = .ok 2 ∧ maxOutliers F64.fl 10 6 20 = .ok 2 := by
  decide +kernel

/-- 29 percent of 100 observations, at least 6 to be left. -/
example : maxOutliers id 100 6 29 = .ok 29 ∧ maxOutliers id 10 6 90 = .ok 4 ∧
    maxOutliers id 5 6 0 = .error .assertionError := by
  decide +kernel

/-- Whenever a fit is returned it is acceptable: thresholds, arc, number of observations and outlier budget are met, the
flags are complementary, the statistics are those of the observations kept, and the number of iterations is bounded;
for every sequence of answers of the numerical part. -/
theorem C53_accepted (fl : ℚ → ℚ) (minObs : Int) (pct : ℚ) (base : Ctx O R N V) (oracle : Nat → Option (Cand O R))
    (hf : FloatOrder base.lt base.le) (hw : WellFormed base oracle) (fit : Fit O R V) (members : List (Member N))
    (h : od fl minObs pct base oracle = .ok (some (fit, members))) :
    ∃ budget : Int, maxOutliers fl base.obs.length minObs pct = .ok budget ∧
      (0 ≤ budget → Acceptable base oracle minObs budget.toNat fit members) := by
  unfold od at h
  simp only at h
  split at h
  · cases h
  · cases hm : maxOutliers fl base.obs.length minObs pct with
    | error e => rw [hm] at h; cases h
    | ok m =>
      rw [hm] at h
      simp only at h
      refine ⟨m, rfl, fun hm0 => ?_⟩
      have hmle : m ≤ base.obs.length - minObs := by
        unfold maxOutliers at hm
        split at hm
        · cases hm
        · split at hm
          · cases hm
          · cases hm
            have := Int.floor_le_floor (min_le_right (fl ((base.obs.length : Int) * fl (pct / 100)))
              (((base.obs.length : Int) - minObs : Int) : ℚ))
            rwa [Int.floor_intCast] at this
      generalize hc : ({ base with maxOut := m.toNat } : Ctx O R N V) = c at h
      have hobs : base.obs = c.obs := by rw [← hc]
      have hmo : c.maxOut = m.toNat := by rw [← hc]
      have hmi : c.maxIter = base.maxIter := by rw [← hc]
      rw [← hmi] at h
      cases hl : loop c oracle (c.maxIter * (m.toNat + 1)) (start c) with
      | error e => rw [hl] at h; cases h
      | ok s =>
        rw [hl] at h
        simp only at h
        have hf' : FloatOrder c.lt c.le := by rw [← hc]; exact hf
        have hinv : Inv c (c.maxIter * (m.toNat + 1)) (start c) :=
          ⟨(worst_zero c).symm, rfl, Or.inl (Nat.zero_le _), fun h0 => Or.inl (by
            show c.maxIter = _
            have : c.maxOut = 0 := h0.symm
            rw [this]; omega), (fun h => by cases h), (fun _ => rfl), by
            show 0 + _ = _
            rw [hmo]; omega⟩
        have hspec := loop_spec c hf' oracle _ (start c) hinv s hl
        unfold finish at h
        split at h
        · cases h
        · rename_i hff
          have hfound : s.found = true := by
            cases hb : s.found
            · rw [hb] at hff; simp at hff
            · rfl
          rcases hspec with hn | hcv
          · rw [hn] at hfound; cases hfound
          · cases he : extent (masked c s.removed (c.obs.map Obs.mjd)) with
            | none => rw [he] at h; cases h
            | some arc =>
              rw [he] at h
              simp only at h
              split at h
              · cases h
              · rename_i harc
                rw [ne_eq, not_not] at harc
                simp only [Except.ok.injEq, Option.some.injEq, Prod.mk.injEq] at h
                obtain ⟨rfl, rfl⟩ := h
                have hids : (c.obs.map Obs.id).Nodup := by rw [← hobs]; exact hw.ids
                have hord : c.order.Perm (List.range c.obs.length) := by rw [← hc]; exact hw.order
                have hrn : s.removed.Nodup := by rw [hcv.removed]; exact worst_nodup c hids hord _
                have hrs : ∀ x ∈ s.removed, x ∈ c.obs.map Obs.id := by rw [hcv.removed]; exact worst_ids c _
                have hrl : s.removed.length ≤ m.toNat := by
                  rw [hcv.removed, ← hmo]
                  exact (worst_length c _).trans hcv.tried
                have hct : count (c.obs.map fun o => (⟨o.id, !decide (o.id ∈ s.removed), decide (o.id ∈ s.removed)⟩ : Member N))
                    true = s.removed.length := by
                  unfold count
                  rw [List.filter_map, List.length_map, ← count_removed _ _ hids hrn hrs, List.filter_map, List.length_map]
                  congr 2
                  funext o
                  simp
                have hcf : (count (c.obs.map fun o => (⟨o.id, !decide (o.id ∈ s.removed), decide (o.id ∈ s.removed)⟩ : Member N))
                    false : Int) = numObs c s.removed := by
                  have := filter_length_add (c.obs.map fun o =>
                    (⟨o.id, !decide (o.id ∈ s.removed), decide (o.id ∈ s.removed)⟩ : Member N)) fun x => x.outlier == true
                  rw [List.length_map] at this
                  unfold count at hct ⊢
                  rw [hct] at this
                  unfold numObs
                  have e : ∀ x : Member N, (x.outlier == false) = !(x.outlier == true) := by
                    intro x; cases x.outlier <;> rfl
                  simp only [e]
                  omega
                have hzip : ∀ {α : Type} (col : List α), masked c s.removed col =
                    ((((c.obs.map fun o => (⟨o.id, !decide (o.id ∈ s.removed), decide (o.id ∈ s.removed)⟩ : Member N)).zip
                      col).filter fun p => !p.1.outlier).map Prod.snd) := by
                  intro α col
                  unfold masked
                  rw [List.zip_map_left, List.zip_map_left, List.filter_map, List.filter_map, List.map_map, List.map_map]
                  rfl
                obtain ⟨x, hx1, hx2, hx3, hx4⟩ := hcv.cand
                have hzz : ∀ o : Obs N, o ∈ c.obs → (o, (⟨o.id, !decide (o.id ∈ s.removed),
                    decide (o.id ∈ s.removed)⟩ : Member N)) ∈ c.obs.zip (c.obs.map fun o =>
                      (⟨o.id, !decide (o.id ∈ s.removed), decide (o.id ∈ s.removed)⟩ : Member N)) := by
                  intro o ho
                  obtain ⟨i, hi, rfl⟩ := List.getElem_of_mem ho
                  refine List.mem_iff_getElem.mpr ⟨i, by simpa using hi, ?_⟩
                  simp
                have hzz' : ∀ p ∈ c.obs.zip (c.obs.map fun o =>
                      (⟨o.id, !decide (o.id ∈ s.removed), decide (o.id ∈ s.removed)⟩ : Member N)),
                    p.1 ∈ c.obs ∧ p.2.outlier = decide (p.1.id ∈ s.removed) := by
                  intro p hp
                  obtain ⟨i, hi, rfl⟩ := List.mem_iff_getElem.mp hp
                  simp
                have hmk : ∀ t, t ∈ masked c s.removed (c.obs.map Obs.mjd) ↔
                    ∃ o ∈ c.obs, o.id ∉ s.removed ∧ o.mjd = t := by
                  intro t
                  unfold masked
                  rw [List.zip_map']
                  simp only [List.mem_map, List.mem_filter, Bool.not_eq_true', decide_eq_false_iff_not, Prod.exists,
                    Prod.mk.injEq]
                  constructor
                  · rintro ⟨a, b, ⟨⟨o, ho, rfl, rfl⟩, hn⟩, rfl⟩
                    exact ⟨o, ho, hn, rfl⟩
                  · rintro ⟨o, ho, hn, rfl⟩
                    exact ⟨_, _, ⟨⟨o, ho, rfl, rfl⟩, hn⟩, rfl⟩
                refine ⟨?_, ?_, ⟨x, hx1, hx2, hx3, ?_⟩, ?_, ?_, hcf.symm, ?_, ?_, ?_, ?_, ?_, ?_, ?_⟩
                · rw [hobs, List.map_map]; rfl
                · intro y hy
                  obtain ⟨o, _, rfl⟩ := List.mem_map.mp hy
                  rfl
                · simp only
                  rw [hx4, hzip]
                · have := hcv.reduced
                  rw [← hc] at this
                  rw [← hc]
                  exact this
                · have := hcv.threshold
                  rw [← hc] at this
                  exact this
                · have : (c.obs.length : Int) = base.obs.length := by rw [hobs]
                  rw [hcf]
                  unfold numObs
                  omega
                · rw [hct]; exact hrl
                · obtain ⟨lo, hlo, hi, hhi, e, hall⟩ := extent_some he
                  obtain ⟨a, ha, han, rfl⟩ := (hmk lo).mp hlo
                  obtain ⟨b, hb, hbn, rfl⟩ := (hmk hi).mp hhi
                  rw [hobs]
                  refine ⟨_, hzz a ha, _, hzz b hb, by simpa using han, by simpa using hbn, e, ?_⟩
                  intro p hp hpo
                  obtain ⟨h1, h2⟩ := hzz' p hp
                  rw [h2] at hpo
                  exact hall _ ((hmk _).mpr ⟨p.1, h1, by simpa using hpo, rfl⟩)
                · have h1 := hcv.long
                  rw [harc] at h1
                  rw [← hc] at h1
                  exact h1
                · intro p hp q hq hpo hqo
                  obtain ⟨i, hi, rfl⟩ := List.mem_iff_getElem.mp hp
                  obtain ⟨j, hj, rfl⟩ := List.mem_iff_getElem.mp hq
                  simp only [List.getElem_zip, List.getElem_map, decide_eq_true_eq, decide_eq_false_iff_not] at hpo hqo ⊢
                  have hil : i < c.obs.length ∧ i < base.chi0.length := by simpa using hi
                  have hjl : j < c.obs.length ∧ j < base.chi0.length := by simpa using hj
                  have hwm : ∀ (i : Nat) (o : Obs N), c.obs[i]? = some o →
                      (o.id ∈ s.removed ↔ i ∈ c.order.drop (c.order.length - s.tried)) := by
                    rw [hcv.removed]; exact worst_mem c hids _
                  rw [hwm i _ (List.getElem?_eq_getElem hil.1)] at hpo
                  rw [hwm j _ (List.getElem?_eq_getElem hjl.1)] at hqo
                  have hjm : j ∈ c.order := hord.mem_iff.mpr (List.mem_range.mpr hjl.1)
                  rw [← List.take_append_drop (c.order.length - s.tried) c.order, List.mem_append] at hjm
                  have hso : c.order.Pairwise fun i j => base.chi0.getD i 0 ≤ base.chi0.getD j 0 := by
                    rw [← hc]; exact hw.sorted
                  rw [← List.take_append_drop (c.order.length - s.tried) c.order, List.pairwise_append] at hso
                  have := hso.2.2 j (hjm.resolve_right hqo) i hpo
                  simpa [hil.2, hjl.2] using this
                · have := hcv.bounded
                  rw [hmo, hmi] at this
                  exact this
                · have := hcv.improved
                  rw [← hc] at this
                  exact this

/-- In exact arithmetic the outliers are at most the allowed percentage of the observations. -/
theorem C53_percentage (minObs : Int) (pct : ℚ) (base : Ctx O R N V) (oracle : Nat → Option (Cand O R))
    (hf : FloatOrder base.lt base.le) (hw : WellFormed base oracle) (fit : Fit O R V) (members : List (Member N))
    (h : od id minObs pct base oracle = .ok (some (fit, members))) :
    (count members true : ℚ) ≤ base.obs.length * pct / 100 := by
  obtain ⟨m, hm, hacc⟩ := C53_accepted id minObs pct base oracle hf hw fit members h
  by_cases hb : minObs ≤ (base.obs.length : Int) ∧ 0 ≤ pct ∧ pct ≤ 100
  · obtain ⟨m', hm', h0, hmax⟩ := (C54_budget base.obs.length minObs pct).2 hb.1 hb.2.1 hb.2.2 (by omega)
    rw [hm] at hm'
    cases hm'
    have h1 := ((hmax m).mp (le_refl _)).2
    have h2 : (count members true : Int) ≤ m := by
      have := (hacc h0).outliers
      omega
    have h3 : (count members true : ℚ) ≤ m := by exact_mod_cast h2
    push_cast at h1
    linarith
  · rw [(C54_budget base.obs.length minObs pct).1.mp hb] at hm
    cases hm

/-- Too few observations give empty tables, whatever the numerical part would answer; a fit is never returned then. -/
theorem C53_too_few (fl : ℚ → ℚ) (minObs : Int) (pct : ℚ) (base : Ctx O R N V) (oracle : Nat → Option (Cand O R))
    (h : (base.obs.length : Int) < minObs) : od fl minObs pct base oracle = .ok none := by
  unfold od
  simp only
  rw [if_pos h]

/-- While all observations are kept and the orbit is still the input orbit, the normal equations are those of the
current orbit. -/
theorem C84_normal {P W B : Type} (partials : List P) (sigmas : List W) (current : List B)
    (h1 : sigmas.length = partials.length) (h2 : current.length = partials.length) :
    normalTerms (partials.map fun _ => true) partials sigmas current =
      OwnTerms (partials.map fun _ => true) partials sigmas current := by
  have hz : ∀ {α β : Type} (l : List α) (m : List β), l.length = m.length →
      ((l.zip (m.map fun _ => true)).filter Prod.snd).map Prod.fst = l := by
    intro α β l
    induction l with
    | nil => intros; rfl
    | cons a l ih =>
      intro m hm
      cases m with
      | nil => cases hm
      | cons b m => simpa using ih m (by simpa using hm)
  unfold normalTerms OwnTerms
  simp only
  rw [hz _ _ rfl, hz _ _ (by simp [h1, h2])]

end

/-- After an observation has been removed, the partials of the others meet the weights and residuals of their
predecessors. -/
theorem C84_removed_false :
    ¬ ∀ (keep : List Bool) (partials sigmas current : List Nat), keep.length = partials.length →
      sigmas.length = partials.length → current.length = partials.length →
      normalTerms keep partials sigmas current = OwnTerms keep partials sigmas current := by
  intro h
  exact absurd (h [false, true, true] [1, 2, 3] [1, 2, 3] [1, 2, 3] rfl rfl rfl) (by decide)

/-- After a step has been accepted the residuals used are still those of the input orbit. -/
theorem C84_stale_false :
    ¬ ∀ (keep : List Bool) (partials sigmas input current : List Nat), keep.length = partials.length →
      sigmas.length = partials.length → input.length = partials.length → current.length = partials.length →
      normalTerms keep partials sigmas input = OwnTerms keep partials sigmas current := by
  intro h
  exact absurd (h [true] [1] [1] [5] [2] rfl rfl rfl rfl) (by decide)

/-- A context with seven observations, one of them far off. -/
def ex : Ctx Nat Nat Nat ℚ where
  lt a b := decide (a < b)
  le a b := decide (a ≤ b)
  div a n := a / n
  obs := [⟨1, 0⟩, ⟨2, 1⟩, ⟨3, 2⟩, ⟨4, 3⟩, ⟨5, 4⟩, ⟨6, 5⟩, ⟨7, 6⟩]
  ephTimes := [0, 1, 2, 3, 4, 5, 6]
  orbit0 := 0
  resid0 := 0
  chi0 := [1, 2, 3, 50, 5, 6, 7]
  order := [0, 1, 2, 4, 5, 6, 3]
  maxIter := 2
  maxOut := 0
  minArc := 1
  threshold := 1

/-- Iterations 1 and 2 find nothing better than the threshold, 3 leads to the removal, 4 succeeds. -/
def exOracle : Nat → Option (Cand Nat Nat)
  | 1 => some ⟨11, 11, [1, 1, 1, 20, 1, 1, 1]⟩
  | 2 => none
  | 3 => some ⟨13, 13, [1, 1, 1, 30, 1, 1, 1]⟩
  | 4 => some ⟨14, 14, [1, 1, 1, 90, 1, 1, 1]⟩
  | _ => none

/-- The example is well formed and yields a fit with the fourth observation as outlier. -/
example : FloatOrder ex.lt ex.le ∧ WellFormed ex exOracle ∧
    (match od id 5 20 ex exOracle with
      | .ok (some (f, ms)) => some ((f.orbit, f.numObs, decide (f.rchi2 = 1), f.iterations), ms.map fun m => (m.obs, m.outlier))
      | _ => none) = some ((14, 6, true, 4),
        [(1, false), (2, false), (3, false), (4, true), (5, false), (6, false), (7, false)]) := by
  refine ⟨⟨fun x y _ => decide_eq_true (le_refl y), fun x y z h1 h2 => ?_⟩, ⟨by decide, rfl, rfl, ?_, ?_, ?_⟩, ?_⟩
  · have a := of_decide_eq_true h1
    have b := of_decide_eq_true h2
    exact decide_eq_true (a.le.trans b)
  · decide
  · decide +kernel
  · intro n x h
    unfold exOracle at h
    split at h <;> first | (cases h; rfl) | cases h
  · decide +kernel

end Verif.Od.Props
