import Verif.Vendor.Model
import Verif.Band.Props

/-! # Templates and their integrals: the properties -/

set_option linter.unusedSectionVars false

namespace Verif.Vendor.Props

open Verif Sched Band Band.Spec Band.Props

variable {K : Type} [Field K] [LinearOrder K] [IsStrictOrderedRing K]

/-! ### interpolation -/

theorem interpFrom_between {m M x : K} : ∀ (p : K × K) (l : Curve K), m ≤ p.2 → p.2 ≤ M → (∀ q ∈ l, m ≤ q.2 ∧ q.2 ≤ M) →
    (p :: l).Pairwise (fun a b => a.1 < b.1) → p.1 ≤ x → (x ≤ p.1 ∨ ∃ q ∈ l, x ≤ q.1) →
    m ≤ interpFrom p l x ∧ interpFrom p l x ≤ M
  | p, [], h1, h2, _, _, _, h => by
    simp only [interpFrom]
    rw [if_neg]
    · exact ⟨h1, h2⟩
    · simpa using h
  | p, q :: l, h1, h2, hl, hs, hx, h => by
    simp only [interpFrom]
    have hpq := (List.pairwise_cons.mp hs).1 q (by simp)
    have hq := hl q (by simp)
    split
    · rename_i hxq
      have hd : 0 < q.1 - p.1 := sub_pos.mpr hpq
      have e : (q.2 - p.2) / (q.1 - p.1) * (x - p.1) + p.2 = (q.2 * (x - p.1) + p.2 * (q.1 - x)) / (q.1 - p.1) := by
        field_simp
        ring
      have hx1 : 0 ≤ x - p.1 := sub_nonneg.mpr hx
      have hx2 : 0 ≤ q.1 - x := sub_nonneg.mpr hxq.le
      rw [e, le_div_iff₀ hd, div_le_iff₀ hd]
      constructor
      · nlinarith [mul_le_mul_of_nonneg_right hq.1 hx1, mul_le_mul_of_nonneg_right h1 hx2]
      · nlinarith [mul_le_mul_of_nonneg_right hq.2 hx1, mul_le_mul_of_nonneg_right h2 hx2]
    · rename_i hxq
      refine interpFrom_between q l hq.1 hq.2 (fun r hr => hl r (List.mem_cons_of_mem _ hr)) (List.pairwise_cons.mp hs).2
        (not_lt.mp hxq) ?_
      rcases h with h | ⟨r, hr, h⟩
      · exact Or.inl (h.trans hpq.le)
      · rcases List.mem_cons.mp hr with rfl | hr
        · exact Or.inl h
        · exact Or.inr ⟨r, hr, h⟩

/-- Within its range a curve lies between its lowest and highest samples. -/
theorem interp_between {m M x : K} {t : Curve K} (hne : t ≠ []) (hb : ∀ q ∈ t, m ≤ q.2 ∧ q.2 ≤ M)
    (hs : t.Pairwise fun a b => a.1 < b.1) (h1 : lo t ≤ x) (h2 : x ≤ hi t) : m ≤ interp t x ∧ interp t x ≤ M := by
  match t, hne with
  | p :: l, _ =>
    simp only [lo, hi] at h1 h2
    rw [foldl_min_sorted p l hs] at h1
    simp only [interp]
    rw [if_neg (not_lt.mpr h1)]
    exact interpFrom_between p l (hb p (by simp)).1 (hb p (by simp)).2 (fun q hq => hb q (List.mem_cons_of_mem _ hq)) hs h1
      (le_foldl_max' l _ _ h2)

theorem bounds_exist (t : Curve K) (h : ∀ q ∈ t, 0 < q.2) : ∃ m M, 0 < m ∧ ∀ q ∈ t, m ≤ q.2 ∧ q.2 ≤ M := by
  induction t with
  | nil => exact ⟨1, 1, one_pos, by simp⟩
  | cons p t ih =>
    obtain ⟨m, M, hm, hb⟩ := ih fun q hq => h q (List.mem_cons_of_mem _ hq)
    refine ⟨min m p.2, max M p.2, lt_min hm (h p List.mem_cons_self), ?_⟩
    intro q hq
    rcases List.mem_cons.mp hq with rfl | hq
    · exact ⟨min_le_right _ _, le_max_right _ _⟩
    · exact ⟨(min_le_left _ _).trans (hb q hq).1, (hb q hq).2.trans (le_max_left _ _)⟩

theorem scaled_mixed (k : K) (c : Curve K) : (c.map fun q => (q.1, q.2 / k)) = mixed (1 / k) 0 c c := by
  unfold mixed
  rw [List.zipWith_self]
  apply List.map_congr_left
  intro q _
  congr 1
  rw [zero_mul, add_zero, one_div_mul_eq_div]

theorem interp_scaled (k x : K) (c : Curve K) : interp (c.map fun q => (q.1, q.2 / k)) x = interp c x / k := by
  rw [scaled_mixed, interp_mixed _ _ _ rfl, zero_mul, add_zero, one_div_mul_eq_div]

/-! ### the templates -/

theorem grid_range {w : ℝ} (h : w ∈ grid) : 300 ≤ w ∧ w ≤ 1100 := by
  obtain ⟨k, hk, rfl⟩ := List.mem_map.mp h
  have hk' : (k : ℝ) ≤ 3999 := by
    have := List.mem_range.mp hk
    exact_mod_cast Nat.lt_succ_iff.mp this
  have h0 : (0 : ℝ) ≤ k := Nat.cast_nonneg k
  constructor
  · nlinarith
  · nlinarith

theorem grid_sorted : grid.Pairwise (· < ·) := by
  unfold grid
  rw [List.pairwise_map]
  refine (List.pairwise_lt_range (n := 4000)).imp ?_
  intro a b h
  have : (a : ℝ) < b := by exact_mod_cast h
  linarith

theorem grid_ends : (300 : ℝ) ∈ grid ∧ (1100 : ℝ) ∈ grid := by
  constructor
  · exact List.mem_map.mpr ⟨0, List.mem_range.mpr (by norm_num), by norm_num⟩
  · exact List.mem_map.mpr ⟨3999, List.mem_range.mpr (by norm_num), by norm_num⟩

theorem dip_pos {a x : ℝ} (ha : 0 ≤ a) (ha' : a < 1) (hx : 0 ≤ x) : 0 < 1 - a * Real.exp (-(1 / 2) * x) := by
  have : Real.exp (-(1 / 2) * x) ≤ 1 := Real.exp_le_one_iff.mpr (by linarith)
  nlinarith [Real.exp_pos (-(1 / 2) * x)]

theorem rawC_pos {w : ℝ} (h : 300 ≤ w) : 0 < rawC w := by
  unfold rawC
  refine mul_pos (mul_pos ?_ (dip_pos (by norm_num) (by norm_num) (sq_nonneg _))) ?_
  · have : (0 : ℝ) ≤ w - 300 := by linarith
    have e : 1 + 15 / 100 * (w - 550) / 550 = 205 / 220 + 15 / 55000 * (w - 300) := by ring
    rw [e]
    positivity
  · split
    · exact Real.exp_pos _
    · exact one_pos

theorem rawS_pos {w : ℝ} (h : 300 ≤ w) : 0 < rawS w := by
  unfold rawS
  refine mul_pos (mul_pos ?_ (dip_pos (by norm_num) (by norm_num) (sq_nonneg _))) ?_
  · have : (0 : ℝ) ≤ w - 300 := by linarith
    have e : 1 + 50 / 100 * (w - 550) / 550 = 17 / 22 + 1 / 1100 * (w - 300) := by ring
    rw [e]
    positivity
  · split
    · exact Real.exp_pos _
    · exact one_pos

theorem lo_le (c : Curve K) : ∀ q ∈ c, lo c ≤ q.1 := by
  cases c with
  | nil => simp
  | cons p l =>
    unfold lo
    have key : ∀ (l : Curve K) (m : K), l.foldl (fun m q => min m q.1) m ≤ m ∧ ∀ q ∈ l, l.foldl (fun m q => min m q.1) m ≤ q.1 := by
      intro l
      induction l with
      | nil => intro m; exact ⟨le_rfl, by simp⟩
      | cons a l ih =>
        intro m
        obtain ⟨h1, h2⟩ := ih (min m a.1)
        refine ⟨h1.trans (min_le_left _ _), ?_⟩
        intro q hq
        rcases List.mem_cons.mp hq with rfl | hq
        · exact h1.trans (min_le_right _ _)
        · exact h2 q hq
    intro q hq
    rcases List.mem_cons.mp hq with rfl | hq
    · exact (key l _).1
    · exact (key l _).2 q hq

theorem le_hi (c : Curve K) : ∀ q ∈ c, q.1 ≤ hi c := by
  cases c with
  | nil => simp
  | cons p l =>
    unfold hi
    have key : ∀ (l : Curve K) (m : K), m ≤ l.foldl (fun m q => max m q.1) m ∧ ∀ q ∈ l, q.1 ≤ l.foldl (fun m q => max m q.1) m := by
      intro l
      induction l with
      | nil => intro m; exact ⟨le_rfl, by simp⟩
      | cons a l ih =>
        intro m
        obtain ⟨h1, h2⟩ := ih (max m a.1)
        refine ⟨(le_max_left _ _).trans h1, ?_⟩
        intro q hq
        rcases List.mem_cons.mp hq with rfl | hq
        · exact (le_max_right _ _).trans h1
        · exact h2 q hq
    intro q hq
    rcases List.mem_cons.mp hq with rfl | hq
    · exact (key l _).1
    · exact (key l _).2 q hq

theorem at550_pos (f : ℝ → ℝ) (hf : ∀ w, 300 ≤ w → 0 < f w) : 0 < interp (grid.map fun w => (w, f w)) 550 := by
  have hpos : ∀ q ∈ grid.map fun w => (w, f w), 0 < q.2 := by
    intro q hq
    obtain ⟨w, hw, rfl⟩ := List.mem_map.mp hq
    exact hf w (grid_range hw).1
  obtain ⟨m, M, hm, hb⟩ := bounds_exist _ hpos
  refine hm.trans_le (interp_between ?_ hb ?_ ?_ ?_).1
  · intro h
    have := grid_ends.1
    rw [List.map_eq_nil_iff.mp h] at this
    cases this
  · rw [List.pairwise_map]
    exact grid_sorted
  · exact (lo_le _ (300, f 300) (List.mem_map.mpr ⟨300, grid_ends.1, rfl⟩)).trans (by norm_num)
  · exact le_trans (by norm_num) (le_hi _ (1100, f 1100) (List.mem_map.mpr ⟨1100, grid_ends.2, rfl⟩))

theorem normalizeAt550_ok (f : ℝ → ℝ) (hf : ∀ w, 300 ≤ w → 0 < f w) :
    ∃ c, normalizeAt550 (grid.map fun w => (w, f w)) = .ok c ∧ c.map Prod.fst = grid ∧ interp c 550 = 1 ∧ (∀ q ∈ c, 0 < q.2) ∧
      ∃ k, 0 < k ∧ c = grid.map fun w => (w, f w / k) := by
  have h := at550_pos f hf
  generalize hk : interp (grid.map fun w => (w, f w)) 550 = k at h
  refine ⟨(grid.map fun w => (w, f w)).map fun q => (q.1, q.2 / k), ?_, ?_, ?_, ?_, k, h, ?_⟩
  · unfold normalizeAt550
    rw [hk, if_neg (not_le.mpr h)]
  · rw [List.map_map, List.map_map]
    exact List.map_id _
  · rw [interp_scaled, hk, div_self h.ne']
  · intro q hq
    rw [List.map_map] at hq
    obtain ⟨w, hw, rfl⟩ := List.mem_map.mp hq
    exact div_pos (hf w (grid_range hw).1) h
  · rw [List.map_map]
    rfl

theorem zipWith_mem {A B C : Type} {f : A → B → C} : ∀ {l : List A} {m : List B} {x : C}, x ∈ List.zipWith f l m →
    ∃ a ∈ l, ∃ b ∈ m, x = f a b
  | [], _, _, h => by simp at h
  | _ :: _, [], _, h => by simp at h
  | a :: l, b :: m, x, h => by
    rw [List.zipWith_cons_cons, List.mem_cons] at h
    rcases h with rfl | h
    · exact ⟨a, List.mem_cons_self, b, List.mem_cons_self, rfl⟩
    · obtain ⟨a', ha, b', hb, e⟩ := zipWith_mem h
      exact ⟨a', List.mem_cons_of_mem _ ha, b', List.mem_cons_of_mem _ hb, e⟩

/-- A template: its wavelengths are the common grid, its reflectances are positive and it is 1 at 550 nm. -/
structure Template (c : Curve ℝ) : Prop where
  wavelengths : c.map Prod.fst = grid
  positive : ∀ q ∈ c, 0 < q.2
  unit : interp c 550 = 1

theorem mixed_template {a b : ℝ} (ha : 0 ≤ a) (hb : 0 ≤ b) (hab : a + b = 1) {c s : Curve ℝ} (hc : Template c) (hs : Template s) :
    Template (mix a b c s) := by
  have hw : c.map Prod.fst = s.map Prod.fst := hc.wavelengths.trans hs.wavelengths.symm
  refine ⟨?_, ?_, ?_⟩
  · exact (mixed_fst a b hw).trans hc.wavelengths
  · intro q hq
    obtain ⟨x, hx, y, hy, rfl⟩ := zipWith_mem hq
    have h1 := hc.positive x hx
    have h2 := hs.positive y hy
    show 0 < a * x.2 + b * y.2
    rcases ha.eq_or_lt with rfl | ha
    · have : b = 1 := by linarith
      rw [this]
      linarith
    · nlinarith [mul_pos ha h1, mul_nonneg hb h2.le]
  · show interp (mixed a b c s) 550 = 1
    rw [interp_mixed _ _ _ hw, hc.unit, hs.unit]
    linarith

theorem rows_form {c s : Curve ℝ} (hc : normalizeAt550 (grid.map fun w => (w, rawC w)) = .ok c)
    (hs : normalizeAt550 (grid.map fun w => (w, rawS w)) = .ok s) :
    buildTemplates = .ok [("C".toList, c, 1, 0), ("S".toList, s, 0, 1), ("NEO".toList, mix (1 / 2) (1 / 2) c s, 1 / 2, 1 / 2),
      ("MBA".toList, mix (7 / 10) (3 / 10) c s, 7 / 10, 3 / 10)] := by
  unfold buildTemplates
  rw [hc]
  simp only [bind, Except.bind]
  rw [hs]
  rfl

theorem mixed_one {c s : Curve ℝ} (h : c.map Prod.fst = s.map Prod.fst) : mixed 1 0 c s = c := by
  induction c generalizing s with
  | nil => cases s <;> rfl
  | cons p c ih =>
    cases s with
    | nil => cases h
    | cons q s =>
      simp only [List.map_cons, List.cons.injEq] at h
      have e : mixed 1 0 (p :: c) (q :: s) = (p.1, 1 * p.2 + 0 * q.2) :: mixed 1 0 c s := rfl
      rw [e, ih h.2, one_mul, zero_mul, add_zero]

theorem mixed_two {c s : Curve ℝ} (h : c.map Prod.fst = s.map Prod.fst) : mixed 0 1 c s = s := by
  induction c generalizing s with
  | nil => cases s with
    | nil => rfl
    | cons q s => cases h
  | cons p c ih =>
    cases s with
    | nil => cases h
    | cons q s =>
      simp only [List.map_cons, List.cons.injEq] at h
      have e : mixed 0 1 (p :: c) (q :: s) = (p.1, 0 * p.2 + 1 * q.2) :: mixed 0 1 c s := rfl
      rw [e, ih h.2, one_mul, zero_mul, zero_add, h.1]

/-- The four templates are built without error, on one grid, with positive reflectances, and 1 at 550 nm; C and S are the formulas up to
a factor, and each template is the mix of C and S with the weights in its row, which add up to 1. -/
theorem C157_templates :
    ∃ c s : Curve ℝ, ∃ kc ks : ℝ, 0 < kc ∧ 0 < ks ∧ c = grid.map (fun w => (w, rawC w / kc)) ∧ s = grid.map (fun w => (w, rawS w / ks)) ∧
      ∃ rows, buildTemplates = .ok rows ∧ rows.map (fun r => r.1) = ["C".toList, "S".toList, "NEO".toList, "MBA".toList] ∧
      rows.map (fun r => r.2.2) = [(1, 0), (0, 1), (1 / 2, 1 / 2), (7 / 10, 3 / 10)] ∧
      ∀ r ∈ rows, Template r.2.1 ∧ r.2.2.1 + r.2.2.2 = 1 ∧ r.2.1 = mixed r.2.2.1 r.2.2.2 c s := by
  obtain ⟨c, hc, hc1, hc2, hc3, kc, hkc, hcf⟩ := normalizeAt550_ok rawC fun w => rawC_pos
  obtain ⟨s, hs, hs1, hs2, hs3, ks, hks, hsf⟩ := normalizeAt550_ok rawS fun w => rawS_pos
  have tc : Template c := ⟨hc1, hc3, hc2⟩
  have ts : Template s := ⟨hs1, hs3, hs2⟩
  have hok := rows_form hc hs
  refine ⟨c, s, kc, ks, hkc, hks, hcf, hsf, _, hok, rfl, rfl, ?_⟩
  · have hw := hc1.trans hs1.symm
    intro r hr
    simp only [List.mem_cons, List.not_mem_nil, or_false] at hr
    rcases hr with rfl | rfl | rfl | rfl
    · exact ⟨tc, by norm_num, (mixed_one hw).symm⟩
    · exact ⟨ts, by norm_num, (mixed_two hw).symm⟩
    · exact ⟨mixed_template (by norm_num) (by norm_num) (by norm_num) tc ts, by norm_num, rfl⟩
    · exact ⟨mixed_template (by norm_num) (by norm_num) (by norm_num) tc ts, by norm_num, rfl⟩

/-! ### the integrals -/

theorem flatMap_index {A B C : Type} (g : A → B → C) (m : List B) : ∀ (l : List A) (i j : Nat), j < m.length →
    (l.flatMap fun a => m.map (g a))[i * m.length + j]? = (l[i]?).bind fun a => (m[j]?).map (g a)
  | [], i, j, _ => by simp
  | a :: l, 0, j, h => by
    rw [List.flatMap_cons, List.getElem?_append_left (by simpa using h)]
    simp
  | a :: l, i + 1, j, h => by
    rw [List.flatMap_cons, List.getElem?_append_right (by rw [List.length_map, Nat.succ_mul]; omega), List.length_map]
    have e : (i + 1) * m.length + j - m.length = i * m.length + j := by rw [Nat.succ_mul]; omega
    rw [e, flatMap_index g m l i j h]
    rfl

/-- The solar spectrum with a factor. -/
def brighter (k : K) (sun : Curve K) : Curve K := sun.map fun q => (q.1, k * q.2)

/-- The table of integrals has a row for each template and each filter: template by template, and in each in the order of the filters. -/
theorem C156_rows (order : List Nat) (sun : Curve K) (templates filters : List (Str × Curve K)) :
    (buildIntegrals order sun templates filters).length = templates.length * filters.length ∧
    ∀ (i j : Nat) (t f : Str × Curve K), templates[i]? = some t → filters[j]? = some f →
      ∃ x, (buildIntegrals order sun templates filters)[i * filters.length + j]? = some (t.1, f.1, x) ∧
        (x = none ↔ min (min (hi (solar order sun)) (hi t.2)) (hi f.2) ≤ max (max (lo (solar order sun)) (lo t.2)) (lo f.2)) := by
  constructor
  · unfold buildIntegrals
    rw [List.length_flatMap]
    simp
  · intro i j t f hi' hj
    refine ⟨integral (solar order sun) t.2 f.2, ?_, ?_⟩
    · unfold buildIntegrals
      rw [flatMap_index _ _ _ _ _ (List.getElem?_eq_some_iff.mp hj).1, hi', hj]
      rfl
    · unfold integral
      simp only
      split
      · rename_i h; exact ⟨fun _ => h, fun _ => rfl⟩
      · rename_i h; exact ⟨fun h' => (by cases h'), fun h' => absurd h' h⟩

theorem solar_sorted {order : List Nat} {sun : Curve K} (h2 : 2 ≤ sun.length) (hs : sun.Pairwise fun a b => a.1 < b.1) :
    solar order sun = sun := by
  unfold solar
  rw [if_neg]
  push Not
  refine ⟨h2, ?_⟩
  rw [Ne, List.any_eq_true]
  rintro ⟨p, hp, hd⟩
  have := (zip_tail_pairwise (fun a b : K × K => a.1 < b.1) (fun _ _ _ => lt_trans) sun).mpr hs p hp
  rw [decide_eq_true_eq] at hd
  exact absurd (sub_pos.mpr this) (not_lt.mpr hd)

/-- The integrals of the table and those of a template registered by the user agree wherever the latter are numbers; the table has 0
where a template registered by the user has NaN because fewer than two solar samples lie in the overlap. -/
theorem integral_photon (sun t f : Curve K) :
    (∀ x, photon sun f t = some x → integral sun t f = some x) ∧ (integral sun t f = none → photon sun f t = none) ∧
    ∀ x, photon sun f t = none → integral sun t f = some x → x = 0 := by
  unfold photon integral
  rw [max_right_comm (lo sun) (lo t) (lo f), min_right_comm (hi sun) (hi t) (hi f)]
  simp only
  by_cases h1 : min (min (hi sun) (hi f)) (hi t) ≤ max (max (lo sun) (lo f)) (lo t)
  · simp only [if_pos h1]
    exact ⟨fun x h => (by cases h), fun _ => trivial, fun x _ h => (by cases h)⟩
  · simp only [if_neg h1]
    generalize within sun (max (max (lo sun) (lo f)) (lo t)) (min (min (hi sun) (hi f)) (hi t)) = g
    by_cases h2 : g.length < 2
    · simp only [if_pos h2]
      refine ⟨fun x h => (by cases h), fun _ => trivial, ?_⟩
      intro x _ h
      injection h with h
      rw [← h]
      match g, h2 with
      | [], _ => rfl
      | [p], _ => rfl
    · simp only [if_neg h2]
      exact ⟨fun x h => h, fun h => (by cases h), fun x h => (by cases h)⟩

theorem find_row (g : Str × Curve K → Str × Curve K → Option K) (filters : List (Str × Curve K)) (id f : Str) :
    ∀ templates : List (Str × Curve K),
    ((templates.flatMap fun t => filters.map fun q => (t.1, q.1, g t q)).find? fun r => decide (r.1 = id ∧ r.2.1 = f)).map (fun r => r.2.2)
      = (templates.lookup id).bind fun t => (filters.lookup f).map fun c => g (id, t) (f, c)
  | [] => rfl
  | (i, t) :: l => by
    rw [List.flatMap_cons, List.find?_append, List.lookup_cons]
    have row : ((filters.map fun q => (i, q.1, g (i, t) q)).find? fun r => decide (r.1 = id ∧ r.2.1 = f)) =
        if i = id then (filters.lookup f).map (fun c => (i, f, g (i, t) (f, c))) else none := by
      by_cases hi' : i = id
      · subst hi'
        rw [if_pos rfl]
        induction filters with
        | nil => rfl
        | cons q filters ih =>
          obtain ⟨q1, q2⟩ := q
          rw [List.map_cons, List.find?_cons, List.lookup_cons]
          by_cases hq : q1 = f
          · subst hq
            simp
          · have e1 : decide (i = i ∧ q1 = f) = false := by simp [hq]
            have e2 : (f == q1) = false := by simpa using fun h => hq h.symm
            rw [e2]
            change (match decide (i = i ∧ q1 = f) with
              | true => some (i, q1, g (i, t) (q1, q2))
              | false => List.find? (fun r => decide (r.1 = i ∧ r.2.1 = f)) (List.map (fun q : Str × Curve K => (i, q.1, g (i, t) q)) filters)) = _
            rw [e1]
            exact ih
      · rw [if_neg hi', List.find?_eq_none]
        intro r hr
        obtain ⟨q, -, rfl⟩ := List.mem_map.mp hr
        simp [hi']
    rw [row]
    have ih := find_row g filters id f l
    by_cases hi' : i = id
    · subst hi'
      rw [if_pos rfl, beq_self_eq_true]
      simp only [Option.bind_some]
      cases hf : filters.lookup f with
      | some c => rfl
      | none =>
        simp only [Option.map_none, Option.none_or]
        rw [ih, hf]
        cases l.lookup i <;> rfl
    · have e : (id == i) = false := by simpa using fun h => hi' h.symm
      rw [if_neg hi', e, Option.none_or]
      exact ih

theorem dataOf_integrals (order : List Nat) (sun sun' : Curve K) (templates filters : List (Str × Curve K)) (norm : Str → Option K)
    (id f : Str) :
    (dataOf sun' filters norm (buildIntegrals order sun templates filters)).integrals id f =
      (templates.lookup id).bind fun t => (filters.lookup f).map fun c => integral (solar order sun) t c := by
  have := find_row (fun t q => integral (solar order sun) t.2 q.2) filters id f templates
  exact this

/-- Registering the curve of a built-in template under another name gives the same reflectances wherever it gives numbers. -/
theorem C156_registered {order : List Nat} {sun : Curve K} (h2 : 2 ≤ sun.length) (hs : sun.Pairwise fun a b => a.1 < b.1)
    {templates filters : List (Str × Curve K)} {norm : Str → Option K} {ts : Str → Option (Curve K)} {id id' : Str} {t : Curve K}
    (ht : templates.lookup id = some t) (hid : ts id = none) (hid' : ts id' = some t) (f : Str) :
    let d := dataOf sun filters norm (buildIntegrals order sun templates filters)
    (∀ x, reflectance d ts id' f = some (some x) → reflectance d ts id f = some (some x)) ∧
    (reflectance d ts id' f = none ↔ reflectance d ts id f = none) ∧
    ∀ x, reflectance d ts id' f = some none → reflectance d ts id f = some (some x) → x = 0 := by
  intro d
  have hd : d.integrals id f = (filters.lookup f).map fun c => integral sun t c := by
    rw [dataOf_integrals, ht, solar_sorted h2 hs]
    rfl
  have hdf : d.filters = filters := rfl
  have hds : d.sun = sun := rfl
  unfold reflectance
  rw [hid, hid', hd, hdf, hds]
  cases d.norm f with
  | none => exact ⟨fun x h => h, Iff.rfl, fun x h => (by cases h)⟩
  | some n =>
    simp only
    cases filters.lookup f with
    | none => exact ⟨fun x h => h, Iff.rfl, fun x h => (by cases h)⟩
    | some c =>
      simp only [Option.map_some]
      obtain ⟨h3, h4, h5⟩ := integral_photon sun t c
      cases hp : photon sun c t with
      | some y =>
        rw [h3 y hp]
        exact ⟨fun x h => h, Iff.rfl, fun x h => (by cases h)⟩
      | none =>
        refine ⟨fun x h => (by cases h), ⟨fun h => (by cases h), fun h => (by cases h)⟩, ?_⟩
        intro x _ hx
        cases hi' : integral sun t c with
        | none => rw [hi'] at hx; cases hx
        | some y =>
          rw [hi', h5 y hp hi'] at hx
          cases hx
          exact zero_div n

/-- A built-in template and the same curve registered by the user may differ: 0 and NaN. -/
theorem C156_registered_false :
    ¬ ∀ (order : List Nat) (sun : Curve ℚ) (templates filters : List (Str × Curve ℚ)) (norm : Str → Option ℚ)
      (ts : Str → Option (Curve ℚ)) (id id' : Str) (t : Curve ℚ) (f : Str), sun.Pairwise (fun a b => a.1 < b.1) →
      templates.lookup id = some t → ts id = none → ts id' = some t →
      reflectance (dataOf sun filters norm (buildIntegrals order sun templates filters)) ts id' f =
        reflectance (dataOf sun filters norm (buildIntegrals order sun templates filters)) ts id f := by
  intro h
  have := h [] [(1, 1), (2, 1), (3, 1)] [(['C'], [(3 / 2, 1), (5 / 2, 1)])] [(['V'], [(1, 1), (3, 1)])] (fun _ => some 1)
    (fun i => if i = ['X'] then some [(3 / 2, 1), (5 / 2, 1)] else none) ['C'] ['X'] [(3 / 2, 1), (5 / 2, 1)] ['V']
    (by decide +kernel) rfl (by decide) rfl
  revert this
  decide +kernel

theorem integral_mixed (sun filter : Curve K) (c w : K) {a b : Curve K} (h : a.map Prod.fst = b.map Prod.fst) :
    integral sun (mixed c w a b) filter = match integral sun a filter, integral sun b filter with
      | some x, some y => some (c * x + w * y)
      | _, _ => none := by
  unfold integral
  rw [lo_fst (mixed_fst c w h), hi_fst (mixed_fst c w h), ← lo_fst h, ← hi_fst h]
  by_cases h1 : min (min (hi sun) (hi a)) (hi filter) ≤ max (max (lo sun) (lo a)) (lo filter)
  · simp only [if_pos h1]
  · simp only [if_neg h1]
    congr 1
    rw [← trapezoid_mixed]
    congr 1
    apply List.map_congr_left
    intro p _
    rw [interp_mixed c w p.1 h]
    congr 1
    ring

theorem trapezoid_le {A : Type} (x f g : A → K) : ∀ l : List A, l.Pairwise (fun a b => x a ≤ x b) → (∀ a ∈ l, f a ≤ g a) →
    trapezoid (l.map fun a => (x a, f a)) ≤ trapezoid (l.map fun a => (x a, g a))
  | [], _, _ => le_rfl
  | [a], _, _ => le_rfl
  | a :: b :: l, hs, h => by
    have ih := trapezoid_le x f g (b :: l) (List.pairwise_cons.mp hs).2 fun c hc => h c (List.mem_cons_of_mem _ hc)
    simp only [List.map_cons, trapezoid] at ih ⊢
    have hx : 0 ≤ x b - x a := sub_nonneg.mpr ((List.pairwise_cons.mp hs).1 b (by simp))
    have h1 := h a (by simp)
    have h2 := h b (by simp)
    have : (x b - x a) * (f a + f b) / 2 ≤ (x b - x a) * (g a + g b) / 2 := by
      apply div_le_div_of_nonneg_right _ zero_le_two
      exact mul_le_mul_of_nonneg_left (add_le_add h1 h2) hx
    exact add_le_add this ih

/-- The mean reflectance of a template through a filter that it covers lies between its lowest and its highest reflectance. -/
theorem C156_mean {sun t f : Curve K} {m M n x : K} (hsun : sun.Pairwise fun a b => a.1 < b.1) (hflux : ∀ q ∈ sun, 0 ≤ q.1 ∧ 0 ≤ q.2)
    (hf : f.Pairwise fun a b => a.1 < b.1) (hthr : ∀ q ∈ f, 0 ≤ q.2) (ht : t.Pairwise fun a b => a.1 < b.1) (hne : t ≠ [])
    (hb : ∀ q ∈ t, m ≤ q.2 ∧ q.2 ≤ M) (hlo : lo t ≤ lo f) (hhi : hi f ≤ hi t)
    (hn : solarNorm sun f = some n) (hn0 : 0 < n) (hx : integral sun t f = some x) : m ≤ x / n ∧ x / n ≤ M := by
  unfold solarNorm at hn
  unfold integral at hx
  rw [max_assoc, max_eq_right hlo, min_assoc, min_eq_right hhi] at hx
  split at hn
  · cases hn
  rename_i hlen
  simp only at hn hx
  split at hn
  · cases hn
  rename_i h1
  split at hn
  · cases hn
  rw [if_neg h1] at hx
  injection hn with hn
  injection hx with hx
  generalize hg : within sun (max (lo sun) (lo f)) (min (hi sun) (hi f)) = g at hn hx
  have hgs : g.Pairwise fun a b => a.1 ≤ b.1 := by
    rw [← hg]
    exact (hsun.imp fun h => h.le).sublist List.filter_sublist
  have hmem : ∀ p ∈ g, lo f ≤ p.1 ∧ p.1 ≤ hi f ∧ 0 ≤ p.1 ∧ 0 ≤ p.2 := by
    intro p hp
    rw [← hg] at hp
    obtain ⟨hp1, hp2⟩ := List.mem_filter.mp hp
    rw [Bool.and_eq_true, decide_eq_true_eq, decide_eq_true_eq] at hp2
    exact ⟨(le_max_right _ _).trans hp2.1, hp2.2.trans (min_le_right _ _), hflux p hp1⟩
  have hfne : f ≠ [] := by
    rintro rfl
    exact hlen (by simp)
  obtain ⟨B, hB⟩ : ∃ B, ∀ q ∈ f, q.2 ≤ B := by
    clear * -
    induction f with
    | nil => exact ⟨0, by simp⟩
    | cons q f ih =>
      obtain ⟨B, hB⟩ := ih
      refine ⟨max B q.2, ?_⟩
      intro r hr
      rcases List.mem_cons.mp hr with rfl | hr
      · exact le_max_right _ _
      · exact (hB r hr).trans (le_max_left _ _)
  have hfp : ∀ p ∈ g, 0 ≤ interp f p.1 := fun p hp =>
    (interp_between hfne (fun q hq => ⟨hthr q hq, hB q hq⟩) hf (hmem p hp).1 (hmem p hp).2.1).1
  have htp : ∀ p ∈ g, m ≤ interp t p.1 ∧ interp t p.1 ≤ M := fun p hp =>
    interp_between hne hb ht (hlo.trans (hmem p hp).1) ((hmem p hp).2.1.trans hhi)
  have scale : ∀ k : K, trapezoid (g.map fun p => (p.1, k * (p.2 * interp f p.1 * p.1))) = k * n := by
    intro k
    have := trapezoid_mixed k 0 (fun p : K × K => p.1) (fun p => p.2 * interp f p.1 * p.1) (fun _ => 0) g
    simp only [mul_zero, add_zero, zero_mul] at this
    rw [this, hn]
  have hw : ∀ p ∈ g, 0 ≤ p.2 * interp f p.1 * p.1 := fun p hp =>
    mul_nonneg (mul_nonneg (hmem p hp).2.2.2 (hfp p hp)) (hmem p hp).2.2.1
  rw [le_div_iff₀ hn0, div_le_iff₀ hn0, ← scale, ← scale, ← hx]
  constructor
  · refine trapezoid_le (fun p : K × K => p.1) _ _ g hgs ?_
    intro p hp
    have := mul_le_mul_of_nonneg_right (htp p hp).1 (hw p hp)
    calc _ ≤ _ := this
      _ = _ := by ring
  · refine trapezoid_le (fun p : K × K => p.1) _ _ g hgs ?_
    intro p hp
    have := mul_le_mul_of_nonneg_right (htp p hp).2 (hw p hp)
    calc _ = _ := by ring
      _ ≤ _ := this

/-- Only the shape of the solar spectrum counts: with the flux times `k` the integrals and the norms are `k` times as large. -/
theorem C156_flux (k : K) (sun t f : Curve K) :
    integral (brighter k sun) t f = (integral sun t f).map (k * ·) ∧ solarNorm (brighter k sun) f = (solarNorm sun f).map (k * ·) := by
  have hfst : (brighter k sun).map Prod.fst = sun.map Prod.fst := by
    unfold brighter
    rw [List.map_map]
    rfl
  have hwithin : ∀ a b, within (brighter k sun) a b = (within sun a b).map fun q => (q.1, k * q.2) := by
    intro a b
    unfold within brighter
    rw [List.filter_map]
    rfl
  have scale : ∀ (g : Curve K) (y : K × K → K), trapezoid (g.map fun p => (p.1, k * y p)) = k * trapezoid (g.map fun p => (p.1, y p)) := by
    intro g y
    have := trapezoid_mixed k 0 (fun p : K × K => p.1) y (fun _ => 0) g
    simpa only [mul_zero, add_zero, zero_mul] using this
  constructor
  · unfold integral
    rw [lo_fst hfst, hi_fst hfst]
    simp only
    split
    · rfl
    · rw [Option.map_some, hwithin, List.map_map, ← scale]
      congr 2
      apply List.map_congr_left
      intro p _
      simp only [Function.comp_apply]
      congr 1
      ring
  · unfold solarNorm
    rw [lo_fst hfst, hi_fst hfst]
    simp only
    split
    · rfl
    split
    · rfl
    rw [hwithin, List.length_map]
    split
    · rfl
    · rw [Option.map_some, List.map_map, ← scale]
      congr 2
      apply List.map_congr_left
      intro p _
      simp only [Function.comp_apply]
      congr 1
      ring

/-- With the tables built by the package, a template of the package gives the integrals of the mix of C and S with the weights in its row,
as long as the user has not registered templates under these names. -/
theorem C157_mixes {rows : List (Str × Curve ℝ × ℝ × ℝ)} (hrows : buildTemplates = .ok rows) (order : List Nat) (sun sun' : Curve ℝ)
    (filters : List (Str × Curve ℝ)) (norm : Str → Option ℝ) (mag : ℝ → ℝ) (ops : List (Op ℝ)) {r : Str × Curve ℝ × ℝ × ℝ} (hr : r ∈ rows)
    (h0 : lastRegistered ops r.1 = none) (hC : lastRegistered ops "C".toList = none) (hS : lastRegistered ops "S".toList = none)
    (fs : List Str) :
    let d := dataOf sun' filters norm (buildIntegrals order sun (rows.map fun r => (r.1, r.2.1)) filters)
    (getIntegrals d (run d mag ops) r.1 fs).1 = (mixIntegrals d (run d mag ops) r.2.2.1 r.2.2.2 fs).1 := by
  intro d
  obtain ⟨c, hc, hc1, -⟩ := normalizeAt550_ok rawC fun w => rawC_pos
  obtain ⟨s, hs, hs1, -⟩ := normalizeAt550_ok rawS fun w => rawS_pos
  have hw := hc1.trans hs1.symm
  rw [rows_form hc hs] at hrows
  have hT : (run d mag ops).templates = lastRegistered ops := funext (run_templates d mag ops)
  have hco := run_coherent d mag ops
  have hd : ∀ id f, d.integrals id f = ((rows.map fun r => (r.1, r.2.1)).lookup id).bind fun t =>
      (filters.lookup f).map fun q => integral (solar order sun) t q := fun id f =>
    dataOf_integrals order sun sun' (rows.map fun r => (r.1, r.2.1)) filters norm id f
  have hlookC : (rows.map fun r => (r.1, r.2.1)).lookup "C".toList = some c := by cases hrows; rfl
  have hlookS : (rows.map fun r => (r.1, r.2.1)).lookup "S".toList = some s := by cases hrows; rfl
  have hr4 : (rows.map fun r => (r.1, r.2.1)).lookup r.1 = some (mixed r.2.2.1 r.2.2.2 c s) ∧ 0 ≤ r.2.2.1 ∧ 0 ≤ r.2.2.2 ∧
      r.2.2.1 + r.2.2.2 = 1 := by
    cases hrows
    simp only [List.mem_cons, List.not_mem_nil, or_false] at hr
    rcases hr with rfl | rfl | rfl | rfl
    · exact ⟨by rw [mixed_one hw]; rfl, by norm_num, by norm_num, by norm_num⟩
    · exact ⟨by rw [mixed_two hw]; rfl, by norm_num, by norm_num, by norm_num⟩
    · exact ⟨rfl, by norm_num, by norm_num, by norm_num⟩
    · exact ⟨rfl, by norm_num, by norm_num, by norm_num⟩
  obtain ⟨hlook, ha, hb, hab⟩ := hr4
  generalize r.2.2.1 = a at *
  generalize r.2.2.2 = b at *
  have h1 := (getIntegrals_eq hco r.1 fs).1
  have h2 := compIntegrals_eq hco (comp := .mix a b) ⟨ha, hb, by rw [hab]; exact one_pos⟩ fs
  change (mixIntegrals d (run d mag ops) a b fs).1 = _ at h2
  rw [h1, h2, hT]
  congr 1
  funext f
  unfold compReflectance reflectance
  rw [h0, hC, hS]
  cases d.norm f with
  | none => rfl
  | some n =>
    simp only
    rw [hd, hd, hd, hlook, hlookC, hlookS]
    simp only [Option.bind_some]
    cases filters.lookup f with
    | none => rfl
    | some q =>
      simp only [Option.map_some]
      rw [integral_mixed _ _ _ _ hw]
      cases integral (solar order sun) c q with
      | none => cases integral (solar order sun) s q <;> rfl
      | some x =>
        cases integral (solar order sun) s q with
        | none => rfl
        | some y =>
          simp only [Option.map_some]
          rw [hab, div_one, div_one, add_div, mul_div_assoc, mul_div_assoc]

/-- The hypotheses of `C156_mean` are met. -/
example : ∃ sun t f : Curve ℚ, sun.Pairwise (fun a b => a.1 < b.1) ∧ (∀ q ∈ sun, 0 ≤ q.1 ∧ 0 ≤ q.2) ∧
    f.Pairwise (fun a b => a.1 < b.1) ∧ (∀ q ∈ f, 0 ≤ q.2) ∧ t.Pairwise (fun a b => a.1 < b.1) ∧ t ≠ [] ∧
    (∀ q ∈ t, 1 ≤ q.2 ∧ q.2 ≤ 2) ∧ lo t ≤ lo f ∧ hi f ≤ hi t ∧ solarNorm sun f = some 4 ∧ integral sun t f = some (13 / 2) :=
  ⟨[(1, 1), (2, 1), (3, 1)], [(1, 1), (3, 2)], [(1, 1), (3, 1)], by decide +kernel, by decide +kernel, by decide +kernel, by decide +kernel,
    by decide +kernel, by decide +kernel, by decide +kernel, by decide +kernel, by decide +kernel, by decide +kernel, by decide +kernel⟩

/-- The hypotheses of `C157_mixes` are met at import. -/
example : ∃ rows, buildTemplates = .ok rows ∧ ∃ r ∈ rows, r.1 = "NEO".toList ∧ lastRegistered ([] : List (Op ℝ)) r.1 = none := by
  obtain ⟨c, s, kc, ks, -, -, -, -, rows, hr, hids, -, -⟩ := C157_templates
  have : "NEO".toList ∈ rows.map fun r => r.1 := by rw [hids]; simp
  obtain ⟨r, hr1, hr2⟩ := List.mem_map.mp this
  exact ⟨rows, hr, r, hr1, hr2, rfl⟩

end Verif.Vendor.Props
