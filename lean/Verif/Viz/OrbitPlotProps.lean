import Verif.Viz.OrbitPlot
import Verif.Viz.Props

/-! # C190: the orbit plot -/

namespace Verif.Viz.OrbitPlotProps

open Verif Sched Viz Viz.Props

variable {I : Type} [DecidableEq I]

/-! ## Specification -/

/-- Every coordinate of the position is at most `r` in size. -/
def Inside (r : ℚ) (p : Visit I) : Prop := |p.x| ≤ r ∧ |p.y| ≤ r ∧ |p.z| ≤ r

/-- Some coordinate of the position is more than `r` in size. -/
def Beyond (r : ℚ) (p : Visit I) : Prop := r < |p.x| ∨ r < |p.y| ∨ r < |p.z|

/-! ## Auxiliary -/

omit [DecidableEq I] in
theorem longest_spec (first : Circuit I) (rest : List (Circuit I)) :
    ∃ pre post, first :: rest = pre ++ longest first rest :: post ∧ (∀ c ∈ pre, c.period < (longest first rest).period) ∧
      ∀ c ∈ post, c.period ≤ (longest first rest).period := by
  unfold longest
  induction rest generalizing first with
  | nil => exact ⟨[], [], rfl, by simp, by simp⟩
  | cons b l ih =>
    rw [List.foldl_cons]
    split
    · rename_i h
      obtain ⟨pre, post, e, h1, h2⟩ := ih b
      generalize List.foldl (fun a b : Circuit I => if a.period < b.period then b else a) b l = m at *
      refine ⟨first :: pre, post, by rw [e]; rfl, ?_, h2⟩
      intro c hc
      rcases List.mem_cons.mp hc with rfl | hc
      · have : b ∈ pre ++ m :: post := by rw [← e]; simp
        rcases List.mem_append.mp this with hb | hb
        · exact h.trans (h1 b hb)
        · rcases List.mem_cons.mp hb with hb | hb
          · rw [← hb]; exact h
          · exact lt_of_lt_of_le h (h2 b hb)
      · exact h1 c hc
    · rename_i h
      obtain ⟨pre, post, e, h1, h2⟩ := ih first
      generalize List.foldl (fun a b : Circuit I => if a.period < b.period then b else a) first l = m at *
      cases pre with
      | nil =>
        rw [List.nil_append, List.cons.injEq] at e
        refine ⟨[], b :: post, by rw [List.nil_append, ← e.1, e.2], by simp, ?_⟩
        intro c hc
        rcases List.mem_cons.mp hc with rfl | hc
        · rw [← e.1]; exact not_lt.mp h
        · exact h2 c hc
      | cons a pre =>
        rw [List.cons_append, List.cons.injEq] at e
        refine ⟨first :: b :: pre, post, by rw [e.2]; rfl, ?_, h2⟩
        intro c hc
        have ha : first.period < m.period := h1 first (by rw [e.1]; simp)
        rcases List.mem_cons.mp hc with rfl | hc
        · exact ha
        · rcases List.mem_cons.mp hc with rfl | hc
          · exact lt_of_le_of_lt (not_lt.mp h) ha
          · exact h1 c (List.mem_cons_of_mem _ hc)

theorem foldl_max_le (l : List ℚ) (a r : ℚ) : l.foldl max a ≤ r ↔ a ≤ r ∧ ∀ x ∈ l, x ≤ r := by
  induction l generalizing a with
  | nil => simp
  | cons b l ih => rw [List.foldl_cons, ih, max_le_iff]; simp [and_assoc]

omit [DecidableEq I] in
theorem maxR_spec {rows : List (Visit I)} {r : ℚ} (h : maxR rows = .ok r) : rows ≠ [] ∧ ∀ s, r ≤ s ↔ 4 ≤ s ∧ ∀ p ∈ rows, Inside s p := by
  cases rows with
  | nil => simp [maxR] at h
  | cons a l =>
    refine ⟨by simp, fun s => ?_⟩
    simp only [maxR, Except.ok.injEq] at h
    rw [← h, max_le_iff, foldl_max_le]
    simp only [List.mem_map, forall_exists_index, and_imp, forall_apply_eq_imp_iff₂, max_le_iff, Inside]
    constructor
    · rintro ⟨⟨-, h1⟩, h2⟩; exact ⟨h2, h1⟩
    · rintro ⟨h2, h1⟩; exact ⟨⟨by linarith, h1⟩, h2⟩

omit [DecidableEq I] in
theorem lt_maxR {rows : List (Visit I)} {r : ℚ} (h : maxR rows = .ok r) {s : ℚ} (hs : 4 ≤ s) : s < r ↔ ∃ p ∈ rows, Beyond s p := by
  rw [← not_le, (maxR_spec h).2 s]
  simp only [hs, true_and, Inside, Beyond]
  push Not
  refine exists_congr fun p => and_congr_right fun _ => ?_
  constructor
  · intro h'
    by_cases h1 : |p.x| ≤ s
    · by_cases h2 : |p.y| ≤ s
      · exact .inr (.inr (h' h1 h2))
      · exact .inr (.inl (not_le.mp h2))
    · exact .inl (not_le.mp h1)
  · rintro (h1 | h1 | h1) h2 h3
    · linarith
    · linarith
    · exact h1

theorem mapM_curve (rows : List (Visit I)) (ids : List I) :
    ids.mapM (curve rows) = if ∀ i ∈ ids, ∃ p ∈ rows, p.id = i then
      .ok (ids.map fun i => (i, rows.filter fun p => decide (p.id = i))) else .error .indexError := by
  have hc : ∀ i, curve rows i = if ∃ p ∈ rows, p.id = i then .ok (i, rows.filter fun p => decide (p.id = i)) else .error .indexError := by
    intro i
    unfold curve
    by_cases h : ∃ p ∈ rows, p.id = i
    · rw [if_pos h]
      obtain ⟨p, hp, he⟩ := h
      have : (rows.filter fun p => decide (p.id = i)) ≠ [] := List.ne_nil_of_mem (List.mem_filter.mpr ⟨hp, by simpa using he⟩)
      simp only [this, if_false]
    · rw [if_neg h]
      have : (rows.filter fun p => decide (p.id = i)) = [] := by
        rw [List.filter_eq_nil_iff]
        intro p hp he
        exact h ⟨p, hp, by simpa using he⟩
      simp only [this, if_true]
  induction ids with
  | nil => simp [pure, Except.pure]
  | cons i l ih =>
    rw [List.mapM_cons, ih, hc]
    by_cases h : ∃ p ∈ rows, p.id = i
    · by_cases h' : ∀ i ∈ l, ∃ p ∈ rows, p.id = i
      · have h'' : ∀ j ∈ i :: l, ∃ p ∈ rows, p.id = j := by
          intro j hj
          rcases List.mem_cons.mp hj with rfl | hj
          · exact h
          · exact h' j hj
        rw [if_pos h, if_pos h', if_pos h'']
        rfl
      · have h'' : ¬ ∀ j ∈ i :: l, ∃ p ∈ rows, p.id = j := fun hh => h' fun j hj => hh j (List.mem_cons_of_mem _ hj)
        rw [if_pos h, if_neg h', if_neg h'']
        rfl
    · have h'' : ¬ ∀ j ∈ i :: l, ∃ p ∈ rows, p.id = j := fun hh => h (hh i (by simp))
      rw [if_neg h, if_neg h'']
      rfl

theorem plotOrbit_ok {propagate : List ℚ → List (Visit I)} {start : Option ℚ} {first : Circuit I} {rest : List (Circuit I)}
    {f : OrbitFigure I} (h : plotOrbit propagate start first rest = .ok f) :
    ∃ r, maxR (propagate f.dates) = .ok r ∧ f.dates = sampleDates start (longest first rest) ∧ f.planets = planets r ∧
      f.range = r * (11 / 10) ∧ (∀ i ∈ uniq ((first :: rest).map Circuit.id), ∃ p ∈ propagate f.dates, p.id = i) ∧
      f.curves = (uniq ((first :: rest).map Circuit.id)).map fun i => (i, (propagate f.dates).filter fun p => decide (p.id = i)) := by
  unfold plotOrbit at h
  simp only [mapM_curve] at h
  cases hr : maxR (propagate (sampleDates start (longest first rest))) with
  | error e => rw [hr] at h; cases h
  | ok r =>
    rw [hr] at h
    simp only [bind, Except.bind] at h
    split at h
    · cases h
    · rename_i cs hcs
      split at hcs
      · rename_i hall
        simp only [Except.ok.injEq] at hcs
        simp only [pure, Except.pure, Except.ok.injEq] at h
        subst h
        subst hcs
        exact ⟨r, hr, rfl, rfl, rfl, hall, rfl⟩
      · cases hcs

/-! ## The properties -/

/-- C190: The dates go in steps of five days from the start, which is the time of the first orbit with the longest period if none is given,
to the end of a whole revolution of every orbit and at most six days further. -/
theorem C190_dates {propagate : List ℚ → List (Visit I)} {start : Option ℚ} {first : Circuit I} {rest : List (Circuit I)}
    {f : OrbitFigure I} (h : plotOrbit propagate start first rest = .ok f) (hp : ∀ c ∈ first :: rest, 0 < c.period) :
    ∃ pre c post, first :: rest = pre ++ c :: post ∧ (∀ d ∈ pre, d.period < c.period) ∧ (∀ d ∈ post, d.period ≤ c.period) ∧
      (∀ (i : Nat) (t : ℚ), f.dates[i]? = some t → t = start.getD c.time + 5 * i) ∧
      ∃ last, f.dates.getLast? = some last ∧ (∀ d ∈ first :: rest, start.getD c.time + d.period ≤ last) ∧
        last < start.getD c.time + c.period + 6 := by
  obtain ⟨r, -, hd, -⟩ := plotOrbit_ok h
  obtain ⟨pre, post, e, h1, h2⟩ := longest_spec first rest
  refine ⟨pre, longest first rest, post, e, h1, h2, ?_⟩
  generalize hL : longest first rest = c at *
  have hc0 : 0 < c.period := hp c (by rw [e]; simp)
  have hall : ∀ d ∈ first :: rest, d.period ≤ c.period := by
    intro d hd
    rw [e] at hd
    rcases List.mem_append.mp hd with hd | hd
    · exact (h1 d hd).le
    · rcases List.mem_cons.mp hd with rfl | hd
      · exact le_refl _
      · exact h2 d hd
  unfold sampleDates at hd
  simp only at hd
  generalize start.getD c.time = s at *
  have hd' : f.dates = (List.range ⌈((s + ⌈c.period⌉ + 5) - s) / 5⌉.toNat).map fun k : Nat => s + k * 5 := hd
  have hidx : ∀ k : Nat, k < ⌈((s + ⌈c.period⌉ + 5) - s) / 5⌉.toNat ↔ s + k * 5 < s + ⌈c.period⌉ + 5 := fun k => arange_ceil (by norm_num) k
  generalize hN : ⌈((s + ⌈c.period⌉ + 5) - s) / 5⌉.toNat = N at *
  refine ⟨fun i t hit => ?_, ?_⟩
  · rw [hd', List.getElem?_map] at hit
    by_cases hi : i < N
    · rw [List.getElem?_range hi, Option.map_some, Option.some.injEq] at hit
      rw [← hit]; ring
    · rw [List.getElem?_eq_none (by simpa using hi)] at hit
      simp at hit
  · have hceil := Int.le_ceil c.period
    have hceil' := Int.ceil_lt_add_one c.period
    have hN0 : 0 < N := (hidx 0).mpr (by push_cast; linarith)
    obtain ⟨n, rfl⟩ := Nat.exists_eq_succ_of_ne_zero hN0.ne'
    have ha := (hidx n).mp (by omega)
    have hb := fun hh => (lt_irrefl _ ((hidx (n + 1)).mpr hh))
    have hb' : s + ⌈c.period⌉ + 5 ≤ s + ((n + 1 : Nat) : ℚ) * 5 := not_lt.mp hb
    push_cast at hb'
    refine ⟨s + n * 5, ?_, fun d hd => ?_, ?_⟩
    · rw [hd', List.getLast?_map, List.range_succ, List.getLast?_append]
      rfl
    · have := hall d hd
      linarith
    · linarith

/-- C190: There is one curve for every distinct orbit id, in the order of first appearance, with all propagated rows of that id in the
order of the propagator; none is empty. -/
theorem C190_curves {propagate : List ℚ → List (Visit I)} {start : Option ℚ} {first : Circuit I} {rest : List (Circuit I)}
    {f : OrbitFigure I} (h : plotOrbit propagate start first rest = .ok f) :
    (f.curves.map Prod.fst).Nodup ∧ (∀ i, i ∈ f.curves.map Prod.fst ↔ ∃ c ∈ first :: rest, c.id = i) ∧
      ∀ e ∈ f.curves, e.2 = (propagate f.dates).filter (fun p => decide (p.id = e.1)) ∧ e.2 ≠ [] := by
  obtain ⟨r, -, -, -, -, hall, hc⟩ := plotOrbit_ok h
  have hf : f.curves.map Prod.fst = uniq ((first :: rest).map Circuit.id) := by
    rw [hc, List.map_map]
    exact (List.map_congr_left fun _ _ => rfl).trans (List.map_id _)
  refine ⟨hf ▸ nodup_uniq _, fun i => ?_, fun e he => ?_⟩
  · rw [hf, mem_uniq, List.mem_map]
  · rw [hc] at he
    obtain ⟨i, hi, rfl⟩ := List.mem_map.mp he
    obtain ⟨p, hp, hpi⟩ := hall i hi
    exact ⟨rfl, List.ne_nil_of_mem (List.mem_filter.mpr ⟨hp, by simpa using hpi⟩)⟩

/-- C190: All points lie within the axes, which reach at least 4.4 au, and no further than needed for the farthest coordinate and a margin of
a tenth. The inner planets are always shown; Jupiter, Saturn, Uranus and Neptune if some coordinate exceeds 5, 10, 15 and 20 au. -/
theorem C190_axes {propagate : List ℚ → List (Visit I)} {start : Option ℚ} {first : Circuit I} {rest : List (Circuit I)}
    {f : OrbitFigure I} (h : plotOrbit propagate start first rest = .ok f) :
    (∀ s, f.range ≤ s * (11 / 10) ↔ 4 ≤ s ∧ ∀ p ∈ propagate f.dates, Inside s p) ∧
    (∀ e ∈ f.curves, ∀ p ∈ e.2, Inside f.range p) ∧
    (∀ n, n ∈ f.planets ↔ n = "Mercury" ∨ n = "Venus" ∨ n = "Earth" ∨ n = "Mars" ∨
      (n = "Jupiter" ∧ ∃ p ∈ propagate f.dates, Beyond 5 p) ∨ (n = "Saturn" ∧ ∃ p ∈ propagate f.dates, Beyond 10 p) ∨
      (n = "Uranus" ∧ ∃ p ∈ propagate f.dates, Beyond 15 p) ∨ (n = "Neptune" ∧ ∃ p ∈ propagate f.dates, Beyond 20 p)) ∧
    f.planets.Nodup := by
  obtain ⟨r, hr, -, hpl, hrange, -, hc⟩ := plotOrbit_ok h
  have hspec := (maxR_spec hr).2
  have h4 : 4 ≤ r := ((hspec r).mp (le_refl r)).1
  refine ⟨fun s => ?_, fun e he p hp => ?_, fun n => ?_, ?_⟩
  · rw [hrange, ← hspec s]
    constructor <;> intro hh <;> linarith
  · rw [hc] at he
    obtain ⟨i, -, rfl⟩ := List.mem_map.mp he
    have := ((hspec r).mp (le_refl r)).2 p (List.mem_filter.mp hp).1
    rw [hrange]
    obtain ⟨a, b, c⟩ := this
    exact ⟨by linarith, by linarith, by linarith⟩
  · rw [← lt_maxR hr (by norm_num : (4 : ℚ) ≤ 5), ← lt_maxR hr (by norm_num : (4 : ℚ) ≤ 10), ← lt_maxR hr (by norm_num : (4 : ℚ) ≤ 15),
      ← lt_maxR hr (by norm_num : (4 : ℚ) ≤ 20), hpl]
    unfold planets
    simp only [List.mem_append, List.mem_map, List.mem_filter, List.mem_cons, List.not_mem_nil, or_false, decide_eq_true_eq]
    constructor
    · rintro ((rfl | rfl | rfl | rfl) | ⟨q, ⟨rfl | rfl | rfl | rfl, hq⟩, rfl⟩) <;> simp_all
    · rintro (rfl | rfl | rfl | rfl | ⟨rfl, hq⟩ | ⟨rfl, hq⟩ | ⟨rfl, hq⟩ | ⟨rfl, hq⟩)
      · simp
      · simp
      · simp
      · simp
      · exact .inr ⟨("Jupiter", 5), ⟨by simp, hq⟩, rfl⟩
      · exact .inr ⟨("Saturn", 10), ⟨by simp, hq⟩, rfl⟩
      · exact .inr ⟨("Uranus", 15), ⟨by simp, hq⟩, rfl⟩
      · exact .inr ⟨("Neptune", 20), ⟨by simp, hq⟩, rfl⟩
  · rw [hpl]
    have hall : (["Earth", "Mars", "Venus", "Mercury"] ++
      [("Jupiter", (5 : ℚ)), ("Saturn", 10), ("Uranus", 15), ("Neptune", 20)].map Prod.fst).Nodup := by decide
    refine hall.sublist ?_
    unfold planets
    exact (List.Sublist.refl _).append (List.Sublist.map _ List.filter_sublist)

/-- C190: The plot fails exactly if the propagator returns no rows (ValueError), or none of some orbit (IndexError). -/
theorem C190_errors (propagate : List ℚ → List (Visit I)) (start : Option ℚ) (first : Circuit I) (rest : List (Circuit I)) (e : PyErr) :
    plotOrbit propagate start first rest = .error e ↔
      (propagate (sampleDates start (longest first rest)) = [] ∧ e = .valueError) ∨
      (propagate (sampleDates start (longest first rest)) ≠ [] ∧
        (∃ c ∈ first :: rest, ∀ p ∈ propagate (sampleDates start (longest first rest)), p.id ≠ c.id) ∧ e = .indexError) := by
  unfold plotOrbit
  simp only [mapM_curve]
  generalize propagate (sampleDates start (longest first rest)) = rows
  cases rows with
  | nil =>
    simp only [maxR, bind, Except.bind, Except.error.injEq]
    simp [eq_comm]
  | cons a l =>
    simp only [maxR, bind, Except.bind]
    have hiff : (∀ i ∈ uniq ((first :: rest).map Circuit.id), ∃ p ∈ a :: l, p.id = i) ↔
        ¬ ∃ c ∈ first :: rest, ∀ p ∈ a :: l, p.id ≠ c.id := by
      push Not
      constructor
      · intro hh c hc
        exact hh c.id ((mem_uniq _ _).mpr (List.mem_map.mpr ⟨c, hc, rfl⟩))
      · intro hh i hi
        obtain ⟨c, hc, rfl⟩ := List.mem_map.mp ((mem_uniq _ _).mp hi)
        exact hh c hc
    by_cases hall : ∀ i ∈ uniq ((first :: rest).map Circuit.id), ∃ p ∈ a :: l, p.id = i
    · rw [if_pos hall]
      have := hiff.mp hall
      simp only [pure, Except.pure]
      constructor
      · intro hh; cases hh
      · rintro (⟨hh, -⟩ | ⟨-, hh, -⟩)
        · cases hh
        · exact absurd hh this
    · rw [if_neg hall]
      have := not_not.mp (fun hh => hall (hiff.mpr hh))
      simp only [Except.error.injEq]
      constructor
      · rintro rfl
        exact .inr ⟨by simp, this, rfl⟩
      · rintro (⟨hh, -⟩ | ⟨-, -, rfl⟩)
        · cases hh
        · rfl

/-! ## Examples and what does not hold -/

/-- A propagator that puts orbit 7 on the first axis, as many units out as the date. -/
def exPropagate (ts : List ℚ) : List (Visit Nat) := ts.map fun t => ⟨7, t, 0, 0⟩

theorem ex_plot : plotOrbit exPropagate none ⟨7, 0, 8⟩ [] = .ok
    ⟨[0, 5, 10], ["Earth", "Mars", "Venus", "Mercury", "Jupiter"], [(7, [⟨7, 0, 0, 0⟩, ⟨7, 5, 0, 0⟩, ⟨7, 10, 0, 0⟩])], 11⟩ := by
  decide +kernel

example : plotOrbit (fun _ => ([] : List (Visit Nat))) none ⟨7, 0, 8⟩ [] = .error .valueError ∧
    plotOrbit exPropagate none ⟨8, 0, 8⟩ [] = .error .indexError := by decide +kernel

/-- C190: Not true that there are more than two dates in a revolution: the steps do not depend on the period. -/
theorem C190_resolution_false : ¬ ∀ (propagate : List ℚ → List (Visit Nat)) (start : Option ℚ) (first : Circuit Nat)
    (rest : List (Circuit Nat)) (f : OrbitFigure Nat), plotOrbit propagate start first rest = .ok f → 0 < first.period →
    ∀ t u : ℚ, f.dates[0]? = some t → f.dates[1]? = some u → u - t < first.period / 2 := by
  intro h
  have e : plotOrbit exPropagate none ⟨7, 0, 1⟩ [] = .ok
      ⟨[0, 5], ["Earth", "Mars", "Venus", "Mercury", "Jupiter"].take 4 ++ [], [(7, [⟨7, 0, 0, 0⟩, ⟨7, 5, 0, 0⟩])], 11 / 2⟩ := by
    decide +kernel
  have := h _ _ _ _ _ e (by norm_num) 0 5 rfl rfl
  norm_num at this

end Verif.Viz.OrbitPlotProps
