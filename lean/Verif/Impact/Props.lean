import Verif.Impact.Spec
import Verif.Joins.Lemmas
import Mathlib.Algebra.Order.BigOperators.Group.List
import Mathlib.Algebra.BigOperators.Group.List.Basic
import Mathlib.Data.List.Perm.Subperm
import Mathlib.Tactic.Linarith
import Mathlib.Tactic.FieldSimp
import Mathlib.Tactic.Ring

/-! # Impacts: the properties -/

namespace Verif.Impact.Props

open Verif Sched Spec

section
variable {I S X : Type} [DecidableEq I]

theorem foldl_rows {α β : Type} (f : α → β) (l : List α) (acc : List β) :
    l.foldl (fun acc p => appendRow acc (f p)) (some acc) = some (acc ++ l.map f) := by
  induction l generalizing acc with
  | nil => simp
  | cons a l ih =>
    rw [List.foldl_cons]
    simp only [appendRow]
    have := ih (acc ++ [f a])
    simp only [appendRow] at this
    rw [this]
    simp

theorem probabilities_eq (earth : X) (variants : List (Variant I S)) (events : List (Event I)) (cs : List (Cond X))
    (hv : variants ≠ []) (hc : cs ≠ []) :
    probabilities earth variants events (some cs) =
      some ((uniq (variants.map Variant.orbit)).flatMap fun o => cs.map fun c => row variants events o c.id) := by
  unfold probabilities
  simp only [Option.getD_some]
  have hne : (uniq (variants.map Variant.orbit)).flatMap (fun o => cs.map fun c => (o, c.id)) ≠ [] := by
    obtain ⟨v, vs, rfl⟩ := List.exists_cons_of_ne_nil hv
    obtain ⟨c, cs', rfl⟩ := List.exists_cons_of_ne_nil hc
    intro h
    rw [List.flatMap_eq_nil_iff] at h
    have := h v.orbit (by rw [mem_uniq]; simp)
    simp at this
  obtain ⟨p, ps, hps⟩ := List.exists_cons_of_ne_nil hne
  rw [hps, List.foldl_cons]
  rw [show appendRow (none : Option (List (Row I))) (row variants events p.1 p.2) = some [row variants events p.1 p.2] from rfl]
  rw [foldl_rows (fun p : I × String => row variants events p.1 p.2)]
  congr 1
  rw [List.singleton_append, ← List.map_cons (f := fun p : I × String => row variants events p.1 p.2), ← hps,
    List.map_flatMap]
  congr 1
  funext o
  rw [List.map_map]
  rfl

/-- The events of an orbit and condition are as many as its impacting variants when events are well kept. -/
theorem count_hits {variants : List (Variant I S)} {events : List (Event I)} (h : WellKept variants events) (o : I)
    (c : String) :
    ((events.filter fun e => e.orbit = o).filter fun e => e.cond = c).length = hits variants events o c := by
  rw [List.filter_filter]
  unfold hits
  rw [List.countP_eq_length_filter, ← List.length_map (f := Event.variant),
    ← List.length_map (as := variants.filter _) (f := Variant.variant)]
  apply List.Perm.length_eq
  rw [List.perm_ext_iff_of_nodup]
  · intro a
    simp only [List.mem_map, List.mem_filter, Bool.and_eq_true, decide_eq_true_eq]
    constructor
    · rintro ⟨e, ⟨he, hc, ho⟩, rfl⟩
      obtain ⟨v, hv, h1, h2⟩ := h.known e he
      exact ⟨v, ⟨hv, by rw [h1, ho], e, he, h1.symm, h2.symm, hc⟩, h2⟩
    · rintro ⟨v, ⟨hv, ho, e, he, h1, h2, hc⟩, rfl⟩
      exact ⟨e, ⟨he, hc, by rw [h1, ho]⟩, h2⟩
  · unfold List.Nodup
    rw [List.pairwise_map]
    have hp := h.once.filter fun e => decide (e.cond = c) && decide (e.orbit = o)
    refine hp.imp_of_mem ?_
    intro a b ha hb hab
    simp only [List.mem_filter, Bool.and_eq_true, decide_eq_true_eq] at ha hb
    intro heq
    exact hab ⟨ha.2.2.trans hb.2.2.symm, heq, ha.2.1.trans hb.2.1.symm⟩
  · unfold List.Nodup
    rw [List.pairwise_map]
    have hp := h.ids.filter fun v => decide (v.orbit = o ∧ Impacts events c v)
    refine hp.imp_of_mem ?_
    intro a b ha hb hab
    simp only [List.mem_filter, decide_eq_true_eq] at ha hb
    intro heq
    exact hab ⟨ha.2.1.trans hb.2.1.symm, heq⟩

/-- For well-kept events the table has one row per orbit (in order of first appearance) and condition, and each row
reports the number of impacting variants, the number of variants, and their quotient, which lies between 0 and 1. -/
theorem C33_fraction (earth : X) (variants : List (Variant I S)) (events : List (Event I)) (cs : List (Cond X))
    (hv : variants ≠ []) (hc : cs ≠ []) (h : WellKept variants events) :
    ∃ rows, probabilities earth variants events (some cs) = some rows ∧
      rows.map (fun r => (r.orbit, r.cond)) =
        (uniq (variants.map Variant.orbit)).flatMap (fun o => cs.map fun c => (o, c.id)) ∧
      ∀ r ∈ rows, r.impacts = hits variants events r.orbit r.cond ∧ r.variants = total variants r.orbit ∧
        0 < r.variants ∧ r.prob * r.variants = r.impacts ∧ 0 ≤ r.prob ∧ r.prob ≤ 1 := by
  refine ⟨_, probabilities_eq earth variants events cs hv hc, ?_, ?_⟩
  · rw [List.map_flatMap]
    congr 1
    funext o
    rw [List.map_map]
    rfl
  · intro r hr
    obtain ⟨o, ho, hr⟩ := List.mem_flatMap.mp hr
    obtain ⟨c, _, rfl⟩ := List.mem_map.mp hr
    rw [mem_uniq] at ho
    obtain ⟨v, hvm, hvo⟩ := List.mem_map.mp ho
    have htot : (variants.filter fun v => v.orbit = o).length = total variants o := by
      unfold total
      rw [List.countP_eq_length_filter]
    have hpos : 0 < total variants o := by
      unfold total
      rw [List.countP_pos_iff]
      exact ⟨v, hvm, by simpa using hvo⟩
    have hle : hits variants events o c.id ≤ total variants o := by
      unfold hits total
      apply List.countP_mono_left
      intro x _ hx
      simp only [decide_eq_true_eq] at hx ⊢
      exact hx.1
    have hposQ : (0 : ℚ) < total variants o := by exact_mod_cast hpos
    have hleQ : (hits variants events o c.id : ℚ) ≤ total variants o := by exact_mod_cast hle
    simp only [row, count_hits h, htot]
    refine ⟨trivial, trivial, hpos, ?_, ?_, ?_⟩
    · field_simp
    · exact div_nonneg (Nat.cast_nonneg _) (Nat.cast_nonneg _)
    · rw [div_le_iff₀ hposQ, one_mul]; exact hleQ

/-- Whatever the events, the number of impacts reported is the number of events of that orbit and condition, and the
probability is their quotient by the number of variants of the orbit; it exceeds 1 exactly if there are more events than
variants. -/
theorem C33_counts (earth : X) (variants : List (Variant I S)) (events : List (Event I)) (cs : List (Cond X))
    (hv : variants ≠ []) (hc : cs ≠ []) :
    ∃ rows, probabilities earth variants events (some cs) = some rows ∧
      ∀ r ∈ rows, r.impacts = events.countP (fun e => e.orbit = r.orbit ∧ e.cond = r.cond) ∧
        r.variants = total variants r.orbit ∧ 0 < r.variants ∧ r.prob * r.variants = r.impacts ∧ 0 ≤ r.prob ∧
        (1 < r.prob ↔ total variants r.orbit < events.countP fun e => e.orbit = r.orbit ∧ e.cond = r.cond) := by
  refine ⟨_, probabilities_eq earth variants events cs hv hc, ?_⟩
  intro r hr
  obtain ⟨o, ho, hr⟩ := List.mem_flatMap.mp hr
  obtain ⟨c, _, rfl⟩ := List.mem_map.mp hr
  rw [mem_uniq] at ho
  obtain ⟨v, hvm, hvo⟩ := List.mem_map.mp ho
  have htot : (variants.filter fun v => v.orbit = o).length = total variants o := by
    unfold total
    rw [List.countP_eq_length_filter]
  have hpos : 0 < total variants o := by
    unfold total
    rw [List.countP_pos_iff]
    exact ⟨v, hvm, by simpa using hvo⟩
  have hposQ : (0 : ℚ) < total variants o := by exact_mod_cast hpos
  have hev : ((events.filter fun e => e.orbit = o).filter fun e => e.cond = c.id).length =
      events.countP fun e => e.orbit = o ∧ e.cond = c.id := by
    rw [List.filter_filter, List.countP_eq_length_filter]
    congr 2
    funext e
    simp only [Bool.decide_and]
    exact Bool.and_comm _ _
  simp only [row, htot, hev]
  refine ⟨trivial, trivial, hpos, ?_, ?_, ?_⟩
  · field_simp
  · exact div_nonneg (Nat.cast_nonneg _) (Nat.cast_nonneg _)
  · rw [lt_div_iff₀ hposQ, one_mul]
    exact_mod_cast Iff.rfl

/-- When every event belongs to a variant of the table and variant ids are distinct, at least the impacting variants are
counted, and exactly these if and only if no variant has two events for the condition. -/
theorem C33_exact_iff (variants : List (Variant I S)) (events : List (Event I)) (o : I) (c : String)
    (known : ∀ e ∈ events, ∃ v ∈ variants, v.orbit = e.orbit ∧ v.variant = e.variant)
    (ids : variants.Pairwise fun a b => ¬ (a.orbit = b.orbit ∧ a.variant = b.variant)) :
    hits variants events o c ≤ (row variants events o c).impacts ∧
    ((row variants events o c).impacts = hits variants events o c ↔
      (events.filter fun e => e.orbit = o ∧ e.cond = c).Pairwise fun a b => a.variant ≠ b.variant) := by
  have hev : (row variants events o c).impacts =
      ((events.filter fun e => e.orbit = o ∧ e.cond = c).map Event.variant).length := by
    simp only [row, List.length_map]
    rw [List.filter_filter]
    congr 2
    funext e
    simp only [Bool.decide_and]
    exact Bool.and_comm _ _
  have hpw : (events.filter fun e => e.orbit = o ∧ e.cond = c).Pairwise (fun a b => a.variant ≠ b.variant) ↔
      ((events.filter fun e => e.orbit = o ∧ e.cond = c).map Event.variant).Nodup := by
    unfold List.Nodup
    rw [List.pairwise_map]
  have hh : hits variants events o c =
      ((events.filter fun e => e.orbit = o ∧ e.cond = c).map Event.variant).dedup.length := by
    unfold hits
    rw [List.countP_eq_length_filter, ← List.length_map (as := variants.filter _) (f := Variant.variant)]
    apply List.Perm.length_eq
    rw [List.perm_ext_iff_of_nodup _ (List.nodup_dedup _)]
    · intro a
      rw [List.mem_dedup]
      simp only [List.mem_map, List.mem_filter, decide_eq_true_eq]
      constructor
      · rintro ⟨v, ⟨hv, ho, e, he, h1, h2, hc⟩, rfl⟩
        exact ⟨e, ⟨he, by rw [h1, ho], hc⟩, h2⟩
      · rintro ⟨e, ⟨he, ho, hc⟩, rfl⟩
        obtain ⟨v, hv, h1, h2⟩ := known e he
        exact ⟨v, ⟨hv, by rw [h1, ho], e, he, h1.symm, h2.symm, hc⟩, h2⟩
    · unfold List.Nodup
      rw [List.pairwise_map]
      have hp := ids.filter fun v => decide (v.orbit = o ∧ Impacts events c v)
      refine hp.imp_of_mem ?_
      intro a b ha hb hab
      simp only [List.mem_filter, decide_eq_true_eq] at ha hb
      intro heq
      exact hab ⟨ha.2.1.trans hb.2.1.symm, heq⟩
  rw [hev, hpw, hh]
  generalize (events.filter fun e => e.orbit = o ∧ e.cond = c).map Event.variant = l
  refine ⟨(List.dedup_sublist l).length_le, ?_⟩
  constructor
  · intro h
    have := (List.dedup_sublist l).eq_of_length h.symm
    rw [← this]
    exact List.nodup_dedup l
  · intro h
    rw [List.dedup_eq_self.mpr h]

/-! Extremes and means of the impact times. -/

theorem foldl_min_spec (l : List ℚ) (x : ℚ) : l.foldl min x ∈ x :: l ∧ ∀ y ∈ x :: l, l.foldl min x ≤ y := by
  induction l generalizing x with
  | nil => simp
  | cons a l ih =>
    rw [List.foldl_cons]
    obtain ⟨h1, h2⟩ := ih (min x a)
    refine ⟨?_, ?_⟩
    · rcases List.mem_cons.mp h1 with h | h
      · rw [h]
        rcases min_choice x a with h' | h' <;> rw [h'] <;> simp
      · simp [h]
    · intro y hy
      have hm := h2 (min x a) (by simp)
      rcases List.mem_cons.mp hy with rfl | hy
      · exact le_trans hm (min_le_left _ _)
      · rcases List.mem_cons.mp hy with rfl | hy
        · exact le_trans hm (min_le_right _ _)
        · exact h2 y (by simp [hy])

theorem foldl_max_spec (l : List ℚ) (x : ℚ) : l.foldl max x ∈ x :: l ∧ ∀ y ∈ x :: l, y ≤ l.foldl max x := by
  induction l generalizing x with
  | nil => simp
  | cons a l ih =>
    rw [List.foldl_cons]
    obtain ⟨h1, h2⟩ := ih (max x a)
    refine ⟨?_, ?_⟩
    · rcases List.mem_cons.mp h1 with h | h
      · rw [h]
        rcases max_choice x a with h' | h' <;> rw [h'] <;> simp
      · simp [h]
    · intro y hy
      have hm := h2 (max x a) (by simp)
      rcases List.mem_cons.mp hy with rfl | hy
      · exact le_trans (le_max_left _ _) hm
      · rcases List.mem_cons.mp hy with rfl | hy
        · exact le_trans (le_max_right _ _) hm
        · exact h2 y (by simp [hy])

theorem minT_spec {l : List ℚ} (h : l ≠ []) : ∃ m, minT l = some m ∧ m ∈ l ∧ ∀ y ∈ l, m ≤ y := by
  obtain ⟨x, l, rfl⟩ := List.exists_cons_of_ne_nil h
  exact ⟨_, rfl, foldl_min_spec l x⟩

theorem maxT_spec {l : List ℚ} (h : l ≠ []) : ∃ m, maxT l = some m ∧ m ∈ l ∧ ∀ y ∈ l, y ≤ m := by
  obtain ⟨x, l, rfl⟩ := List.exists_cons_of_ne_nil h
  exact ⟨_, rfl, foldl_max_spec l x⟩

theorem sum_bounds (l : List ℚ) (a b : ℚ) (h : ∀ y ∈ l, a ≤ y ∧ y ≤ b) :
    l.length * a ≤ l.sum ∧ l.sum ≤ l.length * b := by
  induction l with
  | nil => simp
  | cons x l ih =>
    obtain ⟨h1, h2⟩ := ih fun y hy => h y (List.mem_cons_of_mem _ hy)
    obtain ⟨h3, h4⟩ := h x (by simp)
    rw [List.sum_cons, List.length_cons]
    push_cast
    constructor <;> linarith

/-- The impact times of a row: all four are null when there is no impact; otherwise the first and last are times of events
of that orbit and condition, all of these lie between them, the mean lies between them, and the mean times the number of
events is the sum of the times. -/
theorem C33_times (variants : List (Variant I S)) (events : List (Event I)) (o : I) (c : String) :
    let r := row variants events o c
    let ts := (events.filter fun e => e.orbit = o ∧ e.cond = c).map Event.time
    (ts = [] → r.mean = none ∧ r.stddevSq = none ∧ r.first = none ∧ r.last = none) ∧
    (ts ≠ [] → ∃ m s a b, r.mean = some m ∧ r.stddevSq = some s ∧ r.first = some a ∧ r.last = some b ∧
      a ∈ ts ∧ b ∈ ts ∧ (∀ t ∈ ts, a ≤ t ∧ t ≤ b) ∧ m * r.impacts = ts.sum ∧ a ≤ m ∧ m ≤ b ∧
      0 ≤ s ∧ s * r.impacts = (ts.map fun t => (t - m) ^ 2).sum) := by
  intro r ts
  have hf : (events.filter fun e => e.orbit = o).filter (fun e => e.cond = c) =
      events.filter fun e => e.orbit = o ∧ e.cond = c := by
    rw [List.filter_filter]
    congr 1
    funext e
    simp only [Bool.decide_and]
    exact Bool.and_comm _ _
  have hr : r = { cond := c, orbit := o, impacts := ts.length
                  variants := (variants.filter fun v => v.orbit = o).length
                  prob := (ts.length : ℚ) / (variants.filter fun v => v.orbit = o).length
                  mean := if 0 < ts.length then some (mean ts) else none
                  stddevSq := if 0 < ts.length then some (stddevSq ts) else none
                  first := if 0 < ts.length then minT ts else none
                  last := if 0 < ts.length then maxT ts else none } := by
    simp only [r, ts, row, hf, List.length_map]
  clear_value r ts
  subst hr
  constructor
  · rintro rfl
    simp
  · intro hne
    have hpos : 0 < ts.length := List.length_pos_iff.mpr hne
    have hposQ : (0 : ℚ) < ts.length := by exact_mod_cast hpos
    obtain ⟨a, ha1, ha2, ha3⟩ := minT_spec hne
    obtain ⟨b, hb1, hb2, hb3⟩ := maxT_spec hne
    simp only [if_pos hpos]
    obtain ⟨h1, h2⟩ := sum_bounds ts a b fun y hy => ⟨ha3 y hy, hb3 y hy⟩
    refine ⟨mean ts, stddevSq ts, a, b, rfl, rfl, ha1, hb1, ha2, hb2, fun t ht => ⟨ha3 t ht, hb3 t ht⟩, ?_, ?_, ?_, ?_, ?_⟩
    · unfold mean; field_simp
    · unfold mean; rw [le_div_iff₀ hposQ]; linarith
    · unfold mean; rw [div_le_iff₀ hposQ]; linarith
    · unfold stddevSq
      have : 0 ≤ (ts.map fun x => (x - mean ts) ^ 2).sum := by
        apply List.sum_nonneg
        intro x hx
        obtain ⟨y, _, rfl⟩ := List.mem_map.mp hx
        positivity
      generalize hw : ts.map (fun x => (x - mean ts) ^ 2) = w at this ⊢
      unfold mean
      exact div_nonneg this (Nat.cast_nonneg _)
    · have hl : (ts.map fun x => (x - mean ts) ^ 2).length = ts.length := by simp
      show (ts.map fun x => (x - mean ts) ^ 2).sum / ((ts.map fun x => (x - mean ts) ^ 2).length : ℚ) * ts.length = _
      rw [hl]
      field_simp

/-- The table does not depend on the order of the events, so not on the completion order of collision detection. -/
theorem C33_event_order (earth : X) (variants : List (Variant I S)) (conds : Option (List (Cond X)))
    {events events' : List (Event I)} (h : events.Perm events') :
    probabilities earth variants events conds = probabilities earth variants events' conds := by
  have hrow : ∀ o c, row variants events o c = row variants events' o c := by
    intro o c
    have hp : ((events.filter fun e => e.orbit = o).filter fun e => e.cond = c).Perm
        ((events'.filter fun e => e.orbit = o).filter fun e => e.cond = c) := (h.filter _).filter _
    have hl := hp.length_eq
    have ht := hp.map Event.time
    have hmean : ∀ {a b : List ℚ}, a.Perm b → mean a = mean b := by
      intro a b hab
      unfold mean
      rw [hab.sum_eq, hab.length_eq]
    have hstd : ∀ {a b : List ℚ}, a.Perm b → stddevSq a = stddevSq b := by
      intro a b hab
      unfold stddevSq
      rw [hmean hab]
      exact hmean (hab.map _)
    have hmin : ∀ {a b : List ℚ}, a.Perm b → minT a = minT b := by
      intro a b hab
      by_cases ha : a = []
      · subst ha; rw [hab.nil_eq]
      · obtain ⟨m, h1, h2, h3⟩ := minT_spec ha
        obtain ⟨m', h1', h2', h3'⟩ := minT_spec (l := b) (by intro hb; subst hb; exact ha hab.eq_nil)
        rw [h1, h1']
        congr 1
        exact le_antisymm (h3 _ (hab.mem_iff.mpr h2')) (h3' _ (hab.mem_iff.mp h2))
    have hmax : ∀ {a b : List ℚ}, a.Perm b → maxT a = maxT b := by
      intro a b hab
      by_cases ha : a = []
      · subst ha; rw [hab.nil_eq]
      · obtain ⟨m, h1, h2, h3⟩ := maxT_spec ha
        obtain ⟨m', h1', h2', h3'⟩ := maxT_spec (l := b) (by intro hb; subst hb; exact ha hab.eq_nil)
        rw [h1, h1']
        congr 1
        exact le_antisymm (h3' _ (hab.mem_iff.mp h2)) (h3 _ (hab.mem_iff.mpr h2'))
    unfold row
    simp only [hl, hmean ht, hstd ht, hmin ht, hmax ht]
  unfold probabilities
  simp only [hrow]

/-- Without variants or without conditions the function returns `None`, not an empty table. -/
theorem C33_edges (earth : X) (variants : List (Variant I S)) (events : List (Event I)) (cs : List (Cond X)) :
    probabilities earth ([] : List (Variant I S)) events (some cs) = none ∧
    probabilities earth variants events (some ([] : List (Cond X))) = none := by
  refine ⟨rfl, ?_⟩
  unfold probabilities
  simp [show ((uniq (variants.map Variant.orbit)).flatMap fun _ => ([] : List (I × String))) = [] from by
    rw [List.flatMap_eq_nil_iff]; intros; rfl]

/-! ### Detection and probabilities together -/

/-- Collision detection split over workers finds, for every completion order, chunk size and number of processes, the same
events (in some order) and hence the same impact probabilities as in one process, for a propagator that treats each
variant on its own. -/
theorem C33_workers (earth : X)
    (detect : List (Variant I S) → List (Cond X) → Except PyErr (List (Variant I S) × List (Event I)))
    (one : List (Cond X) → Variant I S → Variant I S × List (Event I))
    (hd : ∀ vs cs, detect vs cs = .ok (vs.map fun v => (one cs v).1, vs.flatMap fun v => (one cs v).2))
    (pick : Nat → Nat) (variants : List (Variant I S)) (hv : variants ≠ []) (conds pconds : Option (List (Cond X)))
    (maxProc : Option Nat) (chunk : Int) (hc : 0 < chunk) :
    ∃ vs es vs₁ es₁, detectCollisions earth detect pick variants conds maxProc chunk = .ok (vs, es) ∧
      detectCollisions earth detect pick variants conds (some 1) chunk = .ok (vs₁, es₁) ∧
      vs.Perm vs₁ ∧ es.Perm es₁ ∧
      probabilities earth variants es pconds = probabilities earth variants es₁ pconds := by
  have hone : detectCollisions earth detect pick variants conds (some 1) chunk =
      .ok (variants.map fun v => (one (detectConds earth conds) v).1,
        variants.flatMap fun v => (one (detectConds earth conds) v).2) := by
    unfold detectCollisions
    simp only [Option.all_some]
    rw [if_neg (by decide), hd]
  by_cases hm : maxProc.all (fun n => decide (1 < n)) = true
  · have hcn : 0 < chunk.toNat := by omega
    have hfl := chunks_take_flatten variants hcn
    generalize htasks : (Chunk.rangeFrom 0 variants.length chunk.toNat).map
      (fun i => ((List.range variants.length).drop i).take chunk.toNat) = tasks
    have hfl' : (tasks.map fun idx => take variants idx).flatten = variants := by
      rw [← htasks, List.map_map]; exact hfl
    have hperm := runAll_perm never pick tasks
    have hrun : runTasks never pick (fun idx => detect (take variants idx) (detectConds earth conds)) tasks =
        .ok ((runAll never pick tasks).done.map fun idx =>
          ((take variants idx).map fun v => (one (detectConds earth conds) v).1,
           (take variants idx).flatMap fun v => (one (detectConds earth conds) v).2)) :=
      runTasks_ok _ _ fun idx _ => hd _ _
    have hne : (runAll never pick tasks).done ≠ [] := by
      intro h
      rw [h] at hperm
      rw [← hperm.nil_eq] at hfl'
      exact hv hfl'.symm
    have hps : (tasks.flatMap fun idx => take variants idx) = variants := by
      rw [List.flatMap_def]; exact hfl'
    have hflat : ((runAll never pick tasks).done.flatMap fun idx => take variants idx).Perm variants := by
      have := hperm.flatMap_right (fun idx => take variants idx)
      rwa [hps] at this
    refine ⟨((runAll never pick tasks).done.map fun idx =>
          ((take variants idx).map fun v => (one (detectConds earth conds) v).1,
           (take variants idx).flatMap fun v => (one (detectConds earth conds) v).2)).flatMap Prod.fst,
        ((runAll never pick tasks).done.map fun idx =>
          ((take variants idx).map fun v => (one (detectConds earth conds) v).1,
           (take variants idx).flatMap fun v => (one (detectConds earth conds) v).2)).flatMap Prod.snd,
        _, _, ?_, hone, ?_⟩
    · unfold detectCollisions
      simp only
      rw [if_pos hm, chunks_range variants hc, htasks]
      simp only
      rw [hrun]
      simp only
      rw [if_neg (by simpa using hne)]
    · rw [List.flatMap_map, List.flatMap_map]
      have e1 : ((runAll never pick tasks).done.flatMap fun idx =>
          (take variants idx).map fun v => (one (detectConds earth conds) v).1) =
          ((runAll never pick tasks).done.flatMap fun idx => take variants idx).map
            fun v => (one (detectConds earth conds) v).1 := by rw [List.map_flatMap]
      have e2 : ((runAll never pick tasks).done.flatMap fun idx =>
          (take variants idx).flatMap fun v => (one (detectConds earth conds) v).2) =
          ((runAll never pick tasks).done.flatMap fun idx => take variants idx).flatMap
            fun v => (one (detectConds earth conds) v).2 := by rw [List.flatMap_assoc]
      rw [e1, e2]
      have hes := hflat.flatMap_right (fun v => (one (detectConds earth conds) v).2)
      exact ⟨hflat.map _, hes, C33_event_order earth variants pconds hes⟩
  · refine ⟨variants.map fun v => (one (detectConds earth conds) v).1,
      variants.flatMap fun v => (one (detectConds earth conds) v).2, _, _, ?_, hone, List.Perm.refl _, List.Perm.refl _, rfl⟩
    unfold detectCollisions
    simp only
    rw [if_neg hm, hd]

/-- Events of `calculate_impacts` with its default condition are all counted by `calculate_impact_probabilities` with its default condition, whatever the
number of processes and the order in which workers finish: the row of an orbit counts all the events of its variants. -/
theorem C33_default_counted (earth : X)
    (detect : List (Variant I S) → List (Cond X) → Except PyErr (List (Variant I S) × List (Event I)))
    (one : List (Cond X) → Variant I S → Variant I S × List (Event I))
    (hd : ∀ vs cs, detect vs cs = .ok (vs.map fun v => (one cs v).1, vs.flatMap fun v => (one cs v).2))
    (htag : ∀ cs v, ∀ e ∈ (one cs v).2, e.orbit = v.orbit ∧ ∃ c ∈ cs, e.cond = c.id)
    (pick : Nat → Nat) (variants : List (Variant I S)) (hv : variants ≠ []) (procs : Option Nat) :
    ∃ (cs : List (Cond X)) (vs : List (Variant I S)) (es : List (Event I)) (rows : List (Row I)),
      calculateImpacts earth detect pick variants none procs = .ok (vs, es) ∧
      probabilities earth variants es none = some rows ∧ cs.map Cond.id = ["Default"] ∧
      vs.Perm (variants.map fun v => (one cs v).1) ∧ es.Perm (variants.flatMap fun v => (one cs v).2) ∧
      (∀ v ∈ variants, ∃ r ∈ rows, r.orbit = v.orbit) ∧
      ∀ r ∈ rows, r.impacts = es.countP (fun e => e.orbit = r.orbit) ∧ r.variants = total variants r.orbit ∧
        0 < r.variants ∧ r.prob * r.variants = r.impacts := by
  obtain ⟨vs, es, vs1, es1, h1, h2, hvs, hes, -⟩ := C33_workers earth detect one hd pick variants hv
    (some (calcConds earth none)) none procs 100 (by norm_num)
  have hone : detectCollisions earth detect pick variants (some (calcConds earth none)) (some 1) 100 =
      .ok (variants.map fun v => (one [⟨"Default", earth⟩] v).1, variants.flatMap fun v => (one [⟨"Default", earth⟩] v).2) := by
    unfold detectCollisions
    simp only [Option.all_some]
    rw [if_neg (by decide), hd]
    rfl
  rw [hone] at h2
  cases h2
  obtain ⟨rows, hr, hc⟩ := C33_counts earth variants es [⟨"Default", earth⟩] hv (by simp)
  have hq := probabilities_eq earth variants es [⟨"Default", earth⟩] hv (by simp)
  rw [hr] at hq
  cases hq
  refine ⟨[⟨"Default", earth⟩], vs, es, _, h1, hr, rfl, hvs, hes, ?_, ?_⟩
  · intro v hvm
    refine ⟨row variants es v.orbit "Default", ?_, rfl⟩
    refine List.mem_flatMap.mpr ⟨v.orbit, ?_, by simp⟩
    rw [mem_uniq]
    exact List.mem_map_of_mem hvm
  · intro r hrm
    obtain ⟨k1, k2, k3, k4, -⟩ := hc r hrm
    refine ⟨?_, k2, k3, k4⟩
    rw [k1]
    have hcond : r.cond = "Default" := by
      obtain ⟨o, -, hm⟩ := List.mem_flatMap.mp hrm
      obtain ⟨c, hcm, rfl⟩ := List.mem_map.mp hm
      simp only [List.mem_singleton] at hcm
      subst hcm
      rfl
    apply List.countP_congr
    intro e he
    obtain ⟨v, -, hev⟩ := List.mem_flatMap.mp (hes.mem_iff.mp he)
    obtain ⟨-, c, hcm, hce⟩ := htag _ v e hev
    simp only [List.mem_singleton] at hcm
    subst hcm
    simp [hcond, hce]

/-- A propagator as required: every variant hits once. -/
example : ∃ (one : List (Cond Nat) → Variant Nat Nat → Variant Nat Nat × List (Event Nat)),
    (∀ cs v, ∀ e ∈ (one cs v).2, e.orbit = v.orbit ∧ ∃ c ∈ cs, e.cond = c.id) ∧
    ∀ v, (one [⟨"Default", 0⟩] v).2 ≠ [] :=
  ⟨fun cs v => (v, cs.map fun c => ⟨v.orbit, v.variant, c.id, 0⟩),
    by
      intro cs v e he
      obtain ⟨c, hc, rfl⟩ := List.mem_map.mp he
      exact ⟨rfl, c, hc, rfl⟩,
    by simp⟩

/-- An event of a propagator carries the id of one of the conditions it was given. -/
def Tagged (detect : List (Variant I S) → List (Cond X) → Except PyErr (List (Variant I S) × List (Event I))) : Prop :=
  ∀ vs cs out, detect vs cs = .ok out → ∀ e ∈ out.2, e.cond ∈ cs.map Cond.id

/-- Called directly, `detect_collisions` with default conditions tags its events with another id, so that
`calculate_impact_probabilities` with default conditions counts none of them, whatever the propagator found. -/
theorem C33_default_ignored (earth : X)
    (detect : List (Variant I S) → List (Cond X) → Except PyErr (List (Variant I S) × List (Event I)))
    (ht : Tagged detect) (pick : Nat → Nat) (variants : List (Variant I S)) (chunk : Int)
    {out : List (Variant I S) × List (Event I)} {rows : List (Row I)}
    (h1 : detectCollisions earth detect pick variants none (some 1) chunk = .ok out)
    (h2 : probabilities earth variants out.2 none = some rows) : ∀ r ∈ rows, r.impacts = 0 ∧ r.prob = 0 := by
  have hd : detect variants [⟨"Earth", earth⟩] = .ok out := by
    unfold detectCollisions at h1
    simp only [Option.all_some] at h1
    rw [if_neg (by decide)] at h1
    exact h1
  have htag := ht _ _ _ hd
  have hv : variants ≠ [] := by
    rintro rfl
    cases h2
  have hp : probabilities earth variants out.2 none = probabilities earth variants out.2 (some (defaultConds earth)) := rfl
  rw [hp, probabilities_eq earth variants out.2 _ hv (by simp [defaultConds])] at h2
  injection h2 with h2
  intro r hr
  rw [← h2] at hr
  obtain ⟨o, _, hr⟩ := List.mem_flatMap.mp hr
  simp only [defaultConds, List.map_cons, List.map_nil, List.mem_singleton] at hr
  have hz : (out.2.filter fun e => e.orbit = o).filter (fun e => e.cond = "Default") = [] := by
    rw [List.filter_eq_nil_iff]
    intro e he
    have := htag e (List.mem_filter.mp he).1
    simp only [List.map_cons, List.map_nil, List.mem_singleton] at this
    rw [this]
    decide
  rw [hr]
  simp [row, hz]

end

/-- A variant that hits twice (a condition that does not stop the propagation) is counted twice: the reported probability
of one variant is 2. -/
theorem C33_repeat_false :
    ¬ ∀ (variants : List (Variant Nat Nat)) (events : List (Event Nat)) (cs : List (Cond Nat)) (rows : List (Row Nat)),
        (∀ e ∈ events, ∃ v ∈ variants, v.orbit = e.orbit ∧ v.variant = e.variant) →
        probabilities 0 variants events (some cs) = some rows → ∀ r ∈ rows, r.prob ≤ 1 := by
  intro h
  have := h [⟨0, 0, 0⟩] [⟨0, 0, "Moon", 1⟩, ⟨0, 0, "Moon", 2⟩] [⟨"Moon", 0⟩]
    [⟨"Moon", 0, 2, 1, 2, some (3 / 2), some (1 / 4), some 1, some 2⟩] (by simp) (by decide +kernel) _
    (List.mem_singleton.mpr rfl)
  revert this
  decide +kernel

/-- The default condition ids of detection and evaluation differ: a certain impact found with default conditions is
reported with probability zero. -/
theorem C33_default_false :
    ¬ ∀ (detect : List (Variant Nat Nat) → List (Cond Nat) → Except PyErr (List (Variant Nat Nat) × List (Event Nat))),
        Tagged detect → ∀ (variants : List (Variant Nat Nat)) out rows,
        detectCollisions 0 detect (fun _ => 0) variants none (some 1) 100 = .ok out → WellKept variants out.2 →
        probabilities 0 variants out.2 none = some rows →
        ∀ r ∈ rows, r.impacts = (variants.filter fun v => v.orbit = r.orbit ∧
          ∃ e ∈ out.2, e.orbit = v.orbit ∧ e.variant = v.variant).length := by
  intro h
  let det : List (Variant Nat Nat) → List (Cond Nat) → Except PyErr (List (Variant Nat Nat) × List (Event Nat)) :=
    fun vs cs => .ok (vs, vs.flatMap fun v => cs.map fun c => ⟨v.orbit, v.variant, c.id, 1⟩)
  have htag : Tagged det := by
    intro vs cs out ho e he
    simp only [det, Except.ok.injEq] at ho
    rw [← ho] at he
    obtain ⟨v, _, he⟩ := List.mem_flatMap.mp he
    obtain ⟨c, hc, rfl⟩ := List.mem_map.mp he
    exact List.mem_map_of_mem hc
  have := h det htag [⟨0, 0, 0⟩] ([⟨0, 0, 0⟩], [⟨0, 0, "Earth", 1⟩])
    [⟨"Default", 0, 0, 1, 0, none, none, none, none⟩] rfl
    ⟨by simp, by simp, by simp⟩ (by decide +kernel) _ (List.mem_singleton.mpr rfl)
  revert this
  decide +kernel

/-- The hypotheses of `C33_fraction` are met by two orbits with three variants and two conditions. -/
example : WellKept [⟨0, 0, 0⟩, ⟨0, 1, 0⟩, ⟨1, 0, 0⟩] [(⟨0, 1, "Earth", 5⟩ : Event Nat), ⟨0, 1, "Moon", 4⟩, ⟨1, 0, "Earth", 7⟩] ∧
    (probabilities 0 [(⟨0, 0, 0⟩ : Variant Nat Nat), ⟨0, 1, 0⟩, ⟨1, 0, 0⟩]
      [⟨0, 1, "Earth", 5⟩, ⟨0, 1, "Moon", 4⟩, ⟨1, 0, "Earth", 7⟩] (some [⟨"Earth", 0⟩, ⟨"Moon", 0⟩])).map
        (List.map fun r => (r.orbit, r.cond, r.prob)) =
      some [(0, "Earth", 1 / 2), (0, "Moon", 1 / 2), (1, "Earth", 1), (1, "Moon", 0)] := by
  refine ⟨⟨by simp, by simp, by simp⟩, by decide +kernel⟩

end Verif.Impact.Props
