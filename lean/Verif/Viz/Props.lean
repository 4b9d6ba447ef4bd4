import Verif.Viz.Model
import Verif.Sched.Lemmas
import Verif.Sched.Orbits
import Mathlib.Tactic.Linarith
import Mathlib.Tactic.Ring
import Mathlib.Tactic.FieldSimp
import Mathlib.Tactic.Positivity
import Mathlib.Tactic.NormNum

/-! # Data of impact visualisations: the properties -/

namespace Verif.Viz.Props

open Verif Sched

variable {I C G : Type} [DecidableEq I]

/-- The impact names the variant of the row. -/
def Names (i : Impact I G) (r : Row I C) : Prop := i.variant = some r.id

instance (i : Impact I G) (r : Row I C) : Decidable (Names i r) := inferInstanceAs (Decidable (i.variant = some r.id))

/-- The impact is on body `b`, of the variant of the row, and not after it. -/
def Hits (b : Body) (i : Impact I G) (r : Row I C) : Prop := i.body = b ∧ Names i r ∧ i.time ≤ r.time

/-- What is shown of a row: the same row with its own coordinates if no impact on the body hits it, and with the place of the last impact
in the table that does otherwise. -/
def Shown (surface : Body → G → ℚ → C) (impacts : List (Impact I G)) (b : Body) (r r' : Row I C) : Prop :=
  r'.id = r.id ∧ r'.time = r.time ∧
  ((r'.coord = r.coord ∧ ∀ i ∈ impacts, ¬ Hits b i r) ∨
    ∃ before i rest, impacts = before ++ i :: rest ∧ Hits b i r ∧ (∀ k ∈ rest, ¬ Hits b k r) ∧ r'.coord = surface b i.place r.time)

theorem named_iff {impacts : List (Impact I G)} {r : Row I C} : named impacts r = true ↔ ∃ i ∈ impacts, Names i r := by
  simp [named, Names]

theorem after_iff {i : Impact I G} {r : Row I C} : after i r = true ↔ Names i r ∧ i.time ≤ r.time := by
  simp [after, Names]

/-- One row after all impacts of a list. -/
def final (surface : Body → G → ℚ → C) (impacts : List (Impact I G)) (r : Row I C) : Row I C :=
  impacts.foldl (fun r i => if after i r then { r with coord := surface i.body i.place r.time } else r) r

theorem strike_perm (surface : Body → G → ℚ → C) (rows : List (Row I C)) (i : Impact I G) :
    (strike surface rows i).Perm (rows.map fun r => if after i r then { r with coord := surface i.body i.place r.time } else r) := by
  induction rows with
  | nil => simp [strike]
  | cons r l ih =>
    unfold strike at ih ⊢
    cases h : after i r with
    | true =>
      simp only [List.filter_cons, h, Bool.not_true, Bool.false_eq_true, if_false, if_true, List.map_cons]
      exact (List.perm_middle).trans (ih.cons _)
    | false =>
      simp only [List.filter_cons, h, Bool.not_false, Bool.false_eq_true, if_false, if_true, List.map_cons, List.cons_append]
      exact ih.cons _

theorem strikes_perm (surface : Body → G → ℚ → C) (impacts : List (Impact I G)) (rows : List (Row I C)) :
    (impacts.foldl (strike surface) rows).Perm (rows.map (final surface impacts)) := by
  induction impacts generalizing rows with
  | nil =>
    have : rows.map (final surface ([] : List (Impact I G))) = rows := by
      conv_rhs => rw [← List.map_id rows]
      rfl
    rw [this]
    exact List.Perm.refl _
  | cons i l ih =>
    rw [List.foldl_cons]
    refine (ih _).trans ?_
    refine ((strike_perm surface rows i).map _).trans ?_
    rw [List.map_map]
    exact List.Perm.refl _

theorem final_shown (surface : Body → G → ℚ → C) (impacts : List (Impact I G)) (b : Body) (r : Row I C) :
    Shown surface impacts b r (final surface (impacts.filter fun i => decide (i.body = b)) r) := by
  induction impacts using List.reverseRecOn with
  | nil => exact ⟨rfl, rfl, Or.inl ⟨rfl, by simp⟩⟩
  | append_singleton l i ih =>
    obtain ⟨h1, h2, h3⟩ := ih
    rw [List.filter_append]
    by_cases hb : i.body = b
    · rw [List.filter_cons_of_pos (by simpa using hb), List.filter_nil]
      unfold final at h1 h2 h3 ⊢
      rw [List.foldl_append, List.foldl_cons, List.foldl_nil]
      generalize List.foldl _ r (l.filter fun i => decide (i.body = b)) = s at h1 h2 h3 ⊢
      by_cases ha : after i s = true
      · rw [if_pos ha]
        obtain ⟨a1, a2⟩ := after_iff.mp ha
        refine ⟨h1, h2, Or.inr ⟨l, i, [], rfl, ⟨hb, ?_, ?_⟩, by simp, ?_⟩⟩
        · unfold Names at a1 ⊢
          rw [a1, h1]
        · rw [← h2]; exact a2
        · show surface i.body i.place s.time = _
          rw [hb, h2]
      · rw [if_neg ha]
        have hno : ¬ Hits b i r := by
          rintro ⟨-, c1, c2⟩
          apply ha
          rw [after_iff]
          unfold Names at c1 ⊢
          rw [h1, h2]
          exact ⟨c1, c2⟩
        refine ⟨h1, h2, ?_⟩
        rcases h3 with ⟨h3, h4⟩ | ⟨pre, k, rest, e, hk, hr, hc⟩
        · refine Or.inl ⟨h3, ?_⟩
          intro k hk
          rcases List.mem_append.mp hk with hk | hk
          · exact h4 k hk
          · rw [List.mem_singleton.mp hk]; exact hno
        · refine Or.inr ⟨pre, k, rest ++ [i], by rw [e]; simp, hk, ?_, hc⟩
          intro j hj
          rcases List.mem_append.mp hj with hj | hj
          · exact hr j hj
          · rw [List.mem_singleton.mp hj]; exact hno
    · rw [List.filter_cons_of_neg (by simpa using hb), List.filter_nil, List.append_nil]
      have hno : ¬ Hits b i r := fun h => hb h.1
      refine ⟨h1, h2, ?_⟩
      rcases h3 with ⟨h3, h4⟩ | ⟨pre, k, rest, e, hk, hr, hc⟩
      · refine Or.inl ⟨h3, ?_⟩
        intro k hk
        rcases List.mem_append.mp hk with hk | hk
        · exact h4 k hk
        · rw [List.mem_singleton.mp hk]; exact hno
      · refine Or.inr ⟨pre, k, rest ++ [i], by rw [e]; simp, hk, ?_, hc⟩
        intro j hj
        rcases List.mem_append.mp hj with hj | hj
        · exact hr j hj
        · rw [List.mem_singleton.mp hj]; exact hno

/-- Errors: coordinates that are not ecliptic, then impacts on bodies other than the Earth and the Moon. -/
theorem C150_errors (surface : Body → G → ℚ → C) (ecliptic : Bool) (rows : List (Row I C)) (impacts : List (Impact I G)) :
    (ecliptic = false → prepare surface ecliptic rows impacts = .error .assertionError) ∧
    (ecliptic = true → (∃ i ∈ impacts, i.body ≠ .earth ∧ i.body ≠ .moon) → prepare surface ecliptic rows impacts = .error .valueError) ∧
    (ecliptic = true → (∀ i ∈ impacts, i.body = .earth ∨ i.body = .moon) → ∃ p, prepare surface ecliptic rows impacts = .ok p) := by
  refine ⟨?_, ?_, ?_⟩
  · rintro rfl; rfl
  · rintro rfl ⟨i, hi, hb⟩
    unfold prepare
    rw [if_neg (by simp), if_pos]
    rw [List.any_eq_true]
    exact ⟨i.body, (mem_uniq _ _).mpr (List.mem_map_of_mem hi), by simpa using hb⟩
  · rintro rfl h
    unfold prepare
    rw [if_neg (by simp), if_neg]
    · exact ⟨_, rfl⟩
    · rw [List.any_eq_true]
      rintro ⟨b, hb, hd⟩
      obtain ⟨i, hi, rfl⟩ := List.mem_map.mp ((mem_uniq _ _).mp hb)
      have := of_decide_eq_true hd
      rcases h i hi with h | h
      · exact this.1 h
      · exact this.2 h

theorem prepare_ok {surface : Body → G → ℚ → C} {ecliptic : Bool} {rows : List (Row I C)} {impacts : List (Impact I G)} {p : Prepared I C}
    (h : prepare surface ecliptic rows impacts = .ok p) : p = ⟨rows.filter fun r => !named impacts r,
      (uniq (impacts.map Impact.body)).map fun b => (b, struck surface impacts rows b)⟩ := by
  unfold prepare at h
  split at h
  · cases h
  split at h
  · cases h
  · exact (Except.ok.inj h).symm

/-- The rows of variants that no impact names are returned as they are, in order. There is one more table for every body that is hit,
with the rows of the variants that hit it: each is shown as it is before its impacts and at the place of the impact afterwards. -/
theorem C150_tables {surface : Body → G → ℚ → C} {ecliptic : Bool} {rows : List (Row I C)} {impacts : List (Impact I G)}
    {p : Prepared I C} (h : prepare surface ecliptic rows impacts = .ok p) :
    p.free = rows.filter (fun r => ∀ i ∈ impacts, ¬ Names i r) ∧
    (p.bodies.map Prod.fst).Nodup ∧ (∀ b, b ∈ p.bodies.map Prod.fst ↔ ∃ i ∈ impacts, i.body = b) ∧
    ∀ e ∈ p.bodies, ∃ l, e.2.Perm l ∧
      List.Forall₂ (Shown surface impacts e.1) (rows.filter fun r => ∃ i ∈ impacts, i.body = e.1 ∧ Names i r) l := by
  rw [prepare_ok h]
  refine ⟨?_, ?_, ?_, ?_⟩
  · apply List.filter_congr
    intro r _
    have := @named_iff I C G _ impacts r
    cases hn : named impacts r with
    | true =>
      obtain ⟨i, hi, hr⟩ := this.mp hn
      simp only [Bool.not_true]
      symm
      rw [decide_eq_false_iff_not]
      exact fun h => h i hi hr
    | false =>
      simp only [Bool.not_false]
      symm
      rw [decide_eq_true_eq]
      intro i hi hr
      rw [this.mpr ⟨i, hi, hr⟩] at hn
      cases hn
  · rw [List.map_map]
    have : (Prod.fst ∘ fun b => (b, struck surface impacts rows b)) = id := rfl
    rw [this, List.map_id]
    exact nodup_uniq _
  · intro b
    rw [List.map_map]
    have : (Prod.fst ∘ fun b => (b, struck surface impacts rows b)) = id := rfl
    rw [this, List.map_id, mem_uniq, List.mem_map]
  · intro e he
    obtain ⟨b, -, rfl⟩ := List.mem_map.mp he
    refine ⟨_, strikes_perm surface _ _, ?_⟩
    have hf : ((rows.filter fun r => named impacts r).filter fun r => named (impacts.filter fun i => decide (i.body = b)) r) =
        rows.filter fun r => ∃ i ∈ impacts, i.body = b ∧ Names i r := by
      rw [List.filter_filter]
      apply List.filter_congr
      intro r _
      by_cases hx : ∃ i ∈ impacts, i.body = b ∧ Names i r
      · obtain ⟨i, hi, hb, hn⟩ := hx
        rw [decide_eq_true (⟨i, hi, hb, hn⟩ : ∃ i ∈ impacts, i.body = b ∧ Names i r), Bool.and_eq_true]
        exact ⟨named_iff.mpr ⟨i, List.mem_filter.mpr ⟨hi, by simpa using hb⟩, hn⟩, named_iff.mpr ⟨i, hi, hn⟩⟩
      · rw [decide_eq_false hx, Bool.and_eq_false_iff]
        left
        rw [Bool.eq_false_iff]
        intro hn
        obtain ⟨i, hi, hn⟩ := named_iff.mp hn
        obtain ⟨hi, hb⟩ := List.mem_filter.mp hi
        exact hx ⟨i, hi, by simpa using hb, hn⟩
    rw [hf]
    induction (rows.filter fun r => ∃ i ∈ impacts, i.body = b ∧ Names i r) with
    | nil => exact List.Forall₂.nil
    | cons r l ih => exact List.Forall₂.cons (final_shown surface impacts b r) ih

/-- A sample surface: the number of the place. -/
def mark : Body → Nat → ℚ → Nat := fun _ g _ => g

/-- Rows do not keep their order: a row after its impact goes to the end. -/
theorem C150_order_false :
    ¬ ∀ (rows : List (Row Nat Nat)) (impacts : List (Impact Nat Nat)) (p : Prepared Nat Nat), prepare mark true rows impacts = .ok p →
      ∀ e ∈ p.bodies, (e.2.map fun r => (r.id, r.time)).Sublist (rows.map fun r => (r.id, r.time)) := by
  intro h
  have := h [⟨0, 5, 7⟩, ⟨1, 5, 8⟩] [⟨0, some 0, .earth, 4, 100⟩, ⟨0, some 1, .earth, 6, 200⟩] _ rfl
    (.earth, [⟨1, 5, 8⟩, ⟨0, 5, 100⟩]) (by decide +kernel)
  revert this
  decide +kernel

/-- Nor is a row after several impacts on a body shown at the place of the first. -/
theorem C150_first_false :
    ¬ ∀ (rows : List (Row Nat Nat)) (impacts : List (Impact Nat Nat)) (p : Prepared Nat Nat), prepare mark true rows impacts = .ok p →
      ∀ e ∈ p.bodies, ∀ r ∈ e.2, ∀ i ∈ impacts, Hits e.1 i r → (∀ k ∈ impacts, Hits e.1 k r → i.time ≤ k.time) → r.coord = i.place := by
  intro h
  have := h [⟨0, 5, 7⟩] [⟨0, some 0, .earth, 3, 100⟩, ⟨0, some 0, .earth, 4, 200⟩] _ rfl (.earth, [⟨0, 5, 200⟩]) (by decide +kernel)
    ⟨0, 5, 200⟩ (by simp) ⟨0, some 0, .earth, 3, 100⟩ (by simp) ⟨rfl, rfl, by norm_num⟩ (by
      intro k hk _
      simp only [List.mem_cons, List.not_mem_nil, or_false] at hk
      rcases hk with rfl | rfl <;> norm_num)
  simp at this

/-- Sample: one variant that hits the Earth, one that hits nothing. -/
example : ∃ p, prepare mark true [⟨0, 3, 7⟩, ⟨1, 3, 8⟩, ⟨0, 5, 9⟩, ⟨1, 5, 6⟩] [⟨0, some 0, .earth, 4, 100⟩] = .ok p ∧
    p.free = [(⟨1, 3, 8⟩ : Row Nat Nat), ⟨1, 5, 6⟩] ∧ p.bodies = [(.earth, [⟨0, 3, 7⟩, ⟨0, 5, 100⟩])] := ⟨_, rfl, by rfl, by decide +kernel⟩

/-! ## Ranges -/

theorem arange_ceil {a b h : ℚ} (hh : 0 < h) (k : Nat) : k < ⌈(b - a) / h⌉.toNat ↔ a + k * h < b := by
  rw [Int.lt_toNat, Int.lt_ceil, lt_div_iff₀ hh]
  push_cast
  constructor <;> intro h <;> linarith

/-- The dates of a porkchop plot are all dates of the form start + k step before the end, in increasing order. There are none if the end is
not after the start. -/
theorem C152_dates {start stop step : ℚ} (h : 0 < step) :
    (∀ t, t ∈ dates start stop step ↔ ∃ k : Nat, t = start + k * step ∧ t < stop) ∧
    (dates start stop step).Pairwise (· < ·) ∧
    (∀ (k : Nat) t, (dates start stop step)[k]? = some t → t = start + k * step) ∧
    (dates start stop step = [] ↔ stop ≤ start) := by
  have hmem : ∀ t, t ∈ dates start stop step ↔ ∃ k : Nat, t = start + k * step ∧ t < stop := by
    intro t
    unfold dates arange
    rw [List.mem_map]
    constructor
    · rintro ⟨k, hk, rfl⟩
      exact ⟨k, rfl, (arange_ceil h k).mp (List.mem_range.mp hk)⟩
    · rintro ⟨k, rfl, hk⟩
      exact ⟨k, List.mem_range.mpr ((arange_ceil h k).mpr hk), rfl⟩
  refine ⟨hmem, ?_, ?_, ?_⟩
  · unfold dates arange
    rw [List.pairwise_map]
    refine List.pairwise_lt_range.imp ?_
    intro i j hij
    have : (i : ℚ) < j := by exact_mod_cast hij
    nlinarith
  · intro k t hk
    unfold dates arange at hk
    rw [List.getElem?_map] at hk
    obtain ⟨j, hj, rfl⟩ := Option.map_eq_some_iff.mp hk
    obtain ⟨hl, rfl⟩ := List.getElem?_eq_some_iff.mp hj
    rw [List.getElem_range]
  · constructor
    · intro hn
      by_contra hc
      have : start ∈ dates start stop step := (hmem start).mpr ⟨0, by simp, not_le.mp hc⟩
      rw [hn] at this
      simp at this
    · intro hle
      rw [List.eq_nil_iff_forall_not_mem]
      intro t ht
      obtain ⟨k, hk, hlt⟩ := (hmem t).mp ht
      have : (0 : ℚ) ≤ k := Nat.cast_nonneg k
      nlinarith

/-- The end is not among the dates, even where it is a whole number of steps after the start. -/
theorem C152_end_false : ¬ ∀ (start stop step : ℚ), 0 < step → (∃ k : Nat, stop = start + k * step) → stop ∈ dates start stop step := by
  intro h
  have := h 60000 60010 1 (by norm_num) ⟨10, by norm_num⟩
  obtain ⟨-, -, hlt⟩ := ((C152_dates (by norm_num)).1 60010).mp this
  exact absurd hlt (lt_irrefl _)

example : dates 60000 60003 1 = [60000, 60001, 60002] := by decide +kernel

/-! ## The times of a visualisation -/

theorem floorTo_eq {h : ℚ} (x : ℚ) : floorTo h x = h * ⌊x / h⌋ := by
  unfold floorTo
  ring

theorem floorTo_bounds {h : ℚ} (hh : 0 < h) (x : ℚ) : floorTo h x ≤ x ∧ x - h < floorTo h x := by
  rw [floorTo_eq]
  have h1 := Int.floor_le (x / h)
  have h2 := Int.lt_floor_add_one (x / h)
  rw [le_div_iff₀ hh] at h1
  rw [div_lt_iff₀ hh] at h2
  constructor <;> nlinarith

theorem floorTo_add {h : ℚ} (hh : 0 < h) (x : ℚ) (k : Nat) : floorTo h (x + k * h) = floorTo h x + k * h := by
  rw [floorTo_eq, floorTo_eq]
  have : (x + k * h) / h = x / h + (k : ℤ) := by
    push_cast
    field_simp
  rw [this, Int.floor_add_intCast]
  push_cast
  ring

theorem foldl_min (l : List ℚ) (t : ℚ) : (l.foldl min t ∈ t :: l) ∧ ∀ x ∈ t :: l, l.foldl min t ≤ x := by
  induction l generalizing t with
  | nil => simp
  | cons a l ih =>
    rw [List.foldl_cons]
    obtain ⟨h1, h2⟩ := ih (min t a)
    refine ⟨?_, ?_⟩
    · rcases List.mem_cons.mp h1 with h | h
      · rw [h]
        rcases min_choice t a with h | h <;> rw [h] <;> simp
      · simp [h]
    · have h0 := h2 (min t a) (by simp)
      intro x hx
      rcases List.mem_cons.mp hx with rfl | hx
      · exact h0.trans (min_le_left _ _)
      · rcases List.mem_cons.mp hx with rfl | hx
        · exact h0.trans (min_le_right _ _)
        · exact h2 x (List.mem_cons_of_mem _ hx)

theorem foldl_max (l : List ℚ) (t : ℚ) : (l.foldl max t ∈ t :: l) ∧ ∀ x ∈ t :: l, x ≤ l.foldl max t := by
  induction l generalizing t with
  | nil => simp
  | cons a l ih =>
    rw [List.foldl_cons]
    obtain ⟨h1, h2⟩ := ih (max t a)
    refine ⟨?_, ?_⟩
    · rcases List.mem_cons.mp h1 with h | h
      · rw [h]
        rcases max_choice t a with h | h <;> rw [h] <;> simp
      · simp [h]
    · have h0 := h2 (max t a) (by simp)
      intro x hx
      rcases List.mem_cons.mp hx with rfl | hx
      · exact (le_max_left _ _).trans h0
      · rcases List.mem_cons.mp hx with rfl | hx
        · exact (le_max_right _ _).trans h0
        · exact h2 x (List.mem_cons_of_mem _ hx)

/-- First and last time of impact. -/
structure Span (impacts : List (Impact I G)) (first last : ℚ) : Prop where
  lo : ∀ i ∈ impacts, first ≤ i.time
  hi : ∀ i ∈ impacts, i.time ≤ last
  first : ∃ i ∈ impacts, i.time = first
  last : ∃ i ∈ impacts, i.time = last

omit [DecidableEq I] in
theorem times_nil (step range : ℚ) : times step range ([] : List (Impact I G)) = .error .valueError := rfl

omit [DecidableEq I] in
theorem times_ok (step range : ℚ) {impacts : List (Impact I G)} {first last : ℚ} (hs : Span impacts first last) :
    times step range impacts = .ok ((arange (first - range / 60 / 24) (last + range / 60 / 24 + step / 60 / 24) (step / 60 / 24)).map
      (floorTo (step / 60 / 24))) := by
  cases impacts with
  | nil => obtain ⟨i, hi, -⟩ := hs.first; cases hi
  | cons i l =>
    obtain ⟨m1, m2⟩ := foldl_min (l.map Impact.time) i.time
    obtain ⟨x1, x2⟩ := foldl_max (l.map Impact.time) i.time
    rw [← List.map_cons] at m1 m2 x1 x2
    have hf : (l.map Impact.time).foldl min i.time = first := by
      apply le_antisymm
      · obtain ⟨k, hk, hk'⟩ := hs.first
        rw [← hk']
        exact m2 _ (List.mem_map_of_mem hk)
      · obtain ⟨k, hk, hk'⟩ := List.mem_map.mp m1
        rw [← hk']
        exact hs.lo k hk
    have hl : (l.map Impact.time).foldl max i.time = last := by
      apply le_antisymm
      · obtain ⟨k, hk, hk'⟩ := List.mem_map.mp x1
        rw [← hk']
        exact hs.hi k hk
      · obtain ⟨k, hk, hk'⟩ := hs.last
        rw [← hk']
        exact x2 _ (List.mem_map_of_mem hk)
    unfold times
    rw [List.map_cons]
    simp only [extreme, hf, hl]
    rfl

omit [DecidableEq I] in
/-- The times are consecutive whole multiples of the step. They begin at most one step before the range before the first impact, and end
less than one step from the range after the last: with a range of at least one step they include all impacts. -/
theorem C151_times {step range : ℚ} (hstep : 0 < step) (hrange : 0 ≤ range) {impacts : List (Impact I G)} {first last : ℚ}
    (hs : Span impacts first last) :
    ∃ (z : ℤ) (n : Nat), times step range impacts = .ok ((List.range (n + 1)).map fun k : Nat => (z + k : ℚ) * (step / 1440)) ∧
      (z : ℚ) * (step / 1440) ≤ first - range / 1440 ∧ first - range / 1440 - step / 1440 < z * (step / 1440) ∧
      last + range / 1440 - step / 1440 < (z + n) * (step / 1440) ∧ (z + n : ℚ) * (step / 1440) < last + range / 1440 + step / 1440 ∧
      (step ≤ range → ∀ i ∈ impacts, (z : ℚ) * (step / 1440) ≤ i.time ∧ i.time ≤ (z + n) * (step / 1440)) := by
  have e1 : step / 60 / 24 = step / 1440 := by ring
  have e2 : range / 60 / 24 = range / 1440 := by ring
  rw [times_ok step range hs, e1, e2]
  have hh : 0 < step / 1440 := by positivity
  have hr : 0 ≤ range / 1440 := by positivity
  have hfl : first ≤ last := by
    obtain ⟨i, hi, h⟩ := hs.first
    rw [← h]
    exact hs.hi i hi
  generalize hH : step / 1440 = h at hh
  generalize hR : range / 1440 = r at hr
  have hc : 0 < ⌈(last + r + h - (first - r)) / h⌉.toNat := by
    rw [arange_ceil hh]
    push_cast
    linarith
  obtain ⟨n, hn⟩ : ∃ n, ⌈(last + r + h - (first - r)) / h⌉.toNat = n + 1 := ⟨_, (Nat.succ_pred_eq_of_pos hc).symm⟩
  have hlt : first - r + n * h < last + r + h := (arange_ceil hh n).mp (by omega)
  have hge : last + r + h ≤ first - r + (n + 1 : Nat) * h := by
    have : ¬ n + 1 < ⌈(last + r + h - (first - r)) / h⌉.toNat := by omega
    rw [arange_ceil hh] at this
    exact not_lt.mp this
  push_cast at hge
  have hfb := floorTo_bounds hh (first - r)
  rw [floorTo_eq] at hfb
  refine ⟨⌊(first - r) / h⌋, n, ?_, ?_, ?_, ?_, ?_, ?_⟩
  · unfold arange
    rw [hn, List.map_map]
    congr 1
    apply List.map_congr_left
    intro k _
    simp only [Function.comp]
    rw [floorTo_add hh, floorTo_eq]
    ring
  · nlinarith [hfb.1]
  · nlinarith [hfb.2]
  · nlinarith [hfb.2]
  · nlinarith [hfb.1]
  · intro hsr i hi
    have hhr : h ≤ r := by rw [← hH, ← hR]; exact div_le_div_of_nonneg_right hsr (by norm_num)
    have h1 := hs.lo i hi
    have h2 := hs.hi i hi
    constructor
    · nlinarith [hfb.1]
    · nlinarith [hfb.2]

/-- A sample: one impact at day 0 and 1 minute. -/
def one : List (Impact Nat Nat) := [⟨0, some 0, .earth, 1 / 1440, 100⟩]

theorem one_span : Span one (1 / 1440) (1 / 1440) :=
  ⟨fun i hi => by rw [List.mem_singleton.mp hi], fun i hi => by rw [List.mem_singleton.mp hi],
    ⟨_, List.mem_singleton.mpr rfl, rfl⟩, ⟨_, List.mem_singleton.mpr rfl, rfl⟩⟩

/-- The times need not reach the end of the range asked for. -/
theorem C151_end_false :
    ¬ ∀ (impacts : List (Impact Nat Nat)) (step range first last : ℚ) (ts : List ℚ), 0 < step → step ≤ range → Span impacts first last →
      times step range impacts = .ok ts → ∃ t ∈ ts, last + range / 1440 ≤ t := by
  intro h
  obtain ⟨t, ht, hle⟩ := h one 5 60 _ _ _ (by norm_num) (by norm_num) one_span (times_ok 5 60 one_span)
  obtain ⟨x, hx, rfl⟩ := List.mem_map.mp ht
  unfold arange at hx
  obtain ⟨k, hk, rfl⟩ := List.mem_map.mp hx
  have hlt := (arange_ceil (by norm_num) k).mp (List.mem_range.mp hk)
  rw [floorTo_add (by norm_num)] at hle
  have h0 : floorTo (5 / 60 / 24) (1 / 1440 - 60 / 60 / 24) = -60 / 1440 := by decide +kernel
  rw [h0] at hle
  have hk1 : (k : ℚ) < 25 := by linarith
  have hk2 : (k : ℚ) ≤ 24 := by
    have : k < 25 := by exact_mod_cast hk1
    exact_mod_cast Nat.le_of_lt_succ this
  linarith

/-! ## The prepared variants -/

variable {S : Type}

/-- All rows of the variants that satisfy `P`, at all times. -/
def Rows (propagate : S → ℚ → C) (ts : List ℚ) (variants : List (Variant I S)) : List (Row I C) :=
  variants.flatMap fun v => ts.map fun t => ⟨v.id, t, propagate v.state t⟩

omit [DecidableEq I] in
theorem rows_filter (propagate : S → ℚ → C) (ts : List ℚ) (variants : List (Variant I S)) (P : I → Bool) :
    (Rows propagate ts variants).filter (fun r => P r.id) = Rows propagate ts (variants.filter fun v => P v.id) := by
  unfold Rows
  induction variants with
  | nil => rfl
  | cons v l ih =>
    rw [List.flatMap_cons, List.filter_append, ih]
    cases hp : P v.id with
    | true =>
      rw [List.filter_cons_of_pos (p := fun v : Variant I S => P v.id) hp, List.flatMap_cons]
      congr 1
      rw [List.filter_eq_self]
      intro r hr
      obtain ⟨t, -, rfl⟩ := List.mem_map.mp hr
      exact hp
    | false =>
      rw [List.filter_cons_of_neg (p := fun v : Variant I S => P v.id) (by rw [hp]; simp)]
      have : (ts.map fun t => (⟨v.id, t, propagate v.state t⟩ : Row I C)).filter (fun r => P r.id) = [] := by
        rw [List.filter_eq_nil_iff]
        intro r hr
        obtain ⟨t, -, rfl⟩ := List.mem_map.mp hr
        show ¬ P v.id = true
        rw [hp]
        simp
      rw [this, List.nil_append]

/-- The tables of a visualisation, each sorted by time: one with the variants that no impact names, at all times, and one for every body
hit with the variants that hit it, propagated before their impact and at its place afterwards. -/
theorem C151_tables {propagate : S → ℚ → C} {surface : Body → G → ℚ → C} {step range : ℚ} {variants : List (Variant I S)}
    {impacts : List (Impact I G)} {ts : List ℚ} {p : Prepared I C} (h : generate propagate surface step range variants impacts = .ok (ts, p)) :
    times step range impacts = .ok ts ∧
    p.free.Pairwise (fun r s => r.time ≤ s.time) ∧
    p.free.Perm (Rows propagate ts (variants.filter fun v => ∀ i ∈ impacts, i.variant ≠ some v.id)) ∧
    (∀ b, b ∈ p.bodies.map Prod.fst ↔ ∃ i ∈ impacts, i.body = b) ∧
    ∀ e ∈ p.bodies, e.2.Pairwise (fun r s => r.time ≤ s.time) ∧
      ∃ l, e.2.Perm l ∧ List.Forall₂ (Shown surface impacts e.1)
        (Rows propagate ts (variants.filter fun v => ∃ i ∈ impacts, i.body = e.1 ∧ i.variant = some v.id)) l := by
  unfold generate at h
  split at h
  · cases h
  cases ht : times step range impacts with
  | error e => rw [ht] at h; cases h
  | ok ts' =>
    rw [ht] at h
    cases hp : prepare surface true (Rows propagate ts' variants) impacts with
    | error e =>
      have : prepare surface true (variants.flatMap fun v => ts'.map fun t => (⟨v.id, t, propagate v.state t⟩ : Row I C)) impacts = .error e := hp
      simp only [bind, Except.bind, this] at h
      cases h
    | ok q =>
      have hq : prepare surface true (variants.flatMap fun v => ts'.map fun t => (⟨v.id, t, propagate v.state t⟩ : Row I C)) impacts = .ok q := hp
      simp only [bind, Except.bind, hq, pure, Except.pure, Except.ok.injEq, Prod.mk.injEq] at h
      obtain ⟨rfl, rfl⟩ := h
      obtain ⟨h1, -, h3, h4⟩ := C150_tables hp
      refine ⟨rfl, sortBy_sorted _ _, ?_, ?_, ?_⟩
      · refine (sortBy_perm _ _).trans ?_
        rw [h1]
        show ((Rows propagate ts' variants).filter fun r => decide (∀ i ∈ impacts, ¬ i.variant = some r.id)).Perm _
        rw [rows_filter propagate ts' variants (fun x => decide (∀ i ∈ impacts, ¬ i.variant = some x))]
      · intro b
        rw [← h3 b, List.map_map]
        exact Iff.rfl
      · intro e he
        obtain ⟨e', he', rfl⟩ := List.mem_map.mp he
        refine ⟨sortBy_sorted _ _, ?_⟩
        obtain ⟨l, hl, hf⟩ := h4 e' he'
        refine ⟨l, (sortBy_perm _ _).trans hl, ?_⟩
        rw [← rows_filter propagate ts' variants (fun x => decide (∃ i ∈ impacts, i.body = e'.1 ∧ i.variant = some x))]
        exact hf

/-- Errors: without impacts, or with impacts on bodies other than the Earth and the Moon, ValueError; otherwise, for a
positive step, there is a result. -/
theorem C151_errors (propagate : S → ℚ → C) (surface : Body → G → ℚ → C) (step range : ℚ) (variants : List (Variant I S))
    (impacts : List (Impact I G)) :
    (impacts = [] ∨ (∃ i ∈ impacts, i.body ≠ .earth ∧ i.body ≠ .moon) →
      generate propagate surface step range variants impacts = .error .valueError) ∧
    (0 < step → impacts ≠ [] → (∀ i ∈ impacts, i.body = .earth ∨ i.body = .moon) →
      ∃ r, generate propagate surface step range variants impacts = .ok r) := by
  constructor
  · rintro (rfl | ⟨i, hi, hb⟩)
    · rfl
    · unfold generate
      rw [if_pos]
      rw [List.any_eq_true]
      exact ⟨i, hi, by simpa using hb⟩
  · intro _ hne hb
    have hany : ¬ impacts.any (fun i => decide (i.body ≠ .earth ∧ i.body ≠ .moon)) = true := by
      rw [List.any_eq_true]
      rintro ⟨i, hi, hd⟩
      have := of_decide_eq_true hd
      rcases hb i hi with h | h
      · exact this.1 h
      · exact this.2 h
    obtain ⟨ts, hts⟩ : ∃ ts, times step range impacts = .ok ts := by
      cases impacts with
      | nil => exact absurd rfl hne
      | cons i l => exact ⟨_, rfl⟩
    obtain ⟨p, hp⟩ := (C150_errors surface true (variants.flatMap fun v => ts.map fun t => (⟨v.id, t, propagate v.state t⟩ : Row I C))
      impacts).2.2 rfl hb
    unfold generate
    rw [if_neg hany, hts]
    simp only [bind, Except.bind, hp]
    exact ⟨_, rfl⟩

/-- Variants are told apart by the variant id alone: a variant that hits nothing is shown on the surface if a variant of another orbit
with the same variant id hits the Earth. -/
theorem C151_orbits_false :
    ¬ ∀ (variants : List (Variant Nat Nat)) (impacts : List (Impact Nat Nat)) (ts : List ℚ) (p : Prepared Nat (Option Nat)),
      generate (fun s _ => some s) (fun _ _ _ => none) 5 60 variants impacts = .ok (ts, p) →
      ∀ v ∈ variants, (∀ i ∈ impacts, ¬ (i.orbit = v.orbit ∧ i.variant = some v.id)) → ∀ t ∈ ts, ∃ r ∈ p.free, r.coord = some v.state := by
  intro h
  obtain ⟨⟨ts, p⟩, hr⟩ := (C151_errors (S := Nat) (I := Nat) (G := Nat) (fun s _ => some s) (fun _ _ _ => (none : Option Nat)) 5 60
    [⟨7, 0, 1⟩, ⟨8, 0, 2⟩] [⟨7, some 0, .earth, 1 / 1440, 100⟩]).2 (by norm_num) (by simp) (by simp)
  obtain ⟨h1, -, h3, -, -⟩ := C151_tables hr
  obtain ⟨z, n, hz, -⟩ := C151_times (step := 5) (range := 60) (by norm_num) (by norm_num)
    (impacts := [(⟨7, some 0, .earth, 1 / 1440, 100⟩ : Impact Nat Nat)]) (first := 1 / 1440) (last := 1 / 1440)
    ⟨fun i hi => by rw [List.mem_singleton.mp hi], fun i hi => by rw [List.mem_singleton.mp hi],
      ⟨_, List.mem_singleton.mpr rfl, rfl⟩, ⟨_, List.mem_singleton.mpr rfl, rfl⟩⟩
  rw [hz, Except.ok.injEq] at h1
  obtain ⟨r, hr', -⟩ := h _ _ ts p hr ⟨8, 0, 2⟩ (by simp) (by simp) ((z + (0 : Nat)) * (5 / 1440)) (by
    rw [← h1]
    exact List.mem_map_of_mem (f := fun k : Nat => (z + k : ℚ) * (5 / 1440)) (List.mem_range.mpr (Nat.succ_pos n)))
  have := h3.mem_iff.mp hr'
  simp [Rows] at this

/-- The hypotheses of `C151_tables` and `C151_times` are met. -/
example : (∃ r, generate (fun s _ => some s) (fun _ _ _ => (none : Option Nat)) 5 60 [(⟨0, 0, 1⟩ : Variant Nat Nat), ⟨0, 1, 2⟩] one = .ok r) ∧
    Span one (1 / 1440) (1 / 1440) :=
  ⟨(C151_errors _ _ _ _ _ _).2 (by norm_num) (by simp [one]) (by simp [one]), one_span⟩

end Verif.Viz.Props
