import Verif.Time.Spec
import Mathlib.Tactic.Linarith
import Mathlib.Tactic.Ring
import Mathlib.Tactic.NormNum
import Mathlib.Algebra.Order.Field.Rat

/-! Helper lemmas about the timestamp model. -/

namespace Verif.Time

open Spec

theorem DAY_eq : Spec.DAY = 86400000000000 := by norm_num [Spec.DAY]
theorem NANOS_eq : NANOS_IN_DAY = 86400000000000 := rfl

theorem instant_inj {a b : Row} (ha : Normal a) (hb : Normal b) (h : instant a = instant b) : a = b := by
  cases a; cases b
  simp only [Normal, instant, DAY_eq] at *
  simp only [Row.mk.injEq]
  omega

theorem addNanosRaw_spec {r : Row} {n : Int} (hr : Normal r)
    (h1 : -Spec.DAY ≤ n) (h2 : n < Spec.DAY) :
    Normal (r.addNanosRaw n) ∧ instant (r.addNanosRaw n) = instant r + n := by
  simp only [Normal, instant, DAY_eq] at *
  unfold Row.addNanosRaw
  simp only [NANOS_eq]
  by_cases c1 : r.nanos + n ≥ 86400000000000
  · simp only [c1, if_true]; omega
  · by_cases c2 : r.nanos + n < 0
    · simp only [c1, c2, if_true, if_false]; omega
    · simp only [c1, c2, if_false]; omega

theorem inAddRange_iff (n : Int) : inAddRange n = true ↔ -Spec.DAY ≤ n ∧ n < Spec.DAY := by
  unfold inAddRange
  rw [Bool.and_eq_true, decide_eq_true_iff, decide_eq_true_iff, NANOS_eq, DAY_eq]

theorem expand_ok {α : Type} {a : Arg α} {n : Nat} {l : List α} (h : a.expand n = .ok l) :
    l.length = n ∧ ∀ i, i < n → argAt a i = l[i]? := by
  cases a with
  | scalar a =>
    simp only [Arg.expand, Except.ok.injEq] at h
    subst h
    simp [argAt, List.getElem?_replicate]
  | array as =>
    simp only [Arg.expand] at h
    split at h
    · simp only [Except.ok.injEq] at h
      subst h
      simp_all [argAt]
    · cases h

theorem argAt_map {α β : Type} (f : α → β) (a : Arg α) (i : Nat) :
    argAt (a.map f) i = (argAt a i).map f := by
  cases a <;> simp [Arg.map, argAt]

theorem argAll_at {α : Type} {a : Arg α} {p : α → Bool} (h : a.all p = true) {i : Nat} {v : α}
    (hv : argAt a i = some v) : p v = true := by
  cases a with
  | scalar a =>
    simp only [argAt, Option.some.injEq] at hv
    subst hv; simpa [Arg.all] using h
  | array as =>
    simp only [argAt] at hv
    simp only [Arg.all, Bool.and_eq_true, List.all_eq_true] at h
    exact h.2 v (List.mem_of_getElem? hv)

/-- Nearest-integer rounding stays within one half. -/
theorem roundHalfEven_near (x : ℚ) : |((roundHalfEven x : Int) : ℚ) - x| ≤ 1 / 2 := by
  have h1 := Int.floor_le x
  have h2 := Int.lt_floor_add_one x
  unfold roundHalfEven
  simp only
  rw [abs_le]
  split
  · constructor <;> linarith
  · split
    · push_cast; constructor <;> linarith
    · split
      · constructor <;> linarith
      · push_cast; constructor <;> linarith

theorem roundHalfEven_int (n : Int) : roundHalfEven (n : ℚ) = n := by
  unfold roundHalfEven
  simp

theorem addNanos_ok {t t' : TS} {a : Arg Int} (ht : NormalTS t) (h : t.addNanos a = .ok t') :
    t'.scale = t.scale ∧ t'.rows.length = t.rows.length ∧ NormalTS t' ∧
    ∀ i r r', t.rows[i]? = some r → t'.rows[i]? = some r' →
      ∃ v, argAt a i = some v ∧ instant r' = instant r + v := by
  unfold TS.addNanos at h
  split at h
  · cases h
  · rename_i hc
    have hall : a.all inAddRange = true := by simpa using hc
    split at h
    · cases h
    · rename_i ns hns
      obtain ⟨hlen, hat⟩ := expand_ok hns
      simp only [Except.ok.injEq] at h
      subst h
      have key : ∀ i r r', t.rows[i]? = some r →
          (List.zipWith Row.addNanosRaw t.rows ns)[i]? = some r' →
          ∃ v, argAt a i = some v ∧ Normal r' ∧ instant r' = instant r + v := by
        intro i r r' hr hr'
        rw [List.getElem?_zipWith] at hr'
        have hi : i < t.rows.length := (List.getElem?_eq_some_iff.mp hr).1
        have hv := hat i hi
        rw [hr] at hr'
        cases hn : ns[i]? with
        | none => rw [hn] at hr'; simp at hr'
        | some v =>
          rw [hn] at hr'
          simp only [Option.some.injEq] at hr'
          rw [hn] at hv
          have hrange := (inAddRange_iff v).mp (argAll_at hall hv)
          have hnr := ht r (List.mem_of_getElem? hr)
          have := addNanosRaw_spec hnr hrange.1 hrange.2
          rw [← hr']
          exact ⟨v, hv, this⟩
      refine ⟨rfl, ?_, ?_, ?_⟩
      · simp [hlen]
      · intro r' hr'
        obtain ⟨i, hi⟩ := List.mem_iff_getElem?.mp hr'
        dsimp only at hi
        have hlt : i < t.rows.length := by
          have := (List.getElem?_eq_some_iff.mp hi).1
          simp [hlen] at this; exact this
        obtain ⟨v, _, hn, _⟩ := key i t.rows[i] r' (List.getElem?_eq_getElem hlt) hi
        exact hn
      · intro i r r' hr hr'
        obtain ⟨v, hv, _, hi⟩ := key i r r' hr hr'
        exact ⟨v, hv, hi⟩

theorem addDays_ok {t t' : TS} {a : Arg Int} (ht : NormalTS t) (h : t.addDays a = .ok t') :
    t'.scale = t.scale ∧ t'.rows.length = t.rows.length ∧ NormalTS t' ∧
    ∀ i r r', t.rows[i]? = some r → t'.rows[i]? = some r' →
      ∃ v, argAt a i = some v ∧ instant r' = instant r + v * Spec.DAY := by
  unfold TS.addDays at h
  split at h
  · cases h
  · rename_i ds hds
    obtain ⟨hlen, hat⟩ := expand_ok hds
    simp only [Except.ok.injEq] at h
    subst h
    refine ⟨rfl, by simp [hlen], ?_, ?_⟩
    · intro r' hr'
      obtain ⟨i, hi⟩ := List.mem_iff_getElem?.mp hr'
      dsimp only at hi
      rw [List.getElem?_zipWith] at hi
      cases h1 : t.rows[i]? with
      | none => rw [h1] at hi; simp at hi
      | some r =>
        rw [h1] at hi
        cases h2 : ds[i]? with
        | none => rw [h2] at hi; simp at hi
        | some v =>
          rw [h2] at hi
          simp only [Option.some.injEq] at hi
          subst hi
          have := ht r (List.mem_of_getElem? h1)
          exact this
    · intro i r r' hr hr'
      dsimp only at hr'
      rw [List.getElem?_zipWith, hr] at hr'
      have hi : i < t.rows.length := (List.getElem?_eq_some_iff.mp hr).1
      have hv := hat i hi
      cases h2 : ds[i]? with
      | none => rw [h2] at hr'; simp at hr'
      | some v =>
        rw [h2] at hr' hv
        simp only [Option.some.injEq] at hr'
        refine ⟨v, hv, ?_⟩
        subst hr'
        simp only [instant]
        ring

theorem splitFractionalDays_spec (x : ℚ) :
    0 ≤ (splitFractionalDays x).2 ∧ (splitFractionalDays x).2 < Spec.DAY ∧
    (0 : ℚ) ≤ x * Spec.DAY - (((splitFractionalDays x).1 * Spec.DAY + (splitFractionalDays x).2 : Int) : ℚ) ∧
    x * Spec.DAY - (((splitFractionalDays x).1 * Spec.DAY + (splitFractionalDays x).2 : Int) : ℚ) < 1 := by
  have h1 := Int.floor_le x
  have h2 := Int.lt_floor_add_one x
  simp only [splitFractionalDays, NANOS_eq, DAY_eq]
  push_cast
  set y : ℚ := (x - (⌊x⌋ : ℚ)) * 86400000000000 with hy
  have hy0 : 0 ≤ y := by rw [hy]; exact mul_nonneg (by linarith) (by norm_num)
  have hy1 : y < 86400000000000 := by rw [hy]; linarith
  have h3 := Int.floor_le y
  have h4 := Int.lt_floor_add_one y
  refine ⟨Int.floor_nonneg.mpr hy0, ?_, ?_, ?_⟩
  · exact Int.floor_lt.mpr (by push_cast; exact hy1)
  · linarith
  · linarith

theorem rounded_row {r r' : Row} {p : String} (hr : Normal r) (h : r.rounded p = some r') :
    Normal r' ∧ r'.days = r.days ∧ ∃ u, unit p = some u ∧ u ∣ r'.nanos ∧ u ∣ instant r' ∧
      instant r' ≤ instant r ∧ instant r < instant r' + u := by
  obtain ⟨h0, h1⟩ := hr
  rw [DAY_eq] at h1
  unfold Row.rounded at h
  split at h
  · rename_i hp; subst hp
    simp only [Option.some.injEq] at h; subst h
    refine ⟨⟨h0, by rw [DAY_eq]; exact h1⟩, rfl, 1, by simp [unit], ?_, ?_, ?_, ?_⟩ <;> simp
  · split at h
    · rename_i hp; subst hp
      simp only [Option.some.injEq] at h; subst h
      simp only [Row.micros, arrowDiv, Int.tdiv_eq_ediv_of_nonneg h0, Normal, instant, DAY_eq]
      refine ⟨by omega, by trivial, 1000, by simp [unit], ?_, ?_, ?_, ?_⟩ <;> omega
    · split at h
      · rename_i hp; subst hp
        simp only [Option.some.injEq] at h; subst h
        simp only [Row.millis, arrowDiv, Int.tdiv_eq_ediv_of_nonneg h0, Normal, instant, DAY_eq]
        refine ⟨by omega, by trivial, 1000000, by simp [unit], ?_, ?_, ?_, ?_⟩ <;> omega
      · split at h
        · rename_i hp; subst hp
          simp only [Option.some.injEq] at h; subst h
          simp only [Row.seconds, arrowDiv, Int.tdiv_eq_ediv_of_nonneg h0, Normal, instant, DAY_eq]
          refine ⟨by omega, by trivial, 1000000000, by simp [unit], ?_, ?_, ?_, ?_⟩ <;> omega
        · cases h

theorem rounded_isSome {r : Row} {p : String} (h : precisionOk p = true) : ∃ r', r.rounded p = some r' := by
  simp only [precisionOk, Bool.or_eq_true, decide_eq_true_eq] at h
  unfold Row.rounded
  rcases h with ((h | h) | h) | h <;> subst h <;> simp

theorem filterMap_rounded {rows : List Row} {p : String} (h : precisionOk p = true) :
    (rows.filterMap (·.rounded p)).length = rows.length ∧
    ∀ (i : Nat) (r r' : Row), rows[i]? = some r → (rows.filterMap (·.rounded p))[i]? = some r' →
      r.rounded p = some r' := by
  induction rows with
  | nil => simp
  | cons a l ih =>
    obtain ⟨a', ha'⟩ := rounded_isSome (r := a) h
    rw [List.filterMap_cons_some (f := fun x : Row => x.rounded p) ha']
    refine ⟨by simp [ih.1], ?_⟩
    intro i r r' h1 h2
    cases i with
    | zero =>
      simp only [List.getElem?_cons_zero, Option.some.injEq] at h1 h2
      rw [← h1, ← h2, ha']
    | succ i =>
      simp only [List.getElem?_cons_succ] at h1 h2
      exact ih.2 i r r' h1 h2

theorem step_ok {t t' : TS} {op : Op} (ht : NormalTS t) (h : t.step op = .ok t') :
    t'.scale = t.scale ∧ t'.rows.length = t.rows.length ∧ NormalTS t' ∧
    ∀ i r r', t.rows[i]? = some r → t'.rows[i]? = some r' → Moves op i (instant r) (instant r') := by
  cases op with
  | nanos n =>
    obtain ⟨h1, h2, h3, h4⟩ := addNanos_ok ht h
    exact ⟨h1, h2, h3, h4⟩
  | micros x =>
    obtain ⟨h1, h2, h3, h4⟩ := addNanos_ok ht h
    refine ⟨h1, h2, h3, fun i r r' hr hr' => ?_⟩
    obtain ⟨v, hv, hi⟩ := h4 i r r' hr hr'
    rw [argAt_map] at hv
    cases hx : argAt x i with
    | none => rw [hx] at hv; simp at hv
    | some w =>
      rw [hx] at hv
      simp only [Option.map_some, Option.some.injEq] at hv
      refine ⟨w, hx, ?_⟩
      have := roundHalfEven_near (w * 1000)
      rw [hi, show instant r + v - instant r = v by ring, ← hv]
      exact this
  | millis x =>
    obtain ⟨h1, h2, h3, h4⟩ := addNanos_ok ht h
    refine ⟨h1, h2, h3, fun i r r' hr hr' => ?_⟩
    obtain ⟨v, hv, hi⟩ := h4 i r r' hr hr'
    rw [argAt_map] at hv
    cases hx : argAt x i with
    | none => rw [hx] at hv; simp at hv
    | some w =>
      rw [hx] at hv
      simp only [Option.map_some, Option.some.injEq] at hv
      refine ⟨w, hx, ?_⟩
      have := roundHalfEven_near (w * 1000000)
      rw [hi, show instant r + v - instant r = v by ring, ← hv]
      exact this
  | seconds x =>
    obtain ⟨h1, h2, h3, h4⟩ := addNanos_ok ht h
    refine ⟨h1, h2, h3, fun i r r' hr hr' => ?_⟩
    obtain ⟨v, hv, hi⟩ := h4 i r r' hr hr'
    rw [argAt_map] at hv
    cases hx : argAt x i with
    | none => rw [hx] at hv; simp at hv
    | some w =>
      rw [hx] at hv
      simp only [Option.map_some, Option.some.injEq] at hv
      refine ⟨w, hx, ?_⟩
      have := roundHalfEven_near (w * 1000000000)
      rw [hi, show instant r + v - instant r = v by ring, ← hv]
      exact this
  | days d =>
    obtain ⟨h1, h2, h3, h4⟩ := addDays_ok ht h
    exact ⟨h1, h2, h3, h4⟩
  | fractionalDays x =>
    simp only [TS.step, TS.addFractionalDays] at h
    split at h
    · cases h
    · rename_i t1 ht1
      obtain ⟨a1, a2, a3, a4⟩ := addDays_ok ht ht1
      obtain ⟨b1, b2, b3, b4⟩ := addNanos_ok a3 h
      refine ⟨b1.trans a1, b2.trans a2, b3, fun i r r' hr hr' => ?_⟩
      have hi : i < t1.rows.length := by
        rw [a2]; exact (List.getElem?_eq_some_iff.mp hr).1
      obtain ⟨v1, hv1, e1⟩ := a4 i r _ hr (List.getElem?_eq_getElem hi)
      obtain ⟨v2, hv2, e2⟩ := b4 i _ r' (List.getElem?_eq_getElem hi) hr'
      rw [argAt_map] at hv1 hv2
      cases hx : argAt x i with
      | none => rw [hx] at hv1; simp at hv1
      | some w =>
        rw [hx] at hv1 hv2
        simp only [Option.map_some, Option.some.injEq] at hv1 hv2
        refine ⟨w, hx, ?_⟩
        obtain ⟨_, _, c3, c4⟩ := splitFractionalDays_spec w
        have : instant r' - instant r = (splitFractionalDays w).1 * Spec.DAY + (splitFractionalDays w).2 := by
          rw [e2, e1, ← hv1, ← hv2]; ring
        rw [this]
        exact ⟨c3, c4⟩
  | rounded p =>
    simp only [TS.step, TS.rounded] at h
    split at h
    · rename_i hp
      simp only [Except.ok.injEq] at h
      subst h
      obtain ⟨hl, hat⟩ := filterMap_rounded (rows := t.rows) hp
      refine ⟨rfl, hl, ?_, ?_⟩
      · intro r' hr'
        dsimp only at hr'
        obtain ⟨i, hi⟩ := List.mem_iff_getElem?.mp hr'
        have hlt : i < t.rows.length := by
          have := (List.getElem?_eq_some_iff.mp hi).1
          rw [hl] at this; exact this
        have hrow := hat i t.rows[i] r' (List.getElem?_eq_getElem hlt) hi
        exact (rounded_row (ht _ (List.getElem_mem hlt)) hrow).1
      · intro i r r' hr hr'
        have hrow := hat i r r' hr hr'
        obtain ⟨_, _, u, hu, _, hd, h1, h2⟩ := rounded_row (ht _ (List.mem_of_getElem? hr)) hrow
        exact ⟨u, hu, hd, h1, h2⟩
    · cases h

theorem run_ok {ops : List Op} : ∀ {t t' : TS}, NormalTS t → t.run ops = .ok t' →
    t'.scale = t.scale ∧ t'.rows.length = t.rows.length ∧ NormalTS t' ∧
    ∀ i r r', t.rows[i]? = some r → t'.rows[i]? = some r' → Chain ops i (instant r) (instant r') := by
  induction ops with
  | nil =>
    intro t t' ht h
    simp only [TS.run, Except.ok.injEq] at h
    subst h
    refine ⟨rfl, rfl, ht, fun i r r' h1 h2 => ?_⟩
    rw [h1] at h2
    simp only [Option.some.injEq] at h2
    subst h2
    rfl
  | cons op ops ih =>
    intro t t' ht h
    simp only [TS.run] at h
    split at h
    · cases h
    · rename_i t1 ht1
      obtain ⟨a1, a2, a3, a4⟩ := step_ok ht ht1
      obtain ⟨b1, b2, b3, b4⟩ := ih a3 h
      refine ⟨b1.trans a1, b2.trans a2, b3, fun i r r' hr hr' => ?_⟩
      have hi : i < t1.rows.length := by
        rw [a2]; exact (List.getElem?_eq_some_iff.mp hr).1
      exact ⟨_, a4 i r _ hr (List.getElem?_eq_getElem hi), b4 i _ r' (List.getElem?_eq_getElem hi) hr'⟩

end Verif.Time
