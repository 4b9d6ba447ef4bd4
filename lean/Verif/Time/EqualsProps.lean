import Verif.Time.Props

/-! # `equals` of whole tables (C05) -/

namespace Verif.Time.EqualsProps

open Verif Time Spec

/-- The window of differences that counts as equal, for a unit of `u` nanoseconds. -/
def Window (u : Int) (a b : Row) : Bool :=
  decide (instant a = instant b) || decide (-(u - 1) ≤ instant a - instant b ∧ instant a - instant b < u - 1)

theorem unit_dev (p : String) : (∃ u dev, unit p = some u ∧ maxDeviation p = some dev) ∨
    (unit p = none ∧ maxDeviation p = none) := by
  by_cases h1 : p = "ns"
  · subst h1; exact Or.inl ⟨1, 0, rfl, rfl⟩
  by_cases h2 : p = "us"
  · subst h2; exact Or.inl ⟨1000, 999, rfl, rfl⟩
  by_cases h3 : p = "ms"
  · subst h3; exact Or.inl ⟨1000000, 999999, rfl, rfl⟩
  by_cases h4 : p = "s"
  · subst h4; exact Or.inl ⟨1000000000, 999999999, rfl, rfl⟩
  right
  refine ⟨?_, ?_⟩
  · unfold unit
    split
    · exact absurd rfl h1
    · exact absurd rfl h2
    · exact absurd rfl h3
    · exact absurd rfl h4
    · rfl
  · unfold maxDeviation
    rw [if_neg h1, if_neg h2, if_neg h3, if_neg h4]

theorem within_window {p : String} {u dev : Int} (hu : unit p = some u) (hd : maxDeviation p = some dev) {a b : Row}
    (ha : Normal a) (hb : Normal b) : withinTolerance (a.diff b) dev = Window u a b := by
  have h := Props.C05_equals_window a b p u hu ha hb "tai"
  simp only [TS.equals, TS.equalsScalar, TS.differenceScalar, hd, ne_eq, not_true_eq_false, if_false, List.map_cons,
    List.map_nil, Except.ok.injEq, List.cons.injEq, and_true] at h
  exact h

/-- **C05, tables.** In one time scale and at a supported precision a table is compared row by row with a table of the
same length, every row with a table of one row. -/
theorem C05_equals_table (t o : TS) (p : String) (u : Int) (hu : unit p = some u) (hs : t.scale = o.scale)
    (ht : NormalTS t) (ho : NormalTS o) :
    (∀ b, o.rows = [b] → t.equals o p = .ok (t.rows.map fun a => Window u a b)) ∧
    (o.rows.length ≠ 1 → t.rows.length = o.rows.length → t.equals o p = .ok (List.zipWith (Window u) t.rows o.rows)) := by
  rcases unit_dev p with ⟨u', dev, hu', hd⟩ | ⟨hn, -⟩
  · rw [hu] at hu'; cases hu'
    refine ⟨fun b hb => ?_, fun h1 hl => ?_⟩
    · unfold TS.equals
      rw [if_neg (by simp [hs]), hb]
      simp only [TS.equalsScalar, TS.differenceScalar, hd, List.map_map, Except.ok.injEq]
      apply List.map_congr_left
      intro a ha
      exact within_window hu hd (ht a ha) (ho b (by rw [hb]; simp))
    · have e : t.equals o p = t.equalsArray o p := by
        unfold TS.equals
        rw [if_neg (by simp [hs])]
        split
        · rename_i b hb; rw [hb] at h1; simp at h1
        · rfl
      rw [e]
      simp only [TS.equalsArray, TS.difference, hs, hl, ne_eq, not_true_eq_false, if_false, hd, Except.ok.injEq]
      rw [List.map_zipWith]
      apply List.ext_getElem?
      intro i
      rw [List.getElem?_zipWith, List.getElem?_zipWith]
      cases e1 : t.rows[i]? with
      | none => rfl
      | some a =>
        cases e2 : o.rows[i]? with
        | none => rfl
        | some b =>
          simp only [Option.some.injEq]
          exact within_window hu hd (ht a (List.mem_of_getElem? e1)) (ho b (List.mem_of_getElem? e2))
  · rw [hu] at hn; cases hn

/-- **C05, refusals.** Different time scales, an unknown precision, and tables of different lengths (unless the other has
one row) are a ValueError, and nothing else is refused. -/
theorem C05_equals_errors (t o : TS) (p : String) :
    ((t.scale ≠ o.scale ∨ unit p = none ∨ (o.rows.length ≠ 1 ∧ t.rows.length ≠ o.rows.length)) ↔
      t.equals o p = .error .valueError) ∧
    (∀ e, t.equals o p = .error e → e = .valueError) := by
  unfold TS.equals
  by_cases hs : t.scale = o.scale
  · rw [if_neg (by simp [hs])]
    split
    · rename_i b hb
      unfold TS.equalsScalar
      rcases unit_dev p with ⟨u, dev, hu, hd⟩ | ⟨hn, hd⟩
      · rw [hd]; simp [hs, hu, hb]
      · rw [hd]; simp [hn]
    · rename_i hb
      have h1 : o.rows.length ≠ 1 := by
        intro h
        obtain ⟨b, hb'⟩ := List.length_eq_one_iff.mp h
        exact hb b hb'
      unfold TS.equalsArray
      rw [if_neg (by simp [hs])]
      by_cases hl : t.rows.length = o.rows.length
      · rw [if_neg (by simp [hl])]
        unfold TS.difference
        rw [if_neg (by simp [hs]), if_neg (by simp [hl])]
        rcases unit_dev p with ⟨u, dev, hu, hd⟩ | ⟨hn, hd⟩
        · simp only [hd]; simp [hs, hu, hl]
        · simp only [hd]; simp [hn]
      · rw [if_pos hl]; simp [h1, hl]
  · rw [if_pos hs]; simp [hs]

example : unit "ms" = some 1000000 ∧ NormalTS ⟨"tai", [⟨5, 1⟩, ⟨6, 2⟩]⟩ := by
  refine ⟨rfl, ?_⟩
  intro r hr
  rcases List.mem_cons.mp hr with rfl | hr
  · exact ⟨by decide, by decide⟩
  · rw [List.mem_singleton.mp hr]; exact ⟨by decide, by decide⟩

end Verif.Time.EqualsProps
