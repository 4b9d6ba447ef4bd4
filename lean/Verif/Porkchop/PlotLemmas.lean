import Verif.Porkchop.Plot
import Mathlib.Tactic.Linarith
import Mathlib.Tactic.ByContra
import Mathlib.Tactic.Positivity

/-! # Facts about the helpers of the porkchop plot -/

namespace Verif.Porkchop

open Classical Verif

theorem foldl_max (l : List (Option ℝ)) (a : Option ℝ) :
    (l.foldl (Option.map₂ max) a = none ↔ none ∈ a :: l) ∧
    ∀ m, l.foldl (Option.map₂ max) a = some m → (∀ b, some b ∈ a :: l → b ≤ m) ∧ some m ∈ a :: l := by
  induction l generalizing a with
  | nil =>
    refine ⟨by simp [eq_comm], fun m h => ⟨fun b hb => ?_, ?_⟩⟩
    · simp only [List.foldl_nil] at h
      subst h
      simp at hb
      exact le_of_eq hb
    · simp only [List.foldl_nil] at h
      simp [h]
  | cons c l ih =>
    rw [List.foldl_cons]
    obtain ⟨i1, i2⟩ := ih (Option.map₂ max a c)
    refine ⟨i1.trans ?_, fun m h => ?_⟩
    · simp only [List.mem_cons]
      cases a <;> cases c <;> simp
    · obtain ⟨j1, j2⟩ := i2 m h
      have hn : none ∉ Option.map₂ max a c :: l := fun hh => by
        rw [i1.mpr hh] at h
        cases h
      cases a with
      | none => exact absurd (by simp) hn
      | some a =>
        cases c with
        | none => exact absurd (by simp) hn
        | some c =>
          simp only [Option.map₂_some_some, List.mem_cons, Option.some.injEq] at j1 j2 ⊢
          refine ⟨?_, ?_⟩
          · rintro b (rfl | rfl | hb)
            · exact le_trans (le_max_left _ _) (j1 _ (Or.inl rfl))
            · exact le_trans (le_max_right _ _) (j1 _ (Or.inl rfl))
            · exact j1 _ (Or.inr hb)
          · rcases j2 with h2 | h2
            · rcases max_choice a c with e | e
              · exact Or.inl (h2.trans e)
              · exact Or.inr (Or.inl (h2.trans e))
            · exact Or.inr (Or.inr h2)

theorem npMax_cases (l : List (Option ℝ)) :
    (l = [] ∧ npMax l = .error .valueError) ∨ (none ∈ l ∧ npMax l = .ok none) ∨
    (none ∉ l ∧ ∃ m, npMax l = .ok (some m) ∧ (∀ b, some b ∈ l → b ≤ m) ∧ some m ∈ l) := by
  cases l with
  | nil => exact Or.inl ⟨rfl, rfl⟩
  | cons a l =>
    obtain ⟨h1, h2⟩ := foldl_max l a
    right
    by_cases h : none ∈ a :: l
    · exact Or.inl ⟨h, by simp only [npMax, h1.mpr h]⟩
    · refine Or.inr ⟨h, ?_⟩
      cases hm : l.foldl (Option.map₂ max) a with
      | none => exact absurd (h1.mp hm) h
      | some m => exact ⟨m, by simp only [npMax, hm], h2 m hm⟩

theorem least_spec {l : List ℝ} (h : l ≠ []) : least l ∈ l ∧ ∀ a ∈ l, least l ≤ a := by
  cases l with
  | nil => exact absurd rfl h
  | cons a l =>
    clear h
    simp only [least]
    induction l generalizing a with
    | nil => simp
    | cons b l ih =>
      obtain ⟨h1, h2⟩ := ih (min a b)
      rw [List.foldl_cons]
      refine ⟨?_, ?_⟩
      · rcases List.mem_cons.mp h1 with h1 | h1
        · rw [h1]
          rcases min_choice a b with e | e <;> simp [e]
        · simp [h1]
      · intro c hc
        have h3 := h2 (min a b) (by simp)
        simp only [List.mem_cons] at hc h2
        rcases hc with rfl | rfl | hc
        · exact h3.trans (min_le_left _ _)
        · exact h3.trans (min_le_right _ _)
        · exact h2 _ (Or.inr hc)

theorem greatest_spec {l : List ℝ} (h : l ≠ []) : greatest l ∈ l ∧ ∀ a ∈ l, a ≤ greatest l := by
  cases l with
  | nil => exact absurd rfl h
  | cons a l =>
    clear h
    simp only [greatest]
    induction l generalizing a with
    | nil => simp
    | cons b l ih =>
      obtain ⟨h1, h2⟩ := ih (max a b)
      rw [List.foldl_cons]
      refine ⟨?_, ?_⟩
      · rcases List.mem_cons.mp h1 with h1 | h1
        · rw [h1]
          rcases max_choice a b with e | e <;> simp [e]
        · simp [h1]
      · intro c hc
        have h3 := h2 (max a b) (by simp)
        simp only [List.mem_cons] at hc h2
        rcases hc with rfl | rfl | hc
        · exact (le_max_left _ _).trans h3
        · exact (le_max_right _ _).trans h3
        · exact h2 _ (Or.inr hc)

theorem mem_unique {l : List ℝ} {a : ℝ} : a ∈ unique l ↔ a ∈ l := by
  rw [unique, List.mem_insertionSort, List.mem_dedup]

theorem unique_sorted (l : List ℝ) : (unique l).Pairwise (· < ·) := by
  have h1 : (unique l).Pairwise (· ≤ ·) := List.pairwise_insertionSort _ _
  have h2 : (unique l).Pairwise (· ≠ ·) := (List.perm_insertionSort (· ≤ ·) l.dedup).nodup_iff.mpr (List.nodup_dedup l)
  exact (h1.and h2).imp fun h => lt_of_le_of_ne h.1 h.2

theorem unique_nodup (l : List ℝ) : (unique l).Nodup := (unique_sorted l).imp ne_of_lt

/-- At least two distinct values. -/
theorem two_le_unique {l : List ℝ} : 2 ≤ (unique l).length ↔ ∃ a ∈ l, ∃ b ∈ l, a ≠ b := by
  constructor
  · intro h
    have hs := unique_nodup l
    match hu : unique l with
    | [] => rw [hu] at h; simp at h
    | [a] => rw [hu] at h; simp at h
    | a :: b :: r =>
      rw [hu] at hs
      refine ⟨a, mem_unique.mp (by rw [hu]; simp), b, mem_unique.mp (by rw [hu]; simp), ?_⟩
      have := (List.nodup_cons.mp hs).1
      rintro rfl
      simp at this
  · rintro ⟨a, ha, b, hb, hab⟩
    have ha' := mem_unique.mpr ha
    have hb' := mem_unique.mpr hb
    match hu : unique l with
    | [] => rw [hu] at ha'; simp at ha'
    | [c] =>
      rw [hu] at ha' hb'
      simp only [List.mem_singleton] at ha' hb'
      exact absurd (ha'.trans hb'.symm) hab
    | c :: d :: r => simp

theorem idxOf_iff {l : List ℝ} (h : l.Nodup) {a : ℝ} (ha : a ∈ l) (i : Nat) : l.idxOf a = i ↔ l[i]? = some a := by
  constructor
  · rintro rfl
    rw [List.getElem?_eq_getElem (List.idxOf_lt_length_of_mem ha), List.getElem_idxOf]
  · intro hi
    obtain ⟨hl, rfl⟩ := List.getElem?_eq_some_iff.mp hi
    exact h.idxOf_getElem i hl

/-- The value of an assigned cell. -/
noncomputable def cellAt (i j : Nat) (c : Nat × Nat × ℝ) : Option ℝ := if c.1 = i ∧ c.2.1 = j then some c.2.2 else none

theorem fill_spec (ny nx : Nat) (cells : List (Nat × Nat × ℝ)) :
    (fill ny nx cells).length = ny ∧ (∀ row ∈ fill ny nx cells, row.length = nx) ∧
    ∀ i < ny, ∀ j < nx, ((fill ny nx cells)[i]?.bind (·[j]?)) = some ((cells.filterMap (cellAt i j)).getLast?) := by
  induction cells using List.reverseRecOn with
  | nil =>
    refine ⟨by simp [fill], fun row h => ?_, fun i hi j hj => ?_⟩
    · simp only [fill, List.foldl_nil] at h
      rw [(List.mem_replicate.mp h).2, List.length_replicate]
    · simp [fill, hi, hj]
  | append_singleton cells c ih =>
    obtain ⟨h1, h2, h3⟩ := ih
    have e : fill ny nx (cells ++ [c]) = (fill ny nx cells).modify c.1 fun row => row.set c.2.1 (some c.2.2) := by
      simp [fill, List.foldl_append]
    rw [e]
    refine ⟨by rw [List.length_modify, h1], fun row h => ?_, fun i hi j hj => ?_⟩
    · obtain ⟨k, hk⟩ := List.mem_iff_getElem?.mp h
      rw [List.getElem?_modify] at hk
      cases hg : (fill ny nx cells)[k]? with
      | none => rw [hg] at hk; simp at hk
      | some r =>
        rw [hg] at hk
        have := h2 r (List.mem_of_getElem? hg)
        simp only [Option.map_eq_map, Option.map_some, Option.some.injEq] at hk
        rw [← hk]
        split <;> simp [this]
    · have h4 := h3 i hi j hj
      rw [List.getElem?_modify]
      cases hg : (fill ny nx cells)[i]? with
      | none => rw [hg] at h4; simp at h4
      | some r =>
        rw [hg] at h4
        have hr := h2 r (List.mem_of_getElem? hg)
        simp only [Option.bind_some] at h4
        simp only [Option.map_eq_map, Option.map_some, Option.bind_some, List.filterMap_append]
        by_cases hc : c.1 = i
        · rw [if_pos hc]
          by_cases hd : c.2.1 = j
          · rw [List.getElem?_set, if_pos hd, if_pos (by omega)]
            simp [cellAt, hc, hd]
          · rw [List.getElem?_set, if_neg hd, h4]
            simp [cellAt, hd]
        · rw [if_neg hc, h4]
          simp [cellAt, hc]

theorem getLast?_filterMap {α β : Type} (g : α → Option β) (rows : List α) (b : β) :
    (rows.filterMap g).getLast? = some b ↔ ∃ pre s post, rows = pre ++ s :: post ∧ g s = some b ∧ ∀ t ∈ post, g t = none := by
  induction rows using List.reverseRecOn with
  | nil => simp
  | append_singleton rows r ih =>
    rw [List.filterMap_append]
    cases hr : g r with
    | none =>
      have e : List.filterMap g [r] = [] := by simp [hr]
      rw [e, List.append_nil, ih]
      constructor
      · rintro ⟨pre, s, post, rfl, h1, h2⟩
        refine ⟨pre, s, post ++ [r], by simp, h1, fun t ht => ?_⟩
        rcases List.mem_append.mp ht with ht | ht
        · exact h2 t ht
        · rw [List.mem_singleton.mp ht, hr]
      · rintro ⟨pre, s, post, h, h1, h2⟩
        rcases List.eq_nil_or_concat post with rfl | ⟨post', t, rfl⟩
        · obtain ⟨-, h4⟩ := List.append_inj' h rfl
          simp only [List.cons.injEq, and_true] at h4
          rw [← h4, hr] at h1
          cases h1
        · rw [List.concat_eq_append] at h h2
          rw [← List.cons_append, ← List.append_assoc] at h
          obtain ⟨h3, h4⟩ := List.append_inj' h rfl
          exact ⟨pre, s, post', h3, h1, fun x hx => h2 x (List.mem_append_left _ hx)⟩
    | some v =>
      have e : List.filterMap g [r] = [v] := by simp [hr]
      rw [e, List.getLast?_append]
      simp only [List.getLast?_singleton, Option.some_or, Option.some.injEq]
      constructor
      · rintro rfl
        exact ⟨rows, r, [], rfl, hr, by simp⟩
      · rintro ⟨pre, s, post, h, h1, h2⟩
        rcases List.eq_nil_or_concat post with rfl | ⟨post', t, rfl⟩
        · obtain ⟨-, h4⟩ := List.append_inj' h rfl
          simp only [List.cons.injEq, and_true] at h4
          rw [← h4, hr] at h1
          exact Option.some.inj h1
        · rw [List.concat_eq_append] at h h2
          rw [← List.cons_append, ← List.append_assoc] at h
          obtain ⟨-, h4⟩ := List.append_inj' h rfl
          simp only [List.cons.injEq, and_true] at h4
          have := h2 t (by simp)
          rw [← h4, hr] at this
          cases this

theorem argmin_spec {α : Type} (f : α → ℝ) (l : List α) :
    (l.argmin f = none ↔ l = []) ∧
    ∀ a, l.argmin f = some a → ∃ pre post, l = pre ++ a :: post ∧ (∀ b ∈ pre, f a < f b) ∧ ∀ b ∈ post, f a ≤ f b := by
  refine ⟨List.argmin_eq_none, fun a ha => ?_⟩
  induction l generalizing a with
  | nil => simp at ha
  | cons c l ih =>
    rw [List.argmin_cons] at ha
    cases hm : l.argmin f with
    | none =>
      rw [hm] at ha
      have := List.argmin_eq_none.mp hm
      subst this
      simp only [Option.some.injEq] at ha
      exact ⟨[], [], by rw [ha]; rfl, by simp, by simp⟩
    | some m =>
      rw [hm] at ha
      obtain ⟨pre, post, rfl, h1, h2⟩ := ih m hm
      simp only at ha
      split at ha
      · rename_i hlt
        rw [Option.some.injEq] at ha
        subst ha
        refine ⟨c :: pre, post, rfl, fun b hb => ?_, h2⟩
        rcases List.mem_cons.mp hb with rfl | hb
        · exact hlt
        · exact h1 b hb
      · rename_i hlt
        rw [Option.some.injEq] at ha
        subst ha
        refine ⟨[], _, rfl, by simp, fun b hb => ?_⟩
        have hcm := not_lt.mp hlt
        rcases List.mem_append.mp hb with hb | hb
        · exact hcm.trans (h1 b hb).le
        · rcases List.mem_cons.mp hb with rfl | hb
          · exact hcm
          · exact hcm.trans (h2 b hb)

theorem roundEven_pos {x : ℝ} (h : 1 ≤ x) : 1 ≤ roundEven x := by
  have : (1 : ℤ) ≤ ⌊x⌋ := Int.le_floor.mpr (by exact_mod_cast h)
  unfold roundEven
  split
  · exact this
  · split
    · omega
    · split <;> omega

theorem tofStep_spec (lo hi : ℝ) : ∃ n : ℤ, 1 ≤ n ∧ tofStep lo hi = 5 * n := by
  refine ⟨roundEven (max 5 ((hi - lo) / 10) / 5), roundEven_pos ?_, by unfold tofStep; ring⟩
  have := le_max_left (5 : ℝ) ((hi - lo) / 10)
  linarith

theorem roundEven_near (x : ℝ) : |x - roundEven x| ≤ 1 / 2 := by
  have h1 := Int.floor_le x
  have h2 := Int.lt_floor_add_one x
  unfold roundEven
  rw [abs_le]
  split
  · constructor <;> linarith
  · split
    · push_cast
      constructor <;> linarith
    · split
      · constructor <;> linarith
      · push_cast
        constructor <;> linarith

end Verif.Porkchop
