import Verif.Lru.Lemmas

/-! # Property theorems for the bounded LRU cache (C21) -/

namespace Verif.Lru.Props

open Spec
variable {K V : Type} [DecidableEq K]

/-- **C21, size.** After any history of gets and puts the cache holds at most `maxsize` entries, and none when
`maxsize` is zero or negative. -/
theorem C21_size (m : Int) (h : List (Op K V)) : ((run m h).length : Int) ≤ max m 0 := by
  by_cases hm : 0 < m
  · induction h using List.reverseRecOn with
    | nil => exact Int.le_max_right m 0
    | append_singleton h o ih =>
      have hd := run_distinct m h
      unfold run runFrom
      rw [List.foldl_append]
      simp only [List.foldl_cons, List.foldl_nil]
      change ((step m (run m h) o).length : Int) ≤ _
      cases o with
      | get k =>
        simp only [step]
        rcases get_cache_eq hd k m with h1 | ⟨v, hv, _, h1⟩
        · rw [h1]; exact ih
        · rw [h1]
          have : (without (run m h) k).length < (run m h).length := by
            unfold without
            rw [List.length_filter_lt_length_iff_exists]
            exact ⟨(k, v), hv, by simp⟩
          simp only [List.length_append, List.length_singleton]
          omega
      | put k v =>
        simp only [step]
        rw [put_eq hd k v hm, List.length_drop]
        omega
  · cases hr : run m h with
    | nil => exact Int.le_max_right m 0
    | cons p ps =>
      exfalso
      have : ∀ (h : List (Op K V)), run m h = [] := by
        intro h
        unfold run runFrom
        induction h with
        | nil => rfl
        | cons o os ih =>
          have : step m ([] : Cache K V) o = [] := by
            cases o <;> simp only [step, get, put] <;> rw [if_pos (by omega)]
          rw [List.foldl_cons, this]
          exact ih
      rw [this h] at hr
      cases hr

/-- **C21, values.** Whatever a lookup returns after any history is the value most recently put for that key. -/
theorem C21_value (m : Int) (h : List (Op K V)) (k : K) (v : V) (hg : (get (run m h) k m).1 = some v) :
    lastPut k h = some v := by
  rcases get_cache_eq (run_distinct m h) k m with h1 | ⟨w, hw, h2, _⟩
  · unfold get at hg
    split at hg
    · exact absurd hg (by simp)
    · cases hf : find (run m h) k with
      | none => rw [hf] at hg; exact absurd hg (by simp)
      | some w =>
        rw [hf] at hg
        have := run_sound m h _ ((find_some_iff (run_distinct m h) k w).mp hf)
        rw [← hg]
        exact this
  · rw [h2] at hg
    rw [← hg]
    exact run_sound m h _ hw

/-- **C21, recency.** A put followed by any calls that do not put the key again and touch fewer than `maxsize` other
keys is still found, with its value. -/
theorem C21_recent (m : Int) (pre suf : List (Op K V)) (k : K) (v : V) (hno : lastPut k suf = none)
    (hfew : ((others k suf).length : Int) < m) :
    (get (run m (pre ++ .put k v :: suf)) k m).1 = some v := by
  have hm : 0 < m := by omega
  have hd := run_distinct m pre
  have hput : Retained (put (run m pre) k v m) k v (others k suf) := by
    rw [put_eq hd k v hm]
    refine ⟨(without (run m pre) k).drop ((without (run m pre) k ++ [(k, v)]).length - m.toNat), [], ?_, by simp⟩
    rw [List.drop_append]
    congr 1
    have : (without (run m pre) k ++ [(k, v)]).length - m.toNat - (without (run m pre) k).length = 0 := by
      simp only [List.length_append, List.length_singleton]; omega
    rw [this, List.drop_zero]
  have hkeys : ∀ o ∈ suf, o.key = k ∨ o.key ∈ others k suf := by
    intro o ho
    by_cases hk : o.key = k
    · exact Or.inl hk
    · refine Or.inr (List.mem_filter.mpr ⟨List.mem_eraseDups.mpr (List.mem_map.mpr ⟨o, ho, rfl⟩), by simp [hk]⟩)
  have hr := retained_run hfew (by simp [others]) suf (put_distinct hd k v m) hput hkeys hno
  have hrun : run m (pre ++ .put k v :: suf) = runFrom m (put (run m pre) k v m) suf := by
    unfold run runFrom
    rw [List.foldl_append, List.foldl_cons]
    rfl
  rw [hrun]
  obtain ⟨A, B, hAB, _⟩ := hr
  have hf := (find_some_iff (runFrom_distinct (put_distinct hd k v m) m suf) k v).mpr (by rw [hAB]; simp)
  unfold get
  rw [if_neg (by omega), hf]

/-- **C21, eviction order.** When a put makes the cache overflow, exactly the least recently touched keys go: the cache
after any call is a suffix of the keys in order of last touch, so an evicted key was touched before every kept one. -/
theorem C21_evicts_oldest (m : Int) (h : List (Op K V)) (k : K) (v : V) (hm : 0 < m) :
    ∃ dropped, (run m h).filter (fun p => p.1 ≠ k) ++ [(k, v)] = dropped ++ run m (h ++ [.put k v]) ∧
      (dropped ≠ [] → ((run m (h ++ [.put k v])).length : Int) = m) := by
  have hd := run_distinct m h
  have hrun : run m (h ++ [.put k v]) = put (run m h) k v m := by
    unfold run runFrom
    rw [List.foldl_append]
    rfl
  rw [hrun, put_eq hd k v hm]
  refine ⟨(without (run m h) k ++ [(k, v)]).take ((without (run m h) k ++ [(k, v)]).length - m.toNat),
    (List.take_append_drop _ _).symm, ?_⟩
  intro hne
  rw [List.length_drop]
  have : (without (run m h) k ++ [(k, v)]).length - m.toNat ≠ 0 := by
    intro h0
    rw [h0] at hne
    exact hne (List.take_zero)
  omega

/-- **C21, disabled.** With `maxsize ≤ 0` every lookup misses. -/
theorem C21_disabled (m : Int) (hm : m ≤ 0) (h : List (Op K V)) (k : K) : (get (run m h) k m).1 = none := by
  unfold get
  rw [if_pos hm]

/- A history with an eviction, meeting the hypotheses of `C21_recent`: capacity 2, put 1, put 2, get 1, put 3.
Key 1 survives because it was touched after key 2. -/
example : (get (run 2 [.put 1 "a", .put 2 "b", .get 1, .put (3 : Nat) "c"]) 1 2).1 = some "a" := by decide
example : (get (run 2 [.put 1 "a", .put 2 "b", .get 1, .put (3 : Nat) "c"]) 2 2).1 = none := by decide
example : ((others 1 [Op.get 1, .put (3 : Nat) "c"]).length : Int) < 2 := by decide
example : (get (run 2 ([.put 2 "b"] ++ .put 1 "a" :: [Op.get 1, .put (3 : Nat) "c"])) 1 2).1 = some "a" :=
  C21_recent 2 _ _ 1 "a" (by decide) (by decide)

end Verif.Lru.Props
