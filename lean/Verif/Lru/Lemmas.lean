import Verif.Lru.Spec
import Mathlib.Data.List.Nodup
import Mathlib.Data.List.Dedup
import Mathlib.Data.List.Induction
import Mathlib.Data.List.Perm.Subperm

/-! Helper lemmas for the LRU cache. -/

namespace Verif.Lru

open Spec
variable {K V : Type} [DecidableEq K]

/-- Keys of an `OrderedDict` are distinct. -/
def Distinct (c : Cache K V) : Prop := (c.map Prod.fst).Nodup

theorem find_some_iff {c : Cache K V} (hd : Distinct c) (k : K) (v : V) : find c k = some v ↔ (k, v) ∈ c := by
  unfold find
  induction c with
  | nil => simp
  | cons p ps ih =>
    have hd' : Distinct ps := (List.nodup_cons.mp hd).2
    have hn : p.1 ∉ ps.map Prod.fst := (List.nodup_cons.mp hd).1
    by_cases h : p.1 = k
    · simp only [List.find?_cons, h, decide_true, Option.map_some, Option.some.injEq, List.mem_cons]
      constructor
      · rintro rfl; left; rw [← h]
      · rintro (rfl | hm)
        · rfl
        · exact absurd (List.mem_map.mpr ⟨(k, v), hm, rfl⟩) (h ▸ hn)
    · simp only [List.find?_cons, h, decide_false, List.mem_cons]
      rw [ih hd']
      constructor
      · exact Or.inr
      · rintro (rfl | hm)
        · exact absurd rfl h
        · exact hm

theorem find_none_iff (c : Cache K V) (k : K) : find c k = none ↔ k ∉ c.map Prod.fst := by
  unfold find
  simp only [Option.map_eq_none_iff, List.find?_eq_none, decide_eq_true_eq, List.mem_map, not_exists, not_and]

/-- Entries other than those of `k`, in order. -/
def without (c : Cache K V) (k : K) : Cache K V := c.filter fun p => p.1 ≠ k

theorem moveToEnd_eq {c : Cache K V} (hd : Distinct c) {k : K} {v : V} (h : (k, v) ∈ c) :
    moveToEnd c k = without c k ++ [(k, v)] := by
  unfold moveToEnd without
  congr 1
  induction c with
  | nil => simp at h
  | cons p ps ih =>
    have hd' : Distinct ps := (List.nodup_cons.mp hd).2
    have hn : p.1 ∉ ps.map Prod.fst := (List.nodup_cons.mp hd).1
    rcases List.mem_cons.mp h with rfl | hm
    · simp only [List.filter_cons, decide_true, if_true, List.cons.injEq, true_and]
      rw [List.filter_eq_nil_iff]
      intro q hq hc
      simp only [decide_eq_true_eq] at hc
      exact hn (List.mem_map.mpr ⟨q, hq, hc⟩)
    · have : p.1 ≠ k := fun hc => hn (List.mem_map.mpr ⟨(k, v), hm, hc.symm⟩)
      simp only [List.filter_cons, this, decide_false, Bool.false_eq_true, if_false]
      exact ih hd' hm

theorem without_not_mem (c : Cache K V) (k : K) : k ∉ (without c k).map Prod.fst := by
  unfold without
  simp

theorem without_distinct {c : Cache K V} (hd : Distinct c) (k : K) : Distinct (without c k) :=
  hd.sublist (List.filter_sublist.map _)

theorem setMove_eq {c : Cache K V} (hd : Distinct c) (k : K) (v : V) :
    moveToEnd (setItem c k v) k = without c k ++ [(k, v)] := by
  unfold setItem
  by_cases h : c.any (fun p => p.1 = k) = true
  · rw [if_pos h]
    have hmap : (c.map fun p => if p.1 = k then (k, v) else p).map Prod.fst = c.map Prod.fst := by
      rw [List.map_map]
      apply List.map_congr_left
      intro p _
      simp only [Function.comp]
      split
      · rename_i hk; exact hk.symm
      · rfl
    have hd2 : Distinct (c.map fun p => if p.1 = k then (k, v) else p) := by unfold Distinct; rw [hmap]; exact hd
    have hm : (k, v) ∈ c.map fun p => if p.1 = k then (k, v) else p := by
      rw [List.any_eq_true] at h
      obtain ⟨p, hp, hk⟩ := h
      simp only [decide_eq_true_eq] at hk
      exact List.mem_map.mpr ⟨p, hp, by rw [if_pos hk]⟩
    rw [moveToEnd_eq hd2 hm]
    congr 1
    unfold without
    rw [List.filter_map]
    have : (fun p => decide (p.1 ≠ k)) ∘ (fun p : K × V => if p.1 = k then (k, v) else p) = fun p => decide (p.1 ≠ k) := by
      funext p
      simp only [Function.comp]
      by_cases hk : p.1 = k <;> simp [hk]
    rw [this]
    conv_rhs => rw [← List.map_id (c.filter _)]
    apply List.map_congr_left
    intro p hp
    have := (List.mem_filter.mp hp).2
    simp only [decide_eq_true_eq] at this
    rw [if_neg this]; rfl
  · rw [if_neg h]
    have hn : ∀ p ∈ c, p.1 ≠ k := by
      intro p hp hk
      exact h (List.any_eq_true.mpr ⟨p, hp, by simp [hk]⟩)
    have hd2 : Distinct (c ++ [(k, v)]) := by
      unfold Distinct
      rw [List.map_append, List.nodup_append]
      refine ⟨hd, by simp, ?_⟩
      intro a ha b hb
      obtain ⟨p, hp, rfl⟩ := List.mem_map.mp ha
      simp only [List.map_cons, List.map_nil, List.mem_singleton] at hb
      subst hb
      exact hn p hp
    rw [moveToEnd_eq (v := v) hd2 (by simp)]
    unfold without
    rw [List.filter_append]
    simp

omit [DecidableEq K] in
theorem evict_eq_drop (n : Nat) (c : Cache K V) : evict n c = c.drop (c.length - n) := by
  induction c with
  | nil => simp [evict]
  | cons p ps ih =>
    unfold evict
    split
    · rename_i h
      rw [ih]
      simp only [List.length_cons] at h ⊢
      have : ps.length + 1 - n = (ps.length - n) + 1 := by omega
      rw [this, List.drop_succ_cons]
    · rename_i h
      have : (p :: ps).length - n = 0 := by omega
      rw [this, List.drop_zero]

theorem put_eq {c : Cache K V} (hd : Distinct c) (k : K) (v : V) {m : Int} (hm : 0 < m) :
    put c k v m = (without c k ++ [(k, v)]).drop ((without c k ++ [(k, v)]).length - m.toNat) := by
  unfold put
  rw [if_neg (by omega), setMove_eq hd, evict_eq_drop]

theorem appended_distinct {c : Cache K V} (hd : Distinct c) (k : K) (v : V) : Distinct (without c k ++ [(k, v)]) := by
  unfold Distinct
  rw [List.map_append, List.nodup_append]
  refine ⟨without_distinct hd k, by simp, ?_⟩
  intro a ha b hb
  simp only [List.map_cons, List.map_nil, List.mem_singleton] at hb
  subst hb
  rintro rfl
  exact without_not_mem c _ ha

theorem put_distinct {c : Cache K V} (hd : Distinct c) (k : K) (v : V) (m : Int) : Distinct (put c k v m) := by
  by_cases hm : 0 < m
  · rw [put_eq hd k v hm]
    exact (appended_distinct hd k v).sublist ((List.drop_sublist _ _).map _)
  · unfold put; rw [if_pos (by omega)]; exact hd

theorem get_cache_eq {c : Cache K V} (hd : Distinct c) (k : K) (m : Int) :
    (get c k m).2 = c ∨ ∃ v, (k, v) ∈ c ∧ (get c k m).1 = some v ∧ (get c k m).2 = without c k ++ [(k, v)] := by
  unfold get
  split
  · exact Or.inl rfl
  · cases h : find c k with
    | none => exact Or.inl rfl
    | some v =>
      have hm := (find_some_iff hd k v).mp h
      exact Or.inr ⟨v, hm, rfl, moveToEnd_eq hd hm⟩

theorem get_distinct {c : Cache K V} (hd : Distinct c) (k : K) (m : Int) : Distinct (get c k m).2 := by
  rcases get_cache_eq hd k m with h | ⟨v, _, _, h⟩
  · rw [h]; exact hd
  · rw [h]; exact appended_distinct hd k v

/-- A get never changes the set of entries. -/
theorem get_mem {c : Cache K V} (hd : Distinct c) (k : K) (m : Int) (p : K × V) : p ∈ (get c k m).2 ↔ p ∈ c := by
  rcases get_cache_eq hd k m with h | ⟨v, hv, _, h⟩
  · rw [h]
  · rw [h]
    simp only [without, List.mem_append, List.mem_filter, decide_eq_true_eq, List.mem_singleton]
    constructor
    · rintro (⟨h1, _⟩ | rfl)
      · exact h1
      · exact hv
    · intro hp
      by_cases hk : p.1 = k
      · right
        have := (find_some_iff hd k p.2).mpr (by rw [← hk]; exact hp)
        have h2 := (find_some_iff hd k v).mpr hv
        rw [this] at h2
        simp only [Option.some.injEq] at h2
        rw [← h2, ← hk]
      · exact Or.inl ⟨hp, hk⟩

theorem put_mem {c : Cache K V} (hd : Distinct c) {k : K} {v : V} {m : Int} {p : K × V} (h : p ∈ put c k v m) :
    p = (k, v) ∨ (p ∈ c ∧ (0 < m → p.1 ≠ k)) := by
  by_cases hm : 0 < m
  · rw [put_eq hd k v hm] at h
    have := List.mem_of_mem_drop h
    simp only [without, List.mem_append, List.mem_filter, decide_eq_true_eq, List.mem_singleton] at this
    rcases this with ⟨h1, h2⟩ | h1
    · exact Or.inr ⟨h1, fun _ => h2⟩
    · exact Or.inl h1
  · unfold put at h
    rw [if_pos (by omega)] at h
    exact Or.inr ⟨h, fun hc => absurd hc hm⟩

theorem step_distinct {c : Cache K V} (hd : Distinct c) (m : Int) (o : Op K V) : Distinct (step m c o) := by
  cases o with
  | get k => exact get_distinct hd k m
  | put k v => exact put_distinct hd k v m

theorem runFrom_distinct {c : Cache K V} (hd : Distinct c) (m : Int) (h : List (Op K V)) : Distinct (runFrom m c h) := by
  induction h generalizing c with
  | nil => exact hd
  | cons o os ih => exact ih (step_distinct hd m o)

theorem run_distinct (m : Int) (h : List (Op K V)) : Distinct (run m h) :=
  runFrom_distinct (c := []) (by unfold Distinct; exact List.nodup_nil) m h

theorem lastPut_append (k : K) (h h' : List (Op K V)) : lastPut k (h ++ h') = (lastPut k h').or (lastPut k h) := by
  induction h with
  | nil => cases h : lastPut k h' <;> simp [lastPut, h]
  | cons o os ih =>
    simp only [List.cons_append, lastPut, ih]
    cases lastPut k h' <;> simp [Option.or]

/-- The entry of `k` is present and everything more recent than it has a key in `S`. -/
def Retained (c : Cache K V) (k : K) (v : V) (S : List K) : Prop :=
  ∃ A B, c = A ++ (k, v) :: B ∧ ∀ p ∈ B, p.1 ∈ S

theorem without_split {A B : Cache K V} {k j : K} {v : V} (h : j ≠ k) :
    without (A ++ (k, v) :: B) j = without A j ++ (k, v) :: without B j := by
  unfold without
  rw [List.filter_append, List.filter_cons]
  simp [Ne.symm h]

theorem retained_put {c : Cache K V} (hd : Distinct c) {k j : K} {v w : V} {S : List K} {m : Int}
    (hS : S.length < m) (hk : k ∉ S) (hj : j ∈ S) (h : Retained c k v S) : Retained (put c j w m) k v S := by
  obtain ⟨A, B, rfl, hB⟩ := h
  have hjk : j ≠ k := by rintro rfl; exact hk hj
  rw [put_eq hd j w (by omega), without_split hjk]
  have hd2 := appended_distinct hd j w
  rw [without_split hjk] at hd2
  have hB2 : ∀ p ∈ without B j ++ [(j, w)], p.1 ∈ S := by
    intro p hp
    simp only [without, List.mem_append, List.mem_filter, List.mem_singleton] at hp
    rcases hp with ⟨h1, _⟩ | rfl
    · exact hB p h1
    · exact hj
  rw [List.append_assoc, List.cons_append] at hd2 ⊢
  generalize without B j ++ [(j, w)] = B2 at hB2 hd2 ⊢
  generalize without A j = A2 at hd2 ⊢
  have hlen : B2.length ≤ S.length := by
    have hn : (B2.map Prod.fst).Nodup := by
      unfold Distinct at hd2
      rw [List.map_append, List.map_cons] at hd2
      exact (List.nodup_cons.mp (List.nodup_append.mp hd2).2.1).2
    have hsub : B2.map Prod.fst ⊆ S := by
      intro a ha
      obtain ⟨p, hp, rfl⟩ := List.mem_map.mp ha
      exact hB2 p hp
    have := (List.subperm_of_subset hn hsub).length_le
    simpa using this
  refine ⟨A2.drop ((A2 ++ (k, v) :: B2).length - m.toNat), B2, ?_, hB2⟩
  rw [List.drop_append]
  congr 1
  have : (A2 ++ (k, v) :: B2).length - m.toNat - A2.length = 0 := by
    simp only [List.length_append, List.length_cons]; omega
  rw [this, List.drop_zero]

theorem retained_get {c : Cache K V} (hd : Distinct c) {k j : K} {v : V} {S : List K} {m : Int}
    (hj : j = k ∨ j ∈ S) (h : Retained c k v S) : Retained (get c j m).2 k v S := by
  rcases get_cache_eq hd j m with h1 | ⟨w, hw, _, h1⟩
  · rw [h1]; exact h
  · rw [h1]
    by_cases hjk : j = k
    · subst hjk
      have : w = v := by
        have h2 := (find_some_iff hd j w).mpr hw
        obtain ⟨A, B, rfl, _⟩ := h
        have h3 := (find_some_iff hd j v).mpr (by simp)
        rw [h2] at h3
        exact Option.some.inj h3
      subst this
      exact ⟨without c j, [], rfl, by simp⟩
    · obtain ⟨A, B, rfl, hB⟩ := h
      refine ⟨without A j, without B j ++ [(j, w)], ?_, ?_⟩
      · rw [without_split hjk, List.append_assoc, List.cons_append]
      · intro p hp
        simp only [without, List.mem_append, List.mem_filter, List.mem_singleton] at hp
        rcases hp with ⟨h2, _⟩ | rfl
        · exact hB p h2
        · exact hj.resolve_left hjk

theorem retained_run {k : K} {v : V} {S : List K} {m : Int} (hS : S.length < m) (hk : k ∉ S) (suf : List (Op K V)) :
    ∀ {c : Cache K V}, Distinct c → Retained c k v S →
      (∀ o ∈ suf, o.key = k ∨ o.key ∈ S) → lastPut k suf = none → Retained (runFrom m c suf) k v S := by
  induction suf with
  | nil => intro c _ h _ _; exact h
  | cons o os ih =>
    intro c hd h hkeys hlast
    have hos : lastPut k os = none := by
      simp only [lastPut] at hlast
      cases h2 : lastPut k os with
      | none => rfl
      | some w => rw [h2] at hlast; simp at hlast
    refine ih (step_distinct hd m o) ?_ (fun o' ho' => hkeys o' (List.mem_cons_of_mem _ ho')) hos
    cases o with
    | get j => exact retained_get hd (hkeys (.get j) (by simp)) h
    | put j w =>
      have hjk : j ≠ k := by
        rintro rfl
        simp only [lastPut, hos, if_true] at hlast
        exact absurd hlast (by simp)
      exact retained_put hd hS hk ((hkeys (.put j w) (by simp)).resolve_left hjk) h

/-- Every stored entry carries the value last put for its key. -/
theorem run_sound (m : Int) (h : List (Op K V)) : ∀ p ∈ run m h, lastPut p.1 h = some p.2 := by
  induction h using List.reverseRecOn with
  | nil => intro p hp; simp [run, runFrom] at hp
  | append_singleton h o ih =>
    intro p hp
    unfold run runFrom at hp
    rw [List.foldl_append] at hp
    simp only [List.foldl_cons, List.foldl_nil] at hp
    change p ∈ step m (run m h) o at hp
    rw [lastPut_append]
    have hd := run_distinct m h
    cases o with
    | get k =>
      have hp2 := (get_mem hd k m p).mp hp
      simp only [lastPut, Option.none_or]
      exact ih p hp2
    | put k v =>
      rcases put_mem hd hp with rfl | ⟨hp2, hne⟩
      · simp [lastPut]
      · by_cases hm : 0 < m
        · simp only [lastPut, if_neg (Ne.symm (hne hm)), Option.none_or]
          exact ih p hp2
        · exfalso
          have : ∀ (h : List (Op K V)) (c : Cache K V), runFrom m c h = c := by
            intro h
            induction h with
            | nil => intro c; rfl
            | cons o os ih2 =>
              intro c
              have : step m c o = c := by
                cases o <;> simp only [step, get, put] <;> rw [if_pos (by omega)]
              unfold runFrom at ih2 ⊢
              rw [List.foldl_cons, this, ih2]
          have h0 := this h []
          unfold run at hp2
          rw [h0] at hp2
          simp at hp2

end Verif.Lru
