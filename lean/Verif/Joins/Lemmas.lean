import Verif.Joins.Model
import Verif.Sched.Orbits
import Mathlib.Data.Nat.Digits.Lemmas
import Mathlib.Data.List.Nodup

/-! Lemmas for the row joins. -/

namespace Verif.Joins

open Verif Sched

/-! ## Keys -/

/-- Value of a digit character. -/
def undigit (c : Char) : Nat := c.toNat - 48

theorem undigit_digitChar {d : Nat} (h : d < 10) : undigit (Nat.digitChar d) = d := by
  interval_cases d <;> rfl

theorem digitChar_ne_bar {d : Nat} (h : d < 10) : Nat.digitChar d ≠ '|' ∧ Nat.digitChar d ≠ '-' := by
  interval_cases d <;> decide

/-- Read a decimal text back. -/
def undec (s : List Char) : Nat := Nat.ofDigits 10 ((s.map undigit).reverse)

theorem undec_decNat (n : Nat) : undec (decNat n) = n := by
  unfold undec decNat
  split
  · rename_i h; subst h; rfl
  · rw [List.map_reverse, List.reverse_reverse, List.map_map]
    have : (Nat.digits 10 n).map (undigit ∘ Nat.digitChar) = (Nat.digits 10 n).map id := by
      apply List.map_congr_left
      intro d hd
      exact undigit_digitChar (Nat.digits_lt_base (by omega) hd)
    rw [this, List.map_id, Nat.ofDigits_digits]

theorem decNat_inj {a b : Nat} (h : decNat a = decNat b) : a = b := by
  rw [← undec_decNat a, h, undec_decNat]

theorem mem_decNat {n : Nat} {c : Char} (h : c ∈ decNat n) : c ≠ '|' ∧ c ≠ '-' := by
  unfold decNat at h
  split at h
  · rw [List.mem_singleton] at h; subst h; decide
  · rw [List.mem_reverse, List.mem_map] at h
    obtain ⟨d, hd, rfl⟩ := h
    exact digitChar_ne_bar (Nat.digits_lt_base (by omega) hd)

theorem mem_decInt {n : Int} {c : Char} (h : c ∈ decInt n) : c ≠ '|' := by
  cases n with
  | ofNat n => exact (mem_decNat h).1
  | negSucc n =>
    unfold decInt at h
    rw [List.mem_cons] at h
    rcases h with rfl | h
    · decide
    · exact (mem_decNat h).1

theorem decInt_inj {a b : Int} (h : decInt a = decInt b) : a = b := by
  cases a with
  | ofNat a =>
    cases b with
    | ofNat b => exact congrArg Int.ofNat (decNat_inj h)
    | negSucc b =>
      exfalso
      have : '-' ∈ decNat a := by
        change decNat a = '-' :: decNat (b + 1) at h
        rw [h]; exact List.mem_cons_self
      exact (mem_decNat this).2 rfl
  | negSucc a =>
    cases b with
    | ofNat b =>
      exfalso
      have : '-' ∈ decNat b := by
        change '-' :: decNat (a + 1) = decNat b at h
        rw [← h]; exact List.mem_cons_self
      exact (mem_decNat this).2 rfl
    | negSucc b =>
      change '-' :: decNat (a + 1) = '-' :: decNat (b + 1) at h
      have := decNat_inj (List.cons.inj h).2
      have : a = b := by omega
      rw [this]

/-- Splitting at the last separator. -/
theorem split_last {α : Type} {x : α} {u u' v v' : List α} (hv : x ∉ v) (hv' : x ∉ v')
    (h : u ++ x :: v = u' ++ x :: v') : u = u' ∧ v = v' := by
  induction u generalizing u' with
  | nil =>
    cases u' with
    | nil => simpa using h
    | cons a u' =>
      exfalso
      simp only [List.nil_append, List.cons_append, List.cons.injEq] at h
      exact hv (h.2 ▸ by simp)
  | cons a u ih =>
    cases u' with
    | nil =>
      exfalso
      simp only [List.nil_append, List.cons_append, List.cons.injEq] at h
      exact hv' (h.2 ▸ by simp)
    | cons b u' =>
      simp only [List.cons_append, List.cons.injEq] at h
      obtain ⟨h1, h2⟩ := ih h.2
      exact ⟨by rw [h.1, h1], h2⟩

theorem joinKey_inj {a b : KeyCols} {k : List Char} (ha : joinKey a = some k) (hb : joinKey b = some k) : a = b := by
  rcases a with ⟨ca, da, na⟩
  rcases b with ⟨cb, db, nb⟩
  unfold joinKey at ha hb
  rcases ca with _ | ca <;> rcases da with _ | da <;> rcases na with _ | na <;> simp only [reduceCtorEq] at ha
  rcases cb with _ | cb <;> rcases db with _ | db <;> rcases nb with _ | nb <;> simp only [reduceCtorEq] at hb
  rw [Option.some.injEq] at ha hb
  have h : (ca ++ '|' :: decInt da) ++ '|' :: decInt na = (cb ++ '|' :: decInt db) ++ '|' :: decInt nb := by
    simp only [List.append_assoc, List.cons_append]
    rw [ha, hb]
  obtain ⟨h1, h2⟩ := split_last (fun hm => mem_decInt hm rfl) (fun hm => mem_decInt hm rfl) h
  obtain ⟨h3, h4⟩ := split_last (fun hm => mem_decInt hm rfl) (fun hm => mem_decInt hm rfl) h1
  rw [h3, decInt_inj h2, decInt_inj h4]

theorem joinKey_isSome {a : KeyCols} (h : a.code.isSome ∧ a.days.isSome ∧ a.nanos.isSome) : ∃ k, joinKey a = some k := by
  rcases a with ⟨_ | ca, _ | da, _ | na⟩ <;> simp at h
  exact ⟨_, rfl⟩

theorem joinKey_some {a : KeyCols} {k : List Char} (h : joinKey a = some k) :
    a.code.isSome ∧ a.days.isSome ∧ a.nanos.isSome := by
  rcases a with ⟨_ | ca, _ | da, _ | na⟩ <;> simp [joinKey] at h ⊢

/-! ## Distinct values -/

theorem length_uniq_le {α : Type} [DecidableEq α] (l : List α) : (uniq l).length ≤ l.length := by
  induction l with
  | nil => exact le_refl _
  | cons a l ih =>
    unfold uniq
    have := List.length_filter_le (fun b => decide (b ≠ a)) (uniq l)
    simp only [List.length_cons]
    omega

theorem uniq_length_iff {α : Type} [DecidableEq α] (l : List α) : (uniq l).length = l.length ↔ l.Nodup := by
  constructor
  · intro h
    have hs : (uniq l).Subperm l := List.subperm_of_subset (nodup_uniq l) fun a ha => (mem_uniq l a).mp ha
    exact (hs.perm_of_length_le h.symm.le).nodup_iff.mp (nodup_uniq l)
  · intro h
    have hs : l.Subperm (uniq l) := List.subperm_of_subset h fun a ha => (mem_uniq l a).mpr ha
    exact le_antisymm (length_uniq_le l) hs.length_le

theorem filterMap_id_length {α : Type} (l : List (Option α)) (h : (l.filterMap id).length = l.length) :
    ∀ a ∈ l, a.isSome = true := by
  induction l with
  | nil => simp
  | cons a l ih =>
    have hle := List.length_filterMap_le (id : Option α → Option α) l
    cases a with
    | none =>
      simp only [List.filterMap_cons, id, List.length_cons] at h hle
      omega
    | some a =>
      simp only [List.filterMap_cons, id, List.length_cons, Nat.add_right_cancel_iff] at h
      intro b hb
      rw [List.mem_cons] at hb
      rcases hb with rfl | hb
      · rfl
      · exact ih h b hb

theorem map_some_of_isSome {α : Type} (l : List (Option α)) (h : ∀ a ∈ l, a.isSome = true) :
    l = (l.filterMap id).map some := by
  induction l with
  | nil => rfl
  | cons a l ih =>
    rw [List.forall_mem_cons] at h
    obtain ⟨b, rfl⟩ := Option.isSome_iff_exists.mp h.1
    exact congrArg (some b :: ·) (ih h.2)

/-- `count_distinct = length` says: no nulls and no repetition. -/
theorem countDistinct_iff {K : Type} [DecidableEq K] (l : List (Option K)) :
    countDistinct l = l.length ↔ (∀ a ∈ l, a.isSome = true) ∧ l.Nodup := by
  unfold countDistinct
  constructor
  · intro h
    have h1 := length_uniq_le (l.filterMap id)
    have h2 := List.length_filterMap_le (id : Option K → Option K) l
    have h3 : (l.filterMap id).length = l.length := by omega
    have hs := filterMap_id_length l h3
    refine ⟨hs, ?_⟩
    rw [map_some_of_isSome l hs]
    exact ((uniq_length_iff _).mp (by omega)).map (Option.some_injective K)
  · rintro ⟨hs, hn⟩
    have he := map_some_of_isSome l hs
    have hn' : (l.filterMap id).Nodup := by
      rw [he] at hn
      exact List.Nodup.of_map _ hn
    rw [(uniq_length_iff _).mpr hn']
    conv_rhs => rw [he]
    rw [List.length_map]

/-- The keys are valid and distinct exactly if the rows are complete and distinct. -/
theorem keys_iff (obs : List KeyCols) : ((∀ a ∈ obs.map joinKey, a.isSome = true) ∧ (obs.map joinKey).Nodup) ↔
    (∀ o ∈ obs, o.code.isSome ∧ o.days.isSome ∧ o.nanos.isSome) ∧ obs.Nodup := by
  constructor
  · rintro ⟨h1, h2⟩
    refine ⟨fun o ho => ?_, List.Nodup.of_map _ h2⟩
    obtain ⟨k, hk⟩ := Option.isSome_iff_exists.mp (h1 _ (List.mem_map_of_mem ho))
    exact joinKey_some hk
  · rintro ⟨h1, h2⟩
    constructor
    · intro a ha
      obtain ⟨o, ho, rfl⟩ := List.mem_map.mp ha
      obtain ⟨k, hk⟩ := joinKey_isSome (h1 o ho)
      rw [hk]; rfl
    · refine List.Nodup.map_on ?_ h2
      intro a ha b hb hab
      obtain ⟨k, hk⟩ := joinKey_isSome (h1 a ha)
      exact joinKey_inj hk (hab ▸ hk)

theorem indexIn_some {K : Type} [DecidableEq K] {set : List (Option K)} {k : Option K} {i : Nat}
    (h : indexIn set k = some i) : set[i]? = some k := by
  unfold indexIn at h
  rw [List.findIdx?_eq_some_iff_getElem] at h
  obtain ⟨hi, h1, -⟩ := h
  rw [List.getElem?_eq_getElem hi]
  simpa using h1

theorem indexIn_none {K : Type} [DecidableEq K] {set : List (Option K)} {k : Option K} :
    indexIn set k = none ↔ k ∉ set := by
  unfold indexIn
  rw [List.findIdx?_eq_none_iff]
  constructor
  · intro h hm
    simpa using h k hm
  · intro h x hx
    rw [decide_eq_false_iff_not]
    rintro rfl
    exact h hx

theorem filterMap_map_some {α β : Type} (f : α → Option β) (l : List α) (h : ∀ a ∈ l, (f a).isSome = true) (j : Nat) :
    ((l.map f).filterMap id)[j]? = (l[j]?).bind f := by
  induction l generalizing j with
  | nil => simp
  | cons a l ih =>
    rw [List.forall_mem_cons] at h
    obtain ⟨b, hb⟩ := Option.isSome_iff_exists.mp h.1
    simp only [List.map_cons, hb, List.filterMap_cons, id]
    cases j with
    | zero => simp [hb]
    | succ j => simpa using ih h.2 j

theorem filterMap_map_length {α β : Type} (f : α → Option β) (l : List α) (h : ∀ a ∈ l, (f a).isSome = true) :
    ((l.map f).filterMap id).length = l.length := by
  induction l with
  | nil => simp
  | cons a l ih =>
    rw [List.forall_mem_cons] at h
    obtain ⟨b, hb⟩ := Option.isSome_iff_exists.mp h.1
    have := ih h.2
    simp only [List.map_cons, hb, List.filterMap_cons, id, List.length_cons] at this ⊢
    exact congrArg (· + 1) this

theorem any_isNone_iff {α β : Type} (f : α → Option β) (l : List α) :
    (l.map f).any Option.isNone = false ↔ ∀ a ∈ l, (f a).isSome = true := by
  rw [List.any_eq_false]
  constructor
  · intro h a ha
    have := h (f a) (List.mem_map_of_mem ha)
    cases hf : f a <;> simp_all
  · intro h x hx
    obtain ⟨a, ha, rfl⟩ := List.mem_map.mp hx
    have := h a ha
    cases hf : f a <;> simp_all

/-! ## Positions in a sorted list -/

theorem sorted_countP {K : Type} [LinearOrder K] (L : List K) (h : L.Pairwise (· < ·)) {k : K} (hk : k ∈ L) :
    L[L.countP fun x => decide (x < k)]? = some k := by
  induction L with
  | nil => simp at hk
  | cons a L ih =>
    rw [List.pairwise_cons] at h
    rw [List.mem_cons] at hk
    by_cases hak : a = k
    · subst hak
      have : L.countP (fun x => decide (x < a)) = 0 := by
        rw [List.countP_eq_zero]
        intro x hx
        simpa using (h.1 x hx).le
      simp [this]
    · have hk' : k ∈ L := by
        rcases hk with h | h
        · exact absurd h.symm hak
        · exact h
      rw [List.countP_cons_of_pos (by simpa using h.1 k hk')]
      simpa using ih h.2 hk'

/-! ## Single values of a column -/

theorem min_max_const {V : Type} [LinearOrder V] {l : List V} {v : V} (hv : v ∈ l) (h : ∀ a ∈ l, a = v) :
    l.min? = some v ∧ l.max? = some v := by
  constructor
  · rw [List.min?_eq_some_iff]
    exact ⟨hv, fun b hb => (h b hb).ge⟩
  · rw [List.max?_eq_some_iff]
    exact ⟨hv, fun b hb => (h b hb).le⟩

theorem const_of_min_max {V : Type} [LinearOrder V] {l : List V} (h : l.min? = l.max?) {a b : V} (ha : a ∈ l)
    (hb : b ∈ l) : a = b := by
  cases hm : l.min? with
  | none => rw [List.min?_eq_none_iff] at hm; rw [hm] at ha; simp at ha
  | some m =>
    have hM : l.max? = some m := by rw [← h, hm]
    rw [List.min?_eq_some_iff] at hm
    rw [List.max?_eq_some_iff] at hM
    rw [le_antisymm (hM.2 a ha) (hm.2 a ha), le_antisymm (hM.2 b hb) (hm.2 b hb)]

end Verif.Joins
