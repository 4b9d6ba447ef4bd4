import Verif.Joins.Codes

/-! # Row joins: the properties -/

namespace Verif.Joins.Props

open Verif Sched Spec

/-! ## C27: alignment -/

theorem distinct_iff (obs : List KeyCols) : Distinct obs ↔
    (∀ o ∈ obs, o.code.isSome ∧ o.days.isSome ∧ o.nanos.isSome) ∧ obs.Nodup := by
  unfold Distinct Complete
  refine and_congr ?_ ?_
  · apply forall₂_congr
    intro o _
    simp only [Option.isSome_iff_ne_none]
  · rw [List.nodup_iff_injective_get]
    constructor
    · intro h i j hij
      apply Fin.ext
      refine h i j (obs.get i) ?_ ?_
      · rw [List.getElem?_eq_getElem i.isLt]; rfl
      · rw [hij, List.getElem?_eq_getElem j.isLt]; rfl
    · intro h i j a hi hj
      obtain ⟨hi', hi⟩ := List.getElem?_eq_some_iff.mp hi
      obtain ⟨hj', hj⟩ := List.getElem?_eq_some_iff.mp hj
      have := @h ⟨i, hi'⟩ ⟨j, hj'⟩ (by simp [hi, hj])
      simpa using this

theorem align_dup {obs eph : List KeyCols} (h : ¬ Distinct obs) : alignIndexIn obs eph = .error .valueError := by
  unfold alignIndexIn
  simp only
  rw [if_pos]
  intro hc
  exact h ((distinct_iff obs).mpr ((keys_iff obs).mp ((countDistinct_iff _).mp hc)))

theorem indexIn_isSome {obs : List KeyCols} (hd : Distinct obs) (e : KeyCols) :
    (indexIn (obs.map joinKey) (joinKey e)).isSome = true ↔ e ∈ obs := by
  have hk := (keys_iff obs).mpr ((distinct_iff obs).mp hd)
  rw [Option.isSome_iff_ne_none, ne_eq, indexIn_none, not_not, List.mem_map]
  constructor
  · rintro ⟨o, ho, he⟩
    obtain ⟨k, hk'⟩ := Option.isSome_iff_exists.mp (hk.1 (joinKey o) (List.mem_map_of_mem ho))
    rw [joinKey_inj (a := e) (b := o) (by rw [← he]; exact hk') hk']
    exact ho
  · exact fun h => ⟨e, h, rfl⟩

theorem align_eq {obs eph : List KeyCols} (hd : Distinct obs) : alignIndexIn obs eph =
    if ∀ e ∈ eph, e ∈ obs then .ok ((eph.map fun e => indexIn (obs.map joinKey) (joinKey e)).filterMap id)
    else .error .valueError := by
  unfold alignIndexIn
  simp only
  rw [if_neg (by rw [not_not, countDistinct_iff, keys_iff]; exact (distinct_iff obs).mp hd), List.map_map]
  have := any_isNone_iff (fun e => indexIn (obs.map joinKey) (joinKey e)) eph
  by_cases hs : ∀ e ∈ eph, e ∈ obs
  · rw [if_pos hs, if_neg]
    · rfl
    · rw [Bool.not_eq_true]
      exact this.mpr fun a ha => (indexIn_isSome hd a).mpr (hs a ha)
  · rw [if_neg hs, if_pos]
    by_contra hc
    rw [Bool.not_eq_true] at hc
    exact hs fun e he => (indexIn_isSome hd e).mp (this.mp hc e he)

/-- Alignment succeeds exactly when the observers are distinct and every ephemeris row has its observer; the j-th index
then points to the one observer with the code and time of the j-th ephemeris row. In all other cases ValueError. -/
theorem C27_align (obs eph : List KeyCols) :
    ((∃ idx, alignIndexIn obs eph = .ok idx) ↔ Distinct obs ∧ ∀ e ∈ eph, e ∈ obs) ∧
    (∀ idx, alignIndexIn obs eph = .ok idx → idx.length = eph.length ∧
      ∀ (j : Nat) (e : KeyCols), eph[j]? = some e →
        ∃ i, idx[j]? = some i ∧ obs[i]? = some e ∧ ∀ i' : Nat, obs[i']? = some e → i' = i) ∧
    (∀ err, alignIndexIn obs eph = .error err → err = .valueError) := by
  by_cases hd : Distinct obs
  · rw [align_eq hd]
    by_cases hs : ∀ e ∈ eph, e ∈ obs
    · rw [if_pos hs]
      have hsome : ∀ a ∈ eph, (indexIn (obs.map joinKey) (joinKey a)).isSome = true :=
        fun a ha => (indexIn_isSome hd a).mpr (hs a ha)
      refine ⟨⟨fun _ => ⟨hd, hs⟩, fun _ => ⟨_, rfl⟩⟩, ?_, by rintro err ⟨⟩⟩
      rintro idx ⟨⟩
      refine ⟨filterMap_map_length _ _ hsome, ?_⟩
      intro j e hj
      rw [filterMap_map_some _ _ hsome, hj]
      obtain ⟨i, hi⟩ := Option.isSome_iff_exists.mp (hsome e (List.mem_of_getElem? hj))
      refine ⟨i, hi, ?_⟩
      have := indexIn_some hi
      rw [List.getElem?_map, Option.map_eq_some_iff] at this
      obtain ⟨o, ho, he⟩ := this
      have hk := (keys_iff obs).mpr ((distinct_iff obs).mp hd)
      obtain ⟨k, hk'⟩ := Option.isSome_iff_exists.mp (hk.1 (joinKey o) (List.mem_map_of_mem (List.mem_of_getElem? ho)))
      have heo : e = o := joinKey_inj (by rw [← he]; exact hk') hk'
      subst heo
      exact ⟨ho, fun i' hi' => hd.2 i' i e hi' ho⟩
    · rw [if_neg hs]
      exact ⟨⟨fun ⟨_, h⟩ => (by cases h), fun h => absurd h.2 hs⟩, (by rintro idx ⟨⟩), (by rintro err ⟨⟩; rfl)⟩
  · rw [align_dup hd]
    exact ⟨⟨fun ⟨_, h⟩ => (by cases h), fun h => absurd h.1 hd⟩, (by rintro idx ⟨⟩), (by rintro err ⟨⟩; rfl)⟩

/-- The string-key variant agrees with a look-up by key when every key is there. -/
theorem C27_sorted {K : Type} [LinearOrder K] (obs eph : List K) (hn : obs.Nodup) (hs : ∀ e ∈ eph, e ∈ obs) :
    ∃ idx, alignSorted obs eph = .ok idx ∧ idx.length = eph.length ∧
      ∀ (j : Nat) (e : K), eph[j]? = some e → ∃ i, idx[j]? = some i ∧ obs[i]? = some e := by
  unfold alignSorted
  rw [if_neg (by rw [not_not, uniq_length_iff]; exact hn)]
  simp only
  have hp : ((sortBy Prod.fst obs.zipIdx).map Prod.fst).Perm obs := by
    refine ((sortBy_perm Prod.fst obs.zipIdx).map _).trans ?_
    rw [List.zipIdx_map_fst]
  have hlt : ((sortBy Prod.fst obs.zipIdx).map Prod.fst).Pairwise (· < ·) := by
    have h1 : ((sortBy Prod.fst obs.zipIdx).map Prod.fst).Pairwise (· ≤ ·) := by
      rw [List.pairwise_map]
      exact sortBy_sorted _ _
    have h2 : ((sortBy Prod.fst obs.zipIdx).map Prod.fst).Pairwise (· ≠ ·) := (hp.nodup_iff.mpr hn)
    exact (h1.and h2).imp fun h => lt_of_le_of_ne h.1 h.2
  generalize hS : sortBy Prod.fst obs.zipIdx = S at *
  have hmemS : ∀ p ∈ S, obs[p.2]? = some p.1 := by
    intro p hpS
    rw [← hS] at hpS
    have := (sortBy_perm Prod.fst obs.zipIdx).mem_iff.mp hpS
    exact List.mem_zipIdx_iff_getElem?.mp this
  have hf : ∀ e ∈ eph, ∃ i, (S.map Prod.snd)[(S.map Prod.fst).countP fun x => decide (x < e)]? = some i ∧
      obs[i]? = some e := by
    intro e he
    have hm : e ∈ S.map Prod.fst := hp.mem_iff.mpr (hs e he)
    have := sorted_countP _ hlt hm
    rw [List.getElem?_map, Option.map_eq_some_iff] at this
    obtain ⟨p, hp1, hp2⟩ := this
    refine ⟨p.2, ?_, ?_⟩
    · rw [List.getElem?_map, hp1]; rfl
    · rw [hmemS p (List.mem_of_getElem? hp1), hp2]
  have hsome : ∀ e ∈ eph, ((S.map Prod.snd)[(S.map Prod.fst).countP fun x => decide (x < e)]?).isSome = true := by
    intro e he
    obtain ⟨i, hi, _⟩ := hf e he
    rw [hi]
    rfl
  rw [if_neg (by rw [Bool.not_eq_true]; exact (any_isNone_iff _ _).mpr hsome)]
  have hget : ∀ (j : Nat) (e : K), eph[j]? = some e → ∃ i,
      ((eph.map fun k => (S.map Prod.snd)[(S.map Prod.fst).countP fun x => decide (x < k)]?).filterMap id)[j]? = some i ∧
        obs[i]? = some e := by
    intro j e hj
    obtain ⟨i, hi, ho⟩ := hf e (List.mem_of_getElem? hj)
    refine ⟨i, ?_, ho⟩
    rw [filterMap_map_some _ _ hsome, hj]
    exact hi
  rw [if_neg]
  · exact ⟨_, rfl, filterMap_map_length _ _ hsome, hget⟩
  · rw [Bool.not_eq_true, List.any_eq_false]
    intro p hp'
    obtain ⟨j, hj⟩ := List.getElem?_of_mem hp'
    rw [List.getElem?_zip_eq_some] at hj
    obtain ⟨i, hi, ho⟩ := hget j p.2 hj.2
    have : p.1 = i := by rw [hj.1] at hi; exact Option.some.inj hi
    simp [this, ho]

/-- With a repeated observer it raises ValueError, but for a key that sorts after all observers IndexError comes first. -/
theorem C27_sorted_index_error_false :
    ¬ ∀ (obs eph : List Nat) (e : PyErr), alignSorted obs eph = .error e → e = .valueError := by
  intro h
  have := h [1, 2] [3] .indexError (by decide +kernel)
  cases this

example : alignIndexIn
    [⟨some "X05".toList, some 60000, some 5⟩, ⟨some "I41".toList, some 60000, some 5⟩, ⟨some "X05".toList, some 60000, some 55⟩]
    [⟨some "X05".toList, some 60000, some 55⟩, ⟨some "I41".toList, some 60000, some 5⟩] = .ok [2, 1] := by decide +kernel

example : alignIndexIn [⟨some "X05".toList, some 60000, some 5⟩] [⟨some "X05".toList, some 600005, none⟩]
    = .error .valueError := by decide +kernel

/-! ## C27: H and G -/

section
variable {I V : Type} [DecidableEq I] [LinearOrder V]

omit [DecidableEq I] [LinearOrder V] in
theorem mem_validHG (orbits : List (OrbHG I V)) (i : I) (h g : V) :
    (i, h, g) ∈ validHG orbits ↔ Gives orbits i h g := by
  unfold validHG Gives
  rw [List.mem_filterMap]
  apply exists_congr
  intro o
  apply and_congr_right
  intro _
  rcases o with ⟨oi, _ | oh, _ | og⟩ <;> simp

/-- The group of an id that occurs, when the parameters are consistent. -/
theorem group_of {orbits : List (OrbHG I V)} (hc : Consistent orbits) {i : I} {h g : V} (hg : Gives orbits i h g) :
    let rows := (validHG orbits).filter fun r => decide (r.1 = i)
    (rows.map fun r => r.2.1).min? = some h ∧ (rows.map fun r => r.2.1).max? = some h ∧
      (rows.map fun r => r.2.2).min? = some g ∧ (rows.map fun r => r.2.2).max? = some g := by
  have hm := (mem_validHG orbits i h g).mpr hg
  have hin : (i, h, g) ∈ (validHG orbits).filter fun r => decide (r.1 = i) := by
    rw [List.mem_filter]
    exact ⟨hm, by simp⟩
  have hall : ∀ r ∈ (validHG orbits).filter (fun r => decide (r.1 = i)), r.2.1 = h ∧ r.2.2 = g := by
    intro r hr
    rw [List.mem_filter, decide_eq_true_iff] at hr
    rcases r with ⟨a, b, c⟩
    simp only at hr
    obtain ⟨hr1, rfl⟩ := hr
    exact hc a b c h g ((mem_validHG _ _ _ _).mp hr1) hg
  have h1 := min_max_const (v := h) (List.mem_map_of_mem (f := fun r : I × V × V => r.2.1) hin) (by
    intro a ha
    obtain ⟨r, hr, rfl⟩ := List.mem_map.mp ha
    exact (hall r hr).1)
  have h2 := min_max_const (v := g) (List.mem_map_of_mem (f := fun r : I × V × V => r.2.2) hin) (by
    intro a ha
    obtain ⟨r, hr, rfl⟩ := List.mem_map.mp ha
    exact (hall r hr).2)
  exact ⟨h1.1, h1.2, h2.1, h2.2⟩

theorem groups_any_iff (orbits : List (OrbHG I V)) :
    ((groups (validHG orbits)).any fun g => decide (g.hMin ≠ g.hMax) || decide (g.gMin ≠ g.gMax)) = false ↔
      Consistent orbits := by
  constructor
  · intro h i h1 g1 h2 g2 hg1 hg2
    rw [List.any_eq_false] at h
    have m1 := (mem_validHG _ _ _ _).mpr hg1
    have m2 := (mem_validHG _ _ _ _).mpr hg2
    have := h _ (List.mem_map_of_mem ((mem_uniq _ i).mpr (List.mem_map_of_mem (f := Prod.fst) m1)))
    simp only [Bool.not_eq_true, Bool.or_eq_false_iff, decide_eq_false_iff_not, ne_eq, not_not] at this
    have f1 : (i, h1, g1) ∈ (validHG orbits).filter fun r => decide (r.1 = i) := by
      rw [List.mem_filter]; exact ⟨m1, by simp⟩
    have f2 : (i, h2, g2) ∈ (validHG orbits).filter fun r => decide (r.1 = i) := by
      rw [List.mem_filter]; exact ⟨m2, by simp⟩
    exact ⟨const_of_min_max this.1 (List.mem_map_of_mem (f := fun r : I × V × V => r.2.1) f1)
        (List.mem_map_of_mem (f := fun r : I × V × V => r.2.1) f2),
      const_of_min_max this.2 (List.mem_map_of_mem (f := fun r : I × V × V => r.2.2) f1)
        (List.mem_map_of_mem (f := fun r : I × V × V => r.2.2) f2)⟩
  · intro hc
    rw [List.any_eq_false]
    intro G hG
    obtain ⟨i, hi, rfl⟩ := List.mem_map.mp hG
    rw [mem_uniq, List.mem_map] at hi
    obtain ⟨⟨i', h, g⟩, hm, rfl⟩ := hi
    obtain ⟨a, b, c, d⟩ := group_of hc ((mem_validHG _ _ _ _).mp hm)
    simp only [a, b, c, d]
    simp

theorem hgParams_bad {orbits : List (OrbHG I V)} (hc : ¬ Consistent orbits) (eph : List I) :
    hgParams orbits eph = .error .valueError := by
  unfold hgParams
  have hne : ¬ (validHG orbits).isEmpty = true := by
    intro he
    rw [List.isEmpty_iff] at he
    refine hc fun i h g h' g' h1 _ => ?_
    have := (mem_validHG _ _ _ _).mpr h1
    rw [he] at this
    simp at this
  rw [if_neg hne, if_pos]
  by_contra hb
  rw [Bool.not_eq_true] at hb
  exact hc ((groups_any_iff orbits).mp hb)

theorem hgParams_good {orbits : List (OrbHG I V)} (hc : Consistent orbits) (eph : List I) :
    ∃ f : I → Option V × Option V, hgParams orbits eph = .ok (eph.map f) ∧
      (∀ i h g, f i = (some h, some g) ↔ Gives orbits i h g) ∧
      (∀ i, (∀ h g, ¬ Gives orbits i h g) → f i = (none, none)) := by
  unfold hgParams
  by_cases he : (validHG orbits).isEmpty = true
  · rw [if_pos he]
    rw [List.isEmpty_iff] at he
    refine ⟨fun _ => (none, none), rfl, fun i h g => ?_, fun _ _ => rfl⟩
    rw [← mem_validHG, he]
    simp
  · rw [if_neg he]
    simp only
    rw [if_neg (by rw [Bool.not_eq_true]; exact (groups_any_iff orbits).mpr hc)]
    have hfind : ∀ i, (groups (validHG orbits)).find? (fun g => decide (g.id = i)) = none ∨
        ∃ h g, Gives orbits i h g ∧ ∃ G, (groups (validHG orbits)).find? (fun g => decide (g.id = i)) = some G ∧
          G.hMin = some h ∧ G.gMin = some g := by
      intro i
      cases hG : (groups (validHG orbits)).find? fun g => decide (g.id = i) with
      | none => exact .inl rfl
      | some G =>
        right
        have hid : G.id = i := by simpa using List.find?_some hG
        have hm := List.mem_of_find?_eq_some hG
        obtain ⟨i', hi', rfl⟩ := List.mem_map.mp hm
        simp only at hid
        subst hid
        rw [mem_uniq, List.mem_map] at hi'
        obtain ⟨⟨i'', h, g⟩, hm', rfl⟩ := hi'
        have hgv := (mem_validHG _ _ _ _).mp hm'
        obtain ⟨a, _, c, _⟩ := group_of hc hgv
        exact ⟨h, g, hgv, _, rfl, a, c⟩
    have hnone : ∀ i h g, Gives orbits i h g → (groups (validHG orbits)).find? (fun g => decide (g.id = i)) ≠ none := by
      intro i h g hgv hn
      rw [List.find?_eq_none] at hn
      have m1 := (mem_validHG _ _ _ _).mpr hgv
      have := hn _ (List.mem_map_of_mem ((mem_uniq _ i).mpr (List.mem_map_of_mem (f := Prod.fst) m1)))
      simp at this
    refine ⟨_, rfl, ?_, ?_⟩
    · intro i h g
      rcases hfind i with hn | ⟨h', g', hgv, G, hG, e1, e2⟩
      · rw [hn]
        constructor
        · intro hx; cases hx
        · intro hgv; exact absurd hn (hnone i h g hgv)
      · rw [hG]
        simp only [e1, e2, Prod.mk.injEq, Option.some.injEq]
        constructor
        · rintro ⟨rfl, rfl⟩; exact hgv
        · exact fun h2 => hc i h' g' h g hgv h2
    · intro i hi
      rcases hfind i with hn | ⟨h', g', hgv, _⟩
      · rw [hn]
      · exact absurd hgv (hi h' g')

/-- Every ephemeris row gets the H and G of its orbit id (and nothing if no orbit with that id has both); contradicting
parameters for one id are rejected with ValueError. -/
theorem C27_hg (orbits : List (OrbHG I V)) (eph : List I) :
    (Consistent orbits → ∃ f : I → Option V × Option V, hgParams orbits eph = .ok (eph.map f) ∧
      (∀ i h g, f i = (some h, some g) ↔ Gives orbits i h g) ∧
      (∀ i, (∀ h g, ¬ Gives orbits i h g) → f i = (none, none))) ∧
    (¬ Consistent orbits → hgParams orbits eph = .error .valueError) :=
  ⟨fun hc => hgParams_good hc eph, fun hc => hgParams_bad hc eph⟩

example : hgParams [⟨1, some 20, some 15⟩, ⟨2, none, some 3⟩, ⟨1, some 20, some 15⟩, ⟨3, some 7, some 1⟩] [3, 2, 1, 9, 1]
    = .ok [(some 7, some 1), (none, none), (some 20, some 15), (none, none), ((some 20 : Option Nat), some 15)] := by
  decide +kernel

example : hgParams [⟨1, some 20, some 15⟩, ⟨1, some 21, some 15⟩] [(1 : Nat)] = .error (α := List (Option Nat × Option Nat))
    .valueError := by decide +kernel

/-! ## C27: magnitudes and phase angles -/

variable {S Y : Type} (mag : V → V → S → Y → Option V) (phase : S → Y → Option V)

omit [DecidableEq I] in
theorem take_length {α : Type} (l : List α) (idx : List Nat) (h : ∀ i ∈ idx, i < l.length) :
    (take l idx).length = idx.length := by
  unfold take
  induction idx with
  | nil => rfl
  | cons i idx ih =>
    rw [List.forall_mem_cons] at h
    rw [List.filterMap_cons, List.getElem?_eq_getElem h.1]
    simp only [List.length_cons, ih h.2]

theorem take_get {α : Type} (l : List α) (idx : List Nat) (h : ∀ i ∈ idx, i < l.length) (j : Nat) :
    (take l idx)[j]? = (idx[j]?).bind fun i => l[i]? := by
  unfold take
  induction idx generalizing j with
  | nil => simp
  | cons i idx ih =>
    rw [List.forall_mem_cons] at h
    rw [List.filterMap_cons, List.getElem?_eq_getElem h.1]
    cases j with
    | zero => simp [List.getElem?_eq_getElem h.1]
    | succ j => simpa using ih h.2 j

/-- Every row of the result is the row of the input at the same place, with its phase angle and magnitude computed from
its own light-time corrected state, the state of the one observer with its code and time, and the H and G of its
orbit id; nothing else changes. -/
theorem C27_attach (sameScale : Bool) (rescale : ObsRow Y → ObsRow Y) (orbits : List (OrbHG I V))
    (observers : List (ObsRow Y)) (eph out : List (EphRow I S V)) (pm pp : Bool)
    (hok : attach mag phase sameScale rescale orbits observers eph pm pp = .ok out) :
    out.length = eph.length ∧ ∀ (j : Nat) (r r' : EphRow I S V), eph[j]? = some r → out[j]? = some r' →
      r'.id = r.id ∧ r'.key = r.key ∧ r'.aberrated = r.aberrated ∧
      (r' = r ∨ ∃ o, o ∈ (if sameScale then observers else observers.map rescale) ∧ o.key = r.key ∧
        r'.alpha = (if pp then r.aberrated.bind fun s => phase s o.state else r.alpha) ∧
        (r'.mag = r.mag ∨ pm = true ∧
          ((∃ h g s, Gives orbits r.id h g ∧ r.aberrated = some s ∧ r'.mag = mag h g s o.state) ∨
           (r'.mag = none ∧ (r.aberrated = none ∨ ∀ h g, ¬ Gives orbits r.id h g))))) := by
  have hsame : ∀ (j : Nat) (r r' : EphRow I S V), eph[j]? = some r → eph[j]? = some r' → r'.id = r.id ∧ r'.key = r.key ∧
      r'.aberrated = r.aberrated ∧ r' = r := by
    intro j r r' h1 h2
    rw [h1] at h2
    cases h2
    exact ⟨rfl, rfl, rfl, rfl⟩
  have done : out = eph → out.length = eph.length ∧ ∀ (j : Nat) (r r' : EphRow I S V), eph[j]? = some r →
      out[j]? = some r' → r'.id = r.id ∧ r'.key = r.key ∧ r'.aberrated = r.aberrated ∧
      (r' = r ∨ ∃ o, o ∈ (if sameScale then observers else observers.map rescale) ∧ o.key = r.key ∧
        r'.alpha = (if pp then r.aberrated.bind fun s => phase s o.state else r.alpha) ∧
        (r'.mag = r.mag ∨ pm = true ∧
          ((∃ h g s, Gives orbits r.id h g ∧ r.aberrated = some s ∧ r'.mag = mag h g s o.state) ∨
           (r'.mag = none ∧ (r.aberrated = none ∨ ∀ h g, ¬ Gives orbits r.id h g))))) := by
    rintro rfl
    refine ⟨rfl, fun j r r' h1 h2 => ?_⟩
    obtain ⟨a, b, c, d⟩ := hsame j r r' h1 h2
    exact ⟨a, b, c, .inl d⟩
  unfold attach at hok
  split at hok
  · exact done (by cases hok; rfl)
  split at hok
  · exact done (by cases hok; rfl)
  generalize hobs : (if sameScale = true then observers else observers.map rescale) = obs at *
  generalize hhg : (if pm = true then hgParams orbits (eph.map EphRow.id) else .ok (eph.map fun _ => (none, none))) = R at hok
  cases R with
  | error e => cases hok
  | ok hg =>
    simp only at hok
    split at hok
    · exact done (by cases hok; rfl)
    cases hal : alignIndexIn (obs.map ObsRow.key) (eph.map EphRow.key) with
    | error e => rw [hal] at hok; cases hok
    | ok idx =>
      rw [hal] at hok
      simp only [Except.ok.injEq] at hok
      obtain ⟨hlen, hidx⟩ := (C27_align _ _).2.1 idx hal
      rw [List.length_map] at hlen
      have hb : ∀ i ∈ idx, i < obs.length := by
        intro i hi
        obtain ⟨j, hj⟩ := List.getElem?_of_mem hi
        have hj' : j < eph.length := by
          rw [← hlen]
          exact (List.getElem?_eq_some_iff.mp hj).1
        obtain ⟨i', h1, h2, _⟩ := hidx j (eph[j].key) (by rw [List.getElem?_map, List.getElem?_eq_getElem hj']; rfl)
        rw [hj] at h1
        cases h1
        rw [List.getElem?_map, Option.map_eq_some_iff] at h2
        obtain ⟨o, ho, _⟩ := h2
        exact (List.getElem?_eq_some_iff.mp ho).1
      have hhgl : hg.length = eph.length := by
        by_cases hpm : pm = true
        · rw [if_pos hpm] at hhg
          by_cases hc : Consistent orbits
          · obtain ⟨f, hf, _⟩ := hgParams_good hc (eph.map EphRow.id)
            rw [hf] at hhg
            cases hhg
            simp
          · rw [hgParams_bad hc] at hhg
            cases hhg
        · rw [if_neg hpm] at hhg
          cases hhg
          simp
      have htl := take_length obs idx hb
      subst hok
      refine ⟨by simp [hhgl, htl, hlen], fun j r r' h1 h2 => ?_⟩
      rw [List.getElem?_zipWith_eq_some] at h2
      obtain ⟨r0, p, hr0, hp, rfl⟩ := h2
      rw [h1] at hr0
      cases hr0
      refine ⟨rfl, rfl, rfl, .inr ?_⟩
      rw [List.getElem?_zip_eq_some] at hp
      obtain ⟨hp1, hp2⟩ := hp
      rw [take_get obs idx hb] at hp2
      obtain ⟨i, hi1, hi2, _⟩ := hidx j r.key (by rw [List.getElem?_map, h1]; rfl)
      rw [hi1, Option.bind_some] at hp2
      rw [List.getElem?_map, hp2] at hi2
      refine ⟨p.2, List.mem_of_getElem? hp2, by simpa using hi2, rfl, ?_⟩
      simp only
      split
      · rename_i hw
        rw [Bool.and_eq_true] at hw
        refine .inr ⟨hw.1, ?_⟩
        rw [if_pos hw.1] at hhg
        by_cases hc : Consistent orbits
        · obtain ⟨f, hf, hf1, hf2⟩ := hgParams_good hc (eph.map EphRow.id)
          rw [hf] at hhg
          cases hhg
          rw [List.getElem?_map, List.getElem?_map, h1] at hp1
          have hp1 : f r.id = p.1 := by simpa using hp1
          by_cases hgv : ∃ h g, Gives orbits r.id h g
          · obtain ⟨h, g, hgv⟩ := hgv
            have := (hf1 r.id h g).mpr hgv
            rw [hp1] at this
            rw [this]
            cases hab : r.aberrated with
            | none => exact .inr ⟨rfl, .inl rfl⟩
            | some s => exact .inl ⟨h, g, s, hgv, rfl, rfl⟩
          · have hno : ∀ h g, ¬ Gives orbits r.id h g := fun h g hh => hgv ⟨h, g, hh⟩
            have := hf2 r.id hno
            rw [hp1] at this
            rw [this]
            exact .inr ⟨rfl, .inr hno⟩
        · rw [hgParams_bad hc] at hhg
          cases hhg
      · exact .inl rfl

/-- When both outputs are wanted, some state is there and some row has parameters, every row is filled in. -/
theorem C27_attach_filled (sameScale : Bool) (rescale : ObsRow Y → ObsRow Y) (orbits : List (OrbHG I V))
    (observers : List (ObsRow Y)) (eph : List (EphRow I S V)) (hc : Consistent orbits)
    (hd : Distinct ((if sameScale then observers else observers.map rescale).map ObsRow.key))
    (hs : ∀ r ∈ eph, ∃ o ∈ (if sameScale then observers else observers.map rescale), o.key = r.key)
    (ha : ∃ r ∈ eph, r.aberrated ≠ none) (hp : ∃ r ∈ eph, ∃ h g, Gives orbits r.id h g) :
    ∃ out, attach mag phase sameScale rescale orbits observers eph true true = .ok out ∧
      ∀ (j : Nat) (r r' : EphRow I S V), eph[j]? = some r → out[j]? = some r' →
        ∃ o ∈ (if sameScale then observers else observers.map rescale), o.key = r.key ∧
          r'.alpha = (r.aberrated.bind fun s => phase s o.state) ∧
          (∀ h g s, Gives orbits r.id h g → r.aberrated = some s → r'.mag = mag h g s o.state) ∧
          ((r.aberrated = none ∨ ∀ h g, ¬ Gives orbits r.id h g) → r'.mag = none) := by
  unfold attach
  have hne : eph ≠ [] := by rintro rfl; obtain ⟨r, hr, _⟩ := ha; simp at hr
  rw [if_neg (by simpa using hne), if_neg (by
    rw [Bool.not_eq_true, List.all_eq_false]
    obtain ⟨r, hr, h⟩ := ha
    exact ⟨r, hr, by simpa using h⟩)]
  simp only [if_true]
  obtain ⟨f, hf, hf1, hf2⟩ := hgParams_good hc (eph.map EphRow.id)
  rw [hf]
  simp only [Bool.true_and, Bool.not_true, Bool.false_and, Bool.false_eq_true, if_false]
  have hw : ((eph.map EphRow.id).map f).any (fun p => p.1.isSome && p.2.isSome) = true := by
    obtain ⟨r, hr, h, g, hgv⟩ := hp
    rw [List.any_eq_true]
    refine ⟨f r.id, List.mem_map_of_mem (List.mem_map_of_mem hr), ?_⟩
    rw [(hf1 _ _ _).mpr hgv]
    rfl
  rw [hw]
  simp only [if_true]
  generalize (if sameScale = true then observers else observers.map rescale) = obs at *
  have hsub : ∀ e ∈ eph.map EphRow.key, e ∈ obs.map ObsRow.key := by
    intro e he
    obtain ⟨r, hr, rfl⟩ := List.mem_map.mp he
    obtain ⟨o, ho, hk⟩ := hs r hr
    rw [← hk]
    exact List.mem_map_of_mem ho
  obtain ⟨idx, hal⟩ := (C27_align _ _).1.mpr ⟨hd, hsub⟩
  rw [hal]
  obtain ⟨hlen, hidx⟩ := (C27_align _ _).2.1 idx hal
  rw [List.length_map] at hlen
  have hb : ∀ i ∈ idx, i < obs.length := by
    intro i hi
    obtain ⟨j, hj⟩ := List.getElem?_of_mem hi
    have hj' : j < eph.length := by
      rw [← hlen]
      exact (List.getElem?_eq_some_iff.mp hj).1
    obtain ⟨i', h1, h2, _⟩ := hidx j (eph[j].key) (by rw [List.getElem?_map, List.getElem?_eq_getElem hj']; rfl)
    rw [hj] at h1
    cases h1
    rw [List.getElem?_map, Option.map_eq_some_iff] at h2
    obtain ⟨o, ho, _⟩ := h2
    exact (List.getElem?_eq_some_iff.mp ho).1
  refine ⟨_, rfl, fun j r r' h1 h2 => ?_⟩
  rw [List.getElem?_zipWith_eq_some] at h2
  obtain ⟨r0, p, hr0, hp', rfl⟩ := h2
  rw [h1] at hr0
  cases hr0
  rw [List.getElem?_zip_eq_some] at hp'
  obtain ⟨hp1, hp2⟩ := hp'
  rw [take_get obs idx hb] at hp2
  obtain ⟨i, hi1, hi2, _⟩ := hidx j r.key (by rw [List.getElem?_map, h1]; rfl)
  rw [hi1, Option.bind_some] at hp2
  rw [List.getElem?_map, hp2] at hi2
  rw [List.getElem?_map, List.getElem?_map, h1] at hp1
  have hp1 : f r.id = p.1 := by simpa using hp1
  refine ⟨p.2, List.mem_of_getElem? hp2, by simpa using hi2, rfl, ?_, ?_⟩
  · intro h g s hgv hab
    have := (hf1 r.id h g).mpr hgv
    rw [hp1] at this
    rw [this, hab]
  · rintro (hab | hno)
    · rw [hab]
      rcases p.1 with ⟨_ | _, _ | _⟩ <;> rfl
    · have := hf2 r.id hno
      rw [hp1] at this
      rw [this]

end

example : (match attach (I := Nat) (S := Nat) (V := Nat) (Y := Nat) (fun h g s y => some (1000 * h + 100 * g + 10 * s + y))
      (fun s y => some (10 * s + y)) true id [⟨1, some 2, some 3⟩, ⟨2, none, none⟩]
      [⟨⟨some "A".toList, some 1, some 0⟩, 4⟩, ⟨⟨some "B".toList, some 1, some 0⟩, 5⟩]
      [⟨1, ⟨some "B".toList, some 1, some 0⟩, some 6, none, none⟩, ⟨2, ⟨some "A".toList, some 1, some 0⟩, some 7, none, none⟩]
      true true with
    | .ok out => out.map fun r => (r.id, r.alpha, r.mag)
    | .error _ => []) = [(1, some 65, some 2365), (2, some 74, none)] := by decide +kernel

/-! ## C29: observers from codes -/

section
variable {C T S : Type} [DecidableEq C] (stateOf : C → List T → Except PyErr (List S))

theorem gather_parts (g : C → T → S) (hg : RowsOf stateOf g) (cs : List C) (times : List T)
    (hl : cs.length = times.length)
    (hs : ∀ c ∈ cs, ∃ ss, stateOf c (timesOf (cs.map some) times c) = .ok ss) :
    ∃ parts, gather (codePart stateOf (cs.map some) times) (uniq (cs.map some)) = .ok parts ∧
      (sortBy Prod.fst parts.flatten).map Prod.snd = List.zipWith (fun c t => (c, g c t)) cs times ∧
      (parts = [] ↔ cs = []) := by
  have hl' : (cs.map some).length = times.length := by rw [List.length_map]; exact hl
  refine ⟨_, gather_ok (g := rowsFor cs times g) ?_, ?_, ?_⟩
  · intro o ho
    rw [mem_uniq, List.mem_map] at ho
    obtain ⟨c, hc, rfl⟩ := ho
    obtain ⟨ss, hss⟩ := hs c hc
    rw [codePart_ok stateOf (cs.map some) times g hg hl' c hss, zip_positions (cs.map some) times hl' g c]
    rfl
  · rw [← List.flatMap_def]
    exact sort_indexed _ (parts_perm cs times g)
  · rw [List.map_eq_nil_iff]
    constructor
    · intro h
      cases cs with
      | nil => rfl
      | cons c cs =>
        have : some c ∈ uniq ((c :: cs).map some) := by rw [mem_uniq]; simp
        rw [h] at this
        simp at this
    · rintro rfl; rfl

theorem gather_fail (codes : List (Option C)) (times : List T) (hl : codes.length = times.length)
    (h : none ∈ codes ∨ ∃ c, some c ∈ codes ∧ ∃ e, stateOf c (timesOf codes times c) = .error e) :
    ∃ e, gather (codePart stateOf codes times) (uniq codes) = .error e := by
  rcases h with h | ⟨c, hc, e, he⟩
  · exact gather_error ((mem_uniq _ _).mpr h) ⟨_, rfl⟩
  · refine gather_error ((mem_uniq _ _).mpr hc) ⟨e, ?_⟩
    unfold codePart
    simp only
    rw [take_positions codes times hl c, he]

/-- `Observers.from_codes` returns one row per (code, time) pair, in the order of the input, each with the state of that
observatory at that time. It succeeds exactly when the lengths agree, no code is null and the states of every requested
observatory can be computed for its times; different lengths raise ValueError. -/
theorem C29_from_codes (g : C → T → S) (hg : RowsOf stateOf g) (codes : List (Option C)) (times : List T) :
    (∀ rows, fromCodes stateOf codes times = .ok rows → ∃ cs : List C, codes = cs.map some ∧
      rows = List.zipWith (fun c t => (c, g c t)) cs times ∧ rows.length = times.length) ∧
    ((∃ rows, fromCodes stateOf codes times = .ok rows) ↔ codes.length = times.length ∧ none ∉ codes ∧
      ∀ c, some c ∈ codes → ∃ ss, stateOf c (timesOf codes times c) = .ok ss) ∧
    (codes.length ≠ times.length → fromCodes stateOf codes times = .error .valueError) := by
  have good : codes.length = times.length → none ∉ codes →
      (∀ c, some c ∈ codes → ∃ ss, stateOf c (timesOf codes times c) = .ok ss) →
      ∃ cs : List C, codes = cs.map some ∧
        fromCodes stateOf codes times = .ok (List.zipWith (fun c t => (c, g c t)) cs times) := by
    intro hl hn hs
    have hcs : codes = (codes.filterMap id).map some := by
      apply map_some_of_isSome
      intro a ha
      cases a with
      | none => exact absurd ha hn
      | some _ => rfl
    generalize codes.filterMap id = cs at hcs
    subst hcs
    rw [List.length_map] at hl
    obtain ⟨parts, hp, hr, _⟩ := gather_parts stateOf g hg cs times hl fun c hc => hs c (List.mem_map_of_mem hc)
    refine ⟨cs, rfl, ?_⟩
    unfold fromCodes
    rw [if_neg (by simpa using hl), hp]
    simp only
    rw [hr]
  have iff : (∃ rows, fromCodes stateOf codes times = .ok rows) → codes.length = times.length ∧ none ∉ codes ∧
      ∀ c, some c ∈ codes → ∃ ss, stateOf c (timesOf codes times c) = .ok ss := by
    rintro ⟨rows, h⟩
    unfold fromCodes at h
    split at h
    · cases h
    rename_i hl
    rw [ne_eq, not_not] at hl
    refine ⟨hl, ?_⟩
    by_contra hc
    have : none ∈ codes ∨ ∃ c, some c ∈ codes ∧ ∃ e, stateOf c (timesOf codes times c) = .error e := by
      by_contra hcc
      rw [not_or] at hcc
      refine hc ⟨hcc.1, fun c hcm => ?_⟩
      cases hst : stateOf c (timesOf codes times c) with
      | ok ss => exact ⟨ss, rfl⟩
      | error e => exact absurd ⟨c, hcm, e, hst⟩ hcc.2
    obtain ⟨e, he⟩ := gather_fail stateOf codes times hl this
    rw [he] at h
    cases h
  refine ⟨?_, ⟨iff, fun h => ?_⟩, fun h => ?_⟩
  · intro rows h
    obtain ⟨hl, hn, hs⟩ := iff ⟨rows, h⟩
    obtain ⟨cs, hcs, hr⟩ := good hl hn hs
    rw [hr] at h
    cases h
    refine ⟨cs, hcs, rfl, ?_⟩
    rw [hcs, List.length_map] at hl
    simp [hl]
  · obtain ⟨cs, _, hr⟩ := good h.1 h.2.1 h.2.2
    exact ⟨_, hr⟩
  · unfold fromCodes
    rw [if_pos h]

/-- `Exposures.observers`: for a non-empty table whose states can be computed, one observer per exposure, in the order of
the exposures, with the state of its observatory at its midpoint. -/
theorem C29_exposures (g : C → T → S) (hg : RowsOf stateOf g) (exposures : List (C × T)) (hne : exposures ≠ []) :
    (∀ rows, exposuresObservers stateOf exposures = .ok rows → rows = exposures.map fun e => (e.1, g e.1 e.2)) ∧
    ((∀ c ∈ exposures.map Prod.fst, ∃ ss, stateOf c ((exposures.filter fun e => decide (e.1 = c)).map Prod.snd) = .ok ss) →
      exposuresObservers stateOf exposures = .ok (exposures.map fun e => (e.1, g e.1 e.2))) := by
  have htimes : ∀ c, timesOf ((exposures.map Prod.fst).map some) (exposures.map Prod.snd) c =
      (exposures.filter fun e => decide (e.1 = c)).map Prod.snd := by
    intro c
    unfold timesOf
    induction exposures with
    | nil => rfl
    | cons e l ih =>
      by_cases hl : l = []
      · subst hl
        by_cases h : e.1 = c <;> simp [h]
      · have ih := ih hl
        simp only [List.map_cons, List.zip_cons_cons, List.filter_cons, Option.some.injEq, decide_eq_true_eq]
        split <;> simp_all
  have hz : List.zipWith (fun c t => (c, g c t)) (exposures.map Prod.fst) (exposures.map Prod.snd) =
      exposures.map fun e => (e.1, g e.1 e.2) := by
    rw [List.zipWith_map_left, List.zipWith_map_right, List.zipWith_self]
  have hlen : (exposures.map Prod.fst).length = (exposures.map Prod.snd).length := by simp
  have hcodes : (exposures.map fun e => some e.1) = (exposures.map Prod.fst).map some := by rw [List.map_map]; rfl
  have main : (∀ c ∈ exposures.map Prod.fst,
      ∃ ss, stateOf c (timesOf ((exposures.map Prod.fst).map some) (exposures.map Prod.snd) c) = .ok ss) →
      exposuresObservers stateOf exposures = .ok (exposures.map fun e => (e.1, g e.1 e.2)) := by
    intro hs
    obtain ⟨parts, hp, hr, hnil⟩ := gather_parts stateOf g hg (exposures.map Prod.fst) (exposures.map Prod.snd) hlen hs
    unfold exposuresObservers
    simp only
    rw [hcodes, hp]
    cases parts with
    | nil => exact absurd (hnil.mp rfl) (by simpa using hne)
    | cons a l =>
      simp only
      rw [hr, hz]
  refine ⟨fun rows h => ?_, fun hs => main fun c hc => by rw [htimes]; exact hs c hc⟩
  by_cases hs : ∀ c ∈ exposures.map Prod.fst,
      ∃ ss, stateOf c (timesOf ((exposures.map Prod.fst).map some) (exposures.map Prod.snd) c) = .ok ss
  · rw [main hs] at h
    cases h
    rfl
  · have : none ∈ (exposures.map Prod.fst).map some ∨ ∃ c, some c ∈ (exposures.map Prod.fst).map some ∧ ∃ e,
        stateOf c (timesOf ((exposures.map Prod.fst).map some) (exposures.map Prod.snd) c) = .error e := by
      rw [not_forall] at hs
      obtain ⟨c, hs⟩ := hs
      rw [Classical.not_imp] at hs
      refine .inr ⟨c, List.mem_map_of_mem hs.1, ?_⟩
      cases hst : stateOf c (timesOf ((exposures.map Prod.fst).map some) (exposures.map Prod.snd) c) with
      | ok ss => exact absurd ⟨ss, hst⟩ hs.2
      | error e => exact ⟨e, rfl⟩
    obtain ⟨e, he⟩ := gather_fail stateOf _ _ (by simp) this
    unfold exposuresObservers at h
    simp only at h
    rw [hcodes, he] at h
    cases h

/-- Without exposures the call fails (`pa.concat_arrays` of nothing) instead of returning no observers. -/
theorem C29_empty_exposures_false :
    ¬ ∀ (exposures : List (Nat × Nat)),
      exposuresObservers (fun _ ts => .ok ts) exposures = .ok (exposures.map fun e => (e.1, e.2)) := by
  intro h
  have := h []
  revert this
  decide +kernel

end

example : RowsOf (fun (c : Nat) (ts : List Nat) => if c = 9 then .error .valueError else .ok (ts.map (100 * c + ·)))
    fun c t => 100 * c + t := by
  intro c ts ss h
  simp only at h
  split at h
  · cases h
  · cases h; rfl

example : fromCodes (fun (c : Nat) (ts : List Nat) => if c = 9 then .error .valueError else .ok (ts.map (100 * c + ·)))
    [some 3, some 1, some 3, some 2, some 1] [5, 4, 3, 2, 1] =
      .ok [(3, 305), (1, 104), (3, 303), (2, 202), (1, 101)] := by decide +kernel

example : exposuresObservers (fun (c : Nat) (ts : List Nat) => .ok (ts.map (100 * c + ·)))
    [(3, 5), (1, 4), (3, 3)] = .ok [(3, 305), (1, 104), (3, 303)] := by decide +kernel

end Verif.Joins.Props
