import Verif.Chunk.Vector
import Verif.Chunk.Lemmas
import Mathlib.Tactic.ByContra

/-! # C184: conversions of arrays of coordinates -/

namespace Verif.Chunk.VectorProps

open Verif Verif.Chunk

/-! ### lemmas -/

theorem flatten_get {δ : Type} {c : Nat} (hc : 0 < c) : ∀ (L : List (List δ)), (∀ p ∈ L, p.length = c) → ∀ i : Nat,
    L.flatten[i]? = (L[i / c]?).bind fun p => p[i % c]?
  | [], _, i => by simp
  | p :: L, h, i => by
    have hp : p.length = c := h p List.mem_cons_self
    rw [List.flatten_cons]
    by_cases hi : i < c
    · rw [List.getElem?_append_left (by omega), Nat.div_eq_of_lt hi, Nat.mod_eq_of_lt hi]
      rfl
    · rw [List.getElem?_append_right (by omega), flatten_get hc L (fun q hq => h q (List.mem_cons_of_mem _ hq)), hp]
      have e : i = (i - c) + c := by omega
      conv => rhs; rw [e, Nat.add_div_right _ hc, Nat.add_mod_right]
      rfl

theorem padded_get {α : Type} (pad : α) (l : List α) (c k j : Nat) (hj : j < c) :
    (paddedChunk pad l c k)[j]? = some ((l[k + j]?).getD pad) := by
  rw [paddedChunk_eq, slice_eq]
  by_cases h : k + j < l.length
  · rw [List.getElem?_append_left (by simp; omega), List.getElem?_take_of_lt hj, List.getElem?_drop, List.getElem?_eq_getElem h]
    rfl
  · rw [List.getElem?_append_right (by simp; omega), List.getElem?_replicate, if_pos (by simp; omega), List.getElem?_eq_none (by omega)]
    rfl

theorem chunk_ok {α : Type} (pad : α) (l : List α) :
    processInChunks pad l vectorChunk = .ok ((rangeFrom 0 l.length vectorChunk).map fun i => paddedChunk pad l vectorChunk i) := by
  unfold processInChunks
  rw [range_pos (by decide)]
  rfl

theorem chunk_get {α : Type} (pad : α) (l : List α) (k : Nat) :
    ((rangeFrom 0 l.length vectorChunk).map fun i => paddedChunk pad l vectorChunk i)[k]? =
      if k * vectorChunk < l.length then some (paddedChunk pad l vectorChunk (k * vectorChunk)) else none := by
  rw [List.getElem?_map, rangeFrom_get (by decide), Nat.zero_add]
  split <;> rfl

theorem chunk_nil {α : Type} (pad : α) (l : List α) :
    ((rangeFrom 0 l.length vectorChunk).map fun i => paddedChunk pad l vectorChunk i) = [] ↔ l = [] := by
  constructor
  · intro h
    have := chunk_get pad l 0
    rw [h] at this
    by_contra hne
    rw [if_pos (by rw [Nat.zero_mul]; exact List.length_pos_iff.mpr hne)] at this
    cases this
  · rintro rfl
    rw [List.length_nil, rangeFrom_done (Nat.le_refl 0)]
    rfl

theorem rows3_get {α β γ δ : Type} (f : α → β → γ → δ) {as : List α} {bs : List β} {cs : List γ} {i : Nat} {a : α} {b : β} {c : γ}
    (ha : as[i]? = some a) (hb : bs[i]? = some b) (hc : cs[i]? = some c) : (rows3 f as bs cs)[i]? = some (f a b c) := by
  unfold rows3
  rw [List.getElem?_zipWith, List.zip, List.getElem?_zipWith, ha, hb, hc]

theorem div_mod (i : Nat) : i / vectorChunk * vectorChunk + i % vectorChunk = i := by
  rw [Nat.mul_comm]
  exact Nat.div_add_mod i vectorChunk

/-! ### C184 -/

/-- What three zipped arrays give, row by row: row `i` is there if the chunk it belongs to has begun in all of them, and then an epoch
or gravitational parameter that is not there is a zero. -/
theorem C184_any_lengths {α β γ δ : Type} (padA : α) (padB : β) (padC : γ) (f : α → β → γ → δ) (as : List α) (bs : List β) (cs : List γ) :
    ((as = [] ∨ bs = [] ∨ cs = []) → convertZip3 padA padB padC f as bs cs = .error .valueError) ∧
    (as ≠ [] → bs ≠ [] → cs ≠ [] → ∃ out, convertZip3 padA padB padC f as bs cs = .ok out ∧ ∀ i : Nat, out[i]? =
      if i / 200 * 200 < bs.length ∧ i / 200 * 200 < cs.length then
        (as[i]?).map fun a => f a ((bs[i]?).getD padB) ((cs[i]?).getD padC)
      else none) := by
  unfold convertZip3
  rw [chunk_ok, chunk_ok, chunk_ok]
  dsimp only
  unfold concatenate
  constructor
  · intro h
    have : (List.zipWith (fun a p => rows3 f a p.1 p.2) ((rangeFrom 0 as.length vectorChunk).map fun i => paddedChunk padA as vectorChunk i)
        (((rangeFrom 0 bs.length vectorChunk).map fun i => paddedChunk padB bs vectorChunk i).zip
          ((rangeFrom 0 cs.length vectorChunk).map fun i => paddedChunk padC cs vectorChunk i))) = [] := by
      rcases h with h | h | h
      · rw [(chunk_nil padA as).mpr h]
        rfl
      · rw [(chunk_nil padB bs).mpr h]
        simp
      · rw [(chunk_nil padC cs).mpr h]
        simp
    rw [this]
    rfl
  · intro ha hb hc
    have hk : ∀ k, (List.zipWith (fun a p => rows3 f a p.1 p.2) ((rangeFrom 0 as.length vectorChunk).map fun i => paddedChunk padA as vectorChunk i)
        (((rangeFrom 0 bs.length vectorChunk).map fun i => paddedChunk padB bs vectorChunk i).zip
          ((rangeFrom 0 cs.length vectorChunk).map fun i => paddedChunk padC cs vectorChunk i)))[k]? =
        if k * vectorChunk < as.length ∧ k * vectorChunk < bs.length ∧ k * vectorChunk < cs.length then
          some (rows3 f (paddedChunk padA as vectorChunk (k * vectorChunk)) (paddedChunk padB bs vectorChunk (k * vectorChunk))
            (paddedChunk padC cs vectorChunk (k * vectorChunk)))
        else none := by
      intro k
      rw [List.getElem?_zipWith, List.zip, List.getElem?_zipWith, chunk_get, chunk_get, chunk_get]
      by_cases h1 : k * vectorChunk < as.length <;> by_cases h2 : k * vectorChunk < bs.length <;>
        by_cases h3 : k * vectorChunk < cs.length <;> simp [h1, h2, h3]
    revert hk
    generalize (List.zipWith (fun a p => rows3 f a p.1 p.2) ((rangeFrom 0 as.length vectorChunk).map fun i => paddedChunk padA as vectorChunk i)
        (((rangeFrom 0 bs.length vectorChunk).map fun i => paddedChunk padB bs vectorChunk i).zip
          ((rangeFrom 0 cs.length vectorChunk).map fun i => paddedChunk padC cs vectorChunk i))) = L
    intro hk
    have hne : L.isEmpty = false := by
      cases L with
      | cons => rfl
      | nil =>
        have := hk 0
        rw [Nat.zero_mul, if_pos ⟨List.length_pos_iff.mpr ha, List.length_pos_iff.mpr hb, List.length_pos_iff.mpr hc⟩] at this
        cases this
    rw [hne, if_neg (by decide)]
    refine ⟨_, rfl, fun i => ?_⟩
    have hL : ∀ p ∈ L, p.length = vectorChunk := by
      intro p hp
      obtain ⟨k, hk'⟩ := List.mem_iff_getElem?.mp hp
      rw [hk] at hk'
      split at hk'
      · injection hk' with hk'
        rw [← hk']
        unfold rows3
        simp [paddedChunk_length]
      · cases hk'
    rw [List.getElem?_take]
    show _ = if i / vectorChunk * vectorChunk < bs.length ∧ i / vectorChunk * vectorChunk < cs.length then _ else none
    by_cases hi : i < as.length
    · rw [if_pos hi, flatten_get (by decide) L hL, hk]
      have h0 : i / vectorChunk * vectorChunk < as.length := Nat.lt_of_le_of_lt (Nat.div_mul_le_self i vectorChunk) hi
      by_cases h : i / vectorChunk * vectorChunk < bs.length ∧ i / vectorChunk * vectorChunk < cs.length
      · rw [if_pos h, if_pos ⟨h0, h⟩]
        have hm : i % vectorChunk < vectorChunk := Nat.mod_lt _ (by decide)
        show (rows3 f _ _ _)[i % vectorChunk]? = _
        rw [rows3_get f (padded_get padA as _ _ _ hm) (padded_get padB bs _ _ _ hm) (padded_get padC cs _ _ _ hm), div_mod,
          List.getElem?_eq_getElem hi]
        rfl
      · rw [if_neg h, if_neg fun h' => h h'.2]
        rfl
    · rw [if_neg hi, List.getElem?_eq_none (l := as) (by omega)]
      split <;> rfl

/-- The same for two arrays. -/
theorem C184_two_arrays {α γ δ : Type} (padA : α) (padC : γ) (f : α → γ → δ) (as : List α) (cs : List γ) :
    ((as = [] ∨ cs = []) → convertZip2 padA padC f as cs = .error .valueError) ∧
    (as ≠ [] → cs ≠ [] → ∃ out, convertZip2 padA padC f as cs = .ok out ∧ ∀ i : Nat, out[i]? =
      if i / 200 * 200 < cs.length then (as[i]?).map fun a => f a ((cs[i]?).getD padC) else none) := by
  have e : convertZip2 padA padC f as cs = convertZip3 padA padC padC (fun a c _ => f a c) as cs cs := by
    unfold convertZip2 convertZip3
    rw [chunk_ok, chunk_ok]
    dsimp only
    have : ∀ (ca : List (List α)) (cc : List (List γ)), List.zipWith (fun a c => List.zipWith f a c) ca cc =
        List.zipWith (fun a p => rows3 (fun a c _ => f a c) a p.1 p.2) ca (cc.zip cc) := by
      have h1 : ∀ (a : List α) (c : List γ), List.zipWith f a c = rows3 (fun a c _ => f a c) a c c := by
        intro a
        induction a with
        | nil => intro c; rfl
        | cons x a ih =>
          intro c
          cases c with
          | nil => rfl
          | cons y c =>
            show f x y :: List.zipWith f a c = f x y :: rows3 (fun a c _ => f a c) a c c
            rw [ih]
      intro ca
      induction ca with
      | nil => intro cc; rfl
      | cons x ca ih =>
        intro cc
        cases cc with
        | nil => rfl
        | cons y cc =>
          rw [List.zip_cons_cons, List.zipWith_cons_cons, List.zipWith_cons_cons, ih, h1]
    rw [this]
  rw [e]
  obtain ⟨h1, h2⟩ := C184_any_lengths padA padC padC (fun a c _ => f a c) as cs cs
  refine ⟨fun h => h1 (h.imp id .inl), fun ha hc => ?_⟩
  obtain ⟨out, ho, hi⟩ := h2 ha hc hc
  refine ⟨out, ho, fun i => ?_⟩
  rw [hi]
  simp only [and_self]

/-- Arrays of the same length, not empty: every row is converted with its own epoch and parameter, whatever the length, and what the
conversion does with rows of zeros is not seen. -/
theorem C184_rows {α β γ δ : Type} (padA : α) (padB : β) (padC : γ) (f : α → β → γ → δ) (as : List α) (bs : List β) (cs : List γ)
    (hb : bs.length = as.length) (hc : cs.length = as.length) (hne : as ≠ []) :
    ∃ out, convertZip3 padA padB padC f as bs cs = .ok out ∧ out.length = as.length ∧
      ∀ (i : Nat) a b c, as[i]? = some a → bs[i]? = some b → cs[i]? = some c → out[i]? = some (f a b c) := by
  have hpos := List.length_pos_iff.mpr hne
  obtain ⟨out, ho, hi⟩ := (C184_any_lengths padA padB padC f as bs cs).2 hne (List.length_pos_iff.mp (by omega))
    (List.length_pos_iff.mp (by omega))
  have hlt : ∀ i, i < as.length → i / 200 * 200 < bs.length ∧ i / 200 * 200 < cs.length := by
    intro i h
    have := Nat.div_mul_le_self i 200
    omega
  refine ⟨out, ho, ?_, ?_⟩
  · have h1 : ∀ i, i < out.length ↔ i < as.length := by
      intro i
      have := hi i
      constructor
      · intro h
        rw [List.getElem?_eq_getElem h] at this
        by_contra hn
        rw [List.getElem?_eq_none (l := as) (by omega)] at this
        split at this <;> cases this
      · intro h
        rw [if_pos (hlt i h), List.getElem?_eq_getElem h] at this
        exact (List.getElem?_eq_some_iff.mp this).1
    have a := h1 out.length
    have b := h1 as.length
    omega
  · intro i a b c ha hb' hc'
    have hlt' := hlt i (List.getElem?_eq_some_iff.mp ha).1
    rw [hi, if_pos hlt', ha, hb', hc']
    rfl

/-- The conversions that append, for arrays of any length: every row by itself, and nothing for nothing. -/
theorem C184_append {α δ : Type} (pad : α) (f : α → δ) (as : List α) : convertAppend pad f as = .ok (as.map f) := by
  unfold convertAppend
  rw [chunk_ok]
  dsimp only
  have hfold : ∀ (L : List (List α)) (acc : List δ), L.foldl (fun out chunk => out ++ chunk.map f) acc = acc ++ (L.flatten).map f := by
    intro L
    induction L with
    | nil => intro acc; simp
    | cons x L ih => intro acc; simp [ih]
  have ht := padded_take as pad (c := vectorChunk) (by decide) 0
  rw [Nat.sub_zero, List.drop_zero] at ht
  rw [hfold, List.nil_append, ← List.map_take, ht]

/-- `cartesian_to_cometary`: arrays of different lengths are noticed, and no rows give no rows. -/
theorem C184_direct {α β γ δ : Type} (f : α → β → γ → δ) (as : List α) (bs : List β) (cs : List γ) :
    (¬ (bs.length = as.length ∧ cs.length = as.length) → convertDirect f as bs cs = .error .valueError) ∧
    (bs.length = as.length → cs.length = as.length → ∃ out, convertDirect f as bs cs = .ok out ∧ out.length = as.length ∧
      ∀ (i : Nat) a b c, as[i]? = some a → bs[i]? = some b → cs[i]? = some c → out[i]? = some (f a b c)) := by
  unfold convertDirect
  constructor
  · intro h
    rw [if_neg fun h' => h ⟨h'.1.symm, h'.2.symm⟩]
  · intro hb hc
    rw [if_pos ⟨hb.symm, hc.symm⟩]
    refine ⟨_, rfl, ?_, fun i a b c ha hb hc => rows3_get f ha hb hc⟩
    unfold rows3
    simp [hb, hc]

/-- Not true: that a conversion to or from Keplerian or from cometary elements notices arrays of different lengths. With at most 200
rows, a single gravitational parameter is used for the first row and zero for all others; with more, the rows from 200 on are
missing. -/
theorem C184_lengths_false {α γ δ : Type} (padA : α) (padC : γ) (f : α → γ → δ) (as : List α) (hne : as ≠ []) (mu : γ) :
    ∃ out, convertZip2 padA padC f as [mu] = .ok out ∧ out.length = min as.length 200 ∧
      ∀ (i : Nat) a, as[i]? = some a → i < 200 → out[i]? = some (f a (if i = 0 then mu else padC)) := by
  obtain ⟨out, ho, hi⟩ := (C184_two_arrays padA padC f as [mu]).2 hne (by simp)
  have hblock : ∀ i, i / 200 * 200 < ([mu] : List γ).length ↔ i < 200 := by
    intro i
    simp only [List.length_cons, List.length_nil]
    omega
  refine ⟨out, ho, ?_, ?_⟩
  · have h1 : ∀ i, i < out.length ↔ i < as.length ∧ i < 200 := by
      intro i
      have := hi i
      simp only [hblock i] at this
      constructor
      · intro h
        rw [List.getElem?_eq_getElem h] at this
        split at this
        · rename_i h2
          refine ⟨?_, h2⟩
          by_contra hn
          rw [List.getElem?_eq_none (l := as) (by omega)] at this
          cases this
        · cases this
      · rintro ⟨h, h2⟩
        rw [if_pos h2, List.getElem?_eq_getElem h] at this
        exact (List.getElem?_eq_some_iff.mp this).1
    have a := h1 out.length
    have b := h1 (min as.length 200)
    omega
  · intro i a ha h2
    rw [hi, if_pos ((hblock i).mpr h2), ha]
    cases i with
    | zero => rfl
    | succ n => rfl

/-- Three rows, one parameter: rows two and three are converted with the parameter zero. -/
example : ∃ out, convertZip2 0 0 (fun a m : Nat => (a, m)) [7, 8, 9] [5] = .ok out ∧ out[0]? = some (7, 5) ∧ out[1]? = some (8, 0) ∧
    out[2]? = some (9, 0) := by
  obtain ⟨out, ho, -, h⟩ := C184_lengths_false 0 0 (fun a m : Nat => (a, m)) [7, 8, 9] (by simp) 5
  exact ⟨out, ho, h 0 7 rfl (by omega), h 1 8 rfl (by omega), h 2 9 rfl (by omega)⟩

/-- The hypotheses of `C184_rows` can be met by arrays of more than one chunk. -/
example : (List.range 450).length = (List.range 450).length ∧ List.range 450 ≠ [] := by simp

end Verif.Chunk.VectorProps
