import Verif.Chunk.Lemmas

/-! # Property theorems: chunking (C19, C20, C76) -/

namespace Verif.Chunk.Props

open Verif Verif.Chunk Verif.Chunk.Spec

/-! ## C19 -/

/-- A positive chunk size cuts every sequence into consecutive full pieces and a shorter last one. -/
theorem C19_chunks {α : Type} (l : List α) (c : Int) (hc : 0 < c) :
    ∃ pieces, iterateChunks l c = .ok pieces ∧ Partition l c.toNat pieces := by
  have hc' : 0 < c.toNat := by omega
  refine ⟨_, by unfold iterateChunks; rw [range_pos hc], ?_, ?_, ?_, ?_⟩
  · exact chunks_flatten l hc' 0
  · intro p hp
    obtain ⟨i, hi, rfl⟩ := List.mem_map.mp hp
    have := mem_rangeFrom hc' hi
    intro h
    have h2 := congrArg List.length h
    rw [slice_length] at h2
    simp only [List.length_nil] at h2
    omega
  · intro p hp
    obtain ⟨i, hi, rfl⟩ := List.mem_map.mp hp
    rw [slice_length]; omega
  · intro k p hk hlt
    rw [List.getElem?_map, rangeFrom_get hc'] at hk
    rw [List.length_map] at hlt
    have h2 := rangeFrom_length_lt hc' hlt
    rw [Nat.add_mul] at h2
    rw [if_pos (by omega)] at hk
    simp only [Option.map_some, Option.some.injEq] at hk
    rw [← hk, slice_length]
    omega

example : iterateChunks [1, 2, 3, 4, 5] 2 = .ok [[1, 2], [3, 4], [5]] := by
  simp [iterateChunks, range, rangeFrom, slice]

/-- The index pairs delimit exactly those pieces. -/
theorem C19_indices {α : Type} (l : List α) (c : Int) (hc : 0 < c) :
    ∃ pairs, iterateChunkIndices l c = .ok pairs ∧
      iterateChunks l c = .ok (pairs.map fun p => (l.take p.2).drop p.1) ∧
      ∀ p ∈ pairs, p.1 < p.2 ∧ p.2 ≤ l.length := by
  have hc' : 0 < c.toNat := by omega
  refine ⟨_, by unfold iterateChunkIndices; rw [range_pos hc], ?_, ?_⟩
  · unfold iterateChunks
    rw [range_pos hc, List.map_map]
    refine congrArg Except.ok ?_
    apply List.map_congr_left
    intro i _
    simp only [Function.comp, slice]
    congr 1
    rcases Nat.le_total (i + c.toNat) l.length with h | h
    · rw [Nat.min_eq_left h]
    · rw [Nat.min_eq_right h, List.take_of_length_le h, List.take_of_length_le (Nat.le_refl _)]
  · intro p hp
    obtain ⟨i, hi, rfl⟩ := List.mem_map.mp hp
    have := mem_rangeFrom hc' hi
    simp only
    omega

/-- Consecutive index pairs touch, the first starts at zero and the last ends at the length. -/
theorem C19_indices_consecutive {α : Type} (l : List α) (c : Int) (hc : 0 < c) (pairs : List (Nat × Nat))
    (h : iterateChunkIndices l c = .ok pairs) (k : Nat) (p : Nat × Nat) (hk : pairs[k]? = some p) :
    (k = 0 → p.1 = 0) ∧ (∀ q, pairs[k + 1]? = some q → q.1 = p.2) ∧ (pairs[k + 1]? = none → p.2 = l.length) := by
  have hc' : 0 < c.toNat := by omega
  unfold iterateChunkIndices at h
  rw [range_pos hc] at h
  simp only [Except.ok.injEq] at h
  subst h
  rw [List.getElem?_map, rangeFrom_get hc'] at hk
  simp only [Nat.zero_add] at hk
  split at hk
  case isFalse => simp at hk
  case isTrue hlt =>
    simp only [Option.map_some, Option.some.injEq] at hk
    subst hk
    refine ⟨?_, ?_, ?_⟩
    · rintro rfl; simp
    · intro q hq
      rw [List.getElem?_map, rangeFrom_get hc'] at hq
      split at hq
      case isFalse => simp at hq
      case isTrue h2 =>
        simp only [Option.map_some, Option.some.injEq] at hq
        subst hq
        rw [Nat.add_mul] at h2 ⊢
        simp only
        omega
    · intro hq
      rw [List.getElem?_map, rangeFrom_get hc'] at hq
      split at hq
      case isTrue => simp at hq
      case isFalse h2 =>
        rw [Nat.add_mul] at h2
        simp only
        omega

example : iterateChunkIndices [1, 2, 3, 4, 5] 2 = .ok [(0, 2), (2, 4), (4, 5)] := by
  simp [iterateChunkIndices, range, rangeFrom]

/-- Nothing is yielded for an empty input; a zero chunk size raises; a negative one silently yields nothing. -/
theorem C19_edge {α : Type} (l : List α) (c : Int) :
    (0 < c → iterateChunks ([] : List α) c = .ok [] ∧ iterateChunkIndices ([] : List α) c = .ok []) ∧
    (iterateChunks l 0 = .error .valueError) ∧ (c < 0 → iterateChunks l c = .ok []) := by
  refine ⟨fun h => ?_, by simp [iterateChunks, range], fun h => ?_⟩
  · unfold iterateChunks iterateChunkIndices
    rw [range_pos h, rangeFrom_done (by simp)]
    simp
  · unfold iterateChunks range
    rw [if_neg (by omega), if_pos h]; rfl

/-! ## C20 -/

/-- Every chunk has exactly the requested size and cutting the concatenation to the input length gives the input back. -/
theorem C20_fixed_size {α : Type} (pad : α) (l : List α) (c : Int) (hc : 0 < c) :
    ∃ chunks, processInChunks pad l c = .ok chunks ∧ (∀ p ∈ chunks, (p.length : Int) = c) ∧
      chunks.flatten.take l.length = l ∧ ∀ x ∈ chunks.flatten.drop l.length, x = pad := by
  have hc' : 0 < c.toNat := by omega
  refine ⟨_, by unfold processInChunks; rw [range_pos hc], ?_, ?_, ?_⟩
  · intro p hp
    obtain ⟨i, -, rfl⟩ := List.mem_map.mp hp
    rw [paddedChunk_length]; omega
  · have := padded_take l pad hc' 0
    simpa using this
  · have := padded_drop l pad hc' 0
    simpa using this

example : processInChunks 0 [1, 2, 3] 2 = .ok [[1, 2], [3, 0]] := by
  simp [processInChunks, range, rangeFrom, paddedChunk, padToFixedSize, slice]

/-- Evaluating any row-wise function on the padded chunks and cutting is the same as evaluating it on the rows,
whatever it does on the padding. -/
theorem C20_padding_invisible {α γ : Type} (pad : α) (F : List α → List γ) (f : α → γ) (hF : Rowwise F f)
    (l : List α) (c : Int) (hc : 0 < c) :
    ∃ chunks, processInChunks pad l c = .ok chunks ∧ (chunks.flatMap F).take l.length = l.map f := by
  obtain ⟨chunks, h1, -, h2, -⟩ := C20_fixed_size pad l c hc
  refine ⟨chunks, h1, ?_⟩
  have : chunks.flatMap F = chunks.flatten.map f := by
    rw [List.flatMap_def, List.map_flatten]
    congr 1
    apply List.map_congr_left
    intro p _
    exact rowwise_eq hF p
  rw [this, ← List.map_take, h2]

/-- The photometry pattern with two arrays, a preallocated output and a final cut computes the rows one by one, for
every chunk size and independently of the uninitialised memory. -/
theorem C20_pattern {α β γ : Type} (padA : α) (padB : β) (junk : γ) (F : List α → List β → List γ) (f : α → β → γ)
    (hF : Rowwise₂ F f) (as : List α) (bs : List β) (hl : as.length = bs.length) (c : Nat) (hc : 0 < c) :
    runPadded padA padB junk F as bs c = .ok (List.zipWith f as bs) := by
  have hcz : (0 : Int) < c := by omega
  unfold runPadded processInChunks
  rw [range_pos hcz, range_pos hcz]
  simp only [Int.toNat_natCast]
  have hz : List.zipWith F ((rangeFrom 0 as.length c).map fun i => paddedChunk padA as c i)
      ((rangeFrom 0 bs.length c).map fun i => paddedChunk padB bs c i)
      = (rangeFrom 0 as.length c).map fun i => (paddedChunk (padA, padB) (as.zip bs) c i).map fun p => f p.1 p.2 := by
    rw [← hl, List.zipWith_map, List.zipWith_self]
    apply List.map_congr_left
    intro i _
    rw [rowwise₂_eq hF _ _ (by rw [paddedChunk_length, paddedChunk_length]), ← zip_padded padA padB as bs hl]
    simp [List.zip, List.map_zipWith]
  rw [hz]
  have hcnt := rangeFrom_length (n := as.length) hc 0
  rw [assignChunks_full]
  · simp only [List.take_zero, List.nil_append]
    have hz2 : as.length = (List.zipWith f as bs).length := by simp [hl]
    have : (List.map (fun i => (paddedChunk (padA, padB) (as.zip bs) c i).map fun p => f p.1 p.2) (rangeFrom 0 as.length c))
        = (rangeFrom 0 (List.zipWith f as bs).length c).map fun i => paddedChunk (f padA padB) (List.zipWith f as bs) c i := by
      rw [← hz2]
      apply List.map_congr_left
      intro i _
      rw [map_paddedChunk, paddedChunk_eq]
      have e : (as.zip bs).map (fun p => f p.1 p.2) = List.zipWith f as bs := by simp [List.zip, List.map_zipWith]
      rw [e]; simp [hl]
    rw [this]
    have := padded_take (List.zipWith f as bs) (f padA padB) hc 0
    rw [Nat.sub_zero, ← hz2, List.drop_zero] at this
    rw [← hz2, this]
  · intro p hp
    obtain ⟨i, -, rfl⟩ := List.mem_map.mp hp
    rw [List.length_map, paddedChunk_length]
  · rw [List.length_replicate, List.length_map, Nat.zero_add, hcnt]; simp

/-- A row-wise kernel exists, for example addition. -/
example : Rowwise₂ (fun a b => List.zipWith (· + ·) a b) (fun x y : Nat => x + y) := by
  intro l m h
  refine ⟨by simp [h], fun i a b ha hb => ?_⟩
  rw [List.getElem?_zipWith, ha, hb]

/-- If some array is shorter, the mismatch is noticed by numpy rather than silently truncated only when the output does
not fit; a zero chunk size raises. -/
theorem C20_zero_chunk {α β γ : Type} (padA : α) (padB : β) (junk : γ) (F : List α → List β → List γ) (as : List α)
    (bs : List β) : runPadded padA padB junk F as bs 0 = .error .valueError := by
  simp [runPadded, processInChunks, range]

/-! ## C76: failures of the two-body propagation name an offending row -/

theorem findIdx?_get {α : Type} {p : α → Bool} {l : List α} {k : Nat} (h : l.findIdx? p = some k) :
    ∃ a, l[k]? = some a ∧ p a = true := by
  rw [List.findIdx?_eq_some_iff_getElem] at h
  obtain ⟨hk, hp, -⟩ := h
  exact ⟨l[k], List.getElem?_eq_getElem hk, hp⟩

theorem validLoop_spec {α γ : Type} (pad : α) {F : List α → List γ} {f : α → γ} (hF : Rowwise F f) (badIn : α → Bool)
    (badOut : γ → Bool) (as : List α) {c : Nat} (hc : 0 < c) (i : Nat) :
    ∀ out : List γ, out.length = as.length → i ≤ as.length + c →
      ((∀ a ∈ as.drop i, badIn a = false ∧ badOut (f a) = false) →
        validLoop c as.length F badIn badOut out (min i as.length) ((rangeFrom i as.length c).map fun i => paddedChunk pad as c i)
          = .ok (out.take i ++ (as.map f).drop i, as.length)) ∧
      (∀ k, validLoop c as.length F badIn badOut out (min i as.length) ((rangeFrom i as.length c).map fun i => paddedChunk pad as c i)
          = .error (.inr k) → ∃ a, as[k]? = some a ∧ (badIn a = true ∨ badOut (f a) = true)) ∧
      (∀ e, validLoop c as.length F badIn badOut out (min i as.length) ((rangeFrom i as.length c).map fun i => paddedChunk pad as c i)
          ≠ .error (.inl e)) ∧
      (∀ o, validLoop c as.length F badIn badOut out (min i as.length) ((rangeFrom i as.length c).map fun i => paddedChunk pad as c i)
          = .ok o → ∀ a ∈ as.drop i, badIn a = false ∧ badOut (f a) = false) := by
  induction i using range_induction (n := as.length) hc with
  | done i h =>
    intro out hout _
    rw [rangeFrom_done h, Nat.min_eq_right h, List.map_nil]
    simp only [validLoop]
    refine ⟨fun _ => ?_, by simp, by simp, ?_⟩
    · rw [List.take_of_length_le (by omega), List.drop_of_length_le (by simp; omega)]; simp
    · intro o _ a ha
      rw [List.drop_of_length_le h] at ha; simp at ha
  | step i h ih =>
    intro out hout _
    rw [rangeFrom_step h hc, Nat.min_eq_left (by omega), List.map_cons]
    unfold validLoop
    simp only
    have hin : (paddedChunk pad as c i).take (min c (as.length - i)) = slice as i c := by
      rw [paddedChunk_eq, List.take_append_of_le_length (by rw [slice_length]; omega),
        List.take_of_length_le (by rw [slice_length]; omega)]
    have hout2 : (F (paddedChunk pad as c i)).take (min c (as.length - i)) = (slice as i c).map f := by
      rw [rowwise_eq hF, ← List.map_take, hin]
    rw [hin, hout2]
    have hsl := slice_length as i c
    have hget : ∀ k a, (slice as i c)[k]? = some a → as[i + k]? = some a := by
      intro k a hk
      rw [slice_eq, List.getElem?_take] at hk
      split at hk
      · rwa [List.getElem?_drop] at hk
      · simp at hk
    have hmem : ∀ a ∈ slice as i c, a ∈ as.drop i := fun a ha => by
      rw [slice_eq] at ha; exact List.mem_of_mem_take ha
    cases h1 : firstBad badIn (slice as i c) with
    | some k =>
      simp only
      obtain ⟨a, ha, hb⟩ := findIdx?_get h1
      refine ⟨fun hall => ?_, ?_, by simp, by simp⟩
      · exfalso
        have := (hall a (hmem a (List.mem_of_getElem? ha))).1
        rw [this] at hb; simp at hb
      · intro k' hk
        simp only [Except.error.injEq, Sum.inr.injEq] at hk
        subst hk
        exact ⟨a, hget k a ha, Or.inl hb⟩
    | none =>
      simp only
      cases h2 : firstBad badOut ((slice as i c).map f) with
      | some k =>
        simp only
        obtain ⟨b, hb, hbad⟩ := findIdx?_get h2
        rw [List.getElem?_map] at hb
        obtain ⟨a, ha, rfl⟩ := Option.map_eq_some_iff.mp hb
        refine ⟨fun hall => ?_, ?_, by simp, by simp⟩
        · exfalso
          have := (hall a (hmem a (List.mem_of_getElem? ha))).2
          rw [this] at hbad; simp at hbad
        · intro k' hk
          simp only [Except.error.injEq, Sum.inr.injEq] at hk
          subst hk
          exact ⟨a, hget k a ha, Or.inr hbad⟩
      | none =>
        simp only
        unfold assign
        rw [if_pos (by rw [List.length_map, hsl]; omega)]
        simp only [List.length_map, hsl]
        have hstart : i + min c (as.length - i) = min (i + c) as.length := by omega
        rw [hstart]
        have hlen' : (out.take i ++ (slice as i c).map f ++ out.drop (min (i + c) as.length)).length = as.length := by
          simp only [List.length_append, List.length_take, List.length_map, List.length_drop, hsl]; omega
        obtain ⟨j1, j2, j3, j4⟩ := ih _ hlen' (by omega)
        refine ⟨fun hall => ?_, j2, j3, ?_⟩
        · rw [j1 fun a ha => hall a (by rw [← List.drop_drop] at ha; exact List.mem_of_mem_drop ha)]
          congr 2
          have e1 : (out.take i ++ (slice as i c).map f ++ out.drop (min (i + c) as.length)).take (i + c)
              = out.take i ++ (slice as i c).map f := by
            by_cases hfull : i + c ≤ as.length
            · rw [List.take_append_of_le_length (by simp [hsl]; omega), List.take_of_length_le (by simp [hsl]; omega)]
            · rw [Nat.min_eq_right (by omega), List.drop_of_length_le (l := out) (by omega), List.append_nil,
                List.take_of_length_le (by simp [hsl]; omega)]
          rw [e1, List.append_assoc]
          congr 1
          rw [slice_eq, List.map_take, List.map_drop, ← List.drop_drop, List.take_append_drop]
        · intro o ho a ha
          have hsplit : a ∈ slice as i c ∨ a ∈ as.drop (i + c) := by
            rw [slice_eq, ← List.drop_drop]
            rw [← List.take_append_drop c (as.drop i)] at ha
            exact List.mem_append.mp ha
          rcases hsplit with ha | ha
          · constructor
            · have := List.findIdx?_eq_none_iff.mp h1 a ha; simpa using this
            · have := List.findIdx?_eq_none_iff.mp h2 (f a) (List.mem_map_of_mem ha); simpa using this
          · exact j4 o ho a ha

/-- The chunked two-body loop returns the row-wise results exactly when no row is bad; otherwise it fails naming the
absolute index of a row that is bad. It never fails for internal reasons. -/
theorem C76_names_bad_row {α γ : Type} (pad : α) (junk : γ) (F : List α → List γ) (f : α → γ) (hF : Rowwise F f)
    (badIn : α → Bool) (badOut : γ → Bool) (as : List α) (c : Nat) (hc : 0 < c) :
    ((∀ a ∈ as, badIn a = false ∧ badOut (f a) = false) →
      runValid pad junk F badIn badOut as c = .ok (as.map f)) ∧
    ((∃ a ∈ as, badIn a = true ∨ badOut (f a) = true) →
      ∃ k a, runValid pad junk F badIn badOut as c = .error (.inr k) ∧ as[k]? = some a ∧
        (badIn a = true ∨ badOut (f a) = true)) := by
  have hcz : (0 : Int) < c := by omega
  obtain ⟨j1, j2, j3, j4⟩ := validLoop_spec pad hF badIn badOut as hc 0 (List.replicate as.length junk) (by simp) (by omega)
  rw [Nat.zero_min] at j1 j2 j3 j4
  unfold runValid processInChunks
  rw [range_pos hcz]
  simp only [Int.toNat_natCast]
  constructor
  · intro h
    rw [j1 (by simpa using h)]
    simp
  · rintro ⟨a, ha, hb⟩
    cases hv : validLoop c as.length F badIn badOut (List.replicate as.length junk) 0
      ((rangeFrom 0 as.length c).map fun i => paddedChunk pad as c i) with
    | ok o =>
      exfalso
      have := j4 o hv a (by simpa using ha)
      rw [this.1, this.2] at hb
      simp at hb
    | error e =>
      cases e with
      | inl e => exact absurd hv (j3 e)
      | inr k =>
        obtain ⟨a, h1, h2⟩ := j2 k hv
        exact ⟨k, a, rfl, h1, h2⟩

example : runValid (0 : Nat) 7 (List.map (· + 1)) (· == 3) (fun _ => false) [1, 2, 3] 2 = .error (.inr 2) := by
  simp [runValid, processInChunks, range, rangeFrom, paddedChunk, padToFixedSize, slice, validLoop, firstBad, assign, List.findIdx?, List.findIdx?.go]

end Verif.Chunk.Props
