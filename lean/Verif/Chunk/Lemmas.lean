import Verif.Chunk.Model
import Verif.Chunk.Spec

/-! Helper lemmas for chunking. -/

namespace Verif.Chunk

open Verif Spec

theorem rangeFrom_step {i n c : Nat} (h : i < n) (hc : 0 < c) : rangeFrom i n c = i :: rangeFrom (i + c) n c := by
  rw [rangeFrom, dif_pos ⟨h, hc⟩]

theorem rangeFrom_done {i n c : Nat} (h : n ≤ i) : rangeFrom i n c = [] := by
  rw [rangeFrom, dif_neg (by omega)]

theorem slice_eq {α : Type} (l : List α) (i c : Nat) : slice l i c = (l.drop i).take c := by
  unfold slice
  rw [List.drop_take]
  congr 1
  omega

theorem slice_length {α : Type} (l : List α) (i c : Nat) : (slice l i c).length = min c (l.length - i) := by
  rw [slice_eq]; simp

theorem range_pos {n : Nat} {c : Int} (hc : 0 < c) : range n c = .ok (rangeFrom 0 n c.toNat) := by
  unfold range
  rw [if_neg (by omega), if_neg (by omega)]

/-- Induction along the range. -/
theorem range_induction {n c : Nat} (hc : 0 < c) {P : Nat → Prop} (done : ∀ i, n ≤ i → P i)
    (step : ∀ i, i < n → P (i + c) → P i) (i : Nat) : P i := by
  by_cases h : i < n
  · have : n - (i + c) < n - i := by omega
    exact step i h (range_induction hc done step (i + c))
  · exact done i (by omega)
termination_by n - i

theorem chunks_flatten {α : Type} (l : List α) {c : Nat} (hc : 0 < c) (i : Nat) :
    ((rangeFrom i l.length c).map fun i => slice l i c).flatten = l.drop i := by
  refine range_induction (n := l.length) hc (P := fun i => ((rangeFrom i l.length c).map fun i => slice l i c).flatten = l.drop i) ?_ ?_ i
  · intro i h
    rw [rangeFrom_done h, List.drop_of_length_le h]; rfl
  · intro i h ih
    rw [rangeFrom_step h hc, List.map_cons, List.flatten_cons, ih, slice_eq, ← List.drop_drop, List.take_append_drop]

theorem rangeFrom_get {i n c : Nat} (hc : 0 < c) (k : Nat) :
    (rangeFrom i n c)[k]? = if i + k * c < n then some (i + k * c) else none := by
  refine range_induction (n := n) hc
    (P := fun i => ∀ k, (rangeFrom i n c)[k]? = if i + k * c < n then some (i + k * c) else none) ?_ ?_ i k
  · intro i h k
    rw [rangeFrom_done h, if_neg]; · rfl
    have := Nat.zero_le (k * c); omega
  · intro i h ih k
    rw [rangeFrom_step h hc]
    cases k with
    | zero => simp [h]
    | succ k =>
      rw [List.getElem?_cons_succ, ih k]
      have : i + c + k * c = i + (k + 1) * c := by rw [Nat.add_mul]; omega
      rw [this]

theorem mem_rangeFrom {i n c j : Nat} (hc : 0 < c) (h : j ∈ rangeFrom i n c) : i ≤ j ∧ j < n := by
  obtain ⟨k, hk⟩ := List.mem_iff_getElem?.mp h
  rw [rangeFrom_get hc] at hk
  split at hk
  · simp only [Option.some.injEq] at hk; omega
  · simp at hk

theorem rangeFrom_length_lt {i n c k : Nat} (hc : 0 < c) (h : k < (rangeFrom i n c).length) : i + k * c < n := by
  have h1 := List.getElem?_eq_getElem h
  rw [rangeFrom_get hc] at h1
  split at h1
  · assumption
  · simp at h1

theorem paddedChunk_eq {α : Type} (pad : α) (l : List α) (c i : Nat) :
    paddedChunk pad l c i = slice l i c ++ List.replicate (c - (l.length - i)) pad := by
  unfold paddedChunk padToFixedSize
  simp only
  rw [slice_length]
  split
  · congr 2; omega
  · have : c - (l.length - i) = 0 := by omega
    rw [this]; simp

theorem paddedChunk_length {α : Type} (pad : α) (l : List α) (c i : Nat) : (paddedChunk pad l c i).length = c := by
  rw [paddedChunk_eq]
  simp only [List.length_append, List.length_replicate, slice_length]
  omega

theorem rowwise_eq {α γ : Type} {F : List α → List γ} {f : α → γ} (h : Rowwise F f) (l : List α) : F l = l.map f := by
  obtain ⟨h1, h2⟩ := h l
  apply List.ext_getElem?
  intro i
  rw [List.getElem?_map]
  by_cases hi : i < l.length
  · rw [List.getElem?_eq_getElem hi]
    exact h2 i _ (List.getElem?_eq_getElem hi)
  · rw [List.getElem?_eq_none (by omega), List.getElem?_eq_none (by omega)]; rfl

theorem rowwise₂_eq {α β γ : Type} {F : List α → List β → List γ} {f : α → β → γ} (h : Rowwise₂ F f) (l : List α)
    (m : List β) (hl : l.length = m.length) : F l m = List.zipWith f l m := by
  obtain ⟨h1, h2⟩ := h l m hl
  apply List.ext_getElem?
  intro i
  rw [List.getElem?_zipWith]
  by_cases hi : i < l.length
  · have hm : i < m.length := by omega
    rw [List.getElem?_eq_getElem hi, List.getElem?_eq_getElem hm]
    exact h2 i _ _ (List.getElem?_eq_getElem hi) (List.getElem?_eq_getElem hm)
  · rw [List.getElem?_eq_none (by omega), List.getElem?_eq_none (l := l) (by omega)]

theorem ceil_mul {n i c : Nat} (hc : 0 < c) (hi : i < n) : (n - i + c - 1) / c * c = (n - (i + c) + c - 1) / c * c + c := by
  by_cases h : i + c ≤ n
  · have : n - i + c - 1 = (n - (i + c) + c - 1) + c := by omega
    rw [this, Nat.add_div_right _ hc, Nat.succ_mul]
  · have h1 : n - (i + c) + c - 1 = c - 1 := by omega
    have h2 : n - i + c - 1 = (n - i - 1) + c := by omega
    rw [h1, h2, Nat.add_div_right _ hc, Nat.succ_mul, Nat.div_eq_of_lt (by omega), Nat.div_eq_of_lt (by omega)]

/-- Copying full chunks one after another into an array of exactly the right size concatenates them. -/
theorem assignChunks_full {β : Type} {c : Nat} (chunks : List (List β)) (hlen : ∀ p ∈ chunks, p.length = c)
    (out : List β) (off : Nat) (hout : out.length = off + chunks.length * c) :
    assignChunks c out off chunks = .ok (out.take off ++ chunks.flatten) := by
  induction chunks generalizing out off with
  | nil =>
    simp only [List.length_nil, Nat.zero_mul, Nat.add_zero] at hout
    simp [assignChunks, ← hout]
  | cons p ps ih =>
    have hp := hlen p (by simp)
    simp only [List.length_cons, Nat.add_mul, Nat.one_mul] at hout
    unfold assignChunks assign
    rw [if_pos (by omega)]
    simp only
    have hl : (out.take off).length = off := by simp; omega
    rw [ih (fun q hq => hlen q (by simp [hq])) _ _ (by simp; omega)]
    congr 1
    rw [List.flatten_cons, ← List.append_assoc]
    congr 1
    rw [List.take_append_of_le_length (by simp; omega), List.take_of_length_le (by simp; omega)]

theorem rangeFrom_length {n c : Nat} (hc : 0 < c) (i : Nat) :
    (rangeFrom i n c).length * c = (n - i + c - 1) / c * c := by
  refine range_induction (n := n) hc (P := fun i => (rangeFrom i n c).length * c = (n - i + c - 1) / c * c) ?_ ?_ i
  · intro i h
    rw [rangeFrom_done h, Nat.div_eq_of_lt (by omega)]; simp
  · intro i h ih
    rw [rangeFrom_step h hc, List.length_cons, Nat.add_mul, ih, ceil_mul hc h]; omega

theorem map_paddedChunk {α γ : Type} (f : α → γ) (pad : α) (l : List α) (c i : Nat) :
    (paddedChunk pad l c i).map f = slice (l.map f) i c ++ List.replicate (c - (l.length - i)) (f pad) := by
  rw [paddedChunk_eq, List.map_append, List.map_replicate]
  congr 1
  rw [slice_eq, slice_eq, List.map_take, List.map_drop]

theorem padded_take {γ : Type} (l : List γ) (pad : γ) {c : Nat} (hc : 0 < c) (i : Nat) :
    (((rangeFrom i l.length c).map fun i => paddedChunk pad l c i).flatten).take (l.length - i) = l.drop i := by
  refine range_induction (n := l.length) hc
    (P := fun i => (((rangeFrom i l.length c).map fun i => paddedChunk pad l c i).flatten).take (l.length - i) = l.drop i) ?_ ?_ i
  · intro i h
    rw [rangeFrom_done h, List.drop_of_length_le h]; simp
  · intro i h ih
    rw [rangeFrom_step h hc, List.map_cons, List.flatten_cons, paddedChunk_eq, slice_eq]
    by_cases hf : i + c ≤ l.length
    · have : c - (l.length - i) = 0 := by omega
      rw [this]
      simp only [List.replicate_zero, List.append_nil]
      have hl : ((l.drop i).take c).length = c := by simp; omega
      rw [List.take_append, List.take_of_length_le (by omega), hl,
        show l.length - i - c = l.length - (i + c) by omega, ih, ← List.drop_drop, List.take_append_drop]
    · have hl : (l.drop i).take c = l.drop i := List.take_of_length_le (by simp; omega)
      rw [hl, List.append_assoc, List.take_append_of_le_length (by simp), List.take_of_length_le (by simp)]

theorem padded_drop {γ : Type} (l : List γ) (pad : γ) {c : Nat} (hc : 0 < c) (i : Nat) :
    ∀ x ∈ (((rangeFrom i l.length c).map fun i => paddedChunk pad l c i).flatten).drop (l.length - i), x = pad := by
  refine range_induction (n := l.length) hc
    (P := fun i => ∀ x ∈ (((rangeFrom i l.length c).map fun i => paddedChunk pad l c i).flatten).drop (l.length - i), x = pad) ?_ ?_ i
  · intro i h
    rw [rangeFrom_done h]; simp
  · intro i h ih x hx
    rw [rangeFrom_step h hc, List.map_cons, List.flatten_cons, paddedChunk_eq, slice_eq] at hx
    by_cases hf : i + c ≤ l.length
    · have e : c - (l.length - i) = 0 := by omega
      rw [e] at hx
      simp only [List.replicate_zero, List.append_nil] at hx
      have hl : ((l.drop i).take c).length = c := by simp; omega
      rw [List.drop_append, List.drop_of_length_le (by omega), hl,
        show l.length - i - c = l.length - (i + c) by omega] at hx
      exact ih x (by simpa using hx)
    · have hl : (l.drop i).take c = l.drop i := List.take_of_length_le (by simp; omega)
      rw [hl, rangeFrom_done (by omega), List.append_assoc, List.drop_append, List.drop_of_length_le (by simp)] at hx
      simp only [List.nil_append, List.map_nil, List.flatten_nil, List.append_nil] at hx
      exact List.eq_of_mem_replicate (List.mem_of_mem_drop hx)

theorem zip_padded {α β : Type} (padA : α) (padB : β) (as : List α) (bs : List β) (hl : as.length = bs.length) (c i : Nat) :
    List.zip (paddedChunk padA as c i) (paddedChunk padB bs c i) = paddedChunk (padA, padB) (as.zip bs) c i := by
  rw [paddedChunk_eq, paddedChunk_eq, paddedChunk_eq, List.zip_append (by rw [slice_length, slice_length, hl]),
    slice_eq, slice_eq, slice_eq]
  congr 1
  · simp only [List.zip, List.take_zipWith, List.drop_zipWith]
  · rw [List.zip_replicate, hl]; simp [hl]

end Verif.Chunk
