import Verif.Tri.Model

/-! # Triangles of covariance matrices: the properties -/

set_option linter.unusedSectionVars false

namespace Verif.Tri.Props

open Verif

variable {K : Type} [Zero K]

theorem assign_other (m : Nat → Nat → K) (l : List ((Nat × Nat) × K)) (i j : Nat) (h : (i, j) ∉ l.map Prod.fst) :
    assign m l i j = m i j := by
  induction l generalizing m with
  | nil => rfl
  | cons e l ih =>
    simp only [List.map_cons, List.mem_cons, not_or] at h
    unfold assign
    rw [ih _ h.2, if_neg h.1]

theorem assign_at (m : Nat → Nat → K) (l : List ((Nat × Nat) × K)) (hd : (l.map Prod.fst).Nodup) (i j : Nat) (x : K)
    (h : ((i, j), x) ∈ l) : assign m l i j = x := by
  induction l generalizing m with
  | nil => cases h
  | cons e l ih =>
    simp only [List.map_cons, List.nodup_cons] at hd
    unfold assign
    rcases List.mem_cons.mp h with rfl | h
    · rw [assign_other _ _ _ _ hd.1, if_pos rfl]
    · exact ih _ hd.2 h

theorem assign_zip (m : Nat → Nat → K) (places : List (Nat × Nat)) (v : List K) (hd : places.Nodup)
    (hl : places.length = v.length) (k i j : Nat) (x : K) (hp : places[k]? = some (i, j)) (hx : v[k]? = some x) :
    assign m (places.zip v) i j = x := by
  apply assign_at
  · rw [List.map_fst_zip (by omega)]
    exact hd
  · apply List.mem_of_getElem? (i := k)
    rw [List.getElem?_zip_eq_some]
    exact ⟨hp, hx⟩

theorem assign_zip_other (m : Nat → Nat → K) (places : List (Nat × Nat)) (v : List K)
    (hl : places.length = v.length) (i j : Nat) (h : (i, j) ∉ places) : assign m (places.zip v) i j = m i j := by
  apply assign_other
  rw [List.map_fst_zip (by omega)]
  exact h

theorem mirror_at (m : Nat → Nat → K) (places : List (Nat × Nat)) (hd : places.Nodup) (i j : Nat) (h : (i, j) ∈ places) :
    mirror m places i j = m j i := by
  apply assign_at
  · simpa [Function.comp_def] using hd
  · exact List.mem_map.mpr ⟨(i, j), h, rfl⟩

theorem mirror_other (m : Nat → Nat → K) (places : List (Nat × Nat)) (i j : Nat) (h : (i, j) ∉ places) :
    mirror m places i j = m i j := by
  apply assign_other
  simpa [Function.comp_def] using h

theorem triu6 : ∀ i < 6, ∀ j < 6, i ≤ j → (triu 6 0)[i * (11 - i) / 2 + j]? = some (i, j) := by decide +kernel
theorem tril6 : ∀ i < 6, ∀ j < 6, j ≤ i → (tril 6 0)[i * (i + 1) / 2 + j]? = some (i, j) := by decide +kernel
theorem triu7 : ∀ i < 7, ∀ j < 7, i ≤ j → (triu 7 0)[i * (13 - i) / 2 + j]? = some (i, j) := by decide +kernel
theorem low6 : ∀ i < 6, ∀ j < 6, ((j, i) ∈ tril 6 (-1) ↔ i < j) := by decide +kernel
theorem upp6 : ∀ i < 6, ∀ j < 6, ((i, j) ∈ triu 6 (-1) ↔ i ≤ j + 1) := by decide +kernel

/-- The 21 numbers are the upper triangle row by row, mirrored below the diagonal; any other count raises. -/
theorem C47_upper (v : List K) :
    (v.length ≠ 21 → upperToFull v = .error .assertionError) ∧
    (v.length = 21 → ∃ full, upperToFull v = .ok full ∧
      ∀ i < 6, ∀ j < 6, i ≤ j → some (full i j) = v[i * (11 - i) / 2 + j]? ∧ full j i = full i j) := by
  constructor
  · intro h
    unfold upperToFull
    rw [if_neg h]
  · intro h
    refine ⟨mirror (assign (fun _ _ => 0) ((triu 6 0).zip v)) (tril 6 (-1)), by unfold upperToFull; rw [if_pos h], ?_⟩
    intro i hi j hj hij
    have hlen : (triu 6 0).length = v.length := by rw [h]; decide +kernel
    have hat : assign (fun _ _ => (0 : K)) ((triu 6 0).zip v) i j = v[i * (11 - i) / 2 + j]'(by
        have : i * (11 - i) / 2 + j < 21 := by
          have : ∀ i < 6, ∀ j < 6, i * (11 - i) / 2 + j < 21 := by decide
          exact this i hi j hj
        omega) :=
      assign_zip _ _ v (by decide +kernel) hlen _ i j _ (triu6 i hi j hj hij) (List.getElem?_eq_getElem _)
    have hupper : mirror (assign (fun _ _ => (0 : K)) ((triu 6 0).zip v)) (tril 6 (-1)) i j =
        assign (fun _ _ => (0 : K)) ((triu 6 0).zip v) i j :=
      mirror_other _ _ i j fun hm => absurd ((low6 j hj i hi).mp hm) (by omega)
    constructor
    · rw [hupper, hat]
      exact (List.getElem?_eq_getElem _).symm
    · rcases Nat.lt_or_ge i j with hlt | hge
      · rw [mirror_at _ _ (by decide +kernel) j i ((low6 i hi j hj).mpr hlt), hupper]
      · obtain rfl : i = j := by omega
        rfl

/-- Every symmetric matrix is recovered from its upper triangle. -/
theorem C47_upper_recovers (m : Nat → Nat → K) (hm : ∀ i j, m i j = m j i) :
    ∃ full, upperToFull ((triu 6 0).map fun p => m p.1 p.2) = .ok full ∧ ∀ i < 6, ∀ j < 6, full i j = m i j := by
  obtain ⟨full, h1, h2⟩ := (C47_upper ((triu 6 0).map fun p => m p.1 p.2)).2 (by rw [List.length_map]; decide +kernel)
  refine ⟨full, h1, ?_⟩
  have key : ∀ i < 6, ∀ j < 6, i ≤ j → full i j = m i j := by
    intro i hi j hj hij
    have := (h2 i hi j hj hij).1
    rw [List.getElem?_map, triu6 i hi j hj hij] at this
    exact Option.some.inj this
  intro i hi j hj
  rcases Nat.le_total i j with h | h
  · exact key i hi j hj h
  · rw [(h2 j hj i hi h).2, key j hj i hi h, hm]

/-- Twenty-one recognisable numbers. -/
example : (match upperToFull ((List.range 21).map fun n => n + 100) with
    | .ok m => (m 2 4, m 4 2, m 5 5)
    | .error _ => (0, 0, 0)) = (113, 113, 120) := by
  decide +kernel

/-- What `_lower_triangular_to_full` does for every 21 numbers: right except for the places just below the diagonal, which
become zero. -/
theorem C47_lower (v : List K) (h : v.length = 21) :
    ∃ full, lowerToFull v = .ok full ∧ ∀ i < 6, ∀ j < 6, j ≤ i →
      some (full j i) = v[i * (i + 1) / 2 + j]? ∧ (i ≠ j + 1 → full i j = full j i) ∧ (i = j + 1 → full i j = 0) := by
  refine ⟨mirror (assign (fun _ _ => 0) ((tril 6 0).zip v)) (triu 6 (-1)), by unfold lowerToFull; rw [if_pos h], ?_⟩
  intro i hi j hj hij
  have hlen : (tril 6 0).length = v.length := by rw [h]; decide +kernel
  have hb : i * (i + 1) / 2 + j < v.length := by
    have : ∀ i < 6, ∀ j < 6, j ≤ i → i * (i + 1) / 2 + j < 21 := by decide
    rw [h]
    exact this i hi j hj hij
  have hat : assign (fun _ _ => (0 : K)) ((tril 6 0).zip v) i j = v[i * (i + 1) / 2 + j]'hb :=
    assign_zip _ _ v (by decide +kernel) hlen _ i j _ (tril6 i hi j hj hij) (List.getElem?_eq_getElem _)
  have hnd : (triu 6 (-1)).Nodup := by decide +kernel
  have hmir : mirror (assign (fun _ _ => (0 : K)) ((tril 6 0).zip v)) (triu 6 (-1)) j i =
      assign (fun _ _ => (0 : K)) ((tril 6 0).zip v) i j := mirror_at _ _ hnd j i ((upp6 j hj i hi).mpr (by omega))
  refine ⟨by rw [hmir, hat]; exact (List.getElem?_eq_getElem _).symm, ?_, ?_⟩
  · intro hne
    rcases Nat.lt_or_ge j i with hlt | hge
    · rw [hmir, mirror_other _ _ i j fun hm => absurd ((upp6 i hi j hj).mp hm) (by omega)]
    · obtain rfl : i = j := by omega
      rfl
  · intro he
    rw [mirror_at _ _ hnd i j ((upp6 i hi j hj).mpr (by omega))]
    apply assign_zip_other _ _ _ hlen
    have : ∀ j < 6, (j, j + 1) ∉ tril 6 0 := by decide +kernel
    rw [he]
    exact this j hj

/-- It does not give the symmetric matrix. -/
theorem C47_lower_false :
    ¬ ∀ (v : List Int) (full : Nat → Nat → Int), v.length = 21 → lowerToFull v = .ok full →
      ∀ i < 6, ∀ j < 6, full i j = full j i := by
  intro h
  have h21 : (List.replicate 21 (1 : Int)).length = 21 := rfl
  obtain ⟨full, h1, h2⟩ := C47_lower (List.replicate 21 (1 : Int)) h21
  have h3 := h2 1 (by omega) 0 (by omega) (by omega)
  have h4 := h _ full h21 h1 1 (by omega) 0 (by omega)
  rw [h3.2.2 rfl] at h4
  have h5 := h3.1
  rw [← h4] at h5
  revert h5
  decide

/-- Dropping the last parameter of a seven-parameter covariance leaves the six-parameter block, as the covariance that a
parsed OEF file reports. -/
theorem C47_seven (v : List K) (h : v.length = 28) :
    ∃ full, oefCovariance v = .ok (some full) ∧
      ∀ i < 6, ∀ j < 6, i ≤ j → some (full i j) = v[i * (13 - i) / 2 + j]? ∧ full j i = full i j := by
  have hlen : (triu 7 0).length = v.length := by rw [h]; decide +kernel
  have hw : ((triu 6 0).map fun p => assign (fun _ _ => (0 : K)) ((triu 7 0).zip v) p.1 p.2).length = 21 := by
    rw [List.length_map]; decide +kernel
  obtain ⟨full, h1, h2⟩ := (C47_upper _).2 hw
  refine ⟨full, ?_, ?_⟩
  · unfold oefCovariance removeLast
    rw [if_neg (by intro hc; rw [List.isEmpty_iff] at hc; rw [hc] at h; cases h), if_pos h, if_pos h]
    simp only
    rw [h1]
  · intro i hi j hj hij
    obtain ⟨ha, hb⟩ := h2 i hi j hj hij
    refine ⟨?_, hb⟩
    rw [ha, List.getElem?_map, triu6 i hi j hj hij]
    simp only [Option.map_some]
    have hbd : i * (13 - i) / 2 + j < v.length := by
      have : ∀ i < 6, ∀ j < 6, i * (13 - i) / 2 + j < 28 := by decide
      rw [h]
      exact this i hi j hj
    rw [assign_zip _ _ v (by decide +kernel) hlen _ i j _ (triu7 i (by omega) j (by omega) hij)
      (List.getElem?_eq_getElem hbd)]
    exact (List.getElem?_eq_getElem _).symm

/-- With 21 numbers it is the matrix of the upper triangle; without any there is none; other counts raise. -/
theorem C47_oef (v : List K) :
    (v = [] → oefCovariance v = .ok none) ∧
    (v.length = 21 → ∃ full, oefCovariance v = .ok (some full) ∧ upperToFull v = .ok full) ∧
    (v ≠ [] → v.length ≠ 21 → v.length ≠ 28 → oefCovariance v = .error .assertionError) := by
  refine ⟨?_, ?_, ?_⟩
  · rintro rfl
    rfl
  · intro h
    obtain ⟨full, h1, _⟩ := (C47_upper v).2 h
    refine ⟨full, ?_, h1⟩
    unfold oefCovariance
    rw [if_neg (by intro hc; rw [List.isEmpty_iff] at hc; rw [hc] at h; cases h), if_neg (by omega)]
    simp only
    rw [h1]
  · intro h0 h21 h28
    unfold oefCovariance
    rw [if_neg (by rw [List.isEmpty_iff]; exact h0), if_neg h28]
    simp only
    rw [(C47_upper v).1 h21]

end Verif.Tri.Props
