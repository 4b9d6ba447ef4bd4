import Verif.Sched.Props

/-! # The row named by a failed two-body propagation (C143) -/

namespace Verif.Sched.Props

open Verif Spec Chunk.Spec

variable {I S T M P O C : Type}

/-- The pairs of an orbit and a time in the order of the result. -/
def pairs (orbits : List (Orbit2 I S T M P O C)) (times : List T) : List (Orbit2 I S T M P O C × T) :=
  orbits.flatMap fun o => times.map fun t => (o, t)

/-- The propagation of a pair starts or ends with a state that is not finite. -/
def BadPair (k : Kernel2 S T M C) (f : S × T × T × M → S) (p : Orbit2 I S T M P O C × T) : Prop :=
  k.badIn p.1.state = true ∨ k.badOut (f (p.1.state, p.1.t0, p.2, p.1.mu)) = true

theorem pairs_length (orbits : List (Orbit2 I S T M P O C)) (times : List T) : (pairs orbits times).length = orbits.length * times.length := by
  unfold pairs
  induction orbits with
  | nil => simp
  | cons o l ih => rw [List.flatMap_cons, List.length_append, ih]; simp [Nat.add_mul, Nat.add_comm]

theorem pairs_drop (orbits : List (Orbit2 I S T M P O C)) (times : List T) (s j : Nat) (hs : s ≤ orbits.length) :
    (pairs orbits times)[s * times.length + j]? = (pairs (orbits.drop s) times)[j]? := by
  have h : pairs orbits times = pairs (orbits.take s) times ++ pairs (orbits.drop s) times := by
    unfold pairs
    rw [← List.flatMap_append, List.take_append_drop]
  have hl : (pairs (orbits.take s) times).length = s * times.length := by
    rw [pairs_length, List.length_take, Nat.min_eq_left hs]
  rw [h, List.getElem?_append_right (by omega), hl]
  congr 1
  omega

theorem pairs_prefix (orbits : List (Orbit2 I S T M P O C)) (times : List T) (c j : Nat) {p : Orbit2 I S T M P O C × T}
    (h : (pairs (orbits.take c) times)[j]? = some p) : (pairs orbits times)[j]? = some p := by
  have h' : pairs orbits times = pairs (orbits.take c) times ++ pairs (orbits.drop c) times := by
    unfold pairs
    rw [← List.flatMap_append, List.take_append_drop]
  rw [h', List.getElem?_append_left (List.getElem?_eq_some_iff.mp h).1]
  exact h

/-- One process: the row named is a bad one. -/
theorem serial2_names (k : Kernel2 S T M C) {f : S × T × T × M → S} (hF : Rowwise k.F f) (orbits : List (Orbit2 I S T M P O C)) (times : List T)
    {e : PyErr ⊕ Nat} (h : serial2 k orbits times = .error e) :
    ∃ j p, e = .inr j ∧ (pairs orbits times)[j]? = some p ∧ BadPair k f p := by
  have hz := zip_repeat_tile orbits times
  have hargs : List.zipWith (fun (o : Orbit2 I S T M P O C) t => (o.state, o.t0, t, o.mu)) (npRepeat orbits times.length)
      (npTile times orbits.length) = (pairs orbits times).map fun p => args2 p.1 p.2 := by
    rw [← List.map_uncurry_zip_eq_zipWith, hz]; rfl
  unfold serial2 at h
  simp only at h
  rw [hargs] at h
  obtain ⟨h1, h2⟩ := Chunk.Props.C76_names_bad_row k.pad k.junk k.F f hF (fun a => k.badIn a.1) k.badOut
    ((pairs orbits times).map fun p => args2 p.1 p.2) 200 (by omega)
  by_cases hb : ∃ a ∈ (pairs orbits times).map fun p => args2 p.1 p.2, k.badIn a.1 = true ∨ k.badOut (f a) = true
  · obtain ⟨j, a, hj, ha, hbad⟩ := h2 hb
    rw [hj] at h
    simp only [Except.error.injEq] at h
    rw [List.getElem?_map, Option.map_eq_some_iff] at ha
    obtain ⟨p, hp, rfl⟩ := ha
    exact ⟨j, p, h.symm, hp, hbad⟩
  · push Not at hb
    rw [h1 fun a ha => by simpa using hb a ha] at h
    cases h

theorem take_range_drop {α : Type} (l : List α) (s c : Nat) : take l (((List.range l.length).drop s).take c) = (l.drop s).take c := by
  unfold take
  apply List.ext_getElem?
  intro i
  have hall : ∀ (n a : Nat), a + n ≤ l.length → (List.range' a n).filterMap (fun i => l[i]?) = (l.drop a).take n := by
    intro n
    induction n with
    | zero => intro a _; simp
    | succ n ih =>
      intro a ha
      have hlt : a < l.length := by omega
      rw [List.range'_succ, List.filterMap_cons, List.getElem?_eq_getElem hlt]
      simp only
      rw [ih (a + 1) (by omega), List.drop_eq_getElem_cons hlt, List.take_succ_cons]
  have hr : ((List.range l.length).drop s).take c = List.range' s (min c (l.length - s)) := by
    apply List.ext_getElem?
    intro i
    rw [List.getElem?_take, List.getElem?_drop]
    by_cases h : i < c ∧ s + i < l.length
    · rw [if_pos h.1, List.getElem?_range h.2, List.getElem?_range' (by omega)]; simp
    · rw [List.getElem?_eq_none (l := List.range' _ _) (by simp; omega)]
      by_cases h1 : i < c
      · rw [if_pos h1, List.getElem?_eq_none (by simp; omega)]
      · rw [if_neg h1]
  rw [hr]
  by_cases hs : s ≤ l.length
  · rw [hall _ _ (by omega)]
    rcases Nat.le_total c (l.length - s) with h | h
    · rw [Nat.min_eq_left h]
    · rw [Nat.min_eq_right h, List.take_of_length_le (by simp), List.take_of_length_le (by simp; omega)]
  · have h0 : l.length - s = 0 := by omega
    rw [h0]
    simp [List.drop_eq_nil_of_le (by omega : l.length ≤ s)]

/-- A failed propagation names a bad row. In one process it is counted from the first row of the result; with workers it is counted from
the first row of one of the chunks, the one whose failure was noticed first. -/
theorem C143_index (k : Kernel2 S T M C) (f : S × T × T × M → S) (hF : Rowwise k.F f) (pick : Nat → Nat)
    (orbits : List (Orbit2 I S T M P O C)) (times : List T) (maxProc chunk : Int) (hc : 0 < chunk) (e : PyErr ⊕ Nat)
    (h : propagate2 k pick orbits times maxProc chunk = .error e) :
    ∃ j s p, e = .inr j ∧ (pairs orbits times)[s * times.length + j]? = some p ∧ BadPair k f p ∧
      (maxProc ≤ 1 → s = 0) ∧ (1 < maxProc → (chunk.toNat ∣ s) ∧ j < chunk.toNat * times.length) := by
  unfold propagate2 at h
  by_cases hm : maxProc ≤ 1
  · rw [if_pos hm] at h
    obtain ⟨j, p, rfl, hp, hb⟩ := serial2_names k hF orbits times h
    exact ⟨j, 0, p, rfl, by simpa using hp, hb, fun _ => rfl, fun h => absurd hm (by omega)⟩
  · rw [if_neg hm, chunks_range orbits hc] at h
    simp only at h
    have hcn : 0 < chunk.toNat := by omega
    have herr : ∃ e', runTasks (atLeast maxProc.toNat) pick (work2 k orbits times)
        ((Chunk.rangeFrom 0 orbits.length chunk.toNat).map fun i => ((List.range orbits.length).drop i).take chunk.toNat) = .error e' ∧ e' = e := by
      revert h
      cases runTasks (atLeast maxProc.toNat) pick (work2 k orbits times)
        ((Chunk.rangeFrom 0 orbits.length chunk.toNat).map fun i => ((List.range orbits.length).drop i).take chunk.toNat) with
      | ok r => intro h; cases h
      | error e' => intro h; exact ⟨e', rfl, by simpa using h⟩
    obtain ⟨e', he, rfl⟩ := herr
    obtain ⟨idx, hmem, hidx⟩ := gather_error_of he
    have hmem := (runAll_perm _ _ _).mem_iff.mp hmem
    obtain ⟨s, hs, rfl⟩ := List.mem_map.mp hmem
    have hser : serial2 k ((orbits.drop s).take chunk.toNat) times = .error e' := by
      unfold work2 at hidx
      rw [take_range_drop] at hidx
      revert hidx
      cases serial2 k ((orbits.drop s).take chunk.toNat) times with
      | ok r => intro h; cases h
      | error e => intro h; simpa using h
    obtain ⟨j, p, rfl, hp, hb⟩ := serial2_names k hF _ times hser
    have hlen := (List.getElem?_eq_some_iff.mp hp).1
    rw [pairs_length, List.length_take] at hlen
    have hj : j < chunk.toNat * times.length := lt_of_lt_of_le hlen (Nat.mul_le_mul_right _ (Nat.min_le_left _ _))
    have hsl : s ≤ orbits.length ∧ chunk.toNat ∣ s := by
      obtain ⟨q, hq⟩ := List.mem_iff_getElem?.mp hs
      rw [Chunk.rangeFrom_get hcn] at hq
      split at hq
      · simp only [Option.some.injEq, Nat.zero_add] at hq
        exact ⟨by omega, ⟨q, by rw [← hq, Nat.mul_comm]⟩⟩
      · cases hq
    refine ⟨j, s, p, rfl, ?_, hb, fun h => absurd h hm, fun _ => ⟨hsl.2, hj⟩⟩
    rw [pairs_drop _ _ _ _ hsl.1]
    exact pairs_prefix _ _ _ _ hp

/-- A bad second orbit in a chunk of its own. -/
def failing : Except (PyErr ⊕ Nat) (List (Row2 Nat Nat Nat Nat Nat Nat)) :=
  propagate2 (⟨fun l => l.map (·.1), fun s => decide (s = 99), fun _ => false, fun _ c => c, (0, 0, 0, 0), 0⟩ : Kernel2 Nat Nat Nat Nat)
    (fun _ => 0) ([⟨0, 0, 1, 0, 0, 0, 0, none⟩, ⟨1, 0, 99, 0, 0, 0, 0, none⟩] : List (Orbit2 Nat Nat Nat Nat Nat Nat Nat)) [7] 2 1

/-- Not true that the row named is the bad row of the result: here the row named is the first one, whose propagation is fine. -/
theorem C143_index_false :
    ¬ ∀ (k : Kernel2 Nat Nat Nat Nat) (f : Nat × Nat × Nat × Nat → Nat), Rowwise k.F f → ∀ (pick : Nat → Nat)
      (orbits : List (Orbit2 Nat Nat Nat Nat Nat Nat Nat)) (times : List Nat) (maxProc chunk : Int), 0 < chunk → ∀ j : Nat,
      propagate2 k pick orbits times maxProc chunk = .error (.inr j) → ∃ p, (pairs orbits times)[j]? = some p ∧ BadPair k f p := by
  intro h
  obtain ⟨p, hp, hb⟩ := h ⟨fun l => l.map fun a => a.1, fun s => decide (s = 99), fun _ => false, fun _ c => c, (0, 0, 0, 0), 0⟩ (fun a => a.1)
    (fun l => ⟨by simp, fun i a h => by simp [h]⟩) (fun _ => 0) [⟨0, 0, 1, 0, 0, 0, 0, none⟩, ⟨1, 0, 99, 0, 0, 0, 0, none⟩] [7] 2 1 (by decide) 0 (by
      have : (match failing with | .error (.inr 0) => true | _ => false) = true := by decide +kernel
      revert this
      show _ → failing = _
      match failing with
      | .error (.inr 0) => intro _; rfl
      | .error (.inr (n + 1)) => intro h; cases h
      | .error (.inl e) => intro h; cases h
      | .ok r => intro h; cases h)
  simp only [pairs, List.flatMap_cons, List.map_cons, List.map_nil, List.cons_append, List.getElem?_cons_zero, Option.some.injEq] at hp
  subst hp
  rcases hb with hb | hb
  · exact absurd hb (by decide)
  · exact absurd hb (by decide)

end Verif.Sched.Props
