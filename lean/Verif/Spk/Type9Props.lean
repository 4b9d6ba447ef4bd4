import Verif.Spk.Type9
import Verif.Spk.Props
import Mathlib.LinearAlgebra.Lagrange

/-! # SPK files of type 9: the properties -/

namespace Verif.Spk.Type9Props

open Verif Sched Spk Spec Spk.Props Polynomial

theorem lagrange_eq (w : List Node) (i : Fin 6) (t : ℚ) :
    lagrange w i t = (Lagrange.interpolate Finset.univ (fun k => (w.get k).time) (fun k => (w.get k).values i)).eval t := by
  unfold lagrange
  rw [Lagrange.interpolate_apply, eval_finsetSum]
  apply Finset.sum_congr rfl
  intro k _
  rw [eval_mul, eval_C, Lagrange.basis, eval_prod]
  congr 1
  apply Finset.prod_congr rfl
  intro j _
  unfold Lagrange.basisDivisor
  simp only [eval_mul, eval_C, eval_sub, eval_X]
  rw [div_eq_inv_mul]

theorem injOn {w : List Node} (h : w.Pairwise fun a b => a.time < b.time) :
    Set.InjOn (fun k : Fin w.length => (w.get k).time) (Finset.univ : Finset (Fin w.length)) := by
  intro a _ b _ hab
  rw [List.pairwise_iff_getElem] at h
  rcases lt_trichotomy a b with hl | he | hl
  · exact absurd hab (ne_of_lt (h a b a.2 b.2 hl))
  · exact he
  · exact absurd hab.symm (ne_of_lt (h b a b.2 a.2 hl))

theorem write_ok {jd : ℚ → ℚ} {states : List State} {s : Segment9} (h : writeSegment9 jd states = .ok s) :
    s.degree = 15 ∧ s.nodes = states.map (fun s => ⟨jd s.time, toKm s.values⟩) ∧ 16 ≤ s.nodes.length ∧
    s.nodes.Pairwise (fun a b => a.time < b.time) ∧ (s.nodes.head?.map Node.time) = some s.start ∧
    (s.nodes.getLast?.map Node.time) = some s.stop := by
  unfold writeSegment9 spkw09 at h
  generalize states.map (fun s => (⟨jd s.time, toKm s.values⟩ : Node)) = l at *
  cases h1 : l.head? with
  | none => rw [h1] at h; cases h
  | some a =>
    cases h2 : l.getLast? with
    | none => rw [h1, h2] at h; cases h
    | some b =>
      rw [h1, h2] at h
      simp only at h
      split at h
      · cases h
      split at h
      · rename_i hlen hp
        cases h
        exact ⟨rfl, rfl, by simp only; omega, hp, by simp only [h1, Option.map_some], by simp only [h2, Option.map_some]⟩
      · cases h

/-- How many states are not later than one of them. -/
theorem takeWhile_at {l : List Node} (h : l.Pairwise fun a b => a.time < b.time) {k : Nat} {n : Node} (hk : l[k]? = some n) :
    (l.takeWhile fun x => decide (x.time ≤ n.time)).length = k + 1 := by
  induction l generalizing k with
  | nil => cases hk
  | cons a l ih =>
    rw [List.pairwise_cons] at h
    cases k with
    | zero =>
      cases hk
      rw [List.takeWhile_cons, if_pos (by simp)]
      cases l with
      | nil => rfl
      | cons b l =>
        rw [List.takeWhile_cons, if_neg]
        · rfl
        · have := h.1 b (by simp)
          simpa using this
    | succ k =>
      have hn : n ∈ l := List.mem_of_getElem? hk
      rw [List.takeWhile_cons, if_pos (by have := h.1 n hn; simp only [decide_eq_true_eq]; exact this.le), List.length_cons, ih h.2 hk]

theorem window_pairwise (s : Segment9) (h : s.nodes.Pairwise fun a b => a.time < b.time) (t : ℚ) :
    (window9 s t).Pairwise fun a b => a.time < b.time :=
  h.sublist ((List.take_sublist _ _).trans (List.drop_sublist _ _))

theorem window_length {s : Segment9} (h : s.degree < s.nodes.length) (t : ℚ) : (window9 s t).length = s.degree + 1 := by
  unfold window9
  rw [List.length_take, List.length_drop]
  have : windowFirst s.nodes s.degree t ≤ s.nodes.length - (s.degree + 1) := min_le_right _ _
  omega

/-- At the times of the file SPICE reads the states of the orbit, in km and km/s. -/
theorem C168_states (jd : ℚ → ℚ) (states : List State) (s : Segment9) (h : writeSegment9 jd states = .ok s) (st : State) (hst : st ∈ states) :
    ∃ v, evaluate9 s (jd st.time) = some v ∧ ∀ i, v i = inKm st.values i := by
  obtain ⟨hd, hn, hlen, hp, hhead, hlast⟩ := write_ok h
  obtain ⟨k, hk, hks⟩ := List.getElem_of_mem hst
  have hlk : k < s.nodes.length := by rw [hn]; simpa using hk
  have hnode : s.nodes[k]? = some ⟨jd st.time, toKm st.values⟩ := by
    rw [hn, List.getElem?_map, List.getElem?_eq_getElem hk, hks]; rfl
  have hpw := List.pairwise_iff_getElem.mp hp
  have hk' : s.nodes[k] = ⟨jd st.time, toKm st.values⟩ := by
    rw [List.getElem?_eq_getElem hlk] at hnode
    exact Option.some.inj hnode
  have hrange : s.start ≤ jd st.time ∧ jd st.time ≤ s.stop := by
    rw [List.head?_eq_getElem?, List.getElem?_eq_getElem (by omega), Option.map_some, Option.some.injEq] at hhead
    rw [List.getLast?_eq_getElem?, List.getElem?_eq_getElem (by omega), Option.map_some, Option.some.injEq] at hlast
    have e : jd st.time = s.nodes[k].time := by rw [hk']
    rw [← hhead, ← hlast, e]
    constructor
    · rcases Nat.eq_zero_or_pos k with rfl | h0
      · exact le_refl _
      · exact (hpw 0 k (by omega) hlk h0).le
    · rcases Nat.lt_or_ge k (s.nodes.length - 1) with h0 | h0
      · exact (hpw k _ hlk (by omega) h0).le
      · have : k = s.nodes.length - 1 := by omega
        simp only [this, le_refl]
  refine ⟨fun i => lagrange (window9 s (jd st.time)) i (jd st.time), by unfold evaluate9; rw [if_pos hrange], fun i => ?_⟩
  have hwl := window_length (s := s) (by omega) (jd st.time)
  have hcount := takeWhile_at hp hnode
  have hwf : windowFirst s.nodes s.degree (jd st.time) ≤ k ∧ k < windowFirst s.nodes s.degree (jd st.time) + (s.degree + 1) := by
    unfold windowFirst
    simp only at hcount
    rw [hcount, hd]
    omega
  generalize hf : windowFirst s.nodes s.degree (jd st.time) = f at hwf
  have hin : k - f < (window9 s (jd st.time)).length := by omega
  have hget : (window9 s (jd st.time))[k - f] = ⟨jd st.time, toKm st.values⟩ := by
    have : (window9 s (jd st.time))[k - f]? = some ⟨jd st.time, toKm st.values⟩ := by
      unfold window9
      rw [List.getElem?_take, if_pos (by omega), List.getElem?_drop, hf, show f + (k - f) = k by omega, hnode]
    rw [List.getElem?_eq_getElem hin] at this
    exact Option.some.inj this
  change lagrange (window9 s (jd st.time)) i (jd st.time) = _
  rw [lagrange_eq]
  have := Lagrange.eval_interpolate_at_node (r := fun j => ((window9 s (jd st.time)).get j).values i)
    (injOn (window_pairwise s hp (jd st.time))) (Finset.mem_univ (⟨k - f, hin⟩ : Fin _))
  simp only [List.get_eq_getElem, hget] at this
  simp only [List.get_eq_getElem]
  rw [this, toKm_eq]

/-- A motion that is a polynomial of degree at most 15 in each component is read exactly at every time of the segment, and nothing is read
outside. -/
theorem C168_polynomial (states : List State) (s : Segment9) (h : writeSegment9 id states = .ok s) (p : Fin 6 → ℚ[X])
    (hdeg : ∀ i, (p i).natDegree ≤ 15) (hp : ∀ st ∈ states, ∀ i, inKm st.values i = (p i).eval st.time) (t : ℚ) :
    evaluate9 s t = if s.start ≤ t ∧ t ≤ s.stop then some fun i => (p i).eval t else none := by
  obtain ⟨hd, hn, hlen, hpw, -, -⟩ := write_ok h
  unfold evaluate9
  split
  · congr 1
    funext i
    rw [lagrange_eq]
    have hwl := window_length (s := s) (by omega) t
    congr 1
    symm
    apply Lagrange.eq_interpolate_of_eval_eq
    · exact injOn (window_pairwise s hpw t)
    · rw [Finset.card_univ, Fintype.card_fin, hwl, hd]
      refine lt_of_le_of_lt (degree_le_natDegree) ?_
      exact_mod_cast Nat.lt_succ_of_le (hdeg i)
    · intro k _
      have hm : (window9 s t).get k ∈ s.nodes :=
        List.mem_of_mem_drop (List.mem_of_mem_take (List.get_mem _ k))
      rw [hn, List.mem_map] at hm
      obtain ⟨st, hst, he⟩ := hm
      rw [← he]
      simp only [id_eq, toKm_eq]
      exact (hp st hst i).symm
  · rfl

/-- Away from the ends of the segment the time asked for is in the middle of the sixteen states: eight are not later, eight are later. -/
theorem C168_centered (jd : ℚ → ℚ) (states : List State) (s : Segment9) (h : writeSegment9 jd states = .ok s) (t : ℚ) (k : Nat) (a b : Node)
    (ha : s.nodes[k]? = some a) (hb : s.nodes[k + 1]? = some b) (hat : a.time ≤ t) (htb : t < b.time) (h1 : 7 ≤ k) (h2 : k + 9 ≤ s.nodes.length) :
    window9 s t = (s.nodes.drop (k - 7)).take 16 ∧ (window9 s t)[7]? = some a ∧ (window9 s t)[8]? = some b := by
  obtain ⟨hd, hn, hlen, hp, -, -⟩ := write_ok h
  have hcount : (s.nodes.takeWhile fun x => decide (x.time ≤ t)).length = k + 1 := by
    have hpw := List.pairwise_iff_getElem.mp hp
    have gen : ∀ (l : List Node), l.Pairwise (fun a b => a.time < b.time) → ∀ k, l[k]? = some a → l[k + 1]? = some b →
        (l.takeWhile fun x => decide (x.time ≤ t)).length = k + 1 := by
      intro l
      induction l with
      | nil => intro _ k hk; cases hk
      | cons x l ih =>
        intro hl k hka hkb
        rw [List.pairwise_cons] at hl
        cases k with
        | zero =>
          cases hka
          cases l with
          | nil => cases hkb
          | cons y l =>
            cases hkb
            rw [List.takeWhile_cons, if_pos (by simpa using hat), List.takeWhile_cons, if_neg (by simpa using htb)]
            rfl
        | succ k =>
          have hx : x.time ≤ t := le_trans (hl.1 a (List.mem_of_getElem? hka)).le hat
          rw [List.takeWhile_cons, if_pos (by simpa using hx), List.length_cons, ih hl.2 k hka hkb]
    exact gen s.nodes hp k ha hb
  have hf : windowFirst s.nodes s.degree t = k - 7 := by
    unfold windowFirst
    rw [hcount, hd]
    omega
  have hw : window9 s t = (s.nodes.drop (k - 7)).take 16 := by unfold window9; rw [hf, hd]
  refine ⟨hw, ?_, ?_⟩
  · rw [hw, List.getElem?_take, if_pos (by omega), List.getElem?_drop, show k - 7 + 7 = k by omega, ha]
  · rw [hw, List.getElem?_take, if_pos (by omega), List.getElem?_drop, show k - 7 + 8 = k + 1 by omega, hb]

/-- An orbit is written exactly if it has at least sixteen states and no two at one time; the order of its rows does not matter, and the
segment spans from the first to the last. -/
theorem C168_written (states : List State) :
    ((∃ s, writeOrbit9 id states = .ok s) ↔ 16 ≤ states.length ∧ (states.map State.time).Nodup) ∧
    ∀ s, writeOrbit9 id states = .ok s →
      (∃ st ∈ states, st.time = s.start) ∧ (∃ st ∈ states, st.time = s.stop) ∧ ∀ st ∈ states, s.start ≤ st.time ∧ st.time ≤ s.stop := by
  have hperm := sortBy_perm State.time states
  have hsort := sortBy_sorted State.time states
  unfold writeOrbit9
  constructor
  · have hnd : (states.map State.time).Nodup ↔ ((sortBy State.time states).map State.time).Nodup := (hperm.map State.time).nodup_iff.symm
    rw [← hperm.length_eq, hnd]
    generalize sortBy State.time states = l at *
    have hp : (l.map fun s => (⟨id s.time, toKm s.values⟩ : Node)).Pairwise (fun a b => a.time < b.time) ↔ (l.map State.time).Nodup := by
      rw [List.pairwise_map, List.Nodup, List.pairwise_map]
      constructor
      · exact fun h => h.imp fun hab => ne_of_lt hab
      · intro h
        exact (h.and hsort).imp fun hab => lt_of_le_of_ne hab.2 hab.1
    constructor
    · rintro ⟨s, hs⟩
      obtain ⟨-, hn, hlen, hpw, -, -⟩ := write_ok hs
      rw [hn] at hlen hpw
      exact ⟨by simpa using hlen, hp.mp hpw⟩
    · rintro ⟨h1, h2⟩
      have h2 := hp.mpr h2
      unfold writeSegment9 spkw09
      have hlen : 16 ≤ (l.map fun s => (⟨id s.time, toKm s.values⟩ : Node)).length := by simpa using h1
      generalize (l.map fun s => (⟨id s.time, toKm s.values⟩ : Node)) = m at *
      cases hh : m.head? with
      | none => rw [List.head?_eq_none_iff] at hh; rw [hh] at hlen; simp at hlen
      | some a => cases hg : m.getLast? with
        | none => rw [List.getLast?_eq_none_iff] at hg; rw [hg] at hlen; simp at hlen
        | some b =>
          simp only
          rw [if_neg (by omega), if_pos h2]
          exact ⟨_, rfl⟩
  · intro s hs
    obtain ⟨-, hn, hlen, hpw, hhead, hlast⟩ := write_ok hs
    rw [hn] at hlen hpw hhead hlast
    have hin : ∀ st ∈ sortBy State.time states, s.start ≤ st.time ∧ st.time ≤ s.stop := by
      intro st hst
      obtain ⟨k, hk, hks⟩ := List.getElem_of_mem hst
      have hev := C168_states id _ s hs st hst
      obtain ⟨v, hv, -⟩ := hev
      unfold evaluate9 at hv
      split at hv
      · assumption
      · cases hv
    refine ⟨?_, ?_, fun st hst => hin st (hperm.mem_iff.mpr hst)⟩
    · rw [List.head?_map, Option.map_map] at hhead
      obtain ⟨st, h1, h2⟩ := Option.map_eq_some_iff.mp hhead
      exact ⟨st, hperm.mem_iff.mp (List.mem_of_mem_head? h1), h2⟩
    · rw [List.getLast?_map, Option.map_map] at hlast
      obtain ⟨st, h1, h2⟩ := Option.map_eq_some_iff.mp hlast
      exact ⟨st, hperm.mem_iff.mp (List.mem_of_getLast? h1), h2⟩

/-- The times that orbits are propagated to: equally spaced from the start, none after the end, the next one would be. So the file ends less
than a step before the end that was asked for. -/
theorem C169_steps (start stop step : ℚ) (h : 0 < step) (hle : start ≤ stop) :
    (stepTimes start stop step).head? = some start ∧
    (∀ (i : Nat) (t : ℚ), (stepTimes start stop step)[i]? = some t → t = start + i * step ∧ t ≤ stop) ∧
    ∃ last, (stepTimes start stop step).getLast? = some last ∧ last ≤ stop ∧ stop < last + step := by
  have hq : 0 ≤ (stop - start) / step := div_nonneg (by linarith) h.le
  have hfl : 0 ≤ ⌊(stop - start) / step⌋ := Int.floor_nonneg.mpr hq
  obtain ⟨m, hm⟩ := Int.eq_ofNat_of_zero_le hfl
  have hst : stepTimes start stop step = (List.range (m + 1)).map fun i : Nat => start + i * step := by
    unfold stepTimes
    simp only [if_pos hq, hm]
    rfl
  have h1 : ((m : ℚ)) ≤ (stop - start) / step := by
    have := Int.floor_le ((stop - start) / step)
    rw [hm] at this
    exact_mod_cast this
  have h2 : (stop - start) / step < (m : ℚ) + 1 := by
    have := Int.lt_floor_add_one ((stop - start) / step)
    rw [hm] at this
    exact_mod_cast this
  rw [le_div_iff₀ h] at h1
  rw [div_lt_iff₀ h] at h2
  rw [hst]
  refine ⟨by simp [List.range_succ_eq_map], fun i t hi => ?_, start + m * step, by simp [List.range_succ], by linarith, by linarith⟩
  rw [List.getElem?_map] at hi
  obtain ⟨j, hj, rfl⟩ := Option.map_eq_some_iff.mp hi
  have hj' := List.getElem?_eq_some_iff.mp hj
  obtain ⟨hlt, he⟩ := hj'
  rw [List.getElem_range] at he
  subst he
  rw [List.length_range] at hlt
  refine ⟨rfl, ?_⟩
  have : (i : ℚ) ≤ m := by exact_mod_cast Nat.le_of_lt_succ hlt
  nlinarith

/-- Not true: that the file covers the span asked for. One day in steps of 0.4 days is covered to 0.8 days. A span of less than minus one step
has no times at all. -/
theorem C169_short : stepTimes 0 1 (2 / 5) = [0, 2 / 5, 4 / 5] ∧ stepTimes 1 0 (1 / 4) = [] ∧ stepTimes 1 (9 / 10) (1 / 4) = [1] := by
  decide +kernel

section
variable {I Seg Row : Type} [DecidableEq I]

theorem loop_ok {w : List Row → Except PyErr Seg} {rows : List (I × Row)} {start : Int} (ids : List (I × Nat)) (m m' : List (I × Int))
    (f f' : File Seg) (h : writeLoop (some w) rows start ids m f = (.ok m', f')) :
    m' = m ++ ids.map (fun p => (p.1, start + p.2)) ∧ f'.closed = true ∧ ∃ segs, f'.segments = f.segments ++ segs ∧
      List.Forall₂ (fun (p : I × Nat) (q : Int × Seg) => q.1 = start + p.2 ∧
        w ((rows.filter fun r => decide (r.1 = p.1)).map (·.2)) = .ok q.2) ids segs := by
  induction ids generalizing m f with
  | nil => cases h; exact ⟨by simp, rfl, [], by simp, .nil⟩
  | cons p ids ih =>
    obtain ⟨id, k⟩ := p
    rw [writeLoop] at h
    split at h
    · cases h
    rename_i s hs
    obtain ⟨h1, h2, segs, h3, h4⟩ := ih _ _ h
    exact ⟨by rw [h1]; simp, h2, (start + k, s) :: segs, by rw [h3]; simp, .cons ⟨rfl, hs⟩ h4⟩

theorem loop_error {w : List Row → Except PyErr Seg} {rows : List (I × Row)} {start : Int} (ids : List (I × Nat)) (m : List (I × Int))
    (f f' : File Seg) (e : PyErr) (h : writeLoop (some w) rows start ids m f = (.error e, f')) :
    f'.closed = f.closed ∧ ∃ (a : List (I × Nat)) (p : I × Nat) (b : List (I × Nat)) (segs : List (Int × Seg)), ids = a ++ p :: b ∧
      w ((rows.filter fun r => decide (r.1 = p.1)).map (·.2)) = .error e ∧ f'.segments = f.segments ++ segs ∧
      List.Forall₂ (fun (p : I × Nat) (q : Int × Seg) => q.1 = start + p.2 ∧
        w ((rows.filter fun r => decide (r.1 = p.1)).map (·.2)) = .ok q.2) a segs := by
  induction ids generalizing m f with
  | nil => cases h
  | cons p ids ih =>
    obtain ⟨id, k⟩ := p
    rw [writeLoop] at h
    split at h
    · rename_i e' he
      cases h
      exact ⟨rfl, [], (id, k), ids, [], rfl, he, by simp, .nil⟩
    rename_i s hs
    obtain ⟨h1, a, p, b, segs, h2, h3, h4, h5⟩ := ih _ _ h
    exact ⟨h1, (id, k) :: a, p, b, (start + k, s) :: segs, by rw [h2]; rfl, h3, by rw [h4]; simp, .cons ⟨rfl, hs⟩ h5⟩

/-- A file that is finished has one segment per orbit, in order of first appearance, made from all rows of that orbit, under the target that
the mapping has for the orbit; and it is closed. -/
theorem C169_file (w : List Row → Except PyErr Seg) (rows : List (I × Row)) (start : Int) (m : List (I × Int)) (f : File Seg)
    (h : orbitsToSpk (some w) rows start = (.ok m, f)) :
    m = targetIds (rows.map (·.1)) start ∧ f.closed = true ∧
    List.Forall₂ (fun (p : I × Int) (q : Int × Seg) => q.1 = p.2 ∧ w ((rows.filter fun r => decide (r.1 = p.1)).map (·.2)) = .ok q.2)
      m f.segments := by
  unfold orbitsToSpk at h
  obtain ⟨h1, h2, segs, h3, h4⟩ := loop_ok _ _ _ _ _ h
  have hm : m = targetIds (rows.map (·.1)) start := by rw [h1]; rfl
  refine ⟨hm, h2, ?_⟩
  rw [h3, h1, List.nil_append, List.nil_append, List.forall₂_map_left_iff]
  exact h4

/-- If the segment of an orbit cannot be written, the error is that of the first such orbit; the file is left open with the segments of the
orbits before it. An unknown kernel type is a ValueError with an open, empty file, unless there are no orbits. -/
theorem C169_errors (rows : List (I × Row)) (start : Int) :
    (∀ (w : List Row → Except PyErr Seg) (e : PyErr) (f : File Seg), orbitsToSpk (some w) rows start = (.error e, f) →
      f.closed = false ∧ ∃ (a : List I) (id : I) (b : List I), uniq (rows.map (·.1)) = a ++ id :: b ∧
        w ((rows.filter fun r => decide (r.1 = id)).map (·.2)) = .error e ∧ f.segments.length = a.length ∧
        ∀ x ∈ a, ∃ s, w ((rows.filter fun r => decide (r.1 = x)).map (·.2)) = .ok s) ∧
    (rows ≠ [] → (orbitsToSpk none rows start : Except PyErr (List (I × Int)) × File Seg) = (.error .valueError, ⟨[], false⟩)) ∧
    ((orbitsToSpk none ([] : List (I × Row)) start : Except PyErr (List (I × Int)) × File Seg) = (.ok [], ⟨[], true⟩)) := by
  refine ⟨fun w e f h => ?_, fun h => ?_, rfl⟩
  · unfold orbitsToSpk at h
    obtain ⟨h1, a, p, b, segs, h2, h3, h4, h5⟩ := loop_error _ _ _ _ _ h
    refine ⟨h1, a.map (·.1), p.1, b.map (·.1), ?_, h3, ?_, ?_⟩
    · have := congrArg (List.map Prod.fst) h2
      rw [List.zipIdx_map_fst, List.map_append, List.map_cons] at this
      exact this
    · rw [h4, List.nil_append, List.length_map, h5.length_eq]
    · intro x hx
      obtain ⟨p, hp, rfl⟩ := List.mem_map.mp hx
      clear h2 h3 h4
      induction h5 with
      | nil => cases hp
      | cons hab _ ih =>
        rcases List.mem_cons.mp hp with rfl | hp
        · exact ⟨_, hab.2⟩
        · exact ih hp (List.mem_map.mpr ⟨p, hp, rfl⟩)
  · unfold orbitsToSpk
    cases hu : (uniq (rows.map (·.1))).zipIdx with
    | nil =>
      exfalso
      have : uniq (rows.map (·.1)) = [] := by simpa using hu
      obtain ⟨r, hr⟩ := List.exists_mem_of_ne_nil rows h
      have : r.1 ∈ uniq (rows.map (·.1)) := (mem_uniq _ _).mpr (List.mem_map.mpr ⟨r, hr, rfl⟩)
      rw [‹uniq (rows.map (·.1)) = []›] at this
      cases this
    | cons p ids => obtain ⟨id, k⟩ := p; rfl
end

/-- The case: sixteen states of a motion along x, the square of the time. -/
def square (n : Nat) : List State := (List.range n).map fun k : Nat => ⟨(k : ℚ), fun i => if i = 0 then (k : ℚ) ^ 2 else 0⟩

theorem C168_case : (∃ s, writeOrbit9 id (square 16) = .ok s ∧ evaluate9 s (5 / 2) = some fun i => if i = 0 then 25 / 4 * 149597870.7 else 0) ∧
    writeOrbit9 id (square 15) = .error .runtimeError := by
  constructor
  · have hok := (C168_written (square 16)).1.mpr ⟨by simp [square], by decide +kernel⟩
    obtain ⟨s, hs⟩ := hok
    refine ⟨s, hs, ?_⟩
    have hsort : sortBy State.time (square 16) = square 16 := by
      unfold sortBy
      apply List.Pairwise.insertionSort_eq
      unfold square
      rw [List.pairwise_map]
      exact (List.pairwise_lt_range).imp fun {a b : ℕ} (h : a < b) => (by exact_mod_cast h.le : (a : ℚ) ≤ b)
    have hspan := (C168_written (square 16)).2 s hs
    have h0 := hspan.2.2 ⟨((0 : ℕ) : ℚ), fun i => if i = 0 then ((0 : ℕ) : ℚ) ^ 2 else 0⟩ (List.mem_map.mpr ⟨0, List.mem_range.mpr (by norm_num), rfl⟩)
    have h1 := hspan.2.2 ⟨((15 : ℕ) : ℚ), fun i => if i = 0 then ((15 : ℕ) : ℚ) ^ 2 else 0⟩ (List.mem_map.mpr ⟨15, List.mem_range.mpr (by norm_num), rfl⟩)
    push_cast at h0 h1
    unfold writeOrbit9 at hs
    rw [hsort] at hs
    rw [C168_polynomial _ s hs (fun i => if i = 0 then C 149597870.7 * X ^ 2 else 0), if_pos ⟨by linarith, by linarith⟩]
    · congr 1
      funext i
      split
      · simp; norm_num
      · simp
    · intro i
      split
      · exact le_trans (natDegree_C_mul_X_pow_le _ _) (by norm_num)
      · simp
    · intro st hst i
      obtain ⟨k, -, rfl⟩ := List.mem_map.mp hst
      unfold inKm
      by_cases hi : i = 0
      · subst hi; simp; ring
      · simp [hi]
  · have hsort : sortBy State.time (square 15) = square 15 := by
      unfold sortBy
      apply List.Pairwise.insertionSort_eq
      unfold square
      rw [List.pairwise_map]
      exact (List.pairwise_lt_range).imp fun {a b : ℕ} (h : a < b) => (by exact_mod_cast h.le : (a : ℚ) ≤ b)
    unfold writeOrbit9
    rw [hsort]
    rfl

end Verif.Spk.Type9Props
