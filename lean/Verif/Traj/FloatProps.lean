import Verif.Traj.Float
import Verif.Traj.Props
import Verif.Time.DurationFloatProps

/-! # C200: trajectories with times as they are stored -/

set_option linter.unusedSectionVars false

namespace Verif.Traj.FloatProps

open Verif Sched Time Time.Spec Time.DurationFloatProps

section
variable {I R : Type} [DecidableEq I]

/-- All times of the segment are normalised and from 1948 to 2127. -/
def ModernSeg (s : RowSeg I R) : Prop := Modern s.start ∧ Modern s.stop ∧ Modern s.epoch

theorem mjd_mono {a b : Row} (ha : Modern a) (hb : Modern b) (h : instant a ≤ instant b) : a.mjd64 ≤ b.mjd64 := by
  have := (C199_order ha hb hb).2.1 h
  rw [days_exact ha hb] at this
  linarith

theorem lt_of_mjd_lt {a b : Row} (ha : Modern a) (hb : Modern b) (h : a.mjd64 < b.mjd64) : instant a < instant b := by
  by_contra hc
  exact absurd (mjd_mono hb ha (not_lt.mp hc)) (not_le.mpr h)

theorem mjd_lt {a b : Row} (ha : Modern a) (hb : Modern b) (h : instant a + 1258 ≤ instant b) : a.mjd64 < b.mjd64 := by
  have e := abs_le.mp (C199_error ha hb)
  rw [days_exact ha hb] at e
  have h1 : (1258 : ℚ) ≤ ((instant b - instant a : ℤ) : ℚ) := by exact_mod_cast (by omega : (1258 : ℤ) ≤ instant b - instant a)
  have h2 : (1258 : ℚ) / 86400000000000 ≤ exactDays a b := by
    unfold exactDays
    rw [DAY_eq]
    push_cast at h1 ⊢
    exact div_le_div_of_nonneg_right h1 (by norm_num)
  norm_num at e
  linarith [e.1]

theorem le_of_mjd_le {a b : Row} (ha : Modern a) (hb : Modern b) (h : a.mjd64 ≤ b.mjd64) : instant a < instant b + 1258 := by
  by_contra hc
  exact absurd (mjd_lt hb ha (not_lt.mp hc)) (not_lt.mpr h)

theorem seg_rest (t : List (RowSeg I R)) : (t.map RowSeg.seg64).map Seg.rest = t := by
  rw [List.map_map]
  exact List.map_id _

theorem validate_same {t' : List (Seg I R)} (t : List (Seg I R)) (h : validate t = .ok t') : t' = t := by
  unfold validate at h
  split at h
  · cases h
  split at h
  · cases h
  split at h
  · cases h
  cases h
  rfl

theorem validate64_iff (t : List (RowSeg I R)) : validate64 t = .ok t ↔ Spec.Valid (t.map RowSeg.seg64) := by
  rw [← Props.C62_valid]
  unfold validate64
  constructor
  · intro h
    cases hv : validate (t.map RowSeg.seg64) with
    | error e => rw [hv] at h; cases h
    | ok t' => rw [validate_same _ hv]
  · intro h
    rw [h]
    simp only [seg_rest]

/-- C200. Trajectories from 1948 to 2127 whose windows last at least 1.3 microseconds, contain their epochs and do not overlap for an object pass
validation. Windows may touch. -/
theorem C200_accepted (t : List (RowSeg I R)) (ht : ∀ s ∈ t, ModernSeg s) (h1 : ∀ s ∈ t, instant s.start + 1258 ≤ instant s.stop)
    (h2 : ∀ s ∈ t, instant s.start ≤ instant s.epoch ∧ instant s.epoch ≤ instant s.stop)
    (h3 : t.Pairwise fun a b => a.object = b.object → instant a.stop ≤ instant b.start ∨ instant b.stop ≤ instant a.start) :
    validate64 t = .ok t := by
  rw [validate64_iff]
  refine ⟨?_, ?_, ?_⟩
  · intro s hs
    obtain ⟨q, hq, rfl⟩ := List.mem_map.mp hs
    exact mjd_lt (ht q hq).1 (ht q hq).2.1 (h1 q hq)
  · intro s hs
    obtain ⟨q, hq, rfl⟩ := List.mem_map.mp hs
    exact ⟨mjd_mono (ht q hq).1 (ht q hq).2.2 (h2 q hq).1, mjd_mono (ht q hq).2.2 (ht q hq).2.1 (h2 q hq).2⟩
  · rw [List.pairwise_map]
    refine h3.imp_of_mem ?_
    intro a b ha hb hab ho time ⟨ca, cb⟩
    have c1 := ca.1; have c2 := ca.2; have c3 := cb.1; have c4 := cb.2
    simp only [RowSeg.seg64] at c1 c2 c3 c4
    rcases hab ho with h | h
    · have := mjd_mono (ht a ha).2.1 (ht b hb).1 h
      linarith
    · have := mjd_mono (ht b hb).2.1 (ht a ha).1 h
      linarith

/-- C200. In a trajectory that passed, windows end after they start, epochs are in their windows and windows of an object do not overlap, the last
two up to 1.3 microseconds. -/
theorem C200_sound (t : List (RowSeg I R)) (ht : ∀ s ∈ t, ModernSeg s) (h : validate64 t = .ok t) :
    (∀ s ∈ t, instant s.start < instant s.stop ∧ instant s.start < instant s.epoch + 1258 ∧ instant s.epoch < instant s.stop + 1258) ∧
    t.Pairwise fun a b => a.object = b.object → instant a.stop < instant b.start + 1258 ∨ instant b.stop < instant a.start + 1258 := by
  rw [validate64_iff] at h
  constructor
  · intro s hs
    have hm : s.seg64 ∈ t.map RowSeg.seg64 := List.mem_map_of_mem hs
    exact ⟨lt_of_mjd_lt (ht s hs).1 (ht s hs).2.1 (h.window _ hm), le_of_mjd_le (ht s hs).1 (ht s hs).2.2 (h.epoch _ hm).1,
      le_of_mjd_le (ht s hs).2.2 (ht s hs).2.1 (h.epoch _ hm).2⟩
  · have hap := h.apart
    rw [List.pairwise_map] at hap
    refine hap.imp_of_mem ?_
    intro a b ha hb hab ho
    rcases (Props.apart_iff a.seg64 b.seg64 (h.window _ (List.mem_map_of_mem ha)) (h.window _ (List.mem_map_of_mem hb))).mp (hab ho) with h | h
    · exact Or.inl (le_of_mjd_le (ht a ha).2.1 (ht b hb).1 h)
    · exact Or.inr (le_of_mjd_le (ht b hb).2.1 (ht a ha).1 h)

/-- C200. The lookup in a trajectory that passed never raises. From the start of its window up to 1.3 microseconds before its end a segment is found.
A segment that is found belongs to the object, ends after the time and starts less than 1.3 microseconds after it. Where none is found, every
window of the object starts after the time or ends less than 1.3 microseconds after it, if not before. -/
theorem C200_lookup (t : List (RowSeg I R)) (ht : ∀ s ∈ t, ModernSeg s) (h : validate64 t = .ok t) {time : Row} (hm : Modern time) (o : I) :
    ∃ res, segmentFor64 t time (some o) = .ok res ∧
      (∀ s ∈ t, s.object = o → instant s.start ≤ instant time → instant time + 1258 ≤ instant s.stop → res = some s) ∧
      (∀ s, res = some s → s ∈ t ∧ s.object = o ∧ instant s.start < instant time + 1258 ∧ instant time < instant s.stop) ∧
      (res = none → ∀ s ∈ t, s.object = o → instant time < instant s.start ∨ instant s.stop < instant time + 1258) := by
  have hv : validate (t.map RowSeg.seg64) = .ok (t.map RowSeg.seg64) := (Props.C62_valid _).mpr ((validate64_iff t).mp h)
  obtain ⟨res, hr, hs⟩ := Props.C62_lookup _ hv time.mjd64 o
  have found : ∀ s ∈ t, s.object = o → instant s.start ≤ instant time → instant time + 1258 ≤ instant s.stop → res = some s.seg64 := by
    intro s hst ho h1 h2
    exact (hs _).mpr ⟨List.mem_map_of_mem hst, ho, mjd_mono (ht s hst).1 hm h1, mjd_lt hm (ht s hst).2.1 h2⟩
  refine ⟨res.map Seg.rest, ?_, ?_, ?_, ?_⟩
  · unfold segmentFor64
    rw [hr]
  · intro s hst ho h1 h2
    rw [found s hst ho h1 h2]
    rfl
  · intro s hres
    obtain ⟨s', e1, e2⟩ := Option.map_eq_some_iff.mp hres
    obtain ⟨m1, m2, m3, m4⟩ := (hs s').mp e1
    obtain ⟨s'', m5, rfl⟩ := List.mem_map.mp m1
    have : s'' = s := e2
    subst this
    exact ⟨m5, m2, le_of_mjd_le (ht _ m5).1 hm m3, lt_of_mjd_lt hm (ht _ m5).2.1 m4⟩
  · intro hn s hst ho
    by_contra hc
    push Not at hc
    rw [found s hst ho hc.1 hc.2] at hn
    cases hn

end

/-- C200. Not true: that a time in a window gets the segment of that window (the next one is found 100 ns before its start), that windows that
pass do not overlap, and that every window that ends after it starts passes. -/
theorem C200_false :
    (segmentFor64 ([⟨1, ⟨60000, 0⟩, ⟨60001, 300⟩, ⟨60000, 5⟩, 7⟩, ⟨1, ⟨60001, 300⟩, ⟨60002, 0⟩, ⟨60001, 300⟩, 8⟩] : List (RowSeg Nat Nat)) ⟨60001, 200⟩ (some 1) =
      .ok (some ⟨1, ⟨60001, 300⟩, ⟨60002, 0⟩, ⟨60001, 300⟩, 8⟩)) ∧
    (validate64 ([⟨1, ⟨60000, 0⟩, ⟨60001, 300⟩, ⟨60000, 5⟩, 7⟩, ⟨1, ⟨60001, 200⟩, ⟨60002, 0⟩, ⟨60001, 300⟩, 8⟩] : List (RowSeg Nat Nat)) =
      .ok [⟨1, ⟨60000, 0⟩, ⟨60001, 300⟩, ⟨60000, 5⟩, 7⟩, ⟨1, ⟨60001, 200⟩, ⟨60002, 0⟩, ⟨60001, 300⟩, 8⟩]) ∧
    validate64 ([⟨1, ⟨60001, 200⟩, ⟨60001, 300⟩, ⟨60001, 200⟩, 7⟩] : List (RowSeg Nat Nat)) = .error .valueError := by
  decide +kernel

/-- Two windows that touch, and a lookup where they do. -/
example : (∀ s ∈ ([⟨1, ⟨60000, 0⟩, ⟨60001, 300⟩, ⟨60000, 5⟩, 7⟩, ⟨1, ⟨60001, 300⟩, ⟨60002, 0⟩, ⟨60001, 300⟩, 8⟩] : List (RowSeg Nat Nat)), ModernSeg s) ∧
    validate64 ([⟨1, ⟨60000, 0⟩, ⟨60001, 300⟩, ⟨60000, 5⟩, 7⟩, ⟨1, ⟨60001, 300⟩, ⟨60002, 0⟩, ⟨60001, 300⟩, 8⟩] : List (RowSeg Nat Nat)) =
      .ok [⟨1, ⟨60000, 0⟩, ⟨60001, 300⟩, ⟨60000, 5⟩, 7⟩, ⟨1, ⟨60001, 300⟩, ⟨60002, 0⟩, ⟨60001, 300⟩, 8⟩] ∧
    segmentFor64 ([⟨1, ⟨60000, 0⟩, ⟨60001, 300⟩, ⟨60000, 5⟩, 7⟩, ⟨1, ⟨60001, 300⟩, ⟨60002, 0⟩, ⟨60001, 300⟩, 8⟩] : List (RowSeg Nat Nat)) ⟨60001, 300⟩ (some 1) =
      .ok (some ⟨1, ⟨60001, 300⟩, ⟨60002, 0⟩, ⟨60001, 300⟩, 8⟩) := by
  refine ⟨?_, by decide +kernel, by decide +kernel⟩
  intro s hs
  rcases List.mem_cons.mp hs with rfl | hs
  · exact ⟨⟨⟨by decide, by decide⟩, by decide, by decide⟩, ⟨⟨by decide, by decide⟩, by decide, by decide⟩, ⟨⟨by decide, by decide⟩, by decide, by decide⟩⟩
  · rw [List.mem_singleton] at hs
    subst hs
    exact ⟨⟨⟨by decide, by decide⟩, by decide, by decide⟩, ⟨⟨by decide, by decide⟩, by decide, by decide⟩, ⟨⟨by decide, by decide⟩, by decide, by decide⟩⟩

end Verif.Traj.FloatProps
