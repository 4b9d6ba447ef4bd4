import Verif.Viz.Sim
import Verif.Sched.Orbits
import Mathlib.Tactic.Linarith
import Mathlib.Tactic.NormNum
import Mathlib.Tactic.FieldSimp
import Mathlib.Data.List.Forall2
import Mathlib.Data.List.Perm.Subperm

/-! # C187: the impact animation -/

namespace Verif.Viz.SimProps

open Verif Sched Viz

variable {I P : Type} [DecidableEq I]

/-! ## Specification -/

/-- `n` is the number of the things with property `p`. -/
def Counts {α : Type} (n : Nat) (p : α → Prop) : Prop := ∃ l : List α, l.Nodup ∧ (∀ a, a ∈ l ↔ p a) ∧ l.length = n

/-- The variant has hit the body by the time given. -/
def Hit (impacts : List (Strike I)) (t : Moment) (body : String) (v : Option I) : Prop :=
  ∃ s ∈ impacts, s.variant = v ∧ s.code = body ∧ s.time.mjd ≤ t.mjd

/-- Every variant with an impact has hit some body by the time given, and there are such variants. -/
def Done (impacts : List (Strike I)) (t : Moment) : Prop :=
  (∃ s, s ∈ impacts) ∧ ∀ s ∈ impacts, ∃ s' ∈ impacts, s'.variant = s.variant ∧ s'.time.mjd ≤ t.mjd

/-- On the same day and at most 100 microseconds apart. -/
def Near (a b : Moment) : Prop := a.days = b.days ∧ |a.nanos - b.nanos| ≤ 100000

instance (a b : Moment) : Decidable (Near a b) := inferInstanceAs (Decidable (_ ∧ _))

/-- The identifier is one of the group. -/
def Member (v : List (Dot I P)) (i : I) : Prop := ∃ d ∈ v, d.id = i

/-- What a random choice without replacement does. -/
def Choosing (choose : Nat → List I → List I) : Prop :=
  ∀ n l, l.Nodup → n ≤ l.length → (choose n l).Nodup ∧ (∀ a ∈ choose n l, a ∈ l) ∧ (choose n l).length = n

/-- The variants of a group that are drawn: all of them, or a sample of the right size. -/
def Drawn (fraction : Option ℚ) (v : List (Dot I P)) (chosen : List I) : Prop :=
  (∀ i ∈ chosen, Member v i) ∧ chosen.Nodup ∧
  match fraction with
  | none => ∀ i, Member v i → i ∈ chosen
  | some f => ∃ n, Counts n (Member v) ∧ (chosen.length : Int) = min ⌈(n : ℚ) * f⌉ n

/-- The fraction that applies to a group. -/
def fractionOf (c : Choice) (group : String) : Option ℚ := if group = "Non-Impacting" then c.sampleNonImpactors else c.sampleImpactors

/-- The number of the variants of all groups, counted in every group. -/
def Total (groups : List (String × List (Dot I P))) (n : Nat) : Prop :=
  ∃ ns : List Nat, List.Forall₂ (fun g k => Counts k (Member g.2)) groups ns ∧ n = ns.sum

/-! ## Auxiliary -/

theorem counts_uniq {α : Type} [DecidableEq α] (l : List α) : Counts (uniq l).length (fun a => a ∈ l) :=
  ⟨uniq l, nodup_uniq l, mem_uniq l, rfl⟩

theorem counts_congr {α : Type} {n : Nat} {p q : α → Prop} (h : ∀ a, p a ↔ q a) : Counts n p ↔ Counts n q := by
  unfold Counts; simp only [h]

theorem counts_unique {α : Type} {m n : Nat} {p : α → Prop} (hm : Counts m p) (hn : Counts n p) : m = n := by
  obtain ⟨a, ha, ha', rfl⟩ := hm
  obtain ⟨b, hb, hb', rfl⟩ := hn
  exact ((List.perm_ext_iff_of_nodup ha hb).mpr fun x => (ha' x).trans (hb' x).symm).length_eq

theorem counts_le {α : Type} {m n : Nat} {p q : α → Prop} (hm : Counts m p) (hn : Counts n q) (h : ∀ a, p a → q a) : m ≤ n := by
  obtain ⟨a, ha, ha', rfl⟩ := hm
  obtain ⟨b, hb, hb', rfl⟩ := hn
  exact (List.subperm_of_subset ha fun x hx => (hb' x).mpr (h x ((ha' x).mp hx))).length_le

theorem ids_counts (v : List (Dot I P)) : Counts (ids v).length (Member v) := by
  refine (counts_congr fun i => ?_).mp (counts_uniq (v.map Dot.id))
  simp [Member]

theorem mem_ids (v : List (Dot I P)) (i : I) : i ∈ ids v ↔ Member v i := by
  rw [ids, mem_uniq]; simp [Member]

theorem total_num (groups : List (String × List (Dot I P))) : Total groups (numVariants groups) := by
  refine ⟨groups.map fun g => (ids g.2).length, ?_, rfl⟩
  rw [List.forall₂_map_right_iff]
  exact List.forall₂_same.mpr fun g _ => ids_counts g.2

theorem hits_counts (impacts : List (Strike I)) (t : Moment) (b : String) : Counts (hits impacts t b) (Hit impacts t b) := by
  refine (counts_congr fun v => ?_).mp (counts_uniq _)
  simp only [upTo, List.mem_map, List.mem_filter, decide_eq_true_eq, Hit]
  constructor
  · rintro ⟨s, ⟨⟨h1, h2⟩, h3⟩, h4⟩
    exact ⟨s, h1, h4, h3, h2⟩
  · rintro ⟨s, h1, h4, h3, h2⟩
    exact ⟨s, ⟨⟨h1, h2⟩, h3⟩, h4⟩

theorem finished_iff (impacts : List (Strike I)) (t : Moment) : finished impacts t = true ↔ Done impacts t := by
  unfold finished Done upTo
  simp only [Bool.and_eq_true, decide_eq_true_eq, List.all_eq_true, List.mem_map, List.mem_filter]
  constructor
  · rintro ⟨h, h'⟩
    refine ⟨List.exists_mem_of_ne_nil _ h, fun s hs => ?_⟩
    obtain ⟨s', ⟨a, b⟩, c⟩ := h' s.variant ⟨s, hs, rfl⟩
    exact ⟨s', a, c, b⟩
  · rintro ⟨⟨s, hs⟩, h'⟩
    refine ⟨fun h => by rw [h] at hs; simp at hs, ?_⟩
    rintro v ⟨s, hs, rfl⟩
    obtain ⟨s', a, c, b⟩ := h' s hs
    exact ⟨s', ⟨a, b⟩, c⟩

omit [DecidableEq I] in
theorem atTime_eq (v : List (Dot I P)) (t : Moment) : atTime v t = v.filter fun d => decide (Near d.time t) := by
  refine List.filter_congr fun d _ => ?_
  rw [Bool.eq_iff_iff]
  simp only [Bool.and_eq_true, decide_eq_true_eq, Near, abs_le]
  constructor
  · rintro ⟨a, b, c⟩; exact ⟨a, by linarith, by linarith⟩
  · rintro ⟨a, b, c⟩; exact ⟨a, by linarith, by linarith⟩

theorem animate_spec {F : Type} (make : Nat → Moment → F) (stop : Moment → Bool) (i : Nat) (ts : List Moment) :
    ∃ n, n ≤ ts.length ∧ (ts ≠ [] → 0 < n) ∧ animate make stop i ts = (ts.take n).mapIdx (fun k t => make (i + k) t) ∧
      (∀ k t, k + 1 < n → ts[k]? = some t → stop t = false) ∧ (n = ts.length ∨ ∃ t, ts[n - 1]? = some t ∧ stop t = true) := by
  induction ts generalizing i with
  | nil => exact ⟨0, by simp, by simp, by simp [animate], by simp, .inl rfl⟩
  | cons t l ih =>
    cases hs : stop t with
    | true =>
      exact ⟨1, by simp, by simp, by simp [animate, hs], fun k t h => by omega, .inr ⟨t, by simp, hs⟩⟩
    | false =>
      obtain ⟨n, h1, h2, h3, h4, h5⟩ := ih (i + 1)
      refine ⟨n + 1, by simpa using h1, by simp, ?_, ?_, ?_⟩
      · simp only [animate, hs, Bool.false_eq_true, if_false, h3, List.take_succ_cons, List.mapIdx_cons, Nat.add_zero]
        refine congrArg _ (congrArg (fun f => List.mapIdx f _) (funext fun k => funext fun t => ?_))
        rw [Nat.add_assoc, Nat.add_comm 1 k]
      · intro k t' hk ht'
        cases k with
        | zero => simp only [List.getElem?_cons_zero, Option.some.injEq] at ht'; rw [← ht']; exact hs
        | succ k => exact h4 k t' (by omega) (by simpa using ht')
      · rcases h5 with h5 | ⟨t', h5, h6⟩
        · exact .inl (by simp [h5])
        · cases n with
          | zero =>
            cases l with
            | nil => simp at h5
            | cons a l => simp at h2
          | succ n => exact .inr ⟨t', by simpa using h5, h6⟩

/-- What is drawn of a group with a sample. -/
theorem sample_spec {choose : Nat → List I → List I} (hc : Choosing choose) (fraction : Option ℚ) (v : List (Dot I P)) :
    (∀ e, sample choose fraction v = .error e →
      e = .valueError ∧ ∃ f n, fraction = some f ∧ Counts n (Member v) ∧ ⌈(n : ℚ) * f⌉ < 0) ∧
    ∀ w, sample choose fraction v = .ok w →
      (∀ f n, fraction = some f → Counts n (Member v) → 0 ≤ ⌈(n : ℚ) * f⌉) ∧
      ∃ chosen, Drawn fraction v chosen ∧ w = v.filter fun d => decide (d.id ∈ chosen) := by
  cases fraction with
  | none =>
    refine ⟨fun e h => (by simp [sample] at h), fun w h => ⟨fun f n h => (by simp at h), ids v, ?_, ?_⟩⟩
    · exact ⟨fun i hi => (mem_ids v i).mp hi, nodup_uniq _, fun i hi => (mem_ids v i).mpr hi⟩
    · simp only [sample, Except.ok.injEq] at h
      rw [← h, eq_comm, List.filter_eq_self]
      intro d hd
      exact decide_eq_true ((mem_ids v _).mpr ⟨d, hd, rfl⟩)
  | some f =>
    have hn := ids_counts v
    by_cases h0 : (ids v).length = 0
    · have hv : ∀ i, ¬ Member v i := fun i hi => by
        have := (mem_ids v i).mpr hi
        rw [List.length_eq_zero_iff.mp h0] at this
        simp at this
      refine ⟨fun e h => (by simp [sample, h0] at h), fun w h => ⟨fun f' n hf hc' => ?_, [], ⟨by simp, List.nodup_nil, 0, ?_, by simp⟩, ?_⟩⟩
      · rw [counts_unique hc' hn, h0]; simp
      · rw [← h0]; exact hn
      · simp only [sample, h0, if_true, Except.ok.injEq] at h
        rw [← h]; simp
    · simp only [sample, h0, if_false]
      by_cases hs : min ⌈((ids v).length : ℚ) * f⌉ ((ids v).length : Int) < 0
      · rw [if_pos hs]
        refine ⟨fun e h => ?_, fun w h => (by simp at h)⟩
        simp only [Except.error.injEq] at h
        refine ⟨h.symm, f, _, rfl, hn, ?_⟩
        rcases min_lt_iff.mp hs with h | h
        · exact h
        · omega
      · rw [if_neg hs]
        refine ⟨fun e h => (by simp at h), fun w h => ?_⟩
        simp only [Except.ok.injEq] at h
        have hs' := not_lt.mp hs
        have hle : (min ⌈((ids v).length : ℚ) * f⌉ ((ids v).length : Int)).toNat ≤ (ids v).length := by
          have := min_le_right ⌈((ids v).length : ℚ) * f⌉ ((ids v).length : Int)
          omega
        obtain ⟨c1, c2, c3⟩ := hc _ (ids v) (nodup_uniq _) hle
        refine ⟨fun f' n hf hc' => ?_, _, ⟨fun i hi => (mem_ids v i).mp (c2 i hi), c1, _, hn, ?_⟩, h.symm⟩
        · rw [counts_unique hc' hn]
          simp only [Option.some.injEq] at hf
          rw [← hf]
          exact le_trans hs' (min_le_left _ _)
        · rw [c3, Int.toNat_of_nonneg hs']

theorem sampled_cons (choose : Nat → List I → List I) (c : Choice) (g : String × List (Dot I P)) (l : List (String × List (Dot I P))) :
    sampled choose c (g :: l) = (sample choose (fractionOf c g.1) g.2).bind fun v => (sampled choose c l).bind fun w => .ok ((g.1, v) :: w) := by
  unfold sampled fractionOf
  rw [List.mapM_cons]
  cases sample choose (if g.1 = "Non-Impacting" then c.sampleNonImpactors else c.sampleImpactors) g.2 <;> rfl

/-- What is drawn of all groups. -/
theorem sampled_spec {choose : Nat → List I → List I} (hc : Choosing choose) (c : Choice) (groups : List (String × List (Dot I P))) :
    (∀ e, sampled choose c groups = .error e →
      e = .valueError ∧ ∃ g ∈ groups, ∃ f n, fractionOf c g.1 = some f ∧ Counts n (Member g.2) ∧ ⌈(n : ℚ) * f⌉ < 0) ∧
    ∀ w, sampled choose c groups = .ok w →
      (∀ g ∈ groups, ∀ f n, fractionOf c g.1 = some f → Counts n (Member g.2) → 0 ≤ ⌈(n : ℚ) * f⌉) ∧
      ∃ chosen, List.Forall₂ (fun g ch => Drawn (fractionOf c g.1) g.2 ch) groups chosen ∧
        w = (groups.zip chosen).map fun g => (g.1.1, g.1.2.filter fun d => decide (d.id ∈ g.2)) := by
  induction groups with
  | nil =>
    refine ⟨fun e h => (by simp [sampled, pure, Except.pure] at h), fun w h => ⟨by simp, [], .nil, ?_⟩⟩
    simp only [sampled, List.mapM_nil, pure, Except.pure, Except.ok.injEq] at h
    rw [← h]; rfl
  | cons g l ih =>
    obtain ⟨s1, s2⟩ := sample_spec hc (fractionOf c g.1) g.2
    rw [sampled_cons]
    cases hs : sample choose (fractionOf c g.1) g.2 with
    | error e =>
      refine ⟨fun e' h => ?_, fun w h => (by simp [Except.bind] at h)⟩
      simp only [Except.bind, Except.error.injEq] at h
      obtain ⟨h1, f, n, h2⟩ := s1 e hs
      exact ⟨h ▸ h1, g, by simp, f, n, h2⟩
    | ok v =>
      obtain ⟨t1, ch, t2, t3⟩ := s2 v hs
      cases hr : sampled choose c l with
      | error e =>
        refine ⟨fun e' h => ?_, fun w h => (by simp [Except.bind] at h)⟩
        simp only [Except.bind, Except.error.injEq] at h
        obtain ⟨h1, g', hg', f, n, h2⟩ := ih.1 e hr
        exact ⟨h ▸ h1, g', List.mem_cons_of_mem _ hg', f, n, h2⟩
      | ok w' =>
        obtain ⟨i1, chs, i2, i3⟩ := ih.2 w' hr
        refine ⟨fun e' h => (by simp [Except.bind] at h), fun w h => ?_⟩
        simp only [Except.bind, Except.ok.injEq] at h
        refine ⟨?_, ch :: chs, .cons t2 i2, ?_⟩
        · intro g' hg'
          rcases List.mem_cons.mp hg' with rfl | hg'
          · exact t1
          · exact i1 g' hg'
        · rw [← h, List.zip_cons_cons, List.map_cons, ← i3, t3]

theorem simulation_ok {choose : Nat → List I → List I} {c : Choice} {times : List Moment} {best : List P}
    {groups : List (String × List (Dot I P))} {impacts : List (Strike I)} {frames : List (Frame P)}
    (h : simulation choose c times best groups impacts = .ok frames) :
    ∃ shown, sampled choose c groups = .ok shown ∧ times ≠ [] ∧
      (numVariants groups = 0 → (groups.map Prod.fst).filter (fun k => decide (k ≠ "Non-Impacting")) = []) ∧
      frames = animate (frame c (numVariants groups) ((groups.map Prod.fst).filter fun k => decide (k ≠ "Non-Impacting")) shown best impacts)
        (finished impacts) 0 times := by
  unfold simulation at h
  cases hs : sampled choose c groups with
  | error e => simp [hs, bind, Except.bind] at h
  | ok shown =>
    simp only [hs, bind, Except.bind] at h
    split at h
    · simp at h
    rename_i h1
    split at h
    · simp at h
    rename_i h2
    simp only [Except.ok.injEq] at h
    exact ⟨shown, rfl, h1, fun h0 => by_contra fun h3 => h2 ⟨h0, h3⟩, h.symm⟩

theorem frames_spec {choose : Nat → List I → List I} {c : Choice} {times : List Moment} {best : List P}
    {groups : List (String × List (Dot I P))} {impacts : List (Strike I)} {frames : List (Frame P)}
    (h : simulation choose c times best groups impacts = .ok frames) :
    ∃ shown, sampled choose c groups = .ok shown ∧ 0 < frames.length ∧ frames.length ≤ times.length ∧
      (∀ i f, frames[i]? = some f → ∃ t, times[i]? = some t ∧ f = frame c (numVariants groups)
        ((groups.map Prod.fst).filter fun k => decide (k ≠ "Non-Impacting")) shown best impacts i t) ∧
      (∀ i t, i + 1 < frames.length → times[i]? = some t → ¬ Done impacts t) ∧
      (frames.length = times.length ∨ ∃ t, times[frames.length - 1]? = some t ∧ Done impacts t) := by
  obtain ⟨shown, h1, h2, -, h3⟩ := simulation_ok h
  obtain ⟨n, a1, a2, a3, a4, a5⟩ := animate_spec (frame c (numVariants groups)
    ((groups.map Prod.fst).filter fun k => decide (k ≠ "Non-Impacting")) shown best impacts) (finished impacts) 0 times
  have hl : frames.length = n := by rw [h3, a3]; simp [a1]
  refine ⟨shown, h1, hl ▸ a2 h2, hl ▸ a1, ?_, ?_, ?_⟩
  · intro i f hf
    rw [h3, a3, List.getElem?_mapIdx] at hf
    cases ht : (times.take n)[i]? with
    | none => rw [ht] at hf; simp at hf
    | some t =>
      rw [ht] at hf
      simp only [Option.map_some, Option.some.injEq, Nat.zero_add] at hf
      refine ⟨t, ?_, hf.symm⟩
      rw [List.getElem?_take] at ht
      split at ht
      · exact ht
      · simp at ht
  · intro i t hi ht hd
    have := a4 i t (hl ▸ hi) ht
    rw [(finished_iff impacts t).mpr hd] at this
    simp at this
  · rw [hl]
    rcases a5 with a5 | ⟨t, a5, a6⟩
    · exact .inl a5
    · exact .inr ⟨t, a5, (finished_iff impacts t).mp a6⟩

/-! ## The properties -/

/-- C187: The frames are at the times given, in order, from the first on; the animation ends with the first frame by which every variant
with an impact has hit some body, and with the last time if there is none. -/
theorem C187_frames {choose : Nat → List I → List I} {c : Choice} {times : List Moment} {best : List P}
    {groups : List (String × List (Dot I P))} {impacts : List (Strike I)} {frames : List (Frame P)}
    (h : simulation choose c times best groups impacts = .ok frames) :
    frames ≠ [] ∧ frames.length ≤ times.length ∧ frames.map Frame.time = times.take frames.length ∧
      (∀ i t, i + 1 < frames.length → times[i]? = some t → ¬ Done impacts t) ∧
      (frames.length = times.length ∨ ∃ t, times[frames.length - 1]? = some t ∧ Done impacts t) := by
  obtain ⟨shown, -, h1, h2, h3, h4, h5⟩ := frames_spec h
  refine ⟨List.length_pos_iff.mp h1, h2, ?_, h4, h5⟩
  refine List.ext_getElem? fun i => ?_
  rw [List.getElem?_map, List.getElem?_take]
  split
  · rename_i hi
    obtain ⟨t, ht, hf⟩ := h3 i frames[i] (by simp [hi])
    rw [List.getElem?_eq_getElem hi, Option.map_some, ht, hf]
    rfl
  · rename_i hi
    rw [List.getElem?_eq_none (by omega)]
    rfl

/-- C187: Every frame has, for every group other than the non-impacting one, in the order of the groups, the number of distinct variants
that have hit that body by its time, and the share of these among the variants of all groups. Sampling and hiding do not matter. -/
theorem C187_tallies {choose : Nat → List I → List I} {c : Choice} {times : List Moment} {best : List P}
    {groups : List (String × List (Dot I P))} {impacts : List (Strike I)} {frames : List (Frame P)}
    (h : simulation choose c times best groups impacts = .ok frames) :
    ∀ f ∈ frames, f.tallies.map Tally.body = (groups.map Prod.fst).filter (fun k => decide (k ≠ "Non-Impacting")) ∧
      ∀ y ∈ f.tallies, Counts y.hits (Hit impacts f.time y.body) ∧ Total groups y.total ∧ 0 < y.total ∧
        y.percent = 100 * y.hits / y.total := by
  intro f hf
  obtain ⟨shown, -, -, hz, -⟩ := simulation_ok h
  obtain ⟨_, -, -, -, h3, -, -⟩ := frames_spec h
  obtain ⟨i, hi⟩ := List.getElem?_of_mem hf
  obtain ⟨t, -, rfl⟩ := h3 i f hi
  refine ⟨?_, ?_⟩
  · simp only [frame, List.map_map]
    exact (List.map_congr_left fun _ _ => rfl).trans (List.map_id _)
  · intro y hy
    simp only [frame, List.mem_map] at hy
    obtain ⟨b, hb, rfl⟩ := hy
    refine ⟨hits_counts impacts t b, total_num groups, ?_, ?_⟩
    · refine Nat.pos_of_ne_zero fun h0 => ?_
      rw [hz h0] at hb
      simp at hb
    · dsimp only
      ring

/-- C187: Every frame shows, for every group that is not hidden, in their order, the positions of those rows within 100 microseconds of
its time, on the same day, that belong to the variants drawn. Those are the same in all frames: all variants, or as many distinct ones as
the fraction of their number, rounded up, and no more than there are. -/
theorem C187_traces {choose : Nat → List I → List I} (hc : Choosing choose) {c : Choice} {times : List Moment} {best : List P}
    {groups : List (String × List (Dot I P))} {impacts : List (Strike I)} {frames : List (Frame P)}
    (h : simulation choose c times best groups impacts = .ok frames) :
    ∃ chosen : List (List I), List.Forall₂ (fun g ch => Drawn (fractionOf c g.1) g.2 ch) groups chosen ∧
      ∀ f ∈ frames, f.traces =
        ((groups.zip chosen).filter fun g => decide (¬ (g.1.1 = "Non-Impacting" ∧ c.nonImpacting = false) ∧
            ¬ (g.1.1 = "Impacting" ∧ c.impacting = false))).map
          fun g => ⟨g.1.1, (g.1.2.filter fun d => decide (d.id ∈ g.2 ∧ Near d.time f.time)).map Dot.place⟩ := by
  obtain ⟨shown, hs, -, -, h3, -, -⟩ := frames_spec h
  obtain ⟨-, chosen, hch, rfl⟩ := (sampled_spec hc c groups).2 shown hs
  refine ⟨chosen, hch, fun f hf => ?_⟩
  obtain ⟨i, hi⟩ := List.getElem?_of_mem hf
  obtain ⟨t, -, rfl⟩ := h3 i f hi
  simp only [frame, List.filter_map, List.map_map]
  have e : (groups.zip chosen).filter ((fun g : String × List (Dot I P) => !hidden c g.1) ∘
      fun g : (String × List (Dot I P)) × List I => (g.1.1, g.1.2.filter fun d => decide (d.id ∈ g.2))) =
      (groups.zip chosen).filter fun g => decide (¬ (g.1.1 = "Non-Impacting" ∧ c.nonImpacting = false) ∧
            ¬ (g.1.1 = "Impacting" ∧ c.impacting = false)) := by
    refine List.filter_congr fun g _ => ?_
    rw [Bool.eq_iff_iff]
    simp [hidden]
  rw [e]
  refine List.map_congr_left fun g _ => ?_
  simp only [Function.comp, atTime_eq, List.filter_filter, Trace.mk.injEq, true_and]
  congr 1
  refine List.filter_congr fun d _ => ?_
  rw [Bool.eq_iff_iff]
  simp [and_comm]

/-- C187: The best-fit orbit is shown unless it is switched off: in every frame, its row of the same index. -/
theorem C187_best {choose : Nat → List I → List I} {c : Choice} {times : List Moment} {best : List P}
    {groups : List (String × List (Dot I P))} {impacts : List (Strike I)} {frames : List (Frame P)}
    (h : simulation choose c times best groups impacts = .ok frames) :
    ∀ (i : Nat) (f : Frame P), frames[i]? = some f → f.bestFit = if c.bestFit = true then best[i]? else none := by
  intro i f hi
  obtain ⟨_, -, -, -, h3, -, -⟩ := frames_spec h
  obtain ⟨t, -, rfl⟩ := h3 i f hi
  rfl

/-- C187: The figure is not made in exactly three cases: ValueError if a sample has a negative size; otherwise IndexError without times;
otherwise ZeroDivisionError if there is a group of impacting variants but no variants at all. -/
theorem C187_errors {choose : Nat → List I → List I} (hc : Choosing choose) (c : Choice) (times : List Moment) (best : List P)
    (groups : List (String × List (Dot I P))) (impacts : List (Strike I)) (e : PyErr) :
    simulation choose c times best groups impacts = .error e ↔
      ((∃ g ∈ groups, ∃ f n, fractionOf c g.1 = some f ∧ Counts n (Member g.2) ∧ ⌈(n : ℚ) * f⌉ < 0) ∧ e = .valueError) ∨
      ((∀ g ∈ groups, ∀ f n, fractionOf c g.1 = some f → Counts n (Member g.2) → 0 ≤ ⌈(n : ℚ) * f⌉) ∧
        ((times = [] ∧ e = .indexError) ∨
          (times ≠ [] ∧ (∀ g ∈ groups, g.2 = []) ∧ (∃ g ∈ groups, g.1 ≠ "Non-Impacting") ∧ e = .zeroDivision))) := by
  have hzero : numVariants groups = 0 ↔ ∀ g ∈ groups, g.2 = [] := by
    unfold numVariants
    rw [List.sum_eq_zero_iff_forall_eq_nat]
    simp only [List.mem_map, forall_exists_index, and_imp, forall_apply_eq_imp_iff₂, List.length_eq_zero_iff]
    refine forall₂_congr fun g _ => ⟨fun h => ?_, fun h => by rw [h]; rfl⟩
    rw [List.eq_nil_iff_forall_not_mem]
    intro d hd
    have := (mem_ids g.2 d.id).mpr ⟨d, hd, rfl⟩
    rw [h] at this
    simp at this
  have hbody : ((groups.map Prod.fst).filter fun k => decide (k ≠ "Non-Impacting")) ≠ [] ↔ ∃ g ∈ groups, g.1 ≠ "Non-Impacting" := by
    rw [ne_eq, List.filter_eq_nil_iff]
    simp
  obtain ⟨s1, s2⟩ := sampled_spec hc c groups
  unfold simulation
  cases hs : sampled choose c groups with
  | error e' =>
    obtain ⟨rfl, g, hg, f, n, h1, h2, h3⟩ := s1 e' hs
    simp only [bind, Except.bind, Except.error.injEq]
    constructor
    · rintro rfl
      exact .inl ⟨⟨g, hg, f, n, h1, h2, h3⟩, rfl⟩
    · rintro (⟨-, rfl⟩ | ⟨h, -⟩)
      · rfl
      · have := h g hg f n h1 h2
        omega
  | ok shown =>
    obtain ⟨h, -⟩ := s2 shown hs
    simp only [bind, Except.bind]
    have hno : ¬ ∃ g ∈ groups, ∃ f n, fractionOf c g.1 = some f ∧ Counts n (Member g.2) ∧ ⌈(n : ℚ) * f⌉ < 0 := by
      rintro ⟨g, hg, f, n, h1, h2, h3⟩
      have := h g hg f n h1 h2
      omega
    by_cases ht : times = []
    · rw [if_pos ht]
      simp only [Except.error.injEq]
      constructor
      · rintro rfl
        exact .inr ⟨h, .inl ⟨ht, rfl⟩⟩
      · rintro (⟨h', -⟩ | ⟨-, ⟨-, rfl⟩ | ⟨h', -⟩⟩)
        · exact absurd h' hno
        · rfl
        · exact absurd ht h'
    · rw [if_neg ht]
      split
      · rename_i hz
        simp only [Except.error.injEq]
        constructor
        · rintro rfl
          exact .inr ⟨h, .inr ⟨ht, hzero.mp hz.1, hbody.mp hz.2, rfl⟩⟩
        · rintro (⟨h', -⟩ | ⟨-, ⟨h', -⟩ | ⟨-, -, -, rfl⟩⟩)
          · exact absurd h' hno
          · exact absurd h' ht
          · rfl
      · rename_i hz
        constructor
        · intro h'; simp at h'
        · rintro (⟨h', -⟩ | ⟨-, ⟨h', -⟩ | ⟨-, h1, h2, -⟩⟩)
          · exact absurd h' hno
          · exact absurd h' ht
          · exact absurd ⟨hzero.mpr h1, hbody.mpr h2⟩ hz

/-- C187: If the times do not go back, neither do the counts: of two frames, the later one has at least as many impacts on every body. -/
theorem C187_monotone {choose : Nat → List I → List I} {c : Choice} {times : List Moment} {best : List P}
    {groups : List (String × List (Dot I P))} {impacts : List (Strike I)} {frames : List (Frame P)}
    (h : simulation choose c times best groups impacts = .ok frames) (hs : times.Pairwise fun a b => a.mjd ≤ b.mjd) :
    frames.Pairwise fun f g => List.Forall₂ (fun y z => y.body = z.body ∧ y.hits ≤ z.hits ∧ y.total = z.total) f.tallies g.tallies := by
  obtain ⟨_, -, -, -, h3, -, -⟩ := frames_spec h
  rw [List.pairwise_iff_getElem]
  intro i j hi hj hij
  obtain ⟨t, ht, hf⟩ := h3 i frames[i] (by simp [hi])
  obtain ⟨u, hu, hg⟩ := h3 j frames[j] (by simp [hj])
  have htu : t.mjd ≤ u.mjd := by
    obtain ⟨a, rfl⟩ := List.getElem?_eq_some_iff.mp ht
    obtain ⟨b, rfl⟩ := List.getElem?_eq_some_iff.mp hu
    exact List.pairwise_iff_getElem.mp hs i j a b hij
  rw [hf, hg]
  simp only [frame, List.forall₂_map_left_iff, List.forall₂_map_right_iff]
  refine List.forall₂_same.mpr fun b _ => ⟨rfl, ?_, trivial⟩
  refine counts_le (hits_counts impacts t b) (hits_counts impacts u b) ?_
  rintro v ⟨s, h1, h2, h4, h5⟩
  exact ⟨s, h1, h2, h4, h5.trans htu⟩

/-- C187: If no variant has two impacts at different times, and the times reach the last impact, then the last frame counts all impacts. -/
theorem C187_complete {choose : Nat → List I → List I} {c : Choice} {times : List Moment} {best : List P}
    {groups : List (String × List (Dot I P))} {impacts : List (Strike I)} {frames : List (Frame P)}
    (h : simulation choose c times best groups impacts = .ok frames)
    (hone : ∀ s ∈ impacts, ∀ s' ∈ impacts, s.variant = s'.variant → s.time.mjd = s'.time.mjd)
    (hlast : ∀ t, times.getLast? = some t → ∀ s ∈ impacts, s.time.mjd ≤ t.mjd) :
    ∀ f, frames.getLast? = some f → ∀ y ∈ f.tallies, Counts y.hits fun v => ∃ s ∈ impacts, s.variant = v ∧ s.code = y.body := by
  intro f hf y hy
  obtain ⟨_, -, h0, -, h3, -, h5⟩ := frames_spec h
  rw [List.getLast?_eq_getElem?] at hf
  obtain ⟨t, ht, hft⟩ := h3 _ f hf
  have hmem : f ∈ frames := List.mem_of_getElem? hf
  have hall : ∀ s ∈ impacts, s.time.mjd ≤ t.mjd := by
    rcases h5 with h5 | ⟨t', h5, h6⟩
    · refine hlast t ?_
      rw [List.getLast?_eq_getElem?, ← h5, ht]
    · rw [ht, Option.some.injEq] at h5
      intro s hs
      obtain ⟨s', hs', e1, e2⟩ := h6.2 s hs
      rw [hone s hs s' hs' e1.symm, h5]
      exact e2
  refine (counts_congr fun v => ?_).mp ((C187_tallies h f hmem).2 y hy).1
  have hft' : f.time = t := by rw [hft]; rfl
  constructor
  · rintro ⟨s, h1, h2, h4, -⟩
    exact ⟨s, h1, h2, h4⟩
  · rintro ⟨s, h1, h2, h4⟩
    exact ⟨s, h1, h2, h4, hft' ▸ hall s h1⟩

theorem counts_sum {groups : List (String × List (Dot I P))}
    (hd : groups.Pairwise fun g g' => ∀ i, Member g.2 i → ¬ Member g'.2 i) :
    Counts (numVariants groups) fun i => ∃ g ∈ groups, Member g.2 i := by
  induction groups with
  | nil => exact ⟨[], List.nodup_nil, by simp, rfl⟩
  | cons g l ih =>
    rw [List.pairwise_cons] at hd
    obtain ⟨a, ha, ha', hal⟩ := ids_counts g.2
    obtain ⟨b, hb, hb', hbl⟩ := ih hd.2
    refine ⟨a ++ b, ?_, ?_, ?_⟩
    · rw [List.nodup_append]
      refine ⟨ha, hb, fun x hx y hy hxy => ?_⟩
      obtain ⟨g', hg', hm⟩ := (hb' y).mp hy
      exact hd.1 g' hg' x ((ha' x).mp hx) (hxy ▸ hm)
    · intro i
      simp [List.mem_append, ha', hb']
    · rw [List.length_append, hal, hbl]
      rfl

/-- C187: If no variant is in two groups, the total is the number of distinct variants; if moreover every variant that hits a body has
rows, no percentage is above 100. -/
theorem C187_total {choose : Nat → List I → List I} {c : Choice} {times : List Moment} {best : List P}
    {groups : List (String × List (Dot I P))} {impacts : List (Strike I)} {frames : List (Frame P)}
    (h : simulation choose c times best groups impacts = .ok frames)
    (hd : groups.Pairwise fun g g' => ∀ i, Member g.2 i → ¬ Member g'.2 i) :
    ∀ f ∈ frames, ∀ y ∈ f.tallies, Counts y.total (fun i => ∃ g ∈ groups, Member g.2 i) ∧
      ((∀ s ∈ impacts, ∃ i, s.variant = some i ∧ ∃ g ∈ groups, Member g.2 i) → y.percent ≤ 100) := by
  intro f hf y hy
  obtain ⟨h1, ⟨ns, h2, h2'⟩, h3, h4⟩ := (C187_tallies h f hf).2 y hy
  have ht : y.total = numVariants groups := by
    obtain ⟨_, -, -, -, h5, -, -⟩ := frames_spec h
    obtain ⟨i, hi⟩ := List.getElem?_of_mem hf
    obtain ⟨t, -, rfl⟩ := h5 i f hi
    simp only [frame, List.mem_map] at hy
    obtain ⟨b, hb, rfl⟩ := hy
    rfl
  have hc := counts_sum hd
  rw [← ht] at hc
  refine ⟨hc, fun hall => ?_⟩
  have hle : y.hits ≤ y.total := by
    obtain ⟨l, hl, hl', hll⟩ := hc
    have : Counts y.total fun v : Option I => ∃ i, v = some i ∧ ∃ g ∈ groups, Member g.2 i := by
      refine ⟨l.map some, hl.map (Option.some_injective _), fun v => ?_, by simpa using hll⟩
      simp only [List.mem_map, hl']
      constructor
      · rintro ⟨i, h, rfl⟩; exact ⟨i, rfl, h⟩
      · rintro ⟨i, rfl, h⟩; exact ⟨i, h, rfl⟩
    refine counts_le h1 this ?_
    rintro v ⟨s, hs, rfl, -⟩
    exact hall s hs
  have h3' : (0 : ℚ) < y.total := by exact_mod_cast h3
  have hle' : (y.hits : ℚ) ≤ y.total := by exact_mod_cast hle
  rw [h4, div_le_iff₀ h3']
  linarith

/-- C187: `show_impacting` does nothing, unless some group is called "Impacting". -/
theorem C187_impacting (choose : Nat → List I → List I) (c : Choice) (times : List Moment) (best : List P)
    {groups : List (String × List (Dot I P))} (impacts : List (Strike I)) (hg : ∀ g ∈ groups, g.1 ≠ "Impacting") (show₁ show₂ : Bool) :
    simulation choose { c with impacting := show₁ } times best groups impacts =
      simulation choose { c with impacting := show₂ } times best groups impacts := by
  unfold simulation
  have e : sampled choose { c with impacting := show₁ } groups = sampled choose { c with impacting := show₂ } groups := rfl
  rw [e]
  cases hs : sampled choose { c with impacting := show₂ } groups with
  | error e => rfl
  | ok shown =>
    have hk : ∀ g ∈ shown, g.1 ≠ "Impacting" := by
      clear e
      induction groups generalizing shown with
      | nil =>
        simp only [sampled, List.mapM_nil, pure, Except.pure, Except.ok.injEq] at hs
        rw [← hs]; simp
      | cons g l ih =>
        rw [sampled_cons] at hs
        cases h1 : sample choose (fractionOf { c with impacting := show₂ } g.1) g.2 with
        | error e => simp [h1, Except.bind] at hs
        | ok v =>
          cases h2 : sampled choose { c with impacting := show₂ } l with
          | error e => simp [h1, h2, Except.bind] at hs
          | ok w =>
            simp only [h1, h2, Except.bind, Except.ok.injEq] at hs
            rw [← hs]
            intro g' hg'
            rcases List.mem_cons.mp hg' with rfl | hg'
            · exact hg g (by simp)
            · exact ih (fun g hg' => hg g (List.mem_cons_of_mem _ hg')) w h2 g' hg'
    simp only [bind, Except.bind]
    have ef : ∀ total bodies, frame { c with impacting := show₁ } total bodies shown best impacts =
        frame { c with impacting := show₂ } total bodies shown best impacts := by
      intro total bodies
      funext i t
      unfold frame
      congr 2
      refine List.filter_congr fun g hg' => ?_
      simp [hidden, hk g hg']
    rw [ef]

/-! ## Examples and what does not hold -/

/-- Two variants: one hits the Earth at noon of day 1. -/
def exGroups : List (String × List (Dot Nat Nat)) :=
  [("Non-Impacting", [⟨1, ⟨0, 0⟩, 10⟩, ⟨1, ⟨1, 0⟩, 11⟩, ⟨1, ⟨2, 0⟩, 12⟩]),
    ("EARTH", [⟨2, ⟨0, 0⟩, 20⟩, ⟨2, ⟨1, 0⟩, 21⟩, ⟨2, ⟨2, 0⟩, 22⟩])]

/-- The times of the example. -/
def exTimes : List Moment := [⟨0, 0⟩, ⟨1, 0⟩, ⟨2, 0⟩, ⟨3, 0⟩]

/-- The impact of the example. -/
def exImpacts : List (Strike Nat) := [⟨some 2, "EARTH", ⟨1, 43200000000000⟩⟩]

omit [DecidableEq I] in
theorem choosing_take : Choosing (I := I) List.take := fun n l hl hn =>
  ⟨hl.sublist (List.take_sublist n l), fun _ ha => List.mem_of_mem_take ha, by simp [hn]⟩

/-- The frames of the example: the animation ends at day 2. -/
def exFrames : List (Frame Nat) :=
  [⟨⟨0, 0⟩, [⟨"Non-Impacting", [10]⟩, ⟨"EARTH", [20]⟩], some 5, [⟨"EARTH", 0, 2, 0⟩]⟩,
    ⟨⟨1, 0⟩, [⟨"Non-Impacting", [11]⟩, ⟨"EARTH", [21]⟩], some 6, [⟨"EARTH", 0, 2, 0⟩]⟩,
    ⟨⟨2, 0⟩, [⟨"Non-Impacting", [12]⟩, ⟨"EARTH", [22]⟩], some 7, [⟨"EARTH", 1, 2, 50⟩]⟩]

theorem ex_simulation : simulation List.take {} exTimes [5, 6, 7, 8] exGroups exImpacts = .ok exFrames := by decide +kernel

example : exTimes.Pairwise fun a b => a.mjd ≤ b.mjd := by decide +kernel

example : (∀ s ∈ exImpacts, ∀ s' ∈ exImpacts, s.variant = s'.variant → s.time.mjd = s'.time.mjd) ∧
    ∀ t, exTimes.getLast? = some t → ∀ s ∈ exImpacts, s.time.mjd ≤ t.mjd := by
  refine ⟨by decide +kernel, fun t ht => ?_⟩
  simp only [exTimes, List.getLast?_cons_cons, List.getLast?_singleton, Option.some.injEq] at ht
  subst ht
  decide +kernel

example : simulation List.take { sampleNonImpactors := some (-2) } exTimes [5] exGroups exImpacts = .error .valueError ∧
    simulation List.take {} [] [5] exGroups exImpacts = .error .indexError ∧
    simulation (I := Nat) (P := Nat) List.take {} exTimes [5] [("EARTH", [])] [] = .error .zeroDivision := by decide +kernel

/-- C187: Not true that `show_impacting=False` hides the impacting variants. -/
theorem C187_hide_false : ¬ ∀ (choose : Nat → List Nat → List Nat) (c : Choice) (times : List Moment) (best : List Nat)
    (groups : List (String × List (Dot Nat Nat))) (impacts : List (Strike Nat)) (frames : List (Frame Nat)), c.impacting = false →
    simulation choose c times best groups impacts = .ok frames → ∀ f ∈ frames, ∀ tr ∈ f.traces, tr.group = "Non-Impacting" := by
  intro h
  have e : simulation List.take { impacting := false } exTimes [5, 6, 7, 8] exGroups exImpacts = .ok exFrames := by decide +kernel
  exact absurd (h _ _ _ _ _ _ _ rfl e) (by decide +kernel)

/-- A variant that hits the Moon, and later the Earth. -/
def exTwice : List (Strike Nat) := [⟨some 2, "MOON", ⟨1, 0⟩⟩, ⟨some 2, "EARTH", ⟨2, 0⟩⟩]

/-- Its groups: the variant is in both. -/
def exTwiceGroups : List (String × List (Dot Nat Nat)) := [("MOON", [⟨2, ⟨1, 0⟩, 21⟩]), ("EARTH", [⟨2, ⟨1, 0⟩, 21⟩])]

/-- C187: Not true that the last frame counts all impacts, even if the times reach the last: the animation ends once every variant has hit
something. -/
theorem C187_complete_false : ¬ ∀ (choose : Nat → List Nat → List Nat) (c : Choice) (times : List Moment) (best : List Nat)
    (groups : List (String × List (Dot Nat Nat))) (impacts : List (Strike Nat)) (frames : List (Frame Nat)),
    simulation choose c times best groups impacts = .ok frames →
    (∀ t, times.getLast? = some t → ∀ s ∈ impacts, s.time.mjd ≤ t.mjd) →
    ∀ f, frames.getLast? = some f → ∀ y ∈ f.tallies, Counts y.hits fun v => ∃ s ∈ impacts, s.variant = v ∧ s.code = y.body := by
  intro h
  have e : simulation List.take {} exTimes [5, 6, 7, 8] exTwiceGroups exTwice = .ok
      [⟨⟨0, 0⟩, [⟨"MOON", []⟩, ⟨"EARTH", []⟩], some 5, [⟨"MOON", 0, 2, 0⟩, ⟨"EARTH", 0, 2, 0⟩]⟩,
        ⟨⟨1, 0⟩, [⟨"MOON", [21]⟩, ⟨"EARTH", [21]⟩], some 6, [⟨"MOON", 1, 2, 50⟩, ⟨"EARTH", 0, 2, 0⟩]⟩] := by decide +kernel
  obtain ⟨l, -, hl, hl0⟩ := h _ _ _ _ _ _ _ e
    (fun t ht => by
      simp only [exTimes, List.getLast?_cons_cons, List.getLast?_singleton, Option.some.injEq] at ht
      subst ht
      decide +kernel) _ rfl ⟨"EARTH", 0, 2, 0⟩ (by decide +kernel)
  rw [List.length_eq_zero_iff] at hl0
  have := (hl (some 2)).mpr ⟨⟨some 2, "EARTH", ⟨2, 0⟩⟩, by decide, rfl, rfl⟩
  rw [hl0] at this
  simp at this

/-- C187: Not true that the percentage is the share of the distinct variants: a variant that hits two bodies counts twice in the total, so
that 50% is shown when every variant has hit. -/
theorem C187_percent_false : ¬ ∀ (choose : Nat → List Nat → List Nat) (c : Choice) (times : List Moment) (best : List Nat)
    (groups : List (String × List (Dot Nat Nat))) (impacts : List (Strike Nat)) (frames : List (Frame Nat)),
    simulation choose c times best groups impacts = .ok frames →
    ∀ f ∈ frames, ∀ y ∈ f.tallies, ∀ n, Counts n (fun i => ∃ g ∈ groups, Member g.2 i) → y.percent = 100 * y.hits / n := by
  intro h
  have e : simulation List.take {} exTimes [5, 6, 7, 8] exTwiceGroups exTwice = .ok
      [⟨⟨0, 0⟩, [⟨"MOON", []⟩, ⟨"EARTH", []⟩], some 5, [⟨"MOON", 0, 2, 0⟩, ⟨"EARTH", 0, 2, 0⟩]⟩,
        ⟨⟨1, 0⟩, [⟨"MOON", [21]⟩, ⟨"EARTH", [21]⟩], some 6, [⟨"MOON", 1, 2, 50⟩, ⟨"EARTH", 0, 2, 0⟩]⟩] := by decide +kernel
  have := h _ _ _ _ _ _ _ e _ (List.mem_cons_of_mem _ (List.mem_singleton.mpr rfl)) ⟨"MOON", 1, 2, 50⟩ (by simp) 1
    ⟨[2], by simp, fun a => by simp [exTwiceGroups, Member, eq_comm], rfl⟩
  norm_num at this

/-- C187: Not true that a row within 100 microseconds of the time of the frame is shown: not across midnight. -/
theorem C187_midnight_false : ¬ ∀ (choose : Nat → List Nat → List Nat) (times : List Moment) (best : List Nat)
    (groups : List (String × List (Dot Nat Nat))) (impacts : List (Strike Nat)) (frames : List (Frame Nat)),
    simulation choose {} times best groups impacts = .ok frames →
    ∀ f ∈ frames, ∀ g ∈ groups, ∀ d ∈ g.2, |d.time.mjd - f.time.mjd| ≤ 100000 / 86400000000000 → ∃ tr ∈ f.traces, d.place ∈ tr.points := by
  intro h
  have e : simulation List.take {} [⟨1, 0⟩] [5] [("Non-Impacting", [⟨1, ⟨0, 86399999999999⟩, 10⟩])] ([] : List (Strike Nat)) = .ok
      [⟨⟨1, 0⟩, [⟨"Non-Impacting", []⟩], some 5, []⟩] := by decide +kernel
  obtain ⟨tr, htr, hp⟩ := h _ _ _ _ _ _ e _ (List.mem_singleton.mpr rfl) _ (List.mem_singleton.mpr rfl) _ (List.mem_singleton.mpr rfl)
    (by norm_num [Moment.mjd, abs_le])
  rw [List.mem_singleton.mp htr] at hp
  simp at hp

end Verif.Viz.SimProps
