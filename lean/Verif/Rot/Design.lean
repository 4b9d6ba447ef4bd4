import Verif.Rot.Model
import Verif.Sched.Orbits
import Mathlib.Data.Finset.Card
import Mathlib.Tactic.Ring
import Mathlib.Tactic.Linarith

/-! # Zero points of filters and sessions (photometry/rotation/core.py): C109 -/

namespace Verif.Rot

open Verif Sched

/-- An observation as the design sees it: the label of its filter, of its session and the phase angle. A missing filter or session has the
label `__missing_filter__` or `__missing_session__`. core.py:117-125, 173-179, 181-197. -/
structure Lab where
  filter : String
  session : String
  alpha : ℝ

/-- The labels of a row of the table, whose filter and session may be missing. core.py:117-125, 173-179, 242-245. -/
def Lab.of (filter session : Option String) (alpha : ℝ) : Lab :=
  ⟨filter.getD "__missing_filter__", session.getD "__missing_session__", alpha⟩

/-- The columns for zero points: of ones, of a filter, of a session of a filter. Used for core.py:235-254. -/
inductive Col
  | one
  | filt (f : String)
  | group (f s : String)
  deriving DecidableEq

/-- The sessions of a filter, in order of appearance. core.py:247-248. -/
def sessionsOf (obs : List Lab) (f : String) : List String := uniq ((obs.filter fun o => o.filter == f).map Lab.session)

/-- The filters, in order of appearance. core.py:235. -/
def filtersOf (obs : List Lab) : List String := uniq (obs.map Lab.filter)

/-- The columns for zero points of `_build_fixed_design`; `use` is false if `session_labels` is None. core.py:235-254. -/
def columns (use : Bool) (obs : List Lab) : List Col :=
  Col.one :: (filtersOf obs).tail.map Col.filt ++
    if use then (filtersOf obs).flatMap fun f => (sessionsOf obs f).tail.map (Col.group f) else []

/-- The entry of an observation in a column. core.py:237-254. -/
def entry : Col → Lab → ℝ
  | .one, _ => 1
  | .filt f, o => if o.filter = f then 1 else 0
  | .group f s, o => if o.filter = f ∧ o.session = s then 1 else 0

/-- A row of the zero points. core.py:237-254. -/
def zeroRow (use : Bool) (obs : List Lab) (o : Lab) : List ℝ := (columns use obs).map fun k => entry k o

/-- `_build_fixed_design`. core.py:230-265. -/
def fixedDesign (use : Bool) (obs : List Lab) : List (List ℝ) := obs.map fun o => zeroRow use obs o ++ [o.alpha, o.alpha ^ 2]

/-- The group of an observation: filter and session, or the filter if sessions are not used. -/
def groupOf (use : Bool) (o : Lab) : String × Option String := (o.filter, if use then some o.session else none)

end Verif.Rot

namespace Verif.Rot.Props

open Verif Sched

theorem mem_sessionsOf {obs : List Lab} {f s : String} : s ∈ sessionsOf obs f ↔ ∃ o ∈ obs, o.filter = f ∧ o.session = s := by
  unfold sessionsOf
  rw [mem_uniq, List.mem_map]
  constructor
  · rintro ⟨o, ho, rfl⟩
    obtain ⟨h1, h2⟩ := List.mem_filter.1 ho
    exact ⟨o, h1, by simpa using h2, rfl⟩
  · rintro ⟨o, ho, h1, rfl⟩
    exact ⟨o, List.mem_filter.2 ⟨ho, by simpa using h1⟩, rfl⟩

theorem mem_filtersOf {obs : List Lab} {f : String} : f ∈ filtersOf obs ↔ ∃ o ∈ obs, o.filter = f := by
  unfold filtersOf
  rw [mem_uniq, List.mem_map]

/-- The first of some labels. -/
def first (l : List String) : String := l.headD ""

theorem mem_of_headD {l : List String} (h : l ≠ []) : first l ∈ l := by
  cases l with
  | nil => exact absurd rfl h
  | cons a l => simp [first]

theorem mem_tail_iff {l : List String} (hn : l.Nodup) {a : String} : a ∈ l.tail ↔ a ∈ l ∧ a ≠ first l := by
  cases l with
  | nil => simp
  | cons b l =>
    rw [List.nodup_cons] at hn
    simp only [List.tail_cons, first, List.headD_cons, List.mem_cons]
    constructor
    · intro h
      exact ⟨Or.inr h, fun e => hn.1 (e ▸ h)⟩
    · rintro ⟨rfl | h, h2⟩
      · exact absurd rfl h2
      · exact h

/-- The representative group of a column. -/
def rep (use : Bool) (obs : List Lab) : Col → String × Option String
  | .one => (first (filtersOf obs), if use then some (first (sessionsOf obs (first (filtersOf obs)))) else none)
  | .filt f => (f, if use then some (first (sessionsOf obs f)) else none)
  | .group f s => (f, some s)

theorem mem_columns {use : Bool} {obs : List Lab} {k : Col} : k ∈ columns use obs ↔
    match k with
    | .one => True
    | .filt f => f ∈ filtersOf obs ∧ f ≠ first (filtersOf obs)
    | .group f s => use = true ∧ f ∈ filtersOf obs ∧ s ∈ sessionsOf obs f ∧ s ≠ first (sessionsOf obs f) := by
  unfold columns
  have h1 : (filtersOf obs).Nodup := nodup_uniq _
  have h2 : ∀ f, (sessionsOf obs f).Nodup := fun f => nodup_uniq _
  cases k with
  | one => simp
  | filt f => cases use <;> simp [-List.map_tail, ← mem_tail_iff h1]
  | group f s => cases use <;> simp [-List.map_tail, ← mem_tail_iff (h2 f)]

theorem nodup_columns (use : Bool) (obs : List Lab) : (columns use obs).Nodup := by
  unfold columns
  have h1 : (filtersOf obs).Nodup := nodup_uniq _
  have h2 : ∀ f, (sessionsOf obs f).Nodup := fun f => nodup_uniq _
  have h3 : ((filtersOf obs).tail.map Col.filt).Nodup := List.Nodup.map (fun a b h => by injection h) h1.tail
  cases use with
  | false => simpa [-List.map_tail] using h3
  | true =>
    simp only [if_true, List.cons_append, List.nodup_cons, List.mem_append, List.mem_map, reduceCtorEq, and_false, exists_false, List.mem_flatMap, or_self,
      not_false_eq_true, true_and]
    rw [List.nodup_append]
    refine ⟨h3, ?_, ?_⟩
    · rw [List.nodup_flatMap]
      refine ⟨fun f _ => List.Nodup.map (fun a b h => by injection h) (h2 f).tail, ?_⟩
      refine h1.imp fun {a b} hab => ?_
      intro k hk hk'
      obtain ⟨s, -, rfl⟩ := List.mem_map.1 hk
      obtain ⟨s', -, h⟩ := List.mem_map.1 hk'
      injection h with h _
      exact hab h.symm
    · intro a ha b hb
      obtain ⟨f, -, rfl⟩ := List.mem_map.1 ha
      obtain ⟨f', -, hb⟩ := List.mem_flatMap.1 hb
      obtain ⟨s, -, rfl⟩ := List.mem_map.1 hb
      simp

theorem filters_ne {obs : List Lab} (h : obs ≠ []) : filtersOf obs ≠ [] := by
  obtain ⟨o, ho⟩ := List.exists_mem_of_ne_nil obs h
  exact List.ne_nil_of_mem (mem_filtersOf.2 ⟨o, ho, rfl⟩)

theorem sessions_ne {obs : List Lab} {f : String} (h : f ∈ filtersOf obs) : sessionsOf obs f ≠ [] := by
  obtain ⟨o, ho, hf⟩ := mem_filtersOf.1 h
  exact List.ne_nil_of_mem (mem_sessionsOf.2 ⟨o, ho, hf, rfl⟩)

theorem rep_inj {use : Bool} {obs : List Lab} : ∀ a ∈ columns use obs, ∀ b ∈ columns use obs, rep use obs a = rep use obs b → a = b := by
  intro a ha b hb h
  rw [mem_columns] at ha hb
  cases a <;> cases b <;> simp only [rep, Prod.mk.injEq] at ha hb h ⊢ <;> grind

theorem rep_range {use : Bool} {obs : List Lab} (hne : obs ≠ []) (g : String × Option String) :
    g ∈ (columns use obs).map (rep use obs) ↔ g ∈ obs.map (groupOf use) := by
  constructor
  · intro h
    obtain ⟨k, hk, rfl⟩ := List.mem_map.1 h
    rw [mem_columns] at hk
    have hfirst : ∀ f ∈ filtersOf obs, (f, if use then some (first (sessionsOf obs f)) else none) ∈ obs.map (groupOf use) := by
      intro f hf
      obtain ⟨o, ho, h1, h2⟩ := mem_sessionsOf.1 (mem_of_headD (sessions_ne hf))
      exact List.mem_map.2 ⟨o, ho, by simp [groupOf, h1, h2]⟩
    cases k with
    | one => exact hfirst _ (mem_of_headD (filters_ne hne))
    | filt f => exact hfirst f hk.1
    | group f s =>
      obtain ⟨o, ho, h1, h2⟩ := mem_sessionsOf.1 hk.2.2.1
      exact List.mem_map.2 ⟨o, ho, by simp [groupOf, h1, h2, rep, hk.1]⟩
  · intro h
    obtain ⟨o, ho, rfl⟩ := List.mem_map.1 h
    have hf : o.filter ∈ filtersOf obs := mem_filtersOf.2 ⟨o, ho, rfl⟩
    have hs : o.session ∈ sessionsOf obs o.filter := mem_sessionsOf.2 ⟨o, ho, rfl, rfl⟩
    rw [List.mem_map]
    by_cases h1 : use = true ∧ o.session ≠ first (sessionsOf obs o.filter)
    · exact ⟨.group o.filter o.session, mem_columns.2 ⟨h1.1, hf, hs, h1.2⟩, by simp [rep, groupOf, h1.1]⟩
    · have h2 : groupOf use o = (o.filter, if use then some (first (sessionsOf obs o.filter)) else none) := by
        unfold groupOf
        cases use with
        | false => rfl
        | true =>
          have : o.session = first (sessionsOf obs o.filter) := by
            by_contra h
            exact h1 ⟨rfl, h⟩
          simp [← this]
      by_cases h3 : o.filter = first (filtersOf obs)
      · exact ⟨.one, mem_columns.2 trivial, by rw [h2, rep, h3]⟩
      · exact ⟨.filt o.filter, mem_columns.2 ⟨hf, h3⟩, by rw [h2, rep]⟩

/-- C109: the fixed part of the design has a column for every group of observations and two for the phase angle. -/
theorem C109_columns {use : Bool} {obs : List Lab} (hne : obs ≠ []) :
    ∀ row ∈ fixedDesign use obs, row.length = (obs.map (groupOf use)).toFinset.card + 2 := by
  intro row hrow
  obtain ⟨o, -, rfl⟩ := List.mem_map.1 hrow
  have h1 : ((columns use obs).map (rep use obs)).Nodup := List.Nodup.map_on rep_inj (nodup_columns use obs)
  have h2 : (obs.map (groupOf use)).toFinset = ((columns use obs).map (rep use obs)).toFinset := by
    ext g
    rw [List.mem_toFinset, List.mem_toFinset]
    exact (rep_range hne g).symm
  rw [h2, List.toFinset_card_of_nodup h1]
  simp [zeroRow]

theorem sum_ite_mem {α : Type} [DecidableEq α] {l : List α} (hn : l.Nodup) (a : α) (x : α → ℝ) :
    (l.map fun k => if k = a then x k else 0).sum = if a ∈ l then x a else 0 := by
  induction l with
  | nil => simp
  | cons b l ih =>
    rw [List.nodup_cons] at hn
    rw [List.map_cons, List.sum_cons, ih hn.2]
    by_cases h : b = a
    · subst h
      simp [hn.1]
    · simp [h, Ne.symm h]

/-- The three columns in which an observation may have an entry. -/
theorem zeroRow_dot {use : Bool} {obs : List Lab} {o : Lab} (γ : Col → ℝ) :
    dot (zeroRow use obs o) ((columns use obs).map γ) = γ .one + (if Col.filt o.filter ∈ columns use obs then γ (.filt o.filter) else 0) +
      (if Col.group o.filter o.session ∈ columns use obs then γ (.group o.filter o.session) else 0) := by
  have hn := nodup_columns use obs
  have h1 : dot (zeroRow use obs o) ((columns use obs).map γ) = ((columns use obs).map fun k => entry k o * γ k).sum := by
    unfold dot zeroRow
    rw [List.zipWith_map, List.zipWith_self]
  have h2 : ((columns use obs).map fun k => entry k o * γ k) = (columns use obs).map fun k => ((if k = .one then γ k else 0) +
      (if k = .filt o.filter then γ k else 0)) + if k = .group o.filter o.session then γ k else 0 := by
    refine List.map_congr_left fun k _ => ?_
    cases k with
    | one => simp [entry]
    | filt f =>
      by_cases h : o.filter = f
      · simp [entry, h]
      · simp [entry, h, Ne.symm h]
    | group f s =>
      by_cases h : o.filter = f ∧ o.session = s
      · obtain ⟨rfl, rfl⟩ := h
        simp [entry]
      · have : ¬ (f = o.filter ∧ s = o.session) := fun e => h ⟨e.1.symm, e.2.symm⟩
        simp [entry, h, this]
  rw [h1, h2, List.sum_map_add, List.sum_map_add, sum_ite_mem hn, sum_ite_mem hn, sum_ite_mem hn, if_pos (mem_columns.2 trivial)]

theorem exists_coeff {l : List Col} : ∀ c : List ℝ, l.Nodup → c.length = l.length → ∃ γ : Col → ℝ, c = l.map γ := by
  induction l with
  | nil => intro c _ h; exact ⟨fun _ => 0, by simpa using h⟩
  | cons k l ih =>
    intro c hn h
    cases c with
    | nil => simp at h
    | cons x c =>
      rw [List.nodup_cons] at hn
      obtain ⟨γ, rfl⟩ := ih c hn.2 (by simpa using h)
      refine ⟨fun a => if a = k then x else γ a, ?_⟩
      rw [List.map_cons, if_pos rfl]
      congr 1
      refine List.map_congr_left fun a ha => ?_
      rw [if_neg]
      rintro rfl
      exact hn.1 ha

theorem zeroRow_first {use : Bool} {obs : List Lab} {o : Lab} (ho : o ∈ obs) (γ : Col → ℝ) :
    dot (zeroRow use obs o) ((columns use obs).map γ) = γ .one + (if o.filter ≠ first (filtersOf obs) then γ (.filt o.filter) else 0) +
      (if use = true ∧ o.session ≠ first (sessionsOf obs o.filter) then γ (.group o.filter o.session) else 0) := by
  have hf : o.filter ∈ filtersOf obs := mem_filtersOf.2 ⟨o, ho, rfl⟩
  have hs : o.session ∈ sessionsOf obs o.filter := mem_sessionsOf.2 ⟨o, ho, rfl, rfl⟩
  rw [zeroRow_dot]
  simp only [mem_columns, hf, hs, true_and]

/-- C109: the columns for zero points parametrise the zero points of the groups: for any magnitudes of the groups there is exactly one choice
of coefficients that gives them, so a fit with this design is a fit with one free zero point for each group. -/
theorem C109_zero_points {use : Bool} {obs : List Lab} (hne : obs ≠ []) (g : String × Option String → ℝ) :
    ∃! c : List ℝ, c.length = (columns use obs).length ∧ ∀ o ∈ obs, dot (zeroRow use obs o) c = g (groupOf use o) := by
  have hno : use = false → ∀ f s s' : String, g (f, if use then some s else none) = g (f, if use then some s' else none) := by
    rintro rfl f s s'
    rfl
  refine ⟨(columns use obs).map fun k => match k with
    | .one => g (first (filtersOf obs), if use then some (first (sessionsOf obs (first (filtersOf obs)))) else none)
    | .filt f => g (f, if use then some (first (sessionsOf obs f)) else none) -
        g (first (filtersOf obs), if use then some (first (sessionsOf obs (first (filtersOf obs)))) else none)
    | .group f s => g (f, if use then some s else none) - g (f, if use then some (first (sessionsOf obs f)) else none), ⟨by simp, fun o ho => ?_⟩, ?_⟩
  · rw [zeroRow_first ho]
    simp only [groupOf]
    have key : g (o.filter, if use then some o.session else none) = g (o.filter, if use then some (first (sessionsOf obs o.filter)) else none) +
        (if use = true ∧ o.session ≠ first (sessionsOf obs o.filter) then g (o.filter, if use then some o.session else none) -
          g (o.filter, if use then some (first (sessionsOf obs o.filter)) else none) else 0) := by
      split_ifs with h1 h2 h2
      · ring
      · have : o.session = first (sessionsOf obs o.filter) := by
          by_contra h
          exact h2 ⟨h1, h⟩
        rw [← this, add_zero]
      · exact absurd h2.1 h1
      · rw [add_zero]
    have key2 : g (o.filter, if use then some (first (sessionsOf obs o.filter)) else none) =
        g (first (filtersOf obs), if use then some (first (sessionsOf obs (first (filtersOf obs)))) else none) +
        (if o.filter ≠ first (filtersOf obs) then g (o.filter, if use then some (first (sessionsOf obs o.filter)) else none) -
          g (first (filtersOf obs), if use then some (first (sessionsOf obs (first (filtersOf obs)))) else none) else 0) := by
      by_cases h : o.filter = first (filtersOf obs)
      · rw [if_neg (not_not.2 h), add_zero, h]
      · rw [if_pos h]; ring
    linarith
  · rintro c ⟨hc, hg⟩
    obtain ⟨γ, rfl⟩ := exists_coeff c (nodup_columns use obs) hc
    have hg' : ∀ o ∈ obs, γ .one + (if o.filter ≠ first (filtersOf obs) then γ (.filt o.filter) else 0) +
      (if use = true ∧ o.session ≠ first (sessionsOf obs o.filter) then γ (.group o.filter o.session) else 0) = g (groupOf use o) :=
      fun o ho => by rw [← zeroRow_first ho, hg o ho]
    -- an observation of the first session of a filter
    have hfirst : ∀ f ∈ filtersOf obs, γ .one + (if f ≠ first (filtersOf obs) then γ (.filt f) else 0) =
        g (f, if use then some (first (sessionsOf obs f)) else none) := by
      intro f hf
      obtain ⟨o, ho, h1, h2⟩ := mem_sessionsOf.1 (mem_of_headD (sessions_ne hf))
      have := hg' o ho
      rw [h1, h2, if_neg (fun h : use = true ∧ first (sessionsOf obs f) ≠ first (sessionsOf obs f) => h.2 rfl), add_zero, groupOf, h1, h2] at this
      exact this
    have h0 : γ .one = g (first (filtersOf obs), if use then some (first (sessionsOf obs (first (filtersOf obs)))) else none) := by
      have := hfirst _ (mem_of_headD (filters_ne hne))
      rwa [if_neg (by simp), add_zero] at this
    refine List.map_congr_left fun k hk => ?_
    rw [mem_columns] at hk
    cases k with
    | one => exact h0
    | filt f =>
      have := hfirst f hk.1
      rw [if_pos hk.2] at this
      simp only
      linarith
    | group f s =>
      obtain ⟨hu, hf, hs, hs'⟩ := hk
      obtain ⟨o, ho, h1, h2⟩ := mem_sessionsOf.1 hs
      have h3 := hg' o ho
      rw [h1, h2, if_pos (⟨hu, hs'⟩ : use = true ∧ s ≠ first (sessionsOf obs f)), groupOf, h1, h2] at h3
      have h4 := hfirst f hf
      simp only
      linarith

/-- Two filters and, in the first, two sessions. -/
def labs : List Lab := [⟨"g", "a", 5⟩, ⟨"r", "a", 6⟩, ⟨"g", "b", 7⟩, ⟨"g", "a", 8⟩]

example : columns true labs = [.one, .filt "r", .group "g" "b"] := by decide +kernel

example : columns false labs = [.one, .filt "r"] := by decide +kernel

/-- C109: the design holds every model of a zero point per group, a linear and a quadratic term in the phase angle; the last two coefficients are
those of the phase angle and of its square, in this order. -/
theorem C109_model {use : Bool} {obs : List Lab} (hne : obs ≠ []) (g : String × Option String → ℝ) (c1 c2 : ℝ) :
    ∃ c : List ℝ, (∀ row ∈ fixedDesign use obs, (c ++ [c1, c2]).length = row.length) ∧
      (fixedDesign use obs).map (fun row => dot row (c ++ [c1, c2])) = obs.map fun o => g (groupOf use o) + c1 * o.alpha + c2 * o.alpha ^ 2 := by
  obtain ⟨c, ⟨h1, h2⟩, -⟩ := C109_zero_points (use := use) hne g
  refine ⟨c, ?_, ?_⟩
  · intro row hrow
    obtain ⟨o, -, rfl⟩ := List.mem_map.1 hrow
    simp [zeroRow, h1]
  · unfold fixedDesign
    rw [List.map_map]
    refine List.map_congr_left fun o ho => ?_
    rw [← h2 o ho]
    simp only [Function.comp_apply, dot]
    rw [List.zipWith_append (by simp [zeroRow, h1]), List.sum_append]
    simp
    ring

/-- C109: rows with different filters or sessions are in different groups, apart from the two names that stand for missing ones. -/
theorem C109_groups {f f' s s' : Option String} {a a' : ℝ} (hf : f ≠ some "__missing_filter__" ∧ f' ≠ some "__missing_filter__")
    (hs : s ≠ some "__missing_session__" ∧ s' ≠ some "__missing_session__") :
    (groupOf true (Lab.of f s a) = groupOf true (Lab.of f' s' a') ↔ f = f' ∧ s = s') ∧
    (groupOf false (Lab.of f s a) = groupOf false (Lab.of f' s' a') ↔ f = f') := by
  have key : ∀ {m : String} {x y : Option String}, x ≠ some m → y ≠ some m → (x.getD m = y.getD m ↔ x = y) := by
    intro m x y hx hy
    cases x <;> cases y <;> simp_all
    · exact Ne.symm hy
  simp [groupOf, Lab.of, key hf.1 hf.2, key hs.1 hs.2]

/-- C109: a missing filter is not a filter of its own if some other observation has the name that stands for it. -/
theorem C109_missing_false (s : Option String) (a : ℝ) : (none : Option String) ≠ some "__missing_filter__" ∧
    groupOf true (Lab.of none s a) = groupOf true (Lab.of (some "__missing_filter__") s a) := ⟨by simp, rfl⟩

end Verif.Rot.Props
