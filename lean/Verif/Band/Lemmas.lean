import Verif.Band.Spec
import Verif.Sched.Lemmas
import Mathlib.Tactic.Ring
import Mathlib.Tactic.FieldSimp
import Mathlib.Tactic.Linarith
import Mathlib.Algebra.Order.Ring.Basic

/-! # Lemmas on integrals, caches and tables -/

set_option linter.unusedSectionVars false

namespace Verif.Band

open Verif Sched Spec

variable {K : Type} [Field K] [LinearOrder K] [IsStrictOrderedRing K]

/-! ### linearity -/

theorem interpFrom_mixed (c w x : K) : ∀ (p q : K × K) (a b : Curve K), p.1 = q.1 → a.map Prod.fst = b.map Prod.fst →
    interpFrom (p.1, c * p.2 + w * q.2) (mixed c w a b) x = c * interpFrom p a x + w * interpFrom q b x
  | p, q, [], [], hp, _ => by
    simp only [mixed, List.zipWith_nil_left, interpFrom]
    rw [← hp]
    split <;> ring
  | p, q, [], _ :: _, _, h => by cases h
  | p, q, _ :: _, [], _, h => by cases h
  | p, q, p' :: a, q' :: b, hp, h => by
    simp only [List.map_cons, List.cons.injEq] at h
    have ih := interpFrom_mixed c w x p' q' a b h.1 h.2
    have e : mixed c w (p' :: a) (q' :: b) = (p'.1, c * p'.2 + w * q'.2) :: mixed c w a b := rfl
    rw [e]
    simp only [interpFrom]
    rw [← h.1, ← hp]
    split
    · ring
    · exact ih

theorem interp_mixed (c w x : K) {a b : Curve K} (h : a.map Prod.fst = b.map Prod.fst) :
    interp (mixed c w a b) x = c * interp a x + w * interp b x := by
  match a, b, h with
  | [], [], _ => simp [mixed, interp]
  | p :: a, q :: b, h =>
    simp only [List.map_cons, List.cons.injEq] at h
    have e : mixed c w (p :: a) (q :: b) = (p.1, c * p.2 + w * q.2) :: mixed c w a b := rfl
    rw [e]
    simp only [interp]
    rw [← h.1]
    split
    · ring
    · exact interpFrom_mixed c w x p q a b h.1 h.2

theorem mixed_fst (c w : K) : ∀ {a b : Curve K}, a.map Prod.fst = b.map Prod.fst →
    (mixed c w a b).map Prod.fst = a.map Prod.fst
  | [], [], _ => rfl
  | p :: a, q :: b, h => by
    simp only [List.map_cons, List.cons.injEq] at h
    have e : mixed c w (p :: a) (q :: b) = (p.1, c * p.2 + w * q.2) :: mixed c w a b := rfl
    rw [e, List.map_cons, mixed_fst c w h.2, List.map_cons]

theorem lo_fst {a b : Curve K} (h : a.map Prod.fst = b.map Prod.fst) : lo a = lo b := by
  have key : ∀ l : Curve K, lo l = match l.map Prod.fst with | [] => 0 | x :: xs => xs.foldl min x := by
    intro l
    cases l with
    | nil => rfl
    | cons p l => simp only [lo, List.map_cons, List.foldl_map]
  rw [key, key, h]

theorem hi_fst {a b : Curve K} (h : a.map Prod.fst = b.map Prod.fst) : hi a = hi b := by
  have key : ∀ l : Curve K, hi l = match l.map Prod.fst with | [] => 0 | x :: xs => xs.foldl max x := by
    intro l
    cases l with
    | nil => rfl
    | cons p l => simp only [hi, List.map_cons, List.foldl_map]
  rw [key, key, h]

theorem trapezoid_mixed (c w : K) {A : Type} (x f g : A → K) : ∀ l : List A,
    trapezoid (l.map fun p => (x p, c * f p + w * g p))
      = c * trapezoid (l.map fun p => (x p, f p)) + w * trapezoid (l.map fun p => (x p, g p))
  | [] => by simp [trapezoid]
  | [p] => by simp [trapezoid]
  | p :: q :: l => by
    have ih := trapezoid_mixed c w x f g (q :: l)
    simp only [List.map_cons, trapezoid] at ih ⊢
    rw [ih]
    ring

theorem photon_mixed (sun filter : Curve K) (c w : K) {a b : Curve K} (h : a.map Prod.fst = b.map Prod.fst) :
    photon sun filter (mixed c w a b) = match photon sun filter a, photon sun filter b with
      | some x, some y => some (c * x + w * y)
      | _, _ => none := by
  unfold photon
  rw [lo_fst (mixed_fst c w h), hi_fst (mixed_fst c w h), ← lo_fst h, ← hi_fst h]
  by_cases h1 : min (min (hi sun) (hi filter)) (hi a) ≤ max (max (lo sun) (lo filter)) (lo a)
  · simp only [if_pos h1]
  · simp only [if_neg h1]
    by_cases h2 : (within sun (max (max (lo sun) (lo filter)) (lo a)) (min (min (hi sun) (hi filter)) (hi a))).length < 2
    · simp only [if_pos h2]
    · simp only [if_neg h2]
      congr 1
      rw [← trapezoid_mixed]
      congr 1
      apply List.map_congr_left
      intro p _
      rw [interp_mixed c w p.1 h]
      congr 1
      ring

/-! ### grey templates -/

theorem le_foldl_max (l : List K) : ∀ m x : K, x ≤ l.foldl max m ↔ x ≤ m ∨ ∃ y ∈ l, x ≤ y := by
  induction l with
  | nil => simp
  | cons a l ih => intro m x; simp only [List.foldl_cons, ih, le_max_iff, List.mem_cons, exists_eq_or_imp]; tauto

theorem interpFrom_const (k x : K) : ∀ (p : K × K) (l : Curve K), p.2 = k → (∀ q ∈ l, q.2 = k) →
    (p :: l).Pairwise (fun a b => a.1 < b.1) → (x ≤ p.1 ∨ ∃ q ∈ l, x ≤ q.1) → interpFrom p l x = k
  | p, [], hp, _, _, h => by
    simp only [interpFrom]
    rw [if_neg, hp]
    simpa using h
  | p, q :: l, hp, hl, hs, h => by
    simp only [interpFrom]
    split
    · rw [hp, hl q (by simp)]; ring
    · rename_i hx
      refine interpFrom_const k x q l (hl q (by simp)) (fun r hr => hl r (List.mem_cons_of_mem _ hr))
        (List.pairwise_cons.mp hs).2 ?_
      rcases h with h | ⟨r, hr, h⟩
      · exact .inl (h.trans ((List.pairwise_cons.mp hs).1 q (by simp)).le)
      · rcases List.mem_cons.mp hr with rfl | hr
        · exact .inl h
        · exact .inr ⟨r, hr, h⟩

theorem foldl_min_le (l : Curve K) : ∀ m : K, l.foldl (fun m q => min m q.1) m ≤ m := by
  induction l with
  | nil => intro m; exact le_rfl
  | cons a l ih => intro m; exact (ih _).trans (min_le_left _ _)

theorem foldl_min_sorted : ∀ (p : K × K) (l : Curve K), (p :: l).Pairwise (fun a b => a.1 < b.1) →
    l.foldl (fun m q => min m q.1) p.1 = p.1 := by
  intro p l h
  have h1 := (List.pairwise_cons.mp h).1
  clear h
  generalize p.1 = m at h1
  induction l with
  | nil => rfl
  | cons a l ih =>
    rw [List.foldl_cons, min_eq_left (h1 a (by simp)).le]
    exact ih fun q hq => h1 q (List.mem_cons_of_mem _ hq)

theorem le_foldl_max' (l : Curve K) : ∀ m x : K, x ≤ l.foldl (fun m q => max m q.1) m → x ≤ m ∨ ∃ q ∈ l, x ≤ q.1 := by
  induction l with
  | nil => intro m x h; exact .inl h
  | cons a l ih =>
    intro m x h
    rcases ih _ _ h with h | ⟨q, hq, h⟩
    · rcases le_max_iff.mp h with h | h
      · exact .inl h
      · exact .inr ⟨a, by simp, h⟩
    · exact .inr ⟨q, List.mem_cons_of_mem _ hq, h⟩

/-- A constant curve is constant over its range. -/
theorem interp_const {k x : K} {t : Curve K} (hne : t ≠ []) (hk : ∀ q ∈ t, q.2 = k)
    (hs : t.Pairwise fun a b => a.1 < b.1) (h1 : lo t ≤ x) (h2 : x ≤ hi t) : interp t x = k := by
  match t, hne with
  | p :: l, _ =>
    simp only [lo, hi] at h1 h2
    rw [foldl_min_sorted p l hs] at h1
    simp only [interp]
    rw [if_neg (not_lt.mpr h1)]
    exact interpFrom_const k x p l (hk p (by simp)) (fun q hq => hk q (List.mem_cons_of_mem _ hq)) hs
      (le_foldl_max' l _ _ h2)

/-- The photon integral of a grey template that covers the filter is the norm of the filter times the grey level. -/
theorem photon_grey (sun filter : Curve K) {k : K} {t : Curve K} (hne : t ≠ []) (hk : ∀ q ∈ t, q.2 = k)
    (hs : t.Pairwise fun a b => a.1 < b.1) (h1 : lo t ≤ max (lo sun) (lo filter)) (h2 : min (hi sun) (hi filter) ≤ hi t)
    (hf : 2 ≤ filter.length) : photon sun filter t = (solarNorm sun filter).map (k * ·) := by
  unfold photon solarNorm
  have hf' : ¬ filter.length < 2 := by omega
  rw [max_eq_left h1, min_eq_left h2]
  simp only [if_neg hf']
  by_cases h3 : min (hi sun) (hi filter) ≤ max (lo sun) (lo filter)
  · simp only [if_pos h3]; rfl
  · simp only [if_neg h3]
    by_cases h4 : (within sun (max (lo sun) (lo filter)) (min (hi sun) (hi filter))).length < 2
    · simp only [if_pos h4]; rfl
    · simp only [if_neg h4, Option.map_some]
      congr 1
      have := trapezoid_mixed k 0 (fun p : K × K => p.1) (fun p => p.2 * interp filter p.1 * p.1) (fun _ => 0)
        (within sun (max (lo sun) (lo filter)) (min (hi sun) (hi filter)))
      simp only [zero_mul, add_zero] at this
      rw [← this]
      congr 1
      apply List.map_congr_left
      intro p hp
      have hp' := (List.mem_filter.mp hp).2
      simp only [Bool.and_eq_true, decide_eq_true_eq] at hp'
      rw [interp_const hne hk hs (h1.trans hp'.1) (hp'.2.trans h2)]
      congr 1
      ring

/-! ### registration -/

theorem zip_tail_pairwise {A : Type} (r : A → A → Prop) [∀ a b, Decidable (r a b)] (htr : ∀ a b c, r a b → r b c → r a c) :
    ∀ l : List A, (∀ p ∈ l.zip l.tail, r p.1 p.2) ↔ l.Pairwise r
  | [] => by simp
  | [a] => by simp
  | a :: b :: l => by
    have ih := zip_tail_pairwise r htr (b :: l)
    constructor
    · intro h
      have hb := ih.mp fun p hp => h p (by simpa using Or.inr (by simpa using hp))
      refine List.pairwise_cons.mpr ⟨?_, hb⟩
      have hab : r a b := h (a, b) (by simp)
      intro c hc
      rcases List.mem_cons.mp hc with rfl | hc
      · exact hab
      · exact htr _ _ _ hab ((List.pairwise_cons.mp hb).1 c hc)
    · intro h p hp
      have h' := List.pairwise_cons.mp h
      simp only [List.tail_cons, List.zip_cons_cons, List.mem_cons] at hp
      rcases hp with rfl | hp
      · exact h'.1 b (by simp)
      · exact ih.mpr h'.2 p hp

/-! ### caches -/

/-- The cached integrals are those of the templates registered now. -/
def Coherent {C : Type} (d : Data K) (s : State K C) : Prop :=
  ∀ id f v, s.integrals id f = some v →
    ∃ t c, s.templates id = some t ∧ d.filters.lookup f = some c ∧ v = photon d.sun c t

/-- All values, or ValueError. -/
def collect (r : Str → Option (Option K)) (fs : List Str) : Except PyErr (List (Option K)) :=
  if ∀ f ∈ fs, (r f).isSome then .ok (fs.map fun f => (r f).getD none) else .error .valueError

theorem norms_eq (d : Data K) : ∀ fs : List Str,
    norms d fs = if ∀ f ∈ fs, (d.norm f).isSome then .ok (fs.map fun f => (d.norm f).getD 0) else .error .valueError
  | [] => by simp [norms]
  | f :: l => by
    unfold norms
    cases h : d.norm f with
    | none => simp [h]
    | some n =>
      simp only
      rw [norms_eq d l]
      by_cases hl : ∀ g ∈ l, (d.norm g).isSome
      · rw [if_pos hl, if_pos]
        · simp [h]
        · intro g hg
          rcases List.mem_cons.mp hg with rfl | hg
          · rw [h]; rfl
          · exact hl g hg
      · rw [if_neg hl, if_neg]
        exact fun h' => hl fun g hg => h' g (List.mem_cons_of_mem _ hg)

theorem customLoop_eq (d : Data K) (t : Curve K) (id : Str) : ∀ (l : List (Str × K)) (cache : Str → Str → Option (Option K)),
    (∀ f v, cache id f = some v → ∃ c, d.filters.lookup f = some c ∧ v = photon d.sun c t) →
    (customLoop d t id l cache).1 = (if ∀ p ∈ l, (d.filters.lookup p.1).isSome then
        .ok (l.map fun p => over ((d.filters.lookup p.1).bind fun c => photon d.sun c t) p.2) else .error .valueError) ∧
    (∀ f v, (customLoop d t id l cache).2 id f = some v → ∃ c, d.filters.lookup f = some c ∧ v = photon d.sun c t) ∧
    (∀ i f, i ≠ id → (customLoop d t id l cache).2 i f = cache i f)
  | [], cache, h => by
    refine ⟨by simp [customLoop], h, fun _ _ _ => rfl⟩
  | (f, n) :: l, cache, h => by
    unfold customLoop
    cases hc : cache id f with
    | some v =>
      simp only
      obtain ⟨h1, h2, h3⟩ := customLoop_eq d t id l cache h
      refine ⟨?_, h2, h3⟩
      obtain ⟨c, hc1, hc2⟩ := h f v hc
      rw [h1]
      by_cases hl : ∀ p ∈ l, (d.filters.lookup p.1).isSome
      · rw [if_pos hl, if_pos]
        · simp [hc1, hc2, Except.map]
        · intro p hp
          rcases List.mem_cons.mp hp with rfl | hp
          · rw [hc1]; rfl
          · exact hl p hp
      · rw [if_neg hl, if_neg]
        · rfl
        · exact fun h' => hl fun g hg => h' g (List.mem_cons_of_mem _ hg)
    | none =>
      simp only
      cases hf : d.filters.lookup f with
      | none =>
        simp only
        refine ⟨?_, h, fun _ _ _ => trivial⟩
        rw [if_neg]
        intro h'
        have := h' (f, n) (by simp)
        simp only [hf] at this
        cases this
      | some c =>
        simp only
        have hnew : ∀ g v, (fun i g => if i = id ∧ g = f then some (photon d.sun c t) else cache i g) id g = some v →
            ∃ c, d.filters.lookup g = some c ∧ v = photon d.sun c t := by
          intro g v hg
          simp only [true_and] at hg
          split at hg
          · rename_i hgf
            subst hgf
            cases hg
            exact ⟨c, hf, rfl⟩
          · exact h g v hg
        obtain ⟨h1, h2, h3⟩ := customLoop_eq d t id l
          (fun i g => if i = id ∧ g = f then some (photon d.sun c t) else cache i g) hnew
        refine ⟨?_, h2, ?_⟩
        · rw [h1]
          by_cases hl : ∀ p ∈ l, (d.filters.lookup p.1).isSome
          · rw [if_pos hl, if_pos]
            · simp [hf, Except.map]
            · intro p hp
              rcases List.mem_cons.mp hp with rfl | hp
              · rw [hf]; rfl
              · exact hl p hp
          · rw [if_neg hl, if_neg]
            · rfl
            · exact fun h' => hl fun g hg => h' g (List.mem_cons_of_mem _ hg)
        · intro i g hi
          rw [h3 i g hi]
          simp [hi]

theorem zip_map_self {A B : Type} (l : List A) (g : A → B) : l.zip (l.map g) = l.map fun a => (a, g a) := by
  induction l with
  | nil => rfl
  | cons a l ih => simp [ih]

theorem getIntegrals_eq {C : Type} {d : Data K} {s : State K C} (hs : Coherent d s) (id : Str) (fs : List Str) :
    (getIntegrals d s id fs).1 = collect (reflectance d s.templates id) fs ∧
    Coherent d (getIntegrals d s id fs).2 ∧ (getIntegrals d s id fs).2.templates = s.templates ∧
    (getIntegrals d s id fs).2.tables = s.tables := by
  unfold getIntegrals
  cases ht : s.templates id with
  | none =>
    simp only
    refine ⟨?_, hs, trivial, trivial⟩
    have hr : ∀ f, reflectance d s.templates id f = match d.norm f with
        | none => none
        | some n => (d.integrals id f).map fun x => x.map (· / n) := by
      intro f
      unfold reflectance
      rw [ht]
      cases d.norm f <;> rfl
    unfold precomputed collect
    rw [norms_eq]
    by_cases h1 : (fs.any fun f => (d.integrals id f).isNone) = true
    · rw [if_pos h1, if_neg]
      intro h
      rw [List.any_eq_true] at h1
      obtain ⟨f, hf, hn⟩ := h1
      have := h f hf
      rw [hr] at this
      rw [Option.isNone_iff_eq_none] at hn
      rw [hn] at this
      revert this
      cases d.norm f <;> simp
    · rw [if_neg h1]
      have h1' : ∀ f ∈ fs, ∃ x, d.integrals id f = some x := by
        intro f hf
        cases hx : d.integrals id f with
        | some x => exact ⟨x, rfl⟩
        | none => exact absurd (List.any_eq_true.mpr ⟨f, hf, by rw [hx]; rfl⟩) h1
      by_cases h2 : ∀ f ∈ fs, (d.norm f).isSome
      · rw [if_pos h2, if_pos]
        · simp only
          congr 1
          rw [List.zipWith_map_right, List.zipWith_self]
          apply List.map_congr_left
          intro f hf
          obtain ⟨x, hx⟩ := h1' f hf
          obtain ⟨n, hn⟩ := Option.isSome_iff_exists.mp (h2 f hf)
          rw [hr, hn, hx]
          rfl
        · intro f hf
          obtain ⟨x, hx⟩ := h1' f hf
          obtain ⟨n, hn⟩ := Option.isSome_iff_exists.mp (h2 f hf)
          rw [hr, hn, hx]
          rfl
      · rw [if_neg h2, if_neg]
        intro h
        refine h2 fun f hf => ?_
        have := h f hf
        rw [hr] at this
        cases hn : d.norm f with
        | none => rw [hn] at this; cases this
        | some n => rfl
  | some t =>
    simp only
    have hr : ∀ f, reflectance d s.templates id f = match d.norm f with
        | none => none
        | some n => (d.filters.lookup f).map fun c => (photon d.sun c t).map (· / n) := by
      intro f
      unfold reflectance
      rw [ht]
      cases d.norm f <;> rfl
    rw [norms_eq]
    by_cases h2 : ∀ f ∈ fs, (d.norm f).isSome
    · rw [if_pos h2]
      simp only
      have hcache : ∀ f v, s.integrals id f = some v → ∃ c, d.filters.lookup f = some c ∧ v = photon d.sun c t := by
        intro f v hv
        obtain ⟨t', c, h3, h4, h5⟩ := hs id f v hv
        rw [ht] at h3
        cases h3
        exact ⟨c, h4, h5⟩
      obtain ⟨h3, h4, h5⟩ := customLoop_eq d t id (fs.zip (fs.map fun f => (d.norm f).getD 0)) s.integrals hcache
      refine ⟨?_, ?_, trivial, trivial⟩
      · rw [h3, zip_map_self]
        unfold collect
        by_cases h6 : ∀ f ∈ fs, (d.filters.lookup f).isSome
        · rw [if_pos, if_pos]
          · congr 1
            rw [List.map_map]
            apply List.map_congr_left
            intro f hf
            obtain ⟨n, hn⟩ := Option.isSome_iff_exists.mp (h2 f hf)
            obtain ⟨c, hc⟩ := Option.isSome_iff_exists.mp (h6 f hf)
            rw [hr]
            simp [hn, hc, over]
          · intro f hf
            obtain ⟨n, hn⟩ := Option.isSome_iff_exists.mp (h2 f hf)
            obtain ⟨c, hc⟩ := Option.isSome_iff_exists.mp (h6 f hf)
            rw [hr, hn, hc]
            rfl
          · intro p hp
            obtain ⟨f, hf, rfl⟩ := List.mem_map.mp hp
            exact h6 f hf
        · rw [if_neg, if_neg]
          · intro h
            refine h6 fun f hf => ?_
            have := h f hf
            rw [hr] at this
            cases hn : d.norm f with
            | none => rw [hn] at this; cases this
            | some n => rw [hn] at this; simpa using this
          · intro h
            exact h6 fun f hf => h (f, _) (List.mem_map.mpr ⟨f, hf, rfl⟩)
      · intro i f v hv
        by_cases hi : i = id
        · subst hi
          obtain ⟨c, hc1, hc2⟩ := h4 f v hv
          exact ⟨t, c, ht, hc1, hc2⟩
        · have hv' := hv
          simp only at hv'
          rw [h5 i f hi] at hv'
          exact hs i f v hv'
    · rw [if_neg h2]
      simp only
      refine ⟨?_, hs, trivial, trivial⟩
      unfold collect
      rw [if_neg]
      intro h
      refine h2 fun f hf => ?_
      have := h f hf
      rw [hr] at this
      cases hn : d.norm f with
      | none => rw [hn] at this; cases this
      | some n => rfl

/-- Acceptable weights. -/
def ValidComp : Comp K → Prop
  | .template _ => True
  | .mix c w => 0 ≤ c ∧ 0 ≤ w ∧ 0 < c + w

theorem compIntegrals_eq {C : Type} {d : Data K} {s : State K C} (hs : Coherent d s) {comp : Comp K}
    (hv : ValidComp comp) (fs : List Str) :
    (compIntegrals d s comp fs).1 = collect (compReflectance d s.templates comp) fs := by
  cases comp with
  | template id => exact (getIntegrals_eq hs id fs).1
  | mix c w =>
    obtain ⟨h1, h2, h3⟩ := hv
    change (mixIntegrals d s c w fs).1 = _
    unfold mixIntegrals
    rw [if_neg (by push Not; exact ⟨h1, h2⟩), if_neg (not_le.mpr h3)]
    simp only
    obtain ⟨a1, a2, a3, a4⟩ := getIntegrals_eq hs "C".toList fs
    generalize hg : getIntegrals d s "C".toList fs = g at a1 a2 a3 a4
    obtain ⟨r, s1⟩ := g
    simp only at a1 a2 a3 a4
    subst a1
    obtain ⟨b1, b2, b3, b4⟩ := getIntegrals_eq a2 "S".toList fs
    rw [a3] at b1
    have key : ∀ f, compReflectance d s.templates (.mix c w) f =
        match reflectance d s.templates "C".toList f, reflectance d s.templates "S".toList f with
        | some (some x), some (some y) => some (some (c / (c + w) * x + w / (c + w) * y))
        | some _, some _ => some none
        | _, _ => none := fun f => rfl
    by_cases hc : ∀ f ∈ fs, (reflectance d s.templates "C".toList f).isSome
    · have e1 : collect (reflectance d s.templates "C".toList) fs
          = .ok (fs.map fun f => (reflectance d s.templates "C".toList f).getD none) := if_pos hc
      rw [e1]
      simp only
      generalize getIntegrals d s1 "S".toList fs = g at b1
      obtain ⟨r2, s2⟩ := g
      simp only at b1
      subst b1
      by_cases hS : ∀ f ∈ fs, (reflectance d s.templates "S".toList f).isSome
      · have e2 : collect (reflectance d s.templates "S".toList) fs
            = .ok (fs.map fun f => (reflectance d s.templates "S".toList f).getD none) := if_pos hS
        rw [e2]
        simp only
        unfold collect
        rw [if_pos]
        · congr 1
          rw [List.zipWith_map, List.zipWith_self]
          apply List.map_congr_left
          intro f hf
          rw [key]
          obtain ⟨x, hx⟩ := Option.isSome_iff_exists.mp (hc f hf)
          obtain ⟨y, hy⟩ := Option.isSome_iff_exists.mp (hS f hf)
          rw [hx, hy]
          cases x <;> cases y <;> rfl
        · intro f hf
          rw [key]
          obtain ⟨x, hx⟩ := Option.isSome_iff_exists.mp (hc f hf)
          obtain ⟨y, hy⟩ := Option.isSome_iff_exists.mp (hS f hf)
          rw [hx, hy]
          cases x <;> cases y <;> rfl
      · have e2 : collect (reflectance d s.templates "S".toList) fs = .error .valueError := if_neg hS
        rw [e2]
        simp only
        unfold collect
        rw [if_neg]
        intro h
        refine hS fun f hf => ?_
        have := h f hf
        rw [key] at this
        cases hy : reflectance d s.templates "S".toList f with
        | some y => rfl
        | none =>
          rw [hy] at this
          cases hx : reflectance d s.templates "C".toList f with
          | none => rw [hx] at this; cases this
          | some x => rw [hx] at this; cases x <;> cases this
    · have e1 : collect (reflectance d s.templates "C".toList) fs = .error .valueError := if_neg hc
      rw [e1]
      simp only
      unfold collect
      rw [if_neg]
      intro h
      refine hc fun f hf => ?_
      have := h f hf
      rw [key] at this
      cases hx : reflectance d s.templates "C".toList f with
      | some x => rfl
      | none => rw [hx] at this; cases this

theorem compIntegrals_state {C : Type} {d : Data K} {s : State K C} (hs : Coherent d s) (comp : Comp K) (fs : List Str) :
    Coherent d (compIntegrals d s comp fs).2 ∧ (compIntegrals d s comp fs).2.templates = s.templates ∧
    (compIntegrals d s comp fs).2.tables = s.tables := by
  cases comp with
  | template id => exact (getIntegrals_eq hs id fs).2
  | mix c w =>
    change Coherent d (mixIntegrals d s c w fs).2 ∧ (mixIntegrals d s c w fs).2.templates = s.templates ∧
      (mixIntegrals d s c w fs).2.tables = s.tables
    unfold mixIntegrals
    split
    · exact ⟨hs, rfl, rfl⟩
    split
    · exact ⟨hs, rfl, rfl⟩
    simp only
    have ha := (getIntegrals_eq hs "C".toList fs).2
    generalize getIntegrals d s "C".toList fs = g at ha
    obtain ⟨r, s1⟩ := g
    simp only at ha
    cases r with
    | error e => exact ha
    | ok a =>
      simp only
      have hb := (getIntegrals_eq ha.1 "S".toList fs).2
      generalize getIntegrals d s1 "S".toList fs = g at hb
      obtain ⟨r2, s2⟩ := g
      simp only at hb
      rw [ha.2.1, ha.2.2] at hb
      cases r2 with
      | error e => exact hb
      | ok b => exact hb

end Verif.Band
