import Verif.Origin.Model
import Verif.Origin.Spec
import Verif.Sched.Orbits
import Mathlib.Tactic.NormNum
import Mathlib.Tactic.FieldSimp
import Mathlib.Tactic.Ring

/-! # Origins of coordinates: the properties -/

namespace Verif.Origin.Props

open Verif Sched Spec

theorem same_convert {x y : ℚ} : Same x y ↔ x = convertMu y := by
  unfold Same convertMu au day
  constructor
  · intro h
    rw [← h]
    norm_num
    ring
  · intro h
    rw [h]
    norm_num
    ring

theorem barycenter_eq : barycenter = convertMu 132890518671.505726418 := by decide +kernel

theorem muOf_gravity (c : String) : muOf c = match gravity c with
    | some y => .ok (convertMu y)
    | none => .error .valueError := by
  by_cases h0 : c = "SOLAR_SYSTEM_BARYCENTER"
  · subst h0; decide +kernel
  by_cases h1 : c = "MERCURY_BARYCENTER"
  · subst h1; decide +kernel
  by_cases h2 : c = "VENUS_BARYCENTER"
  · subst h2; decide +kernel
  by_cases h3 : c = "MARS_BARYCENTER"
  · subst h3; decide +kernel
  by_cases h4 : c = "JUPITER_BARYCENTER"
  · subst h4; decide +kernel
  by_cases h5 : c = "SATURN_BARYCENTER"
  · subst h5; decide +kernel
  by_cases h6 : c = "URANUS_BARYCENTER"
  · subst h6; decide +kernel
  by_cases h7 : c = "NEPTUNE_BARYCENTER"
  · subst h7; decide +kernel
  by_cases h8 : c = "PLUTO_BARYCENTER"
  · subst h8; decide +kernel
  by_cases h9 : c = "SUN"
  · subst h9; decide +kernel
  by_cases h10 : c = "MERCURY"
  · subst h10; decide +kernel
  by_cases h11 : c = "VENUS"
  · subst h11; decide +kernel
  by_cases h12 : c = "EARTH"
  · subst h12; decide +kernel
  by_cases h13 : c = "MOON"
  · subst h13; decide +kernel
  have hg : gravity c = none := by
    unfold gravity
    split <;> first | rfl | contradiction
  rw [hg]
  unfold muOf members
  simp only [if_neg h0, List.lookup_cons, List.lookup_nil, beq_eq_false_iff_ne.mpr h1, beq_eq_false_iff_ne.mpr h2, beq_eq_false_iff_ne.mpr h3, beq_eq_false_iff_ne.mpr h4, beq_eq_false_iff_ne.mpr h5, beq_eq_false_iff_ne.mpr h6, beq_eq_false_iff_ne.mpr h7, beq_eq_false_iff_ne.mpr h8, beq_eq_false_iff_ne.mpr h9, beq_eq_false_iff_ne.mpr h10, beq_eq_false_iff_ne.mpr h11, beq_eq_false_iff_ne.mpr h12, beq_eq_false_iff_ne.mpr h13]

theorem fill_ok {codes : List String} {f : String → ℚ} : ∀ (todo : List String) (out : List (Option ℚ)), out.length = codes.length →
    (∀ c ∈ todo, muOf c = .ok (f c)) →
    ∃ out', fill codes todo out = .ok out' ∧ out'.length = codes.length ∧
      ∀ (i : Nat) (c : String), codes[i]? = some c → out'[i]? = if c ∈ todo then some (some (f c)) else out[i]?
  | [], out, hl, _ => ⟨out, rfl, hl, by simp⟩
  | c :: todo, out, hl, h => by
    obtain ⟨out', h1, h2, h3⟩ := fill_ok (codes := codes) (f := f) todo (assign codes c (f c) out) (by simp [assign, hl])
      fun d hd => h d (List.mem_cons_of_mem _ hd)
    refine ⟨out', ?_, h2, ?_⟩
    · unfold fill
      rw [h c (List.mem_cons_self ..)]
      exact h1
    · intro i d hi
      rw [h3 i d hi]
      by_cases hd : d ∈ todo
      · rw [if_pos hd, if_pos (List.mem_cons_of_mem _ hd)]
      · rw [if_neg hd]
        have hlt : i < out.length := by
          rw [hl]; exact (List.getElem?_eq_some_iff.mp hi).1
        unfold assign
        rw [List.getElem?_zipWith, hi, List.getElem?_eq_getElem hlt]
        by_cases hdc : d = c
        · subst hdc
          simp
        · simp [hdc, hd]

theorem fill_error {codes : List String} : ∀ (todo : List String) (out : List (Option ℚ)), (∃ c ∈ todo, muOf c = .error .valueError) →
    (∀ c ∈ todo, ∀ e, muOf c = .error e → e = .valueError) → fill codes todo out = .error .valueError
  | [], _, h, _ => by obtain ⟨c, hc, _⟩ := h; cases hc
  | c :: todo, out, h, he => by
    unfold fill
    cases hm : muOf c with
    | error e => rw [he c (List.mem_cons_self ..) e hm]
    | ok x =>
      refine fill_error todo _ ?_ fun d hd => he d (List.mem_cons_of_mem _ hd)
      obtain ⟨d, hd, hd'⟩ := h
      rcases List.mem_cons.mp hd with rfl | hd
      · rw [hm] at hd'; cases hd'
      · exact ⟨d, hd, hd'⟩

/-- Every row has the gravitational parameter of its own origin, in au³/day², whatever the other rows are; `mu` succeeds exactly if every
origin has one and is a ValueError otherwise. -/
theorem C177_mu (codes : List String) :
    (∀ out, mu codes = .ok out ↔ List.Forall₂ (fun c o => ∃ x y, o = some x ∧ gravity c = some y ∧ Same x y) codes out) ∧
    (mu codes = .error .valueError ↔ ∃ c ∈ codes, gravity c = none) := by
  have he : ∀ c e, muOf c = .error e → e = .valueError := by
    intro c e h
    rw [muOf_gravity] at h
    cases hg : gravity c <;> rw [hg] at h <;> cases h
    rfl
  by_cases h : ∀ c ∈ codes, gravity c ≠ none
  · obtain ⟨out', h1, h2, h3⟩ := fill_ok (codes := codes) (f := fun c => convertMu ((gravity c).getD 0)) (uniq codes)
      (codes.map fun _ => none) (by simp) (by
        intro c hc
        rw [muOf_gravity]
        cases hg : gravity c with
        | none => exact absurd hg (h c ((mem_uniq codes c).mp hc))
        | some y => rfl)
    have h4 : out' = codes.map fun c => some (convertMu ((gravity c).getD 0)) := by
      apply List.ext_getElem?
      intro i
      rw [List.getElem?_map]
      cases hi : codes[i]? with
      | none =>
        rw [List.getElem?_eq_none_iff] at hi
        exact List.getElem?_eq_none_iff.mpr (h2 ▸ hi)
      | some c =>
        rw [h3 i c hi, if_pos ((mem_uniq codes c).mpr (List.mem_of_getElem? hi))]
        rfl
    have h5 : mu codes = .ok out' := h1
    constructor
    · intro out
      rw [h5]
      constructor
      · intro e
        injection e with e
        rw [← e, h4, List.forall₂_map_right_iff, List.forall₂_same]
        intro c hc
        cases hg : gravity c with
        | none => exact absurd hg (h c hc)
        | some y => exact ⟨_, y, rfl, rfl, same_convert.mpr rfl⟩
      · intro hf
        rw [h4]
        congr 1
        clear h1 h2 h3 h4 h5 h
        induction hf with
        | nil => rfl
        | cons hd _ ih =>
          obtain ⟨x, y, rfl, hg, hs⟩ := hd
          rw [List.map_cons, ih, hg, same_convert.mp hs]
          rfl
    · rw [h5]
      constructor
      · intro e; cases e
      · rintro ⟨c, hc, hg⟩
        exact absurd hg (h c hc)
  · push Not at h
    have h6 : mu codes = .error .valueError := by
      refine fill_error _ _ ?_ fun c _ => he c
      obtain ⟨c, hc, hg⟩ := h
      refine ⟨c, (mem_uniq codes c).mpr hc, ?_⟩
      rw [muOf_gravity, hg]
    refine ⟨?_, by rw [h6]; exact ⟨fun _ => h, fun _ => rfl⟩⟩
    intro out
    rw [h6]
    constructor
    · intro e; cases e
    · intro hf
      obtain ⟨c, hc, hg⟩ := h
      exfalso
      induction hf with
      | nil => cases hc
      | cons hd _ ih =>
        rcases List.mem_cons.mp hc with rfl | hc
        · obtain ⟨x, y, _, hg', _⟩ := hd
          rw [hg] at hg'; cases hg'
        · refine ih ?_ hc
          refine fill_error _ _ ?_ fun c _ => he c
          refine ⟨c, (mem_uniq _ c).mpr hc, ?_⟩
          rw [muOf_gravity, hg]

/-- An acceleration from `mu` in au/day² is that from the published parameter in km/s². -/
theorem C177_acceleration {x y r : ℚ} (h : Same x y) (hr : r ≠ 0) : x / r ^ 2 * (au / day ^ 2) = y / (r * au) ^ 2 := by
  rw [← h]
  have : au ≠ 0 := by unfold au; norm_num
  have : day ≠ 0 := by unfold day; norm_num
  field_simp

/-- The parameter of the Solar System barycenter is the sum over the Sun, the planets with their moons (the Earth and the Moon singly) and
Pluto, and agrees with the value of Horizons to 2 parts in 10⁹; that of the Sun agrees with the constant `MU` to 10⁻¹⁵. -/
theorem C177_barycenter : (∃ s, gravity "SOLAR_SYSTEM_BARYCENTER" = some s ∧
      s = (["SUN", "MERCURY_BARYCENTER", "VENUS_BARYCENTER", "EARTH", "MOON", "MARS_BARYCENTER", "JUPITER_BARYCENTER",
        "SATURN_BARYCENTER", "URANUS_BARYCENTER", "NEPTUNE_BARYCENTER", "PLUTO_BARYCENTER"].map fun b => (gravity b).getD 0).sum ∧
      |s - 132890518820.19876| ≤ 2 / 10 ^ 9 * 132890518820.19876) ∧
    ∀ x, mu ["SUN"] = .ok [some x] → |x - 0.00029591220828411956| ≤ x / 10 ^ 15 := by
  refine ⟨⟨_, rfl, by decide +kernel, by norm_num [abs_le]⟩, ?_⟩
  intro x hx
  have h : mu ["SUN"] = .ok [some (convertMu 132712440041.279419)] := by decide +kernel
  rw [h] at hx
  injection hx with hx
  injection hx with hx
  injection hx with hx
  rw [← hx]
  unfold convertMu
  rw [abs_le]
  constructor <;> norm_num

/-- Not true: that every origin of `OriginCodes` has a gravitational parameter. These six have none. -/
theorem C177_origins_false : ¬ ∀ name v, (name, v) ∈ originCodes → ∃ out, mu [name] = .ok out := by
  intro h
  obtain ⟨out, ho⟩ := h "MARS" 499 (by decide +kernel)
  have : mu ["MARS"] = .error .valueError := by decide +kernel
  rw [this] at ho
  cases ho

theorem C177_origins (name : String) (v : Nat) (h : (name, v) ∈ originCodes) :
    mu [name] = .error .valueError ↔ name ∈ ["EARTH_MOON_BARYCENTER", "MARS", "JUPITER", "SATURN", "URANUS", "NEPTUNE"] := by
  have : ∀ p ∈ originCodes, mu [p.1] = .error .valueError ↔
      p.1 ∈ ["EARTH_MOON_BARYCENTER", "MARS", "JUPITER", "SATURN", "URANUS", "NEPTUNE"] := by decide +kernel
  exact this _ h

theorem uniq_single {l : List String} {c : String} : uniq l = [c] ↔ l ≠ [] ∧ ∀ d ∈ l, d = c := by
  constructor
  · intro h
    have hm := mem_uniq l
    rw [h] at hm
    refine ⟨?_, fun d hd => List.mem_singleton.mp ((hm d).mpr hd)⟩
    rintro rfl
    cases h
  · rintro ⟨h1, h2⟩
    have hm : ∀ a ∈ uniq l, a = c := fun a ha => h2 a ((mem_uniq l a).mp ha)
    have hn := nodup_uniq l
    obtain ⟨a, ha⟩ := List.exists_mem_of_ne_nil l h1
    have ha' := (mem_uniq l a).mpr ha
    revert hm hn ha'
    generalize uniq l = u
    intro hm hn ha'
    match u, hm, hn, ha' with
    | [x], hm, _, _ => rw [hm x (List.mem_singleton_self _)]
    | x :: y :: u, hm, hn, _ =>
      have hx := hm x (by simp)
      have hy := hm y (by simp)
      rw [hx, hy] at hn
      simp at hn

/-- `as_OriginCodes` gives the one code that all rows have; different codes or no rows are an AssertionError and a name that is not an
`OriginCodes` a KeyError. -/
theorem C177_code (codes : List String) :
    (∀ v, asOriginCodes codes = .ok v ↔ ∃ c, codes ≠ [] ∧ (∀ d ∈ codes, d = c) ∧ (c, v) ∈ originCodes) ∧
    (asOriginCodes codes = .error .assertionError ↔ codes = [] ∨ ∃ c ∈ codes, ∃ d ∈ codes, c ≠ d) ∧
    (asOriginCodes codes = .error .keyError ↔ ∃ c, codes ≠ [] ∧ (∀ d ∈ codes, d = c) ∧ ∀ v, (c, v) ∉ originCodes) := by
  have hkeys : ∀ c v, originCodes.lookup c = some v ↔ (c, v) ∈ originCodes := by
    intro c v
    have hall : ∀ p ∈ originCodes, originCodes.lookup p.1 = some p.2 := by decide +kernel
    constructor
    · intro h
      obtain ⟨l₁, l₂, he, -⟩ := List.lookup_eq_some_iff.mp h
      rw [he]; simp
    · intro h; exact hall _ h
  by_cases h : ∃ c, codes ≠ [] ∧ ∀ d ∈ codes, d = c
  · obtain ⟨c, h1, h2⟩ := h
    have hu := uniq_single.mpr ⟨h1, h2⟩
    have hc : ∀ c', (∀ d ∈ codes, d = c') → c' = c := by
      intro c' h3
      obtain ⟨a, ha⟩ := List.exists_mem_of_ne_nil _ h1
      rw [← h3 a ha, h2 a ha]
    have e : asOriginCodes codes = match originCodes.lookup c with
        | some v => .ok v
        | none => .error .keyError := by
      unfold asOriginCodes
      rw [hu]
      rfl
    rw [e]
    cases hl : originCodes.lookup c with
    | some w =>
      refine ⟨?_, ?_, ?_⟩
      · intro v
        constructor
        · intro h
          injection h with h
          exact ⟨c, h1, h2, (hkeys c v).mp (h ▸ hl)⟩
        · rintro ⟨c', -, h3, h4⟩
          rw [hc c' h3] at h4
          rw [(hkeys c v).mpr h4] at hl
          injection hl with hl
          rw [hl]
      · constructor
        · intro h; cases h
        · rintro (h | ⟨a, ha, b, hb, hab⟩)
          · exact absurd h h1
          · exact absurd ((h2 a ha).trans (h2 b hb).symm) hab
      · constructor
        · intro h; cases h
        · rintro ⟨c', -, h3, h4⟩
          rw [hc c' h3] at h4
          exact absurd ((hkeys c w).mp hl) (h4 w)
    | none =>
      have hno : ∀ v, (c, v) ∉ originCodes := by
        intro v hv
        rw [(hkeys c v).mpr hv] at hl; cases hl
      refine ⟨?_, ?_, ?_⟩
      · intro v
        constructor
        · intro h; cases h
        · rintro ⟨c', -, h3, h4⟩
          rw [hc c' h3] at h4
          exact absurd h4 (hno v)
      · constructor
        · intro h; cases h
        · rintro (h | ⟨a, ha, b, hb, hab⟩)
          · exact absurd h h1
          · exact absurd ((h2 a ha).trans (h2 b hb).symm) hab
      · exact ⟨fun _ => ⟨c, h1, h2, hno⟩, fun _ => rfl⟩
  · have e : asOriginCodes codes = .error .assertionError := by
      unfold asOriginCodes
      split
      · rename_i c hu
        exact absurd ⟨c, uniq_single.mp hu⟩ h
      · rfl
    rw [e]
    refine ⟨?_, ?_, ?_⟩
    · intro v
      constructor
      · intro h; cases h
      · rintro ⟨c, h1, h2, -⟩
        exact absurd ⟨c, h1, h2⟩ h
    · refine ⟨fun _ => ?_, fun _ => rfl⟩
      by_contra hc
      push Not at hc
      obtain ⟨a, ha⟩ := List.exists_mem_of_ne_nil _ hc.1
      exact h ⟨a, hc.1, fun d hd => hc.2 d hd a ha⟩
    · constructor
      · intro h; cases h
      · rintro ⟨c, h1, h2, -⟩
        exact absurd ⟨c, h1, h2⟩ h

/-- A column made from a member of `OriginCodes` gives it back. -/
theorem C177_code_round_trip {name : String} {v : Nat} (h : (name, v) ∈ originCodes) (n : Nat) :
    (fromOriginCodes name n).length = n ∧ eq (fromOriginCodes name n) (.code name) = .ok (List.replicate n true) ∧
    asOriginCodes (fromOriginCodes name (n + 1)) = .ok v := by
  refine ⟨List.length_replicate .., ?_, ?_⟩
  · unfold eq fromOriginCodes
    simp
  · rw [(C177_code _).1 v]
    refine ⟨name, by simp [fromOriginCodes], ?_, h⟩
    intro d hd
    exact (List.mem_replicate.mp hd).2

/-- Comparison is row by row; of columns with as many rows it compares the rows in the same place, and a column of one row is compared with
every row of the other. Columns of other lengths are a ValueError. -/
theorem C177_equal (codes : List String) :
    (∀ s, eq codes (.str s) = .ok (codes.map fun c => decide (c = s))) ∧
    (∀ s, eq codes (.origin [s]) = .ok (codes.map fun c => decide (c = s))) ∧
    (∀ s, eq [s] (.origin codes) = .ok (codes.map fun c => decide (c = s))) ∧
    (∀ l, l.length = codes.length → ∃ out, eq codes (.origin l) = .ok out ∧ out.length = codes.length ∧
      ∀ (i : Nat) (a b : String), codes[i]? = some a → l[i]? = some b → out[i]? = some (decide (a = b))) ∧
    (∀ l, l.length ≠ codes.length → l.length ≠ 1 → codes.length ≠ 1 → eq codes (.origin l) = .error .valueError) ∧
    eq codes .other = .error .typeError := by
  refine ⟨fun s => rfl, ?_, ?_, ?_, ?_, rfl⟩
  · intro s
    unfold eq arrayEq
    simp only
    split
    · rename_i h
      match codes, h with
      | [a], _ => rfl
    · rfl
  · intro s
    unfold eq arrayEq
    simp only
    split
    · rename_i h
      match codes, h with
      | [a], _ => simp [eq_comm]
    · rename_i h
      match codes, h with
      | [], _ => rfl
      | [a], h => exact absurd rfl h
      | a :: b :: l, _ => simp [eq_comm]
  · intro l hl
    refine ⟨List.zipWith (fun x y => decide (x = y)) codes l, ?_, by simp [hl], ?_⟩
    · unfold eq arrayEq
      simp only
      rw [if_pos hl.symm]
    · intro i a b ha hb
      rw [List.getElem?_zipWith, ha, hb]
  · intro l h1 h2 h3
    unfold eq arrayEq
    simp only
    rw [if_neg (Ne.symm h1)]
    split
    · simp at h2
    · simp at h3
    · rfl

/-- `!=` is the opposite of `==` in every row, and fails exactly if that fails. -/
theorem C177_unequal (codes : List String) (o : Other) :
    (∀ l, eq codes o = .ok l → ne codes o = .ok (l.map not)) ∧ ∀ e, eq codes o = .error e ↔ ne codes o = .error e := by
  unfold ne
  cases eq codes o with
  | ok l => exact ⟨fun l' h => (by injection h with h; rw [h]), fun e => ⟨fun h => (by cases h), fun h => (by cases h)⟩⟩
  | error e => exact ⟨fun l' h => (by cases h), fun e' => Iff.rfl⟩

/-- The planets in the order of their distances from the Sun. -/
def planets : List String := ["MERCURY", "VENUS", "EARTH", "MARS", "JUPITER", "SATURN", "URANUS", "NEPTUNE"]

/-- The code of a single origin is its NAIF id: 0 for the barycentre of the Solar System, 10 for the Sun, 301 for the Moon, and for the
`i + 1`-th planet `i + 1` for the barycentre of its system (with the Moon named for the Earth) and a hundred times that and 99 for itself. -/
theorem C177_naif (name : String) (v : Nat) : asOriginCodes [name] = .ok v ↔
    (name = "SOLAR_SYSTEM_BARYCENTER" ∧ v = 0) ∨ (name = "SUN" ∧ v = 10) ∨ (name = "MOON" ∧ v = 301) ∨
    ∃ i p, planets[i]? = some p ∧ ((name = p ∧ v = 100 * (i + 1) + 99) ∨
      (name = (if p = "EARTH" then "EARTH_MOON" else p) ++ "_BARYCENTER" ∧ v = i + 1)) := by
  have hm : asOriginCodes [name] = .ok v ↔ (name, v) ∈ originCodes := by
    rw [(C177_code [name]).1 v]
    constructor
    · rintro ⟨c, -, hc, hv⟩
      rwa [hc name (by simp)]
    · intro h
      exact ⟨name, by simp, by simp, h⟩
  rw [hm]
  constructor
  · intro h
    simp only [originCodes, List.mem_cons, List.not_mem_nil, or_false, Prod.mk.injEq] at h
    rcases h with h | h | h | h | h | h | h | h | h | h | h | h | h | h | h | h | h | h | h <;> obtain ⟨rfl, rfl⟩ := h
    · exact Or.inl ⟨rfl, rfl⟩
    · exact Or.inr (Or.inr (Or.inr ⟨0, _, rfl, Or.inr ⟨by decide +kernel, rfl⟩⟩))
    · exact Or.inr (Or.inr (Or.inr ⟨1, _, rfl, Or.inr ⟨by decide +kernel, rfl⟩⟩))
    · exact Or.inr (Or.inr (Or.inr ⟨2, _, rfl, Or.inr ⟨by decide +kernel, rfl⟩⟩))
    · exact Or.inr (Or.inr (Or.inr ⟨3, _, rfl, Or.inr ⟨by decide +kernel, rfl⟩⟩))
    · exact Or.inr (Or.inr (Or.inr ⟨4, _, rfl, Or.inr ⟨by decide +kernel, rfl⟩⟩))
    · exact Or.inr (Or.inr (Or.inr ⟨5, _, rfl, Or.inr ⟨by decide +kernel, rfl⟩⟩))
    · exact Or.inr (Or.inr (Or.inr ⟨6, _, rfl, Or.inr ⟨by decide +kernel, rfl⟩⟩))
    · exact Or.inr (Or.inr (Or.inr ⟨7, _, rfl, Or.inr ⟨by decide +kernel, rfl⟩⟩))
    · exact Or.inr (Or.inl ⟨rfl, rfl⟩)
    · exact Or.inr (Or.inr (Or.inr ⟨0, _, rfl, Or.inl ⟨rfl, rfl⟩⟩))
    · exact Or.inr (Or.inr (Or.inr ⟨1, _, rfl, Or.inl ⟨rfl, rfl⟩⟩))
    · exact Or.inr (Or.inr (Or.inr ⟨2, _, rfl, Or.inl ⟨rfl, rfl⟩⟩))
    · exact Or.inr (Or.inr (Or.inl ⟨rfl, rfl⟩))
    · exact Or.inr (Or.inr (Or.inr ⟨3, _, rfl, Or.inl ⟨rfl, rfl⟩⟩))
    · exact Or.inr (Or.inr (Or.inr ⟨4, _, rfl, Or.inl ⟨rfl, rfl⟩⟩))
    · exact Or.inr (Or.inr (Or.inr ⟨5, _, rfl, Or.inl ⟨rfl, rfl⟩⟩))
    · exact Or.inr (Or.inr (Or.inr ⟨6, _, rfl, Or.inl ⟨rfl, rfl⟩⟩))
    · exact Or.inr (Or.inr (Or.inr ⟨7, _, rfl, Or.inl ⟨rfl, rfl⟩⟩))
  · have key : ∀ i : Fin 8, (planets[i.1]'i.2, 100 * (i.1 + 1) + 99) ∈ originCodes ∧
        ((if planets[i.1]'i.2 = "EARTH" then "EARTH_MOON" else planets[i.1]'i.2) ++ "_BARYCENTER", i.1 + 1) ∈ originCodes := by
      decide +kernel
    rintro (⟨rfl, rfl⟩ | ⟨rfl, rfl⟩ | ⟨rfl, rfl⟩ | ⟨i, p, hp, h⟩)
    · decide +kernel
    · decide +kernel
    · decide +kernel
    · obtain ⟨hi, rfl⟩ := List.getElem?_eq_some_iff.mp hp
      rcases h with ⟨rfl, rfl⟩ | ⟨rfl, rfl⟩
      · exact (key ⟨i, hi⟩).1
      · exact (key ⟨i, hi⟩).2

/-- Two origins, mixed. -/
example : ∃ x y : ℚ, mu ["SUN", "EARTH", "SUN"] = .ok [some x, some y, some x] ∧ 0 < y ∧ y < x :=
  ⟨convertMu 132712440041.279419, convertMu 398600.435507, by decide +kernel, by decide +kernel, by decide +kernel⟩

example : Same (convertMu 398600.435507) 398600.435507 := same_convert.mpr rfl

example : ("EARTH", 399) ∈ originCodes := by decide +kernel

end Verif.Origin.Props
