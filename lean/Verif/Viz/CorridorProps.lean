import Verif.Viz.Sim
import Mathlib.Tactic.Linarith
import Mathlib.Tactic.Ring
import Mathlib.Tactic.NormNum

/-! # C188: the risk corridor -/

namespace Verif.Viz.CorridorProps

open Verif Viz

variable {S : Type}

/-! ## Specification -/

/-- What sorting by time does; the order of impacts at the same time is not specified. -/
def Sorting (order : List Place → List Place) : Prop := ∀ l, (order l).Perm l ∧ (order l).Pairwise fun a b => a.mjd ≤ b.mjd

/-- The places of the impacts on the Earth, in order of time. -/
def Ordered (code : S → String) (geodetic : S → Place) (impacts : List S) (sorted : List Place) : Prop :=
  sorted.Perm ((impacts.filter fun s => decide (code s = "EARTH")).map geodetic) ∧ sorted.Pairwise fun a b => a.mjd ≤ b.mjd

/-! ## Auxiliary -/

theorem foldl_min_le (l : List ℚ) (t : ℚ) (h : ∀ x ∈ l, t ≤ x) : l.foldl min t = t := by
  induction l generalizing t with
  | nil => rfl
  | cons a l ih =>
    rw [List.foldl_cons, min_eq_left (h a (by simp))]
    exact ih t fun x hx => h x (List.mem_cons_of_mem _ hx)

theorem minutes_eq {first : Place} {rest : List Place} (h : (first :: rest).Pairwise fun a b => a.mjd ≤ b.mjd) :
    minutes (first :: rest) = (first :: rest).map fun p => (p.mjd - first.mjd) * 1440 := by
  unfold minutes
  simp only [List.map_cons]
  rw [foldl_min_le]
  · simp only [List.map_map, List.cons.injEq]
    refine ⟨by ring, List.map_congr_left fun p _ => ?_⟩
    simp only [Function.comp]
    ring
  · intro x hx
    obtain ⟨p, hp, rfl⟩ := List.mem_map.mp hx
    exact (List.pairwise_cons.mp h).1 p hp

theorem corridor_cases (code : S → String) (geodetic : S → Place) {order : List Place → List Place} (ho : Sorting order) (impacts : List S) :
    (corridor code geodetic order impacts = .error .valueError ∧ ∀ s ∈ impacts, code s ≠ "EARTH") ∨
    ∃ first rest last, Ordered code geodetic impacts (first :: rest) ∧ (first :: rest).getLast? = some last ∧
      (∃ s ∈ impacts, code s = "EARTH") ∧
      corridor code geodetic order impacts = .ok ⟨(first.lon, first.lat), [0, (last.mjd - first.mjd) * 1440],
        (List.range (first :: rest).length).map fun i => ⟨(first :: rest).take (i + 1), (minutes (first :: rest)).take (i + 1),
          ticks i (((minutes (first :: rest))[i]?).getD 0)⟩⟩ := by
  unfold corridor
  by_cases he : (impacts.filter fun s => decide (code s = "EARTH")) = []
  · refine .inl ⟨by simp [he], fun s hs hc => ?_⟩
    have := List.filter_eq_nil_iff.mp he s hs
    simp [hc] at this
  · refine .inr ?_
    obtain ⟨h1, h2⟩ := ho ((impacts.filter fun s => decide (code s = "EARTH")).map geodetic)
    simp only [he, if_false]
    cases hs : order ((impacts.filter fun s => decide (code s = "EARTH")).map geodetic) with
    | nil =>
      rw [hs] at h1
      have := h1.nil_eq
      simp [he] at this
    | cons first rest =>
      rw [hs] at h1 h2
      have hl : (minutes (first :: rest)).getLast? = some (((first :: rest).getLast (by simp)).mjd * 1440 - first.mjd * 1440) := by
        rw [minutes_eq h2, List.getLast?_map, List.getLast?_eq_some_getLast (by simp)]
        simp only [Option.map_some, Option.some.injEq]
        ring
      refine ⟨first, rest, (first :: rest).getLast (by simp), ⟨h1, h2⟩, List.getLast?_eq_some_getLast _, ?_, ?_⟩
      · obtain ⟨s, hs'⟩ := List.exists_mem_of_ne_nil _ he
        rw [List.mem_filter] at hs'
        exact ⟨s, hs'.1, by simpa using hs'.2⟩
      · rw [hl]
        have e : ((first :: rest).getLast (by simp)).mjd * 1440 - first.mjd * 1440 = (((first :: rest).getLast (by simp)).mjd - first.mjd) * 1440 := by
          ring
        rw [e]

/-! ## The properties -/

/-- C188: The figure is not made exactly if there is no impact on the Earth, with ValueError. -/
theorem C188_errors (code : S → String) (geodetic : S → Place) {order : List Place → List Place} (ho : Sorting order) (impacts : List S)
    (e : PyErr) : corridor code geodetic order impacts = .error e ↔ (∀ s ∈ impacts, code s ≠ "EARTH") ∧ e = .valueError := by
  rcases corridor_cases code geodetic ho impacts with ⟨h, h'⟩ | ⟨_, _, _, -, -, ⟨s, hs, hc⟩, h⟩
  · rw [h, Except.error.injEq]
    exact ⟨fun h => ⟨h', h.symm⟩, fun h => h.2.symm⟩
  · rw [h]
    exact ⟨fun h => by simp at h, fun h => absurd hc (h.1 s hs)⟩

/-- C188: There is one frame for every impact on the Earth. Frame `i` shows the `i + 1` earliest of them, each with the minutes from the
first impact to it. The last frame shows all. Impacts on other bodies are not shown. -/
theorem C188_frames (code : S → String) (geodetic : S → Place) {order : List Place → List Place} (ho : Sorting order) {impacts : List S}
    {m : Map} (h : corridor code geodetic order impacts = .ok m) :
    ∃ first rest, Ordered code geodetic impacts (first :: rest) ∧ m.center = (first.lon, first.lat) ∧
      m.frames.length = (impacts.filter fun s => decide (code s = "EARTH")).length ∧
      ∀ (i : Nat) (f : MapFrame), m.frames[i]? = some f → f.places = (first :: rest).take (i + 1) ∧ f.places.length = i + 1 ∧
        f.minutes = f.places.map fun p => (p.mjd - first.mjd) * 1440 := by
  rcases corridor_cases code geodetic ho impacts with ⟨h', -⟩ | ⟨first, rest, last, ho', -, -, h'⟩
  · rw [h] at h'; simp at h'
  rw [h, Except.ok.injEq] at h'
  refine ⟨first, rest, ho', by rw [h'], ?_, ?_⟩
  · rw [h', List.length_map, List.length_range, ho'.1.length_eq, List.length_map]
  · intro i f hf
    rw [h', List.getElem?_map] at hf
    by_cases hi : i < (first :: rest).length
    · rw [List.getElem?_range hi, Option.map_some, Option.some.injEq] at hf
      refine ⟨by rw [← hf], ?_, ?_⟩
      · rw [← hf]
        simp only [List.length_take, List.length_cons] at hi ⊢
        omega
      · rw [← hf]
        dsimp only
        rw [minutes_eq ho'.2, List.map_take]
    · rw [List.getElem?_eq_none (by simpa using hi)] at hf
      simp at hf

/-- C188: Minutes are never negative, never go back, start at zero, and end, in every frame, with the largest shown. The ticks of the
colour bar are zero; zero and the largest; or zero, half the largest and the largest, for frames of one, two and more impacts. Before the
animation they are zero and the largest of all. -/
theorem C188_ticks (code : S → String) (geodetic : S → Place) {order : List Place → List Place} (ho : Sorting order) {impacts : List S}
    {m : Map} (h : corridor code geodetic order impacts = .ok m) :
    (∀ (i : Nat) (f : MapFrame), m.frames[i]? = some f → ∃ largest, f.minutes.head? = some 0 ∧ f.minutes.getLast? = some largest ∧
      (f.minutes.Pairwise fun a b => a ≤ b) ∧ (∀ x ∈ f.minutes, 0 ≤ x ∧ x ≤ largest) ∧
      (i = 0 → f.ticks = [0]) ∧ (i = 1 → f.ticks = [0, largest]) ∧ (2 ≤ i → f.ticks = [0, largest / 2, largest])) ∧
    ∃ f largest, m.frames.getLast? = some f ∧ f.minutes.getLast? = some largest ∧ m.ticks = [0, largest] := by
  rcases corridor_cases code geodetic ho impacts with ⟨h', -⟩ | ⟨first, rest, last, ho', hlast, -, h'⟩
  · rw [h] at h'; simp at h'
  rw [h, Except.ok.injEq] at h'
  have hsort : (minutes (first :: rest)).Pairwise fun a b => a ≤ b := by
    rw [minutes_eq ho'.2, List.pairwise_map]
    exact ho'.2.imp fun hab => by linarith
  have hhead : (minutes (first :: rest)).head? = some 0 := by
    rw [minutes_eq ho'.2]; simp
  have hlen : (minutes (first :: rest)).length = (first :: rest).length := by
    rw [minutes_eq ho'.2, List.length_map]
  have hget : ∀ i, i < (first :: rest).length → ∃ x, (minutes (first :: rest))[i]? = some x ∧
      ((minutes (first :: rest)).take (i + 1)).getLast? = some x := by
    intro i hi
    refine ⟨(minutes (first :: rest))[i]'(hlen ▸ hi), by simp [hlen ▸ hi], ?_⟩
    rw [List.getLast?_eq_getElem?, List.length_take, List.getElem?_take]
    have : min (i + 1) (minutes (first :: rest)).length - 1 = i := by rw [hlen]; omega
    rw [this, if_pos (by omega)]
    simp [hlen ▸ hi]
  refine ⟨fun i f hf => ?_, ?_⟩
  · rw [h', List.getElem?_map] at hf
    by_cases hi : i < (first :: rest).length
    · rw [List.getElem?_range hi, Option.map_some, Option.some.injEq] at hf
      obtain ⟨x, hx, hx'⟩ := hget i hi
      have hp : ((minutes (first :: rest)).take (i + 1)).Pairwise fun a b => a ≤ b := hsort.sublist (List.take_sublist _ _)
      rw [← hf]
      dsimp only
      refine ⟨x, ?_, hx', hp, ?_, ?_, ?_, ?_⟩
      · rw [List.head?_take, if_neg (by omega), hhead]
      · intro y hy
        constructor
        · have h0 : (minutes (first :: rest)) = 0 :: (minutes (first :: rest)).tail := by
            cases hm : minutes (first :: rest) with
            | nil => rw [hm] at hhead; simp at hhead
            | cons a l => rw [hm] at hhead; simp only [List.head?_cons, Option.some.injEq] at hhead; simp [hhead]
          have hy' := List.mem_of_mem_take hy
          rw [h0] at hsort hy'
          rcases List.mem_cons.mp hy' with rfl | hy'
          · exact le_refl _
          · exact (List.pairwise_cons.mp hsort).1 y hy'
        · obtain ⟨k, hk, rfl⟩ := List.getElem_of_mem hy
          rw [List.getLast?_eq_getElem?] at hx'
          obtain ⟨hk', rfl⟩ := List.getElem?_eq_some_iff.mp hx'
          rcases Nat.lt_or_ge k (((minutes (first :: rest)).take (i + 1)).length - 1) with hlt | hge
          · exact List.pairwise_iff_getElem.mp hp _ _ hk hk' hlt
          · have : k = ((minutes (first :: rest)).take (i + 1)).length - 1 := by omega
            subst this
            exact le_refl _
      · rintro rfl; rfl
      · rintro rfl; rw [hx]; rfl
      · intro h2
        rw [hx]
        obtain ⟨j, rfl⟩ := Nat.exists_eq_add_of_le h2
        rw [Nat.add_comm]
        rfl
    · rw [List.getElem?_eq_none (by simpa using hi)] at hf
      simp at hf
  · obtain ⟨x, hx, hx'⟩ := hget rest.length (by simp)
    refine ⟨⟨(first :: rest).take (rest.length + 1), (minutes (first :: rest)).take (rest.length + 1),
      ticks rest.length (((minutes (first :: rest))[rest.length]?).getD 0)⟩, x, ?_, hx', ?_⟩
    · rw [h', List.getLast?_map, List.length_cons, List.range_succ, List.getLast?_append]
      rfl
    · rw [h']
      dsimp only
      rw [minutes_eq ho'.2, List.getElem?_map] at hx
      rw [List.getLast?_eq_getElem?] at hlast
      simp only [List.length_cons, Nat.add_sub_cancel] at hlast
      rw [hlast] at hx
      simp only [Option.map_some, Option.some.injEq] at hx
      rw [hx]

/-! ## Examples and what does not hold -/

/-- The order used in the examples. -/
def exOrder (l : List Place) : List Place := l.insertionSort fun a b => a.mjd ≤ b.mjd

theorem sorting_ex : Sorting exOrder := fun l => by
  have : Std.Total fun a b : Place => a.mjd ≤ b.mjd := ⟨fun a b => le_total a.mjd b.mjd⟩
  have : IsTrans Place fun a b => a.mjd ≤ b.mjd := ⟨fun _ _ _ h h' => le_trans h h'⟩
  exact ⟨List.perm_insertionSort _ l, List.pairwise_insertionSort _ l⟩

/-- Three impacts on the Earth, one of them at the time of another, and one on the Moon. -/
def exImpacts : List (String × Place) :=
  [("EARTH", ⟨10, 1, 3⟩), ("MOON", ⟨20, 2, 1⟩), ("EARTH", ⟨30, 3, 2⟩), ("EARTH", ⟨40, 4, 2⟩)]

/-- The map of the example. -/
def exMap : Map :=
  ⟨(30, 3), [0, 1440], [⟨[⟨30, 3, 2⟩], [0], [0]⟩, ⟨[⟨30, 3, 2⟩, ⟨40, 4, 2⟩], [0, 0], [0, 0]⟩,
    ⟨[⟨30, 3, 2⟩, ⟨40, 4, 2⟩, ⟨10, 1, 3⟩], [0, 0, 1440], [0, 720, 1440]⟩]⟩

theorem ex_corridor : corridor Prod.fst Prod.snd exOrder exImpacts = .ok exMap := by decide +kernel

/-- C188: Not true that a frame shows all impacts up to the time of the last it shows: those at the same time come one by one. -/
theorem C188_ties_false : ¬ ∀ (order : List Place → List Place), Sorting order → ∀ (impacts : List (String × Place)) (m : Map),
    corridor Prod.fst Prod.snd order impacts = .ok m → ∀ f ∈ m.frames, ∀ p ∈ f.places, ∀ s ∈ impacts, s.1 = "EARTH" → s.2.mjd ≤ p.mjd →
    s.2 ∈ f.places := by
  intro h
  exact absurd (h exOrder sorting_ex exImpacts exMap ex_corridor) (by decide +kernel)

end Verif.Viz.CorridorProps
