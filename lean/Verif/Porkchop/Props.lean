import Verif.Porkchop.Lemmas
import Verif.Lambert.Props

/-! # C105: the grid of transfers behind a porkchop plot -/

namespace Verif.Porkchop.Props

open Classical Verif Sched Verif.Univ.Props

/-! ## Specification -/

/-- The inputs agree: same frame, at least one row each, and one origin throughout. -/
def Valid (dep arr : Bodies) : Prop :=
  dep.frame = arr.frame ∧ dep.rows ≠ [] ∧ arr.rows ≠ [] ∧ ∃ o, ∀ b ∈ dep.rows ++ arr.rows, b.origin = o

/-- The first time is not after the second: days, then nanoseconds of the day. -/
def NotAfter (a b : Body) : Prop := a.days < b.days ∨ a.days = b.days ∧ a.nanos ≤ b.nanos

/-- The instant of a row as days of TAI, for the two scales TAI and TT = TAI + 32.184 s. -/
def tai (scale : String) (b : Body) : Option ℚ :=
  if scale = "tai" then some (b.days + b.nanos / 86400000000000)
  else if scale = "tt" then some (b.days + (b.nanos - 32184000000) / 86400000000000)
  else none

theorem origin_head {l : List Body} (h : l ≠ []) : ∃ b ∈ l, (l.map Body.origin)[0]? = some b.origin := by
  cases l with
  | nil => exact absurd rfl h
  | cons b l => exact ⟨b, by simp, rfl⟩

theorem uniq_len_one {l : List String} : (uniq l).length = 1 ↔ l ≠ [] ∧ ∀ a ∈ l, ∀ b ∈ l, a = b := by
  constructor
  · intro h
    obtain ⟨x, hx⟩ := List.length_eq_one_iff.mp h
    have hm : ∀ a ∈ l, a = x := by
      intro a ha
      have := (mem_uniq l a).mpr ha
      rw [hx] at this
      simpa using this
    refine ⟨fun h0 => ?_, fun a ha b hb => (hm a ha).trans (hm b hb).symm⟩
    rw [h0] at h
    simp [uniq] at h
  · rintro ⟨h0, h1⟩
    obtain ⟨x, hx⟩ := List.exists_mem_of_ne_nil l h0
    have hsub : ∀ a ∈ uniq l, a = x := fun a ha => h1 a ((mem_uniq l a).mp ha) x hx
    have hmx : x ∈ uniq l := (mem_uniq l x).mpr hx
    have hnd := nodup_uniq l
    rcases hu : uniq l with _ | ⟨a, _ | ⟨b, m⟩⟩
    · rw [hu] at hmx; simp at hmx
    · rfl
    · rw [hu] at hnd hsub
      have e1 := hsub a (by simp)
      have e2 := hsub b (by simp)
      rw [e1, e2] at hnd
      simp at hnd

theorem valid_iff {dep arr : Bodies} : Valid dep arr ↔ dep.frame = arr.frame ∧ (uniq (dep.rows.map Body.origin)).length = 1 ∧
    (uniq (arr.rows.map Body.origin)).length = 1 ∧ (dep.rows.map Body.origin)[0]? = (arr.rows.map Body.origin)[0]? := by
  unfold Valid
  rw [uniq_len_one, uniq_len_one]
  constructor
  · rintro ⟨h1, h2, h3, o, ho⟩
    have hd : ∀ x ∈ dep.rows.map Body.origin, x = o := by
      intro x hx
      obtain ⟨b, hb, rfl⟩ := List.mem_map.mp hx
      exact ho b (List.mem_append_left _ hb)
    have ha : ∀ x ∈ arr.rows.map Body.origin, x = o := by
      intro x hx
      obtain ⟨b, hb, rfl⟩ := List.mem_map.mp hx
      exact ho b (List.mem_append_right _ hb)
    obtain ⟨b, hb, hb'⟩ := origin_head h2
    obtain ⟨c, hc, hc'⟩ := origin_head h3
    refine ⟨h1, ⟨by simpa using h2, fun x hx y hy => (hd x hx).trans (hd y hy).symm⟩,
      ⟨by simpa using h3, fun x hx y hy => (ha x hx).trans (ha y hy).symm⟩, ?_⟩
    rw [hb', hc', ho b (List.mem_append_left _ hb), ho c (List.mem_append_right _ hc)]
  · rintro ⟨h1, ⟨h2, hd⟩, ⟨h3, ha⟩, h4⟩
    have h2' : dep.rows ≠ [] := by simpa using h2
    have h3' : arr.rows ≠ [] := by simpa using h3
    obtain ⟨b, hb, hb'⟩ := origin_head h2'
    obtain ⟨c, hc, hc'⟩ := origin_head h3'
    rw [hb', hc', Option.some.injEq] at h4
    refine ⟨h1, h2', h3', b.origin, fun x hx => ?_⟩
    rcases List.mem_append.mp hx with hx | hx
    · exact hd _ (List.mem_map_of_mem hx) _ (List.mem_map_of_mem hb)
    · rw [h4]
      exact ha _ (List.mem_map_of_mem hx) _ (List.mem_map_of_mem hc)

theorem generate_eq (P : Params) (pick : Nat → Nat) (maxProc : Option Nat) {dep arr : Bodies} (h : Valid dep arr) :
    generate P pick maxProc dep arr = if grid (byTime dep.rows) (byTime arr.rows) = [] then .ok Solutions.empty else
      solveAll P dep.frame pick maxProc ((grid (byTime dep.rows) (byTime arr.rows)).map Prod.fst)
        ((grid (byTime dep.rows) (byTime arr.rows)).map Prod.snd) := by
  obtain ⟨h1, h2, h3, h4⟩ := valid_iff.mp h
  unfold generate
  rw [if_neg (not_not.mpr h1), if_neg (not_not.mpr h2), if_neg (not_not.mpr h3), if_neg (not_not.mpr h4)]
  simp only [take_fst, take_snd, List.length_map, List.length_eq_zero_iff]

theorem sorted_grid (dep arr : List Body) : (grid (byTime dep) (byTime arr)).Perm (grid dep arr) :=
  grid_perm (sortBy_perm _ _) (sortBy_perm _ _)

theorem notAfter_iff (a b : Body) : (toLex (a.days, a.nanos) : ℤ ×ₗ ℤ) ≤ toLex (b.days, b.nanos) ↔ NotAfter a b := by
  rw [Prod.Lex.toLex_le_toLex]; rfl

theorem ok_rows {P : Params} {mu : ℝ} (hmu : P.mu = some mu) (pick : Nat → Nat) (maxProc : Option Nat) {dep arr : Bodies}
    (h : Valid dep arr) : ∃ S, generate P pick maxProc dep arr = .ok S ∧ S.rows.Perm ((grid dep.rows arr.rows).map (row P mu)) ∧
      (S.rows ≠ [] → S.frame = dep.frame) ∧
      (maxProc = none → S.rows = (grid (byTime dep.rows) (byTime arr.rows)).map (row P mu)) := by
  rw [generate_eq P pick maxProc h]
  have hg := (sorted_grid dep.rows arr.rows).map (row P mu)
  by_cases h0 : grid (byTime dep.rows) (byTime arr.rows) = []
  · rw [if_pos h0]
    rw [h0] at hg
    refine ⟨_, rfl, hg, fun h => absurd rfl h, fun _ => ?_⟩
    rw [h0]
    rfl
  · rw [if_neg h0]
    obtain ⟨rows, e1, e2, e3⟩ := solveAll_ok hmu dep.frame pick maxProc h0
    exact ⟨_, e1, e2.trans hg, fun _ => rfl, e3⟩

theorem refused {P : Params} (hm : P.mu = none) (pick : Nat → Nat) (maxProc : Option Nat) {dep arr : Bodies} (hv : Valid dep arr)
    (h0 : grid (byTime dep.rows) (byTime arr.rows) ≠ []) : generate P pick maxProc dep arr = .error .valueError := by
  rw [generate_eq P pick maxProc hv, if_neg h0]
  unfold solveAll
  have hw : ∀ d a, worker P dep.frame d a = .error .valueError := by
    intro d a
    unfold worker
    rw [hm]
  cases maxProc with
  | none => simp only [hw]
  | some m =>
    simp only [hw]
    obtain ⟨p, hp⟩ := List.exists_mem_of_ne_nil _ h0
    have hl : 0 < ((grid (byTime dep.rows) (byTime arr.rows)).map Prod.fst).length := by
      rw [List.length_map]; exact List.length_pos_of_mem hp
    rw [Chunk.rangeFrom_step hl (by norm_num), List.map_cons]
    generalize List.map _ (Chunk.rangeFrom _ _ _) = R
    generalize (Chunk.slice _ 0 100, Chunk.slice _ 0 100) = t
    obtain ⟨e, he⟩ := runTasks_error (work := fun _ : List Body × List Body => (.error .valueError : Except PyErr Solutions))
      (tasks := t :: R) (moreThan m) pick (List.mem_cons_self) ⟨_, rfl⟩
    obtain ⟨a, -, ha⟩ := gather_error_of he
    rw [he]
    simp only
    rw [← ha]

theorem grid_product (D A : List Body) :
    (grid D A).Perm ((D ×ˢ A).filter fun p => decide (mjd p.1 < mjd p.2)) := by
  have e1 : grid D A = ((A.flatMap fun a => D.map fun d => (d, a)).filter fun p => decide (mjd p.1 < mjd p.2)) := by
    unfold grid
    rw [List.filter_flatMap]
    congr 1
    funext a
    rw [List.filter_map]
    rfl
  rw [e1]
  refine List.Perm.filter _ ?_
  clear e1
  induction A with
  | nil => simp
  | cons a A ih =>
    rw [List.flatMap_cons]
    refine (ih.append_left _).trans ?_
    exact List.map_append_flatMap_perm D (fun d => (d, a)) fun d => A.map (Prod.mk d)

theorem valid_of_ok {P : Params} {pick : Nat → Nat} {maxProc : Option Nat} {dep arr : Bodies} {S : Solutions}
    (h : generate P pick maxProc dep arr = .ok S) : Valid dep arr := by
  rw [valid_iff]
  unfold generate at h
  split_ifs at h with a1 a2 a3 a4
  exact ⟨not_not.mp a1, not_not.mp a2, not_not.mp a3, not_not.mp a4⟩

/-- An answer is the empty table, or the propagation origin has a gravitational parameter. -/
theorem ok_cases {P : Params} {pick : Nat → Nat} {maxProc : Option Nat} {dep arr : Bodies} {S : Solutions}
    (h : generate P pick maxProc dep arr = .ok S) :
    (S = Solutions.empty ∧ grid dep.rows arr.rows = []) ∨ ∃ mu, P.mu = some mu := by
  cases hm : P.mu with
  | some mu => exact .inr ⟨mu, rfl⟩
  | none =>
    have hv := valid_of_ok h
    left
    by_cases h0 : grid (byTime dep.rows) (byTime arr.rows) = []
    · rw [generate_eq P pick maxProc hv, if_pos h0, Except.ok.injEq] at h
      have := sorted_grid dep.rows arr.rows
      rw [h0] at this
      exact ⟨h.symm, List.nil_perm.mp this⟩
    · rw [refused hm pick maxProc hv h0] at h
      cases h

/-! ## Theorems -/

/-- C105. The rows are, once each, the pairs of a departure row and an arrival row with the departure before the arrival, for any
number of workers and any order in which they finish. -/
theorem C105_pairs {P : Params} {pick : Nat → Nat} {maxProc : Option Nat} {dep arr : Bodies} {S : Solutions}
    (h : generate P pick maxProc dep arr = .ok S) :
    (S.rows.map fun s => (s.dep, s.arr)).Perm ((dep.rows ×ˢ arr.rows).filter fun p => decide (mjd p.1 < mjd p.2)) ∧
    (S.rows ≠ [] → S.frame = dep.frame ∧ S.frame = arr.frame) := by
  have hv := valid_of_ok h
  rcases ok_cases h with ⟨rfl, h0⟩ | ⟨mu, hm⟩
  · refine ⟨?_, fun hn => absurd rfl hn⟩
    have := grid_product dep.rows arr.rows
    rw [h0] at this
    exact this
  · obtain ⟨S', e1, e2, e3, -⟩ := ok_rows hm pick maxProc hv
    rw [h, Except.ok.injEq] at e1
    subst e1
    refine ⟨((e2.map fun s => (s.dep, s.arr)).trans ?_).trans (grid_product _ _), fun hn => ⟨e3 hn, (e3 hn).trans hv.1⟩⟩
    rw [List.map_map]
    exact List.Perm.of_eq ((List.map_congr_left fun p _ => rfl).trans (List.map_id _))

/-- C105. Without workers the rows come by arrival time; if no two arrival rows have the same time, by arrival time and then by
departure time. -/
theorem C105_order {P : Params} {pick : Nat → Nat} {dep arr : Bodies} {S : Solutions}
    (h : generate P pick none dep arr = .ok S) :
    (S.rows.Pairwise fun s t => NotAfter s.arr t.arr) ∧
    ((arr.rows.map fun a => (a.days, a.nanos)).Nodup → S.rows.Pairwise fun s t => s.arr = t.arr → NotAfter s.dep t.dep) := by
  have hv := valid_of_ok h
  rcases ok_cases h with ⟨rfl, h0⟩ | ⟨mu, hm⟩
  · exact ⟨List.Pairwise.nil, fun _ => List.Pairwise.nil⟩
  obtain ⟨S', e1, -, -, e4⟩ := ok_rows hm pick none hv
  rw [h, Except.ok.injEq] at e1
  subst e1
  rw [e4 rfl, List.pairwise_map, List.pairwise_map]
  have hd := sortBy_sorted (fun b : Body => (toLex (b.days, b.nanos) : ℤ ×ₗ ℤ)) dep.rows
  have ha := sortBy_sorted (fun b : Body => (toLex (b.days, b.nanos) : ℤ ×ₗ ℤ)) arr.rows
  simp only [notAfter_iff] at hd ha
  unfold grid
  rw [List.pairwise_flatMap, List.pairwise_flatMap]
  refine ⟨⟨fun a _ => ?_, ?_⟩, fun hn => ⟨fun a _ => ?_, ?_⟩⟩
  · rw [List.pairwise_map]
    exact List.pairwise_of_forall fun _ _ => .inr ⟨rfl, le_rfl⟩
  · refine List.Pairwise.imp (fun {a b} hab x hx y hy => ?_) ha
    obtain ⟨-, -, rfl⟩ := List.mem_map.mp hx
    obtain ⟨-, -, rfl⟩ := List.mem_map.mp hy
    exact hab
  · rw [List.pairwise_map]
    have h1 := List.Pairwise.sublist (List.filter_sublist (p := fun d => decide (mjd d < mjd a))) hd
    refine List.Pairwise.imp ?_ h1
    intro x y hab _
    exact hab
  · have hn' : ((byTime arr.rows).map fun a => (a.days, a.nanos)).Nodup :=
      (((sortBy_perm _ arr.rows).map _).nodup_iff).mpr hn
    unfold List.Nodup at hn'
    rw [List.pairwise_map] at hn'
    refine List.Pairwise.imp (fun {a b} hab x hx y hy => ?_) hn'
    obtain ⟨-, -, rfl⟩ := List.mem_map.mp hx
    obtain ⟨-, -, rfl⟩ := List.mem_map.mp hy
    intro he
    simp only [row] at he
    subst he
    exact absurd rfl hab

/-- C105. Every row has a positive time of flight and velocities that solve Lambert's problem for its two positions, with the
gravitational parameter of the propagation origin: unless the positions are in line with the origin, the two states have the same
angular momentum, energy and eccentricity vector, and the motion is prograde or retrograde as asked for. The characteristic energies are the
squared excess speeds over the bodies. -/
theorem C105_solution {P : Params} {mu : ℝ} (hP : P.mu = some mu) (hmu : 0 < mu) {pick : Nat → Nat} {maxProc : Option Nat} {dep arr : Bodies}
    {S : Solutions} (h : generate P pick maxProc dep arr = .ok S) {s : Solution} (hs : s ∈ S.rows) :
    0 < timeOfFlight s ∧
    s.v = Lambert.izzoLambert s.dep.r s.arr.r (timeOfFlight s) mu 0 P.prograde true P.maxIter P.tol P.tol ∧
    (V3.cross s.dep.r s.arr.r ≠ ⟨0, 0, 0⟩ → ∃ v1 v2, s.v = some (v1, v2) ∧
      V3.cross s.arr.r v2 = V3.cross s.dep.r v1 ∧ energy mu (s.arr.r, v2) = energy mu (s.dep.r, v1) ∧
      laplace mu (s.arr.r, v2) = laplace mu (s.dep.r, v1) ∧
      (P.prograde = true → 0 ≤ (V3.cross s.dep.r v1).z) ∧ (P.prograde = false → (V3.cross s.dep.r v1).z ≤ 0) ∧
      c3 s = some (V3.dot (V3.sub v1 s.dep.v) (V3.sub v1 s.dep.v), V3.dot (V3.sub v2 s.arr.v) (V3.sub v2 s.arr.v)) ∧
      ∃ w, vinf s = some w ∧ 0 ≤ w.1 ∧ 0 ≤ w.2 ∧ c3 s = some (w.1 ^ 2, w.2 ^ 2)) := by
  have hv := valid_of_ok h
  obtain ⟨S', e1, e2, -, -⟩ := ok_rows hP pick maxProc hv
  rw [h, Except.ok.injEq] at e1
  subst e1
  have hs' := e2.mem_iff.mp hs
  obtain ⟨p, hp, rfl⟩ := List.mem_map.mp hs'
  have hlt := (mem_grid.mp hp).2.2
  have ht : 0 < timeOfFlight (row P mu p) := sub_pos.mpr hlt
  refine ⟨ht, rfl, fun hc => ?_⟩
  obtain ⟨v, hv⟩ := Option.isSome_iff_exists.mp
    (Lambert.Props.C40_defined (mu := mu) (prograde := P.prograde) (lowPath := true) (maxiter := P.maxIter) (atol := P.tol) (rtol := P.tol)
      hc ht.le)
  have hc1 := Lambert.Props.C40_conic hmu hc hv
  have hc2 := Lambert.Props.C40_direction hmu hc hv
  have hrow : (row P mu p).v = some (v.1, v.2) := hv
  refine ⟨v.1, v.2, hrow, hc1.1, hc1.2.1, hc1.2.2, hc2.2.1, hc2.2.2, ?_, ?_⟩
  · unfold c3
    rw [hrow]
    simp only [Option.map_some, V3.norm_sq]
  · unfold vinf c3
    rw [hrow]
    exact ⟨_, rfl, V3.norm_nonneg _, V3.norm_nonneg _, rfl⟩

/-- C105. Workers change the order of the rows only: with them, for any order in which they finish, the result has the rows of the
serial one. -/
theorem C105_parallel {P : Params} {pick pick' : Nat → Nat} {m : Nat} {dep arr : Bodies} :
    (∀ S, generate P pick' none dep arr = .ok S →
      ∃ S', generate P pick (some m) dep arr = .ok S' ∧ S'.rows.Perm S.rows ∧ S'.frame = S.frame) ∧
    (∀ e, generate P pick' none dep arr = .error e → generate P pick (some m) dep arr = .error e) := by
  by_cases hv : Valid dep arr
  · by_cases h0 : grid (byTime dep.rows) (byTime arr.rows) = []
    · rw [generate_eq P pick (some m) hv, generate_eq P pick' none hv, if_pos h0, if_pos h0]
      exact ⟨fun S hS => ⟨S, hS, List.Perm.refl _, rfl⟩, fun e he => he⟩
    · cases hm : P.mu with
      | none =>
        rw [refused hm pick (some m) hv h0, refused hm pick' none hv h0]
        exact ⟨fun S hS => (by cases hS), fun e he => he⟩
      | some mu =>
        rw [generate_eq P pick (some m) hv, generate_eq P pick' none hv, if_neg h0, if_neg h0]
        obtain ⟨r1, a1, a2, -⟩ := solveAll_ok hm dep.frame pick (some m) h0
        obtain ⟨r2, b1, b2, -⟩ := solveAll_ok hm dep.frame pick' none h0
        rw [a1, b1]
        refine ⟨fun S hS => ?_, fun e he => (by cases he)⟩
        rw [Except.ok.injEq] at hS
        subst hS
        exact ⟨_, rfl, a2.trans b2.symm, rfl⟩
  · have key : ∀ pick maxProc, generate P pick maxProc dep arr = .error .assertionError := by
      intro pick maxProc
      rw [valid_iff] at hv
      unfold generate
      split_ifs with a1 a2 a3 a4 <;> first | rfl | exact absurd ⟨not_not.mp a1, not_not.mp a2, not_not.mp a3, not_not.mp a4⟩ hv
    rw [key, key]
    exact ⟨fun S hS => (by cases hS), fun e he => he⟩

/-- C105. The call is refused with AssertionError exactly if the frames differ, a table is empty or there is more than one origin;
otherwise with ValueError exactly if the propagation origin has no gravitational parameter and some departure is before some arrival.
If none is, the result is the empty table. -/
theorem C105_errors (P : Params) (pick : Nat → Nat) (maxProc : Option Nat) (dep arr : Bodies) :
    (¬ Valid dep arr → generate P pick maxProc dep arr = .error .assertionError) ∧
    (Valid dep arr → P.mu = none → (∃ d ∈ dep.rows, ∃ a ∈ arr.rows, mjd d < mjd a) →
      generate P pick maxProc dep arr = .error .valueError) ∧
    (Valid dep arr → (¬ ∃ d ∈ dep.rows, ∃ a ∈ arr.rows, mjd d < mjd a) → generate P pick maxProc dep arr = .ok ⟨"unspecified", []⟩) ∧
    (Valid dep arr → P.mu ≠ none → ∃ S, generate P pick maxProc dep arr = .ok S) := by
  have hg : grid (byTime dep.rows) (byTime arr.rows) = [] ↔ ¬ ∃ d ∈ dep.rows, ∃ a ∈ arr.rows, mjd d < mjd a := by
    rw [List.eq_nil_iff_forall_not_mem]
    constructor
    · rintro h ⟨d, hd, a, ha, hlt⟩
      exact h (d, a) ((sorted_grid dep.rows arr.rows).mem_iff.mpr (mem_grid.mpr ⟨hd, ha, hlt⟩))
    · intro h p hp
      obtain ⟨h1, h2, h3⟩ := mem_grid.mp ((sorted_grid dep.rows arr.rows).mem_iff.mp hp)
      exact h ⟨p.1, h1, p.2, h2, h3⟩
  refine ⟨fun hv => ?_, fun hv hm he => refused hm pick maxProc hv fun h0 => hg.mp h0 he, fun hv he => ?_, fun hv hm => ?_⟩
  · rw [valid_iff] at hv
    unfold generate
    split_ifs with a1 a2 a3 a4 <;> first | rfl | exact absurd ⟨not_not.mp a1, not_not.mp a2, not_not.mp a3, not_not.mp a4⟩ hv
  · rw [generate_eq P pick maxProc hv, if_pos (hg.mpr he)]
    rfl
  · obtain ⟨mu, hmu⟩ := Option.ne_none_iff_exists'.mp hm
    obtain ⟨S, e1, -⟩ := ok_rows hmu pick maxProc hv
    exact ⟨S, e1⟩

/-! ## What is not checked -/

/-- A grid with one departure and one arrival. -/
theorem single {P : Params} {mu : ℝ} (hm : P.mu = some mu) (pick : Nat → Nat) {f sd sa : String} {d a : Body} (ho : d.origin = a.origin)
    (hlt : mjd d < mjd a) : generate P pick none ⟨f, sd, [d]⟩ ⟨f, sa, [a]⟩ = .ok ⟨f, [row P mu (d, a)]⟩ := by
  have hv : Valid ⟨f, sd, [d]⟩ ⟨f, sa, [a]⟩ := by
    refine ⟨rfl, by simp, by simp, a.origin, ?_⟩
    intro b hb
    simp only [List.cons_append, List.nil_append, List.mem_cons, List.not_mem_nil, or_false] at hb
    rcases hb with rfl | rfl
    · exact ho
    · rfl
  have hg : grid (byTime [d]) (byTime [a]) = [(d, a)] := by
    unfold grid byTime sortBy
    simp [hlt]
  rw [generate_eq P pick none hv, hg, if_neg (by simp)]
  exact worker_ok hm f [(d, a)]

/-- A concrete departure and arrival. -/
noncomputable def dep0 : Body := ⟨"d", 60000, 0, "EARTH", ⟨1, 0, 0⟩, ⟨0, 1, 0⟩⟩
/-- See `dep0`. -/
noncomputable def arr0 : Body := ⟨"a", 60000, 10000000000, "EARTH", ⟨0, 1, 0⟩, ⟨-1, 0, 0⟩⟩

theorem dep_before : mjd dep0 < mjd arr0 := by
  unfold mjd dep0 arr0
  norm_num

/-- C105. Positions that refer to the Earth are accepted with the Sun as propagation origin: the row carries the Earth's vectors
unchanged, is solved with the Sun's gravitational parameter and is labelled with the Sun as its origin. -/
theorem C105_origin_false (mu : ℝ) (prograde : Bool) (pick : Nat → Nat) : ∃ (dep arr : Bodies) (S : Solutions) (s : Solution),
    (∀ b ∈ dep.rows ++ arr.rows, b.origin = "EARTH") ∧
    generate ⟨"SUN", some mu, prograde, 35, 1e-10⟩ pick none dep arr = .ok S ∧ s ∈ S.rows ∧ s.origin = "SUN" ∧
    s.dep ∈ dep.rows ∧ s.arr ∈ arr.rows := by
  refine ⟨⟨"ecliptic", "tdb", [dep0]⟩, ⟨"ecliptic", "tdb", [arr0]⟩, _, _, ?_, single rfl pick rfl dep_before, List.mem_singleton_self _,
    rfl, List.mem_singleton_self _, List.mem_singleton_self _⟩
  intro b hb
  simp only [List.cons_append, List.nil_append, List.mem_cons, List.not_mem_nil, or_false] at hb
  rcases hb with rfl | rfl <;> rfl

/-- C105. The time scales are not compared: a departure in TAI and an arrival in TT can be paired although the arrival is the earlier
instant. -/
theorem C105_scale_false (P : Params) (mu : ℝ) (hm : P.mu = some mu) (pick : Nat → Nat) :
    ∃ (dep arr : Bodies) (S : Solutions) (s : Solution) (x y : ℚ), generate P pick none dep arr = .ok S ∧ s ∈ S.rows ∧
      tai dep.scale s.dep = some x ∧ tai arr.scale s.arr = some y ∧ y < x := by
  refine ⟨⟨"ecliptic", "tai", [dep0]⟩, ⟨"ecliptic", "tt", [arr0]⟩, _, _, _, _, single hm pick rfl dep_before, List.mem_singleton_self _,
    rfl, rfl, ?_⟩
  simp only [row, dep0, arr0]
  norm_num

/-- Valid inputs exist, with and without a pair to solve. -/
example : Valid ⟨"ecliptic", "tdb", [dep0, arr0]⟩ ⟨"ecliptic", "tdb", [arr0]⟩ := by
  refine ⟨rfl, by simp, by simp, "EARTH", ?_⟩
  intro b hb
  simp only [List.cons_append, List.nil_append, List.mem_cons, List.not_mem_nil, or_false] at hb
  rcases hb with rfl | rfl | rfl <;> rfl

example : V3.cross dep0.r arr0.r ≠ ⟨0, 0, 0⟩ := by
  intro h
  have := congrArg V3.z h
  norm_num [V3.cross, dep0, arr0] at this

end Verif.Porkchop.Props
