import Verif.Eph2.Lemmas

/-! # Two-body ephemerides: the properties -/

namespace Verif.Eph2.Props

open Verif Sched Spec Chunk.Spec

section
variable {I S T M V C P : Type}

theorem map_arg (k : Kernel I S T M V C P) (f : S × T × S × M → Out V) (ps : List (Orb I S T C P × Obs I S)) :
    (ps.map (arg k)).map f = ps.map (predict k f) := by
  rw [List.map_map]; rfl

theorem numbers_ok (k : Kernel I S T M V C P) (f : S × T × S × M → Out V) (hF : Rowwise k.F f)
    (ps : List (Orb I S T C P × Obs I S)) (h0 : ps ≠ []) (hg : ∀ p ∈ ps, AllFinite k.finite (predict k f p)) :
    numbers k ps = .ok (ps.map (predict k f)) := by
  have hg' : ∀ o ∈ (ps.map (arg k)).map f, AllFinite k.finite o := by
    rw [map_arg]
    intro o ho
    obtain ⟨p, hp, rfl⟩ := List.mem_map.mp ho
    exact hg p hp
  unfold numbers Chunk.processInChunks
  rw [Chunk.range_pos (by omega)]
  have := loop_ok hF k.pad k.finite (ps.map fun p => (p.1.id, p.1.obj)) (ps.map (arg k)) (c := 2000) (by omega) hg' 0
    (List.replicate ps.length k.junk) (by omega) (by simp) (by simp)
  simp only [List.length_map] at this ⊢
  rw [show (2000 : Int).toNat = 2000 from rfl, this]
  simp only [ne_eq, not_true_eq_false, if_false]
  rw [map_arg]
  rw [(batch_finite (rows := ps.map (predict k f))).mpr (by rw [← map_arg]; exact hg') |>.1]
  simp only
  rw [if_neg]
  simpa using h0

theorem zip_ne {α β : Type} {as : List α} {bs : List β} (hl : as.length = bs.length) (h0 : as ≠ []) : as.zip bs ≠ [] := by
  cases as with
  | nil => exact absurd rfl h0
  | cons a as =>
    cases bs with
    | nil => simp at hl
    | cons b bs => simp

theorem numbers_error (k : Kernel I S T M V C P) (f : S × T × S × M → Out V) (hF : Rowwise k.F f)
    (ps : List (Orb I S T C P × Obs I S)) (hb : ∃ p ∈ ps, ¬ AllFinite k.finite (predict k f p)) :
    ∃ s e, s < ps.length ∧ (∃ q, s = q * 2000) ∧
      (∀ (j : Nat) p, j < s → ps[j]? = some p → AllFinite k.finite (predict k f p)) ∧
      (∃ o ∈ batch (ps.map (predict k f)) 2000 s, ¬ AllFinite k.finite o) ∧
      numbers k ps = .error e ∧
      BatchError k.finite (ps.map fun p => (p.1.id, p.1.obj)) (ps.map (predict k f))
        ((Chunk.paddedChunk k.pad (ps.map (arg k)) 2000 s).map fun a => a.2.1) 2000 s e := by
  have := loop_error hF k.pad k.finite (ps.map fun p => (p.1.id, p.1.obj)) (ps.map (arg k)) (c := 2000) (by omega) 0
    (List.replicate ps.length k.junk) (by omega) (by simp) (by simp) (by
      obtain ⟨p, hp, hn⟩ := hb
      refine ⟨predict k f p, ?_, hn⟩
      rw [List.drop_zero, map_arg]
      exact List.mem_map_of_mem hp)
  obtain ⟨s, e, _, ⟨q, hq⟩, h3, h4, h5, h6, h7⟩ := this
  rw [map_arg] at h4 h5 h7
  rw [List.length_map] at h3 h6
  refine ⟨s, e, h3, ⟨q, by omega⟩, ?_, h5, ?_, h7⟩
  · intro j p hj hp
    exact h4 j _ (by omega) hj (by rw [List.getElem?_map, hp]; rfl)
  · unfold numbers Chunk.processInChunks
    rw [Chunk.range_pos (by omega)]
    simp only [List.length_map] at h6 ⊢
    rw [show (2000 : Int).toNat = 2000 from rfl, h6]

/-! ## C31 -/

/-- For at least one pair, a table is returned exactly when every number of every row is finite, and then it carries the predictions of
the pairs in order; a single non-finite number anywhere makes the call fail. -/
theorem C31_no_silent_failure (k : Kernel I S T M V C P) (f : S × T × S × M → Out V) (hF : Rowwise k.F f)
    (wm wa : Bool) (orbits : List (Orb I S T C P)) (observers : List (Obs I S))
    (hl : orbits.length = observers.length) :
    (orbits ≠ [] → (∀ p ∈ orbits.zip observers, AllFinite k.finite (predict k f p)) →
      ∃ rows, serial k wm wa orbits observers = .ok rows ∧
        rows.map (fun r => (r.id, r.obj, r.time, r.code, r.out)) =
          (orbits.zip observers).map fun p => (p.1.id, p.1.obj, p.1.time, p.2.code, predict k f p)) ∧
    ((∃ p ∈ orbits.zip observers, ¬ AllFinite k.finite (predict k f p)) →
      ∃ e, serial k wm wa orbits observers = .error e) := by
  constructor
  · intro h0 hg
    refine ⟨assemble k wm wa (orbits.zip observers) ((orbits.zip observers).map (predict k f)), ?_, ?_⟩
    · unfold serial
      rw [if_neg (by omega), numbers_ok k f hF _ (zip_ne hl h0) hg]
    · unfold assemble
      simp only
      generalize orbits.zip observers = ps
      have key : ∀ (b1 b2 : Bool) (qs : List (Orb I S T C P × Obs I S)),
        List.map (fun r : Row I T V C => (r.id, r.obj, r.time, r.code, r.out)) (List.zipWith (fun p o =>
        ({ id := p.1.id, obj := p.1.obj, time := p.1.time, code := p.2.code, out := o
           cov := if b1 then .null else .matrix (k.transport (covArg k p) p.1.cov)
           mag := if b2 then p.1.phys.bind (k.mag o p.2) else none
           alpha := if wa then k.phase o p.2 else none } : Row I T V C)) qs (qs.map (predict k f))) =
        qs.map fun p => (p.1.id, p.1.obj, p.1.time, p.2.code, predict k f p) := by
        intro b1 b2 qs
        induction qs with
        | nil => rfl
        | cons q qs ih => simp only [List.map_cons, List.zipWith_cons_cons, ih]
      exact key _ _ ps
  · intro hb
    obtain ⟨s, e, _, _, _, _, h, _⟩ := numbers_error k f hF _ hb
    refine ⟨e, ?_⟩
    unfold serial
    rw [if_neg (by omega), h]

theorem pad_get {α : Type} (pad : α) (l : List α) (c s b : Nat) (hb : b < c) (hs : s + b < l.length) :
    (Chunk.paddedChunk pad l c s)[b]? = l[s + b]? := by
  rw [Chunk.paddedChunk_eq, List.getElem?_append_left (by rw [Chunk.slice_length]; omega), Chunk.slice_eq,
    List.getElem?_take, if_pos hb, List.getElem?_drop]

theorem batch_get (L : List (Out V)) (c s b : Nat) (hb : b < c) : (batch L c s)[b]? = L[s + b]? := by
  rw [batch, List.getElem?_take, if_pos hb, List.getElem?_drop]

theorem batch_len (L : List (Out V)) (c s : Nat) : (batch L c s).length = min c (L.length - s) := by simp [batch]

/-- The error for a non-finite light time names the first offending row, its ids and its time. The hypothesis says that a
row whose light time is finite is finite altogether, so that every failure is a light-time failure. -/
theorem C31_light_time (k : Kernel I S T M V C P) (f : S × T × S × M → Out V) (hF : Rowwise k.F f)
    (wm wa : Bool) (orbits : List (Orb I S T C P)) (observers : List (Obs I S))
    (hl : orbits.length = observers.length)
    (hlt : ∀ p ∈ orbits.zip observers, k.finite (predict k f p).lt = true → AllFinite k.finite (predict k f p))
    (hb : ∃ p ∈ orbits.zip observers, ¬ AllFinite k.finite (predict k f p)) :
    ∃ e, serial k wm wa orbits observers = .error (.inr e) ∧
      NamesFirst (orbits.zip observers) (fun p => ¬ AllFinite k.finite (predict k f p)) e := by
  obtain ⟨s, e, hs, _, hbefore, ⟨o, ho, hno⟩, hnum, hbe⟩ := numbers_error k f hF _ hb
  have hser : serial k wm wa orbits observers = .error e := by
    unfold serial
    rw [if_neg (by omega), hnum]
  generalize hps : orbits.zip observers = ps at *
  have hmem : ∀ o ∈ batch (ps.map (predict k f)) 2000 s, k.finite o.lt = true → AllFinite k.finite o := by
    intro o ho hf
    obtain ⟨p, hp, rfl⟩ := List.mem_map.mp (List.mem_of_mem_drop (List.mem_of_mem_take ho))
    exact hlt p hp hf
  have hnolt : firstNonFinite k.finite ((batch (ps.map (predict k f)) 2000 s).map Out.lt) ≠ none := by
    rw [Ne, firstNF_none]
    intro h
    exact hno (hmem o ho (h _ (List.mem_map_of_mem ho)))
  rcases hbe with ⟨bad, hbad, he⟩ | ⟨h, _⟩ | ⟨h, _⟩
  · have hbad' := hbad
    unfold firstNonFinite at hbad'
    obtain ⟨hlt', hnf, hfirst⟩ := List.findIdx?_eq_some_iff_getElem.mp hbad'
    have hlen : bad < min 2000 (ps.length - s) := by
      simpa [batch_len] using hlt'
    have h2000 : bad < 2000 := by omega
    have hsb : s + bad < ps.length := by omega
    obtain ⟨p, hp⟩ : ∃ p, ps[s + bad]? = some p := ⟨ps[s + bad], by rw [List.getElem?_eq_getElem hsb]⟩
    have hget : ∀ b, b < 2000 → ((batch (ps.map (predict k f)) 2000 s).map Out.lt)[b]? =
        (ps[s + b]?).map fun p => (predict k f p).lt := by
      intro b hb
      rw [List.getElem?_map, batch_get _ _ _ _ hb, List.getElem?_map, Option.map_map]
      rfl
    have hrep : e = .inr ⟨.lightTime, s + bad, p.1.id, p.1.obj, p.1.time, (predict k f p).lt⟩ := by
      rw [he]
      unfold report
      rw [List.getElem?_map, hp, List.getElem?_map, pad_get _ _ _ _ _ h2000 (by simpa using hsb), List.getElem?_map, hp,
        hget bad h2000, hp]
      rfl
    have hv : k.finite (predict k f p).lt = false := by
      have h1 := List.getElem?_eq_getElem hlt'
      rw [hget bad h2000, hp] at h1
      simp only [Option.map_some, Option.some.injEq] at h1
      rw [← h1] at hnf
      simpa using hnf
    refine ⟨_, by rw [hser, hrep], ⟨p, hp, ?_, rfl, rfl, rfl⟩, ?_⟩
    · intro h
      rw [h.1] at hv; cases hv
    · intro j q hj hq
      simp only at hj
      by_cases hjs : j < s
      · exact not_not.mpr (hbefore j q hjs hq)
      · have hjb : j - s < bad := by omega
        have h1 := hfirst (j - s) hjb
        have h2 := List.getElem?_eq_getElem (l := (batch (ps.map (predict k f)) 2000 s).map Out.lt)
          (i := j - s) (by omega)
        rw [hget (j - s) (by omega), show s + (j - s) = j by omega, hq] at h2
        simp only [Option.map_some, Option.some.injEq] at h2
        rw [← h2] at h1
        exact not_not.mpr (hlt q (List.mem_of_getElem? hq) (by simpa using h1))
  · exact absurd h hnolt
  · exact absurd h hnolt

theorem flat_first {finite : V → Bool} {g : Out V → Fin 6 → V} {rows : List (Out V)} {r : Nat} {o : Out V} {c : Fin 6}
    (ho : rows[r]? = some o) (hc : finite (g o c) = false) (hc' : ∀ i < c, finite (g o i) = true)
    (hr : ∀ (j : Nat) o', j < r → rows[j]? = some o' → ∀ i, finite (g o' i) = true) :
    firstNonFinite finite (flat g rows) = some (6 * r + c) := by
  induction rows generalizing r with
  | nil => simp at ho
  | cons a rows ih =>
    have hflat : flat g (a :: rows) = List.ofFn (g a) ++ flat g rows := by simp [flat]
    unfold firstNonFinite at ih ⊢
    rw [hflat, List.findIdx?_append]
    cases r with
    | zero =>
      simp only [List.getElem?_cons_zero, Option.some.injEq] at ho
      subst ho
      have : (List.ofFn (g a)).findIdx? (fun v => !finite v) = some c.val := by
        rw [List.findIdx?_eq_some_iff_getElem]
        refine ⟨by simp, by rw [List.getElem_ofFn]; simp only [Fin.eta, hc, Bool.not_false], ?_⟩
        intro j hj
        have := hc' ⟨j, by omega⟩ hj
        rw [List.getElem_ofFn, this]
        simp
      rw [this]
      simp
    | succ r =>
      have h0 : (List.ofFn (g a)).findIdx? (fun v => !finite v) = none := by
        rw [List.findIdx?_eq_none_iff]
        intro v hv
        obtain ⟨i, rfl⟩ := (List.mem_ofFn' _ _).mp hv
        simp [hr 0 a (by omega) rfl i]
      rw [h0, ih (by simpa using ho) (fun j o' hj hjo => hr (j + 1) o' (by omega) (by simpa using hjo))]
      simp only [Option.none_or, Option.map_some, List.length_ofFn, Option.some.injEq]
      omega

/-- What is reported when the light times are all finite but component `c` of the sky position of row `r` is the first
that is not (one batch): row `6 r + c`, or an IndexError if there is no such row. The row named is right only for
`r = 0, c = 0`. -/
theorem C31_state (k : Kernel I S T M V C P) (f : S × T × S × M → Out V) (hF : Rowwise k.F f)
    (wm wa : Bool) (orbits : List (Orb I S T C P)) (observers : List (Obs I S))
    (hl : orbits.length = observers.length) (hn : orbits.length ≤ 2000)
    (hlt : ∀ p ∈ orbits.zip observers, k.finite (predict k f p).lt = true)
    (r : Nat) (p : Orb I S T C P × Obs I S) (hp : (orbits.zip observers)[r]? = some p) (c : Fin 6)
    (hc : k.finite ((predict k f p).sph c) = false) (hc' : ∀ i < c, k.finite ((predict k f p).sph i) = true)
    (hr : ∀ (j : Nat) q, j < r → (orbits.zip observers)[j]? = some q → ∀ i, k.finite ((predict k f q).sph i) = true) :
    (∀ q, (orbits.zip observers)[6 * r + c.val]? = some q →
      serial k wm wa orbits observers =
        .error (.inr ⟨.ephemeris, 6 * r + c, q.1.id, q.1.obj, q.1.time, (predict k f q).lt⟩)) ∧
    (orbits.length ≤ 6 * r + c → serial k wm wa orbits observers = .error (.inl .indexError)) := by
  have hb : ∃ p ∈ orbits.zip observers, ¬ AllFinite k.finite (predict k f p) :=
    ⟨p, List.mem_of_getElem? hp, fun h => by rw [(h.2 c).1] at hc; cases hc⟩
  obtain ⟨s, e, hs, ⟨q0, hq0⟩, _, _, hnum, hbe⟩ := numbers_error k f hF _ hb
  have hser : serial k wm wa orbits observers = .error e := by
    unfold serial
    rw [if_neg (by omega), hnum]
  have hlen : (orbits.zip observers).length = orbits.length := by simp [hl]
  have hs0 : s = 0 := by omega
  subst hs0
  generalize hps : orbits.zip observers = ps at *
  have hbatch : batch (ps.map (predict k f)) 2000 0 = ps.map (predict k f) := by
    rw [batch, List.drop_zero, List.take_of_length_le (by simp; omega)]
  unfold BatchError at hbe
  rw [hbatch] at hbe
  have h1 : firstNonFinite k.finite ((ps.map (predict k f)).map Out.lt) = none := by
    rw [firstNF_none]
    intro v hv
    rw [List.map_map] at hv
    obtain ⟨q, hq, rfl⟩ := List.mem_map.mp hv
    exact hlt q hq
  have h2 : firstNonFinite k.finite (flat Out.sph (ps.map (predict k f))) = some (6 * r + c) := by
    apply flat_first (o := predict k f p) (by rw [List.getElem?_map, hp]; rfl) hc hc'
    intro j o' hj ho'
    rw [List.getElem?_map] at ho'
    cases hq : ps[j]? with
    | none => rw [hq] at ho'; simp at ho'
    | some q =>
      rw [hq] at ho'
      simp only [Option.map_some, Option.some.injEq] at ho'
      rw [← ho']
      exact hr j q hj hq
  have he : e = report .ephemeris (ps.map fun p => (p.1.id, p.1.obj)) 0 (6 * r + c)
      ((Chunk.paddedChunk k.pad (ps.map (arg k)) 2000 0).map fun a => a.2.1) ((ps.map (predict k f)).map Out.lt) := by
    rcases hbe with ⟨bad, hbad, _⟩ | ⟨_, bad, hbad, he⟩ | ⟨_, h, _⟩
    · rw [h1] at hbad; cases hbad
    · rw [h2, Option.some.injEq] at hbad
      rw [he, ← hbad]
    · rw [h2] at h; cases h
  constructor
  · intro q hq
    have hlt' : 6 * r + c.val < ps.length := (List.getElem?_eq_some_iff.mp hq).1
    rw [hser, he]
    unfold report
    rw [Nat.zero_add, List.getElem?_map, hq, List.getElem?_map,
      pad_get _ _ _ _ _ (by omega) (by simpa using hlt'), Nat.zero_add, List.getElem?_map, hq, List.getElem?_map,
      List.getElem?_map, hq]
    rfl
  · intro hge
    rw [hser, he]
    unfold report
    rw [Nat.zero_add, List.getElem?_eq_none (by simp; omega)]

/-! ### A small kernel for the concrete cases: numbers are integers, 99 stands for NaN. -/

/-- The observer position is subtracted, the light time is the orbit's epoch, covariances are multiplied by the state. -/
def toy : Kernel Nat Int Int Int Int Int Int where
  bary o := o.state + 1
  obsBary o _ := o.state
  mu := 1
  F l := l.map fun a => ⟨fun i => if i = 0 then a.1 - a.2.2.1 else 0, a.2.1, fun _ => a.1⟩
  finite v := decide (v ≠ 99)
  transport a c := c.map (· * a.1)
  mag _ _ p := some p
  phase _ _ := none
  pad := (0, 0, 0, 0)
  junk := ⟨fun _ => 0, 0, fun _ => 0⟩

/-- The kernel of `toy`, row by row. -/
def toyRow (a : Int × Int × Int × Int) : Out Int :=
  ⟨fun i => if i = 0 then a.1 - a.2.2.1 else 0, a.2.1, fun _ => a.1⟩

theorem toy_rowwise : Rowwise toy.F toyRow := by
  intro l
  refine ⟨by simp [toy], ?_⟩
  intro i a h
  simp only [toy, List.getElem?_map, h]
  rfl

def orb (i : Nat) (s t : Int) : Orb Nat Int Int Int Int := ⟨i, i, s, t, none, none⟩
def obs (s : Int) : Obs Nat Int := ⟨7, s⟩

/-- The full claim fails: of eight pairs the second has a non-finite sky position, the error names row 6. -/
theorem C31_state_false :
    ¬ ∀ (k : Kernel Nat Int Int Int Int Int Int) (f : Int × Int × Int × Int → Out Int), Rowwise k.F f →
        ∀ (orbits : List (Orb Nat Int Int Int Int)) (observers : List (Obs Nat Int)),
          orbits.length = observers.length →
          (∃ p ∈ orbits.zip observers, ¬ AllFinite k.finite (predict k f p)) →
          ∃ e, serial k false false orbits observers = .error (.inr e) ∧
            NamesFirst (orbits.zip observers) (fun p => ¬ AllFinite k.finite (predict k f p)) e := by
  intro h
  let os := [orb 0 0 0, orb 1 100 1, orb 2 0 2, orb 3 0 3, orb 4 0 4, orb 5 0 5, orb 6 0 6, orb 7 0 7]
  let bs := [obs 0, obs 2, obs 0, obs 0, obs 0, obs 0, obs 0, obs 0]
  obtain ⟨e, he, hn⟩ := h toy toyRow toy_rowwise os bs rfl ⟨(orb 1 100 1, obs 2), by simp [os, bs], by
    intro h; have := (h.2 0).1; revert this; decide⟩
  have h6 := (C31_state toy toyRow toy_rowwise false false os bs rfl (by decide) (by decide) 1
    (orb 1 100 1, obs 2) rfl 0 (by decide) (by decide) (by
      intro j q hj hq
      have : j = 0 := by omega
      subst this
      simp only [os, bs, List.zip_cons_cons, List.getElem?_cons_zero, Option.some.injEq] at hq
      subst hq
      decide)).1 (orb 6 0 6, obs 0) rfl
  rw [h6] at he
  injection he with he
  injection he with he
  obtain ⟨p, hp, hbad, _⟩ := hn.here
  rw [← he] at hp
  simp only [os, bs] at hp
  have : p = (orb 6 0 6, obs 0) := by
    have h' : some (orb 6 0 6, obs 0) = some p := hp
    injection h' with h'
    exact h'.symm
  rw [this] at hbad
  exact hbad (by unfold AllFinite; decide)

/-- With two pairs the lookup itself fails and the caller sees an IndexError. -/
theorem C31_index_error :
    (match serial toy false false [orb 0 0 0, orb 1 100 1] [obs 0, obs 2] with
      | .error (.inl e) => some e
      | _ => none) = some .indexError := by
  have := (C31_state toy toyRow toy_rowwise false false [orb 0 0 0, orb 1 100 1] [obs 0, obs 2] rfl (by decide)
    (by decide) 1 (orb 1 100 1, obs 2) rfl 0 (by decide) (by decide) (by
      intro j q hj hq
      have : j = 0 := by omega
      subst this
      simp only [List.zip_cons_cons, List.getElem?_cons_zero, Option.some.injEq] at hq
      subst hq
      decide)).2 (by decide)
  rw [this]

/-- The hypotheses of `C31_light_time` hold for a table whose third pair has a non-finite light time. -/
example : ∃ e, serial toy false false [orb 0 0 0, orb 1 5 1, orb 2 3 99] [obs 0, obs 2, obs 4] = .error (.inr e) ∧
    NamesFirst ([orb 0 0 0, orb 1 5 1, orb 2 3 99].zip [obs 0, obs 2, obs 4])
      (fun p => ¬ AllFinite toy.finite (predict toy toyRow p)) e :=
  C31_light_time toy toyRow toy_rowwise false false _ _ rfl
    (by unfold AllFinite; decide) ⟨(orb 2 3 99, obs 4), by simp, by unfold AllFinite; decide⟩

/-! ## C79: covariance -/

/-- When the orbits are stored in the barycentric ecliptic system, every covariance is transported at exactly the state
the prediction is made from. -/
theorem C79_covariance (k : Kernel I S T M V C P) (f : S × T × S × M → Out V) (hF : Rowwise k.F f)
    (hT : ∀ a, k.transport a none = none) (wm wa : Bool) (orbits : List (Orb I S T C P)) (observers : List (Obs I S))
    (hl : orbits.length = observers.length) (h0 : orbits ≠ []) (hbary : ∀ o ∈ orbits, k.bary o = o.state)
    (hg : ∀ p ∈ orbits.zip observers, AllFinite k.finite (predict k f p)) :
    ∃ rows, serial k wm wa orbits observers = .ok rows ∧
      rows.map (fun r => r.cov.toMatrix) = (orbits.zip observers).map fun p =>
        k.transport (k.bary p.1, p.1.time, k.obsBary p.2 p.1.time, k.mu) p.1.cov := by
  refine ⟨_, by unfold serial; rw [if_neg (by omega), numbers_ok k f hF _ (zip_ne hl h0) hg], ?_⟩
  unfold assemble
  simp only
  have hmem : ∀ p ∈ orbits.zip observers, k.bary p.1 = p.1.state := fun p hp => hbary _ (List.of_mem_zip hp).1
  generalize orbits.zip observers = ps at hmem
  have key : ∀ (b2 : Bool) (qs : List (Orb I S T C P × Obs I S)), (∀ q ∈ qs, q ∈ ps) →
      List.map (fun r : Row I T V C => r.cov.toMatrix) (List.zipWith (fun p o =>
      ({ id := p.1.id, obj := p.1.obj, time := p.1.time, code := p.2.code, out := o
         cov := if ps.all (fun p => p.1.cov.isNone) then .null else .matrix (k.transport (covArg k p) p.1.cov)
         mag := if b2 then p.1.phys.bind (k.mag o p.2) else none
         alpha := if wa then k.phase o p.2 else none } : Row I T V C)) qs (qs.map (predict k f))) =
      qs.map fun p => k.transport (k.bary p.1, p.1.time, k.obsBary p.2 p.1.time, k.mu) p.1.cov := by
    intro b2 qs
    induction qs with
    | nil => intro _; rfl
    | cons q qs ih =>
      intro hq
      simp only [List.map_cons, List.zipWith_cons_cons, ih fun x hx => hq x (List.mem_cons_of_mem _ hx)]
      congr 1
      have hqm := hq q (by simp)
      split
      · rename_i hall
        have := List.all_eq_true.mp hall q hqm
        rw [Option.isNone_iff_eq_none.mp this, hT]; rfl
      · rw [hmem q hqm]; rfl
  exact key _ ps fun _ h => h

/-- For orbits stored about another origin the claim fails: the covariance is transported at the stored state although
the prediction uses the barycentric one. -/
theorem C79_covariance_false :
    ¬ ∀ (k : Kernel Nat Int Int Int Int Int Int) (f : Int × Int × Int × Int → Out Int), Rowwise k.F f →
        (∀ a, k.transport a none = none) →
        ∀ (orbits : List (Orb Nat Int Int Int Int)) (observers : List (Obs Nat Int)),
          orbits.length = observers.length → orbits ≠ [] →
          (∀ p ∈ orbits.zip observers, AllFinite k.finite (predict k f p)) →
          ∃ rows, serial k false false orbits observers = .ok rows ∧
            rows.map (fun r => r.cov.toMatrix) = (orbits.zip observers).map fun p =>
              k.transport (k.bary p.1, p.1.time, k.obsBary p.2 p.1.time, k.mu) p.1.cov := by
  intro h
  let os : List (Orb Nat Int Int Int Int) := [⟨0, 0, 4, 0, some 10, none⟩]
  have hg : ∀ p ∈ os.zip [obs 1], AllFinite toy.finite (predict toy toyRow p) := by unfold AllFinite; decide
  obtain ⟨rows, hr, hc⟩ := h toy toyRow toy_rowwise (fun _ => rfl) os [obs 1] rfl (by decide) hg
  unfold serial at hr
  rw [if_neg (by decide), numbers_ok toy toyRow toy_rowwise _ (by decide) hg] at hr
  injection hr with hr
  rw [← hr] at hc
  revert hc
  decide

/-- A table meeting the hypotheses of `C79_covariance` with a covariance. -/
example : ∃ rows, serial { toy with bary := Orb.state } false false
      ([⟨0, 0, 4, 0, some 10, none⟩, ⟨1, 1, 5, 0, none, none⟩] : List (Orb Nat Int Int Int Int)) [obs 1, obs 2] = .ok rows ∧
    rows.map (fun r => r.cov.toMatrix) = [some 40, none] := by
  obtain ⟨rows, h1, h2⟩ := C79_covariance { toy with bary := Orb.state } toyRow toy_rowwise (fun _ => rfl) false
    false ([⟨0, 0, 4, 0, some 10, none⟩, ⟨1, 1, 5, 0, none, none⟩] : List (Orb Nat Int Int Int Int)) [obs 1, obs 2] rfl (by decide)
    (fun _ _ => rfl) (by unfold AllFinite; decide)
  exact ⟨rows, h1, by rw [h2]; decide⟩

/-! ## C80: workers -/

/-- What the table of a list of pairs shows. -/
def shown (k : Kernel I S T M V C P) (f : S × T × S × M → Out V) (wm wa : Bool) (p : Orb I S T C P × Obs I S) :
    I × I × T × I × Out V × Option C × Option V × Option V :=
  (p.1.id, p.1.obj, p.1.time, p.2.code, predict k f p, k.transport (covArg k p) p.1.cov,
    if wm then p.1.phys.bind (k.mag (predict k f p) p.2) else none, if wa then k.phase (predict k f p) p.2 else none)

theorem view_assemble (k : Kernel I S T M V C P) (f : S × T × S × M → Out V) (hT : ∀ a, k.transport a none = none)
    (wm wa : Bool) (ps : List (Orb I S T C P × Obs I S)) :
    (assemble k wm wa ps (ps.map (predict k f))).map rowView = ps.map (shown k f wm wa) := by
  unfold assemble
  simp only
  have key : ∀ qs : List (Orb I S T C P × Obs I S), (∀ q ∈ qs, q ∈ ps) →
      List.map rowView (List.zipWith (fun p o =>
      ({ id := p.1.id, obj := p.1.obj, time := p.1.time, code := p.2.code, out := o
         cov := if ps.all (fun p => p.1.cov.isNone) then .null else .matrix (k.transport (covArg k p) p.1.cov)
         mag := if wm && ps.any (fun p => p.1.phys.isSome) then p.1.phys.bind (k.mag o p.2) else none
         alpha := if wa then k.phase o p.2 else none } : Row I T V C)) qs (qs.map (predict k f))) =
      qs.map (shown k f wm wa) := by
    intro qs
    induction qs with
    | nil => intro _; rfl
    | cons q qs ih =>
      intro hq
      simp only [List.map_cons, List.zipWith_cons_cons, ih fun x hx => hq x (List.mem_cons_of_mem _ hx)]
      congr 1
      have hqm := hq q (by simp)
      simp only [rowView, shown]
      have hcov : (if ps.all (fun p => p.1.cov.isNone) then (CovOut.null : CovOut C)
          else .matrix (k.transport (covArg k q) q.1.cov)).toMatrix = k.transport (covArg k q) q.1.cov := by
        split
        · rename_i hall
          have := List.all_eq_true.mp hall q hqm
          rw [Option.isNone_iff_eq_none.mp this, hT]; rfl
        · rfl
      have hmag : (if (wm && ps.any fun p => p.1.phys.isSome) = true then q.1.phys.bind (k.mag (predict k f q) q.2)
          else none) = if wm = true then q.1.phys.bind (k.mag (predict k f q) q.2) else none := by
        cases wm
        · rfl
        · simp only [Bool.true_and, if_true]
          split
          · rfl
          · rename_i hany
            cases hq' : q.1.phys with
            | none => rfl
            | some v => exact absurd (List.any_eq_true.mpr ⟨q, hqm, by rw [hq']; rfl⟩) hany
      rw [hcov, hmag]
  exact key ps fun _ h => h

theorem take_zip {α β : Type} (as : List α) (bs : List β) (h : as.length = bs.length) (idx : List Nat) :
    (take as idx).zip (take bs idx) = take (as.zip bs) idx ∧ (take as idx).length = (take bs idx).length := by
  unfold take
  induction idx with
  | nil => exact ⟨rfl, rfl⟩
  | cons i idx ih =>
    by_cases hi : i < as.length
    · have h1 : as[i]? = some as[i] := List.getElem?_eq_getElem hi
      have h2 : bs[i]? = some (bs[i]'(by omega)) := List.getElem?_eq_getElem (by omega)
      have h3 : (as.zip bs)[i]? = some (as[i], bs[i]'(by omega)) := by
        rw [List.getElem?_zip_eq_some]; exact ⟨h1, h2⟩
      rw [List.filterMap_cons_some h1, List.filterMap_cons_some h2, List.filterMap_cons_some h3]
      exact ⟨by rw [List.zip_cons_cons, ih.1], by rw [List.length_cons, List.length_cons, ih.2]⟩
    · have h1 : as[i]? = none := List.getElem?_eq_none (by omega)
      have h2 : bs[i]? = none := List.getElem?_eq_none (by omega)
      have h3 : (as.zip bs)[i]? = none := List.getElem?_eq_none (by simp; omega)
      rw [List.filterMap_cons_none h1, List.filterMap_cons_none h2, List.filterMap_cons_none h3]
      exact ih

/-- For every chunk size, number of processes and completion order the call returns one row per pair, in order, with the
prediction, covariance and photometry of that pair: the same rows as in one process. -/
theorem C80_schedule (k : Kernel I S T M V C P) (f : S × T × S × M → Out V) (hF : Rowwise k.F f)
    (hT : ∀ a, k.transport a none = none) (pick : Nat → Nat) (wm wa : Bool) (orbits : List (Orb I S T C P))
    (observers : List (Obs I S)) (maxProc chunk : Int) (hc : 0 < chunk) (hl : orbits.length = observers.length) (h0 : orbits ≠ [])
    (hg : ∀ p ∈ orbits.zip observers, AllFinite k.finite (predict k f p)) :
    ∃ rows rows₁, generate k pick wm wa orbits observers maxProc chunk = .ok rows ∧
      serial k wm wa orbits observers = .ok rows₁ ∧ rows.map rowView = rows₁.map rowView ∧
      rows.map (fun r => (r.id, r.obj, r.time, r.code, r.out)) =
        (orbits.zip observers).map fun p => (p.1.id, p.1.obj, p.1.time, p.2.code, predict k f p) := by
  have hser : ∀ (os : List (Orb I S T C P)) (bs : List (Obs I S)), os.length = bs.length → os.zip bs ≠ [] →
      (∀ p ∈ os.zip bs, AllFinite k.finite (predict k f p)) →
      serial k wm wa os bs = .ok (assemble k wm wa (os.zip bs) ((os.zip bs).map (predict k f))) := by
    intro os bs h1 h0 h2
    unfold serial
    rw [if_neg (by omega), numbers_ok k f hF _ h0 h2]
  have hproj : ∀ rows : List (Row I T V C), rows.map rowView = (orbits.zip observers).map (shown k f wm wa) →
      rows.map (fun r => (r.id, r.obj, r.time, r.code, r.out)) =
        (orbits.zip observers).map fun p => (p.1.id, p.1.obj, p.1.time, p.2.code, predict k f p) := by
    intro rows h
    have := congrArg (List.map fun (v : I × I × T × I × Out V × Option C × Option V × Option V) =>
      (v.1, v.2.1, v.2.2.1, v.2.2.2.1, v.2.2.2.2.1)) h
    rw [List.map_map, List.map_map] at this
    exact this
  have hview := view_assemble k f hT wm wa (orbits.zip observers)
  unfold generate
  by_cases hm : maxProc ≤ 1
  · rw [if_pos hm]
    exact ⟨_, _, hser _ _ hl (zip_ne hl h0) hg, hser _ _ hl (zip_ne hl h0) hg, rfl, hproj _ hview⟩
  · have hzl : (orbits.zip observers).length = observers.length := by simp [hl]
    rw [if_neg hm, if_neg (by omega), ← hzl, chunks_range (orbits.zip observers) hc]
    simp only
    have hcn : 0 < chunk.toNat := by omega
    have hz0 := zip_ne hl h0
    generalize hps : orbits.zip observers = ps at *
    let h : Nat → List Nat := fun i => ((List.range ps.length).drop i).take chunk.toNat
    let R : List (Orb I S T C P × Obs I S) → List (Row I T V C) := fun qs =>
      assemble k wm wa qs (qs.map (predict k f))
    have hwork : ∀ idx ∈ (Chunk.rangeFrom 0 ps.length chunk.toNat).map
        (fun i => ((List.range ps.length).drop i).take chunk.toNat),
        work k wm wa orbits observers idx = .ok (idx.headD 0, R (take ps idx)) := by
      intro idx hidx
      obtain ⟨z1, z2⟩ := take_zip orbits observers hl idx
      unfold work
      rw [hser _ _ z2 (by
        rw [z1, hps]
        obtain ⟨i, hi, rfl⟩ := List.mem_map.mp hidx
        have hlt := (Chunk.mem_rangeFrom hcn hi).2
        have hmem : i ∈ ((List.range ps.length).drop i).take chunk.toNat := by
          rw [List.mem_iff_getElem?]
          refine ⟨0, ?_⟩
          rw [List.getElem?_take, if_pos hcn, List.getElem?_drop, Nat.add_zero, List.getElem?_range hlt]
        intro hnil
        have hin : ps[i] ∈ take ps (((List.range ps.length).drop i).take chunk.toNat) := by
          unfold take
          exact List.mem_filterMap.mpr ⟨i, hmem, List.getElem?_eq_getElem hlt⟩
        rw [hnil] at hin
        cases hin) (by
        rw [z1, hps]
        exact fun p hp => hg p (Sched.Props.take_chunk_mem _ _ hp)), z1, hps]
    rw [runTasks_ok (g := fun idx => (idx.headD 0, R (take ps idx))) _ _ (fun idx hi => hwork idx hi)]
    simp only
    refine ⟨_, _, rfl, by rw [hser _ _ hl (by rw [hps]; exact hz0) (by rw [hps]; exact hg), hps], ?_⟩
    have hmain : (List.flatMap Prod.snd (sortBy Prod.fst (List.foldl dictSet []
        (List.map (fun idx => (idx.headD 0, R (take ps idx)))
        (runAll (atLeast maxProc.toNat) pick ((Chunk.rangeFrom 0 ps.length chunk.toNat).map
          (fun i => ((List.range ps.length).drop i).take chunk.toNat))).done)))).map rowView =
        ps.map (shown k f wm wa) := by
      have hmap : (Chunk.rangeFrom 0 ps.length chunk.toNat).map
          (fun i => ((List.range ps.length).drop i).take chunk.toNat) =
          (Chunk.rangeFrom 0 ps.length chunk.toNat).map h := rfl
      rw [hmap, runAll_map, List.map_map]
      have hd := runAll_perm (atLeast maxProc.toNat) pick (Chunk.rangeFrom 0 ps.length chunk.toNat)
      have hhead : ∀ i ∈ (runAll (atLeast maxProc.toNat) pick (Chunk.rangeFrom 0 ps.length chunk.toNat)).done,
          ((fun idx : List Nat => (idx.headD 0, R (take ps idx))) ∘ h) i = (i, R (take ps (h i))) := by
        intro i hi
        have hlt := (Chunk.mem_rangeFrom hcn (hd.mem_iff.mp hi)).2
        simp only [Function.comp, h]
        congr 1
        rw [List.headD_eq_head?_getD, List.head?_take, if_neg (by omega), List.head?_drop,
          List.getElem?_range hlt]
        rfl
      rw [List.map_congr_left hhead, dict_sorted _ (rangeFrom_sorted _ _ hcn 0) (fun i => R (take ps (h i))) _ hd]
      rw [List.flatMap_map, List.map_flatMap]
      have hcongr : ∀ i, (R (take ps (h i))).map rowView = (take ps (h i)).map (shown k f wm wa) :=
        fun i => view_assemble k f hT wm wa _
      simp only [hcongr]
      conv_rhs => rw [← chunks_take_flatten ps hcn]
      rw [List.flatMap_def, List.map_flatten, List.map_map]
      rfl
    exact ⟨by rw [hmain, hview], hproj _ hmain⟩

/-- A non-finite number makes the call fail for every chunk size, number of processes and completion order. -/
theorem C80_failure (k : Kernel I S T M V C P) (f : S × T × S × M → Out V) (hF : Rowwise k.F f) (pick : Nat → Nat)
    (wm wa : Bool) (orbits : List (Orb I S T C P)) (observers : List (Obs I S)) (maxProc chunk : Int) (hc : 0 < chunk)
    (hl : orbits.length = observers.length)
    (hb : ∃ p ∈ orbits.zip observers, ¬ AllFinite k.finite (predict k f p)) :
    ∃ e, generate k pick wm wa orbits observers maxProc chunk = .error e := by
  unfold generate
  by_cases hm : maxProc ≤ 1
  · rw [if_pos hm]
    exact (C31_no_silent_failure k f hF wm wa orbits observers hl).2 hb
  · have hzl : (orbits.zip observers).length = observers.length := by simp [hl]
    rw [if_neg hm, if_neg (by omega), ← hzl, chunks_range (orbits.zip observers) hc]
    simp only
    have hcn : 0 < chunk.toNat := by omega
    obtain ⟨p, hp, hb⟩ := hb
    have hfl := chunks_take_flatten (orbits.zip observers) hcn
    have hp' : p ∈ ((Chunk.rangeFrom 0 (orbits.zip observers).length chunk.toNat).map fun i =>
      take (orbits.zip observers) (((List.range (orbits.zip observers).length).drop i).take chunk.toNat)).flatten := by
      rw [hfl]; exact hp
    obtain ⟨qs, hqs, hpq⟩ := List.mem_flatten.mp hp'
    obtain ⟨i, hi, rfl⟩ := List.mem_map.mp hqs
    generalize hidx : ((List.range (orbits.zip observers).length).drop i).take chunk.toNat = idx at hpq
    obtain ⟨z1, z2⟩ := take_zip orbits observers hl idx
    obtain ⟨e', he'⟩ := (C31_no_silent_failure k f hF wm wa (take orbits idx) (take observers idx) z2).2
      ⟨p, by rw [z1]; exact hpq, hb⟩
    have hwork : work k wm wa orbits observers idx = .error e' := by
      unfold work
      rw [he']
    obtain ⟨e, he⟩ := runTasks_error (work := work k wm wa orbits observers) (atLeast maxProc.toNat) pick
      (tasks := (Chunk.rangeFrom 0 (orbits.zip observers).length chunk.toNat).map fun i =>
        ((List.range (orbits.zip observers).length).drop i).take chunk.toNat)
      (List.mem_map.mpr ⟨i, hi, hidx⟩) ⟨_, hwork⟩
    exact ⟨e, by rw [he]⟩

/-- Tables of different length are refused in both modes; a chunk size of zero is refused with workers. -/
theorem C80_edges (k : Kernel I S T M V C P) (pick : Nat → Nat) (wm wa : Bool) (orbits : List (Orb I S T C P))
    (observers : List (Obs I S)) (maxProc chunk : Int) :
    (orbits.length ≠ observers.length →
      generate k pick wm wa orbits observers maxProc chunk = .error (.inl .assertionError)) ∧
    (orbits.length = observers.length → 1 < maxProc →
      generate k pick wm wa orbits observers maxProc 0 = .error (.inl .valueError)) := by
  constructor
  · intro h
    unfold generate serial
    by_cases hm : maxProc ≤ 1
    · rw [if_pos hm, if_pos h]
    · rw [if_neg hm, if_pos h]
  · intro h hm
    unfold generate
    rw [if_neg (by omega), if_neg (by omega)]
    rfl

/-- C80. Not so for no orbits at all: one process refuses them, several return an empty table. -/
theorem C80_empty_false (k : Kernel I S T M V C P) (pick : Nat → Nat) (wm wa : Bool) (maxProc chunk : Int) (hc : 0 < chunk) :
    generate k pick wm wa [] [] maxProc chunk = if maxProc ≤ 1 then .error (.inl .valueError) else .ok [] := by
  have hr : Chunk.rangeFrom 0 0 chunk.toNat = [] := by rw [Chunk.rangeFrom]; simp
  unfold generate
  split
  · have hr' : Chunk.rangeFrom 0 0 2000 = [] := by rw [Chunk.rangeFrom]; simp
    simp [serial, numbers, Chunk.processInChunks, Chunk.range, hr', loop, firstNonFinite]
  · have h := chunks_range ([] : List Nat) hc
    simp only [List.length_nil, ne_eq, not_true_eq_false, ↓reduceIte] at h ⊢
    rw [h, hr]
    have hd : (runAll (atLeast maxProc.toNat) pick ([] : List (List Nat))).done = [] := rfl
    simp [runTasks, sortBy, hd, gather]

/-- The hypothesis on the chunk size is needed: a negative one makes the pool return an empty table. -/
theorem C80_negative_chunk_false :
    ¬ ∀ (k : Kernel Nat Int Int Int Int Int Int) (pick : Nat → Nat) (orbits : List (Orb Nat Int Int Int Int))
        (observers : List (Obs Nat Int)) (maxProc chunk : Int) rows, orbits.length = observers.length →
        generate k pick false false orbits observers maxProc chunk = .ok rows → rows.length = orbits.length := by
  intro h
  have := h toy (fun _ => 0) [orb 0 0 0] [obs 0] 2 (-1) [] rfl rfl
  revert this
  decide

/-- With workers the row named by a light-time error counts from the start of the worker's chunk, so the claim of C31
does not carry over: of two pairs in chunks of one, the second fails and row 0 is named. -/
theorem C31_workers_false :
    ¬ ∀ (k : Kernel Nat Int Int Int Int Int Int) (f : Int × Int × Int × Int → Out Int), Rowwise k.F f →
        ∀ (pick : Nat → Nat) (orbits : List (Orb Nat Int Int Int Int)) (observers : List (Obs Nat Int)) (maxProc chunk : Int)
          (e : NumErr Nat Int Int), 0 < chunk → orbits.length = observers.length →
          (∀ p ∈ orbits.zip observers, k.finite (predict k f p).lt = true → AllFinite k.finite (predict k f p)) →
          generate k pick false false orbits observers maxProc chunk = .error (.inr e) →
          NamesFirst (orbits.zip observers) (fun p => ¬ AllFinite k.finite (predict k f p)) e := by
  intro h
  have hf : ∀ p ∈ [orb 0 0 0, orb 1 5 99].zip [obs 0, obs 2],
      toy.finite (predict toy toyRow p).lt = true → AllFinite toy.finite (predict toy toyRow p) := by
    unfold AllFinite; decide
  obtain ⟨r0, h0, _⟩ := (C31_no_silent_failure toy toyRow toy_rowwise false false [orb 0 0 0] [obs 0] rfl).1 (by decide)
    (by unfold AllFinite; decide)
  obtain ⟨e, he, hn⟩ := C31_light_time toy toyRow toy_rowwise false false [orb 1 5 99] [obs 2] rfl
    (by unfold AllFinite; decide) ⟨_, List.mem_singleton.mpr rfl, by unfold AllFinite; decide⟩
  have hrow : e.row = 0 := by
    obtain ⟨p, hp, _⟩ := hn.here
    have := (List.getElem?_eq_some_iff.mp hp).1
    simp at this
    exact this
  have hgen : generate toy (fun _ => 0) false false [orb 0 0 0, orb 1 5 99] [obs 0, obs 2] 2 1 = .error (.inr e) := by
    have hi : Chunk.iterateChunks (List.range [obs 0, obs 2].length) 1 = .ok [[0], [1]] := by decide +kernel
    unfold generate
    rw [if_neg (by decide), if_neg (by decide), hi]
    simp only
    have hd : (runAll (atLeast (2 : Int).toNat) (fun _ => 0) [[0], [1]]).done = [[0], [1]] := by decide +kernel
    have hw0 : work toy false false [orb 0 0 0, orb 1 5 99] [obs 0, obs 2] [0] = .ok (0, r0) := by
      unfold work
      rw [show take [orb 0 0 0, orb 1 5 99] [0] = [orb 0 0 0] from rfl, show take [obs 0, obs 2] [0] = [obs 0] from rfl,
        h0]
      rfl
    have hw1 : work toy false false [orb 0 0 0, orb 1 5 99] [obs 0, obs 2] [1] = .error (.inr e) := by
      unfold work
      rw [show take [orb 0 0 0, orb 1 5 99] [1] = [orb 1 5 99] from rfl,
        show take [obs 0, obs 2] [1] = [obs 2] from rfl, he]
    unfold runTasks
    rw [hd]
    simp only [gather, hw0, hw1]
  have := h toy toyRow toy_rowwise (fun _ => 0) _ _ 2 1 e (by decide) rfl hf hgen
  obtain ⟨p, hp, hbad, _⟩ := this.here
  rw [hrow] at hp
  have hp' : some (orb 0 0 0, obs 0) = some p := hp
  injection hp' with hp'
  rw [← hp'] at hbad
  exact hbad (by unfold AllFinite; decide)

end

end Verif.Eph2.Props
