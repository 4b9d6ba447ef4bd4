import Verif.Spice.Body
import Verif.Spice.Props

/-! # States of bodies by SPICE id: the properties -/

namespace Verif.Spice.BodyProps

open Verif Time Spice Spec Spice.Props

variable {Kernel S P E : Type} [DecidableEq Kernel] [DecidableEq E] [StateSpace S]

/-- `spkez` is a function of the ephemeris time. -/
def ByEt (W : World Kernel S P) (et : Int → E) (spkEt : List Kernel → Int → E → String → Int → Option S) : Prop :=
  ∀ K t k f o, W.spk K t k f o = spkEt K t (et k) f o

theorem rescale_length {env : Env} {t t' : TS} {s : String} (h : t.rescale env s = .ok t') : t'.rows.length = t.rows.length := by
  unfold TS.rescale TS.rescaleAstropy at h
  repeat' split at h
  all_goals first | (cases h; rfl) | (cases h; simp) | cases h

omit [StateSpace S] in
theorem bodyLoop_ok {q : E → Option S} {ets : List E} (es : List E) {states out : List (Option S)} (hl : states.length = ets.length)
    (h : bodyLoop q ets es states = .ok out) :
    out.length = ets.length ∧ ∀ (i : Nat) (e : E), ets[i]? = some e →
      (e ∈ es → ∃ s, q e = some s ∧ out[i]? = some (some s)) ∧ (e ∉ es → out[i]? = states[i]?) := by
  induction es generalizing states with
  | nil => cases h; exact ⟨hl, fun i e _ => ⟨fun h => (by cases h), fun _ => rfl⟩⟩
  | cons x es ih =>
    rw [bodyLoop] at h
    cases hq : q x with
    | none => rw [hq] at h; cases h
    | some s =>
      rw [hq] at h
      obtain ⟨h1, h2⟩ := ih (by simp [hl]) h
      refine ⟨h1, fun i e he => ?_⟩
      obtain ⟨a1, a2⟩ := h2 i e he
      have hi : i < states.length := by rw [hl]; exact (List.getElem?_eq_some_iff.mp he).1
      have hz : (List.zipWith (fun y old => if y = x then some s else old) ets states)[i]? =
          some (if e = x then some s else states[i]) := by
        rw [List.getElem?_zipWith, he, List.getElem?_eq_getElem hi]
      refine ⟨fun hm => ?_, fun hm => ?_⟩
      · by_cases hin : e ∈ es
        · exact a1 hin
        · have hx : e = x := by
            rcases List.mem_cons.mp hm with h | h
            · exact h
            · exact absurd h hin
          rw [a2 hin, hz, if_pos hx, hx]
          exact ⟨s, hq, rfl⟩
      · rw [List.mem_cons, not_or] at hm
        rw [a2 hm.2, hz, if_neg hm.1, List.getElem?_eq_getElem hi]

omit [StateSpace S] in
theorem bodyLoop_error {q : E → Option S} {ets : List E} (es : List E) (states : List (Option S)) :
    (∀ err, bodyLoop q ets es states = .error err → err = .valueError) ∧
    ((∃ err, bodyLoop q ets es states = .error err) ↔ ∃ e ∈ es, q e = none) := by
  induction es generalizing states with
  | nil => exact ⟨fun err h => (by cases h), by simp [bodyLoop]⟩
  | cons x es ih =>
    rw [bodyLoop]
    cases hq : q x with
    | none => exact ⟨fun err h => (by cases h; rfl), by simp [hq]⟩
    | some s =>
      obtain ⟨h1, h2⟩ := ih (List.zipWith (fun y old => if y = x then some s else old) ets states)
      exact ⟨h1, by simp only [h2, List.mem_cons, exists_eq_or_imp, hq, reduceCtorEq, false_or]⟩

omit [StateSpace S] in
/-- Row by row, the state that the loaded kernels have for the body at the row's instant. Every row is set, in the frame and from the
origin that were asked for, under the times that were given. -/
theorem C165_states (W : World Kernel S P) {et : Int → E} {spkEt : List Kernel → Int → E → String → Int → Option S}
    (hE : ByEt W et spkEt) (p : Proc Kernel S) (body : Int) (ts : TS) (f : String) (o : Int) (c : Coords (Option S))
    (h : (getBodyState W et spkEt p body ts f o).1 = .ok c) :
    c.time = ts ∧ c.frame = f ∧ c.origin = o ∧ c.vals.length = ts.rows.length ∧
    ∃ tdb fs, ts.rescale W.env "tdb" = .ok tdb ∧ frameName f = some fs ∧ tdb.rows.length = ts.rows.length ∧
      ∀ (i : Nat) (r : Row), tdb.rows[i]? = some r → ∃ s, W.spk (kernelsFor W p) body r.key fs o = some s ∧ c.vals[i]? = some (some s) := by
  unfold getBodyState at h
  rw [frameSpice_eq] at h
  cases hf : frameName f with
  | none => rw [hf] at h; cases h
  | some fs =>
    rw [hf] at h
    simp only at h
    cases hr : ts.rescale W.env "tdb" with
    | error e => rw [hr] at h; cases h
    | ok tdb =>
      rw [hr] at h
      simp only at h
      split at h
      · cases h
      rename_i states hs
      cases h
      have hl := rescale_length hr
      obtain ⟨h1, h2⟩ := bodyLoop_ok _ (by simp [hl]) hs
      refine ⟨rfl, rfl, rfl, by simpa [hl] using h1, tdb, fs, rfl, rfl, hl, fun i r hri => ?_⟩
      have he : (tdb.rows.map fun r => et r.key)[i]? = some (et r.key) := by rw [List.getElem?_map, hri]; rfl
      obtain ⟨s, hs1, hs2⟩ := (h2 i _ he).1 (List.mem_eraseDups.mpr (List.mem_of_getElem? he))
      exact ⟨s, by rw [hE]; exact hs1, hs2⟩

omit [StateSpace S] in
/-- It is refused exactly for a frame that is not known, for a time scale that cannot be converted and for a row without a state; a frame
and a row without a state are a ValueError. -/
theorem C165_errors (W : World Kernel S P) {et : Int → E} {spkEt : List Kernel → Int → E → String → Int → Option S}
    (hE : ByEt W et spkEt) (p : Proc Kernel S) (body : Int) (ts : TS) (f : String) (o : Int) (e : PyErr) :
    (getBodyState W et spkEt p body ts f o).1 = .error e ↔
      (frameName f = none ∧ e = .valueError) ∨
      ∃ fs, frameName f = some fs ∧ (ts.rescale W.env "tdb" = .error e ∨
        ∃ tdb, ts.rescale W.env "tdb" = .ok tdb ∧ (∃ r ∈ tdb.rows, W.spk (kernelsFor W p) body r.key fs o = none) ∧ e = .valueError) := by
  unfold getBodyState
  rw [frameSpice_eq]
  cases hf : frameName f with
  | none => simp [eq_comm]
  | some fs =>
    simp only [reduceCtorEq, false_and, false_or, Option.some.injEq, exists_eq_left']
    cases hr : ts.rescale W.env "tdb" with
    | error e' => simp
    | ok tdb =>
      simp only [reduceCtorEq, false_or, Except.ok.injEq, exists_eq_left']
      obtain ⟨h1, h2⟩ := bodyLoop_error (q := fun e => spkEt (setup W p none false).loaded body e fs o)
        (ets := tdb.rows.map fun r => et r.key) (tdb.rows.map fun r => et r.key).eraseDups (List.replicate ts.rows.length none)
      have hiff : (∃ x ∈ (tdb.rows.map fun r => et r.key).eraseDups, spkEt (setup W p none false).loaded body x fs o = none) ↔
          ∃ r ∈ tdb.rows, W.spk (kernelsFor W p) body r.key fs o = none := by
        simp only [List.mem_eraseDups, List.mem_map, exists_exists_and_eq_and]
        refine exists_congr fun r => and_congr_right fun _ => ?_
        rw [hE]; rfl
      rw [← hiff, ← h2]
      generalize bodyLoop (fun e => spkEt (setup W p none false).loaded body e fs o) (tdb.rows.map fun r => et r.key)
        (tdb.rows.map fun r => et r.key).eraseDups (List.replicate ts.rows.length none) = L at *
      cases L with
      | ok s => simp
      | error e' =>
        have := h1 e' rfl
        subst this
        simp [eq_comm]

/-- No cache is read or written: the only effect is the one-time setup. So after any history of calls, kernels registered and removed
included, the states are those of the kernels loaded now. -/
theorem C165_history (W : World Kernel S P) {et : Int → E} {spkEt : List Kernel → Int → E → String → Int → Option S}
    (hE : ByEt W et spkEt) (ssb : String → Int → Bool) (p : Proc Kernel S) (h : List (Op Kernel S)) (body : Int) (ts : TS) (f : String) (o : Int) :
    ((getBodyState W et spkEt (run W ssb p h) body ts f o).2 = run W ssb p h ∨
      (getBodyState W et spkEt (run W ssb p h) body ts f o).2 = setup W (run W ssb p h) none false) ∧
    ((run W ssb p h).initialised = true → ∀ c, (getBodyState W et spkEt (run W ssb p h) body ts f o).1 = .ok c →
      ∃ tdb, ts.rescale W.env "tdb" = .ok tdb ∧ (bodyValues W (run W ssb p h).loaded body f o (tdb.rows.map Row.key)).map (·.map some) = some c.vals) := by
  constructor
  · unfold getBodyState
    cases frameSpice f with
    | none => exact Or.inl rfl
    | some fs =>
      simp only
      cases ts.rescale W.env "tdb" with
      | error e => exact Or.inr rfl
      | ok tdb => simp only; split <;> exact Or.inr rfl
  · intro hi c hc
    obtain ⟨-, -, -, hlen, tdb, fs, hr, hf, hl, hrow⟩ := C165_states W hE _ body ts f o c hc
    refine ⟨tdb, hr, ?_⟩
    rw [kernelsFor_of_initialised W _ hi] at hrow
    unfold bodyValues
    rw [hf, Option.bind_some, List.map_map]
    have key : ∀ (rows : List Row) (vals : List (Option S)), vals.length = rows.length →
        (∀ (i : Nat) (r : Row), rows[i]? = some r →
          ∃ s, W.spk (run W ssb p h).loaded body r.key fs o = some s ∧ vals[i]? = some (some s)) →
        (allSome (rows.map ((fun k => W.spk (run W ssb p h).loaded body k fs o) ∘ Row.key))).map (·.map some) = some vals := by
      intro rows
      induction rows with
      | nil => intro vals hl _; cases vals with
        | nil => rfl
        | cons _ _ => cases hl
      | cons r rows ih =>
        intro vals hl hall
        cases vals with
        | nil => cases hl
        | cons v vals =>
          obtain ⟨s, hs1, hs2⟩ := hall 0 r rfl
          have := ih vals (by simpa using hl) fun i r' hr' => hall (i + 1) r' hr'
          cases hs2
          rw [List.map_cons, Function.comp_apply, hs1, allSome, Option.map_map]
          revert this
          cases allSome (rows.map ((fun k => W.spk (run W ssb p h).loaded body k fs o) ∘ Row.key)) with
          | none => intro h; cases h
          | some l => intro h; cases h; rfl
    exact key tdb.rows c.vals (by omega) hrow

/-- For a body that is also an origin this is what `get_perturber_state` gives in a process whose state cache is empty, row by row, and
one succeeds exactly if the other does. -/
theorem C165_perturber (W : World Kernel S P) (hA : Antisymmetric W) {et : Int → E}
    {spkEt : List Kernel → Int → E → String → Int → Option S} (hE : ByEt W et spkEt) (p : Proc Kernel S) (hb : p.spkCache = []) (body : Int)
    (ts : TS) (f : String) (o : Int) (hsp : ∀ ks, ts.key W.env = .ok ks → Spread ks) (hne : ts.rows ≠ []) :
    (∀ c, (getPerturberState W p body ts f o).1 = .ok c →
      (getBodyState W et spkEt p body ts f o).1 = .ok ⟨c.time, c.vals.map some, c.frame, c.origin⟩) ∧
    ((∃ c, (getBodyState W et spkEt p body ts f o).1 = .ok c) → ∃ c, (getPerturberState W p body ts f o).1 = .ok c) := by
  have hs : SoundSpk W (kernelsFor W p) p.spkCache := by rw [hb]; exact soundSpk_nil _ _
  have hp := (getPerturberState_spec hA hs body ts f o).2.2.2.2.2 hsp
  have hlen : ts.rows.length ≠ 0 := fun h => hne (List.length_eq_zero_iff.mp h)
  have hkey : ts.key W.env = match ts.rescale W.env "tdb" with
      | .error e => .error e
      | .ok t' => .ok (t'.rows.map Row.key) := by
    unfold TS.key; rw [if_neg hlen]; rfl
  have hist : ∀ c, (getBodyState W et spkEt p body ts f o).1 = .ok c →
      ∃ tdb, ts.rescale W.env "tdb" = .ok tdb ∧ (bodyValues W (kernelsFor W p) body f o (tdb.rows.map Row.key)).map (·.map some) = some c.vals := by
    intro c hc
    have h1 := (C165_history W hE (fun _ _ => false) (setup W p none false) [] body ts f o).2 (setup_initialised W p) c
    have : getBodyState W et spkEt (run W (fun _ _ => false) (setup W p none false) []) body ts f o =
        (fun x => (x.1, setup W p none false)) (getBodyState W et spkEt p body ts f o) := by
      unfold getBodyState run
      rw [List.foldl_nil]
      have hss : setup W (setup W p none false) none false = setup W p none false := by
        rw [setup, if_pos]
        simp [setup_initialised W p]
      cases frameSpice f with
      | none => rfl
      | some fs =>
        simp only [hss]
        cases ts.rescale W.env "tdb" with
        | error e => rfl
        | ok tdb => simp only; split <;> rfl
    rw [this] at h1
    exact h1 hc
  have hdec : (∃ c, (getBodyState W et spkEt p body ts f o).1 = .ok c) ∨ ∃ e, (getBodyState W et spkEt p body ts f o).1 = .error e := by
    cases (getBodyState W et spkEt p body ts f o).1 with
    | ok c => exact Or.inl ⟨c, rfl⟩
    | error e => exact Or.inr ⟨e, rfl⟩
  constructor
  · intro c hc
    cases hr : ts.rescale W.env "tdb" with
    | error e =>
      rw [hkey, hr] at hp
      obtain ⟨e, he⟩ := hp
      rw [he] at hc; cases hc
    | ok tdb =>
      rw [hkey, hr] at hp
      simp only at hp
      cases hv : bodyValues W (kernelsFor W p) body f o (tdb.rows.map Row.key) with
      | none =>
        rw [hv] at hp
        obtain ⟨e, he⟩ := hp
        rw [he] at hc; cases hc
      | some v =>
        rw [hv] at hp
        simp only [if_neg hne] at hp
        rw [hp] at hc
        cases hc
        rcases hdec with ⟨c', hc'⟩ | ⟨e, he⟩
        · obtain ⟨tdb', hr', hv'⟩ := hist c' hc'
          rw [hr] at hr'
          cases hr'
          rw [hv, Option.map_some, Option.some.injEq] at hv'
          obtain ⟨a, b, d, -, -⟩ := C165_states W hE p body ts f o c' hc'
          rw [hc', hv']
          cases c'
          simp only at a b d
          rw [a, b, d]
        · exfalso
          rcases (C165_errors W hE p body ts f o e).mp he with ⟨hf, -⟩ | ⟨fs, hf, h | ⟨tdb', h1, ⟨r, hr1, hr2⟩, -⟩⟩
          · unfold bodyValues at hv; rw [hf] at hv; cases hv
          · rw [hr] at h; cases h
          · rw [hr] at h1
            cases h1
            unfold bodyValues at hv
            rw [hf, Option.bind_some] at hv
            have : ∀ (l : List (Option S)) (v : List S), allSome l = some v → none ∉ l := by
              intro l
              induction l with
              | nil => simp
              | cons x l ih =>
                intro v h
                cases x with
                | none => cases h
                | some a =>
                  rw [allSome] at h
                  cases hl : allSome l with
                  | none => rw [hl] at h; cases h
                  | some w => simpa using ih w hl
            exact this _ v hv (List.mem_map.mpr ⟨r.key, List.mem_map.mpr ⟨r, hr1, rfl⟩, hr2⟩)
  · rintro ⟨c, hc⟩
    obtain ⟨tdb, hr, hv⟩ := hist c hc
    rw [hkey, hr] at hp
    simp only at hp
    cases hv' : bodyValues W (kernelsFor W p) body f o (tdb.rows.map Row.key) with
    | none => rw [hv'] at hv; cases hv
    | some v => rw [hv'] at hp; exact ⟨_, hp⟩

/-- The case: a kernel registered after a first query changes the answer of `get_spice_body_state`, and not that of `get_perturber_state`. -/
theorem C165_case :
    let q := run exW exSsb exP [.perturber 399 exT "ecliptic" 0, .register 3]
    (getBodyState exW id exW.spk exP 399 exT "ecliptic" 0).1 = .ok ⟨exT, [some 798], "ecliptic", 0⟩ ∧
    (getBodyState exW id exW.spk q 399 exT "ecliptic" 0).1 = .ok ⟨exT, [some 1197], "ecliptic", 0⟩ ∧
    (getPerturberState exW q 399 exT "ecliptic" 0).1 = .ok ⟨exT, [798], "ecliptic", 0⟩ ∧
    (getBodyState exW id exW.spk q 399 exT "galactic" 0).1 = .error .valueError := by
  decide +kernel

end Verif.Spice.BodyProps
