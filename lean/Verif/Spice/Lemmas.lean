import Verif.Spice.Spec
import Verif.Lru.Lemmas
import Verif.Time.Int64Props

/-! Helper lemmas for the SPICE caches. -/

set_option linter.unusedSectionVars false

namespace Verif.Spice

open Verif Time Spec

variable {Kernel S P : Type} [DecidableEq Kernel] [StateSpace S]

theorem frameSpice_eq (f : String) : frameSpice f = frameName f := by
  unfold frameSpice
  split
  · rename_i h; subst h; rfl
  · split
    · rename_i h; subst h; rfl
    · split
      · rename_i h; subst h; rfl
      · rename_i h1 h2 h3
        unfold frameName
        split
        · exact absurd rfl h1
        · exact absurd rfl h2
        · exact absurd rfl h3
        · rfl

theorem allSome_map {α β : Type} (l : List α) (f : α → Option β) (g : α → β) (h : ∀ a ∈ l, f a = some (g a)) :
    allSome (l.map f) = some (l.map g) := by
  induction l with
  | nil => rfl
  | cons a l ih =>
    rw [List.map_cons, h a (by simp), allSome, ih fun b hb => h b (List.mem_cons_of_mem _ hb)]
    rfl

theorem allSome_none {α β : Type} (l : List α) (f : α → Option β) (a : α) (ha : a ∈ l) (h : f a = none) :
    allSome (l.map f) = none := by
  induction l with
  | nil => simp at ha
  | cons b l ih =>
    rw [List.map_cons]
    rcases List.mem_cons.mp ha with rfl | ha
    · rw [h]; rfl
    · cases hb : f b with
      | none => rfl
      | some x => rw [allSome, ih ha]; rfl

theorem allSome_length {α : Type} {l : List (Option α)} {r : List α} (h : allSome l = some r) : l.length = r.length := by
  induction l generalizing r with
  | nil => cases h; rfl
  | cons o l ih =>
    cases o with
    | none => cases h
    | some a =>
      rw [allSome, Option.map_eq_some_iff] at h
      obtain ⟨r', h1, rfl⟩ := h
      simp [ih h1]

theorem allSome_get {α : Type} {l : List (Option α)} {r : List α} (h : allSome l = some r) : l = r.map some := by
  induction l generalizing r with
  | nil => cases h; rfl
  | cons o l ih =>
    cases o with
    | none => cases h
    | some a =>
      rw [allSome, Option.map_eq_some_iff] at h
      obtain ⟨r', h1, rfl⟩ := h
      simp [ih h1]

theorem allSome_of_map_some {α : Type} (r : List α) : allSome (r.map some) = some r := by
  induction r with
  | nil => rfl
  | cons a r ih => rw [List.map_cons, allSome, ih]; rfl

theorem gather_map {α β : Type} (l : List α) (xs : List β) (g : β → Nat) (h : β → α)
    (H : ∀ x ∈ xs, l[g x]? = some (h x)) : gather l (xs.map g) = .ok (xs.map h) := by
  induction xs with
  | nil => rfl
  | cons x xs ih =>
    rw [List.map_cons, gather, H x (by simp), ih fun y hy => H y (List.mem_cons_of_mem _ hy)]
    rfl

/-- `rescale` to TDB acts row by row, and whether it succeeds depends on the scale only. -/
theorem rescale_rowwise (env : Env) (scale : String) :
    (∃ f : Row → Row, ∀ rows, (⟨scale, rows⟩ : TS).rescale env "tdb" = .ok ⟨"tdb", rows.map f⟩) ∨
      (∃ e, ∀ rows, (⟨scale, rows⟩ : TS).rescale env "tdb" = .error e) := by
  unfold TS.rescale TS.rescaleAstropy
  by_cases h1 : scale = "tdb"
  · left; exact ⟨id, fun rows => by simp [h1]⟩
  · simp only [h1, if_false]
    by_cases h2 : (decide (scale = "ut1") || decide ("tdb" = "ut1")) = true
    · simp only [h2, if_true]
      left
      refine ⟨env.astropy scale "tdb", fun rows => ?_⟩
      rw [if_pos (by decide)]
    · rw [Bool.not_eq_true] at h2
      simp only [h2, Bool.false_eq_true, if_false]
      cases h3 : correctionAssigned scale "tdb" with
      | true => left; exact ⟨_, fun rows => if_pos rfl⟩
      | false => right; exact ⟨_, fun rows => if_neg (by simp)⟩

/-- The TDB instant of a row of a table, when the scale can be converted. -/
theorem key_rowwise (env : Env) (scale : String) :
    (∃ f : Row → Int, ∀ rows, TS.key env ⟨scale, rows⟩ = .ok (rows.map f)) ∨
      (∃ e, ∀ rows, rows ≠ [] → TS.key env ⟨scale, rows⟩ = .error e) := by
  rcases rescale_rowwise env scale with ⟨f, hf⟩ | ⟨e, he⟩
  · left
    refine ⟨fun r => (f r).key, fun rows => ?_⟩
    unfold TS.key
    by_cases h : rows.length = 0
    · rw [if_pos h, List.length_eq_zero_iff.mp h]; rfl
    · rw [if_neg h]
      simp only [hf, List.map_map]
      rfl
  · right
    refine ⟨e, fun rows hne => ?_⟩
    unfold TS.key
    rw [if_neg (by simpa using hne)]
    simp only [he]

/-- Entries of the state cache agree with the kernels. -/
def SoundSpk (W : World Kernel S P) (K : List Kernel) (c : Lru.Cache SpkKey S) : Prop :=
  Lru.Distinct c ∧ ∀ k s, (k, s) ∈ c → W.spk K k.target (Row.key ⟨k.days, k.nanos⟩) k.frame k.observer = some s

theorem soundSpk_nil (W : World Kernel S P) (K : List Kernel) : SoundSpk W K [] :=
  ⟨by unfold Lru.Distinct; exact List.nodup_nil, by simp⟩

theorem soundSpk_get {W : World Kernel S P} {K : List Kernel} {c : Lru.Cache SpkKey S} (h : SoundSpk W K c) (k : SpkKey)
    (m : Int) : SoundSpk W K (Lru.get c k m).2 ∧
      ∀ s, (Lru.get c k m).1 = some s → W.spk K k.target (Row.key ⟨k.days, k.nanos⟩) k.frame k.observer = some s := by
  refine ⟨⟨Lru.get_distinct h.1 k m, fun k' s hm => h.2 k' s ((Lru.get_mem h.1 k m _).mp hm)⟩, fun s hs => ?_⟩
  unfold Lru.get at hs
  split at hs
  · exact absurd hs (by simp)
  · cases hf : Lru.find c k with
    | none => rw [hf] at hs; exact absurd hs (by simp)
    | some s' =>
      rw [hf] at hs
      have : s' = s := by simpa using hs
      subst this
      exact h.2 k s' ((Lru.find_some_iff h.1 k s').mp hf)

theorem soundSpk_put {W : World Kernel S P} {K : List Kernel} {c : Lru.Cache SpkKey S} (h : SoundSpk W K c) (k : SpkKey)
    (s : S) (m : Int) (hs : W.spk K k.target (Row.key ⟨k.days, k.nanos⟩) k.frame k.observer = some s) :
    SoundSpk W K (Lru.put c k s m) := by
  refine ⟨Lru.put_distinct h.1 k s m, fun k' s' hm => ?_⟩
  rcases Lru.put_mem h.1 hm with he | ⟨h1, _⟩
  · cases he; exact hs
  · exact h.2 k' s' h1

theorem fetch_spec {W : World Kernel S P} (hA : Antisymmetric W) {K : List Kernel} {c : Lru.Cache SpkKey S}
    (h : SoundSpk W K c) (m : Int) (t o : Int) (f : String) (r : Row) :
    SoundSpk W K (fetch W K m t o f r c).2 ∧
      (fetch W K m t o f r c).1 = match W.spk K t r.key f o with
        | some s => .ok s
        | none => .error .runtimeError := by
  unfold fetch
  simp only
  obtain ⟨h1, h2⟩ := soundSpk_get h ⟨t, o, f, r.days, r.nanos⟩ m
  rcases hg : Lru.get c ⟨t, o, f, r.days, r.nanos⟩ m with ⟨_ | s, c1⟩
  · rw [hg] at h1 h2
    simp only at h1 h2 ⊢
    obtain ⟨h3, h4⟩ := soundSpk_get h1 ⟨o, t, f, r.days, r.nanos⟩ m
    rcases hg2 : Lru.get c1 ⟨o, t, f, r.days, r.nanos⟩ m with ⟨_ | s, c2⟩
    · rw [hg2] at h3 h4
      simp only at h3 h4 ⊢
      cases hs : W.spk K t r.key f o with
      | none => exact ⟨h3, rfl⟩
      | some s =>
        refine ⟨?_, rfl⟩
        apply soundSpk_put
        · exact soundSpk_put h3 _ _ _ hs
        · rw [hA]
          change (W.spk K t r.key f o).map _ = _
          rw [hs]; rfl
    · rw [hg2] at h3 h4
      simp only at h3 h4 ⊢
      have h5 := h4 s rfl
      have h6 : W.spk K t r.key f o = some (-s) := by
        rw [hA]
        change (W.spk K o (Row.key ⟨r.days, r.nanos⟩) f t).map _ = _
        rw [h5]; rfl
      refine ⟨soundSpk_put h3 _ _ _ h6, ?_⟩
      rw [h6]
  · rw [hg] at h1 h2
    simp only at h1 h2 ⊢
    refine ⟨h1, ?_⟩
    have := h2 s rfl
    change W.spk K t r.key f o = _ at this
    rw [this]

theorem fetchAll_spec {W : World Kernel S P} (hA : Antisymmetric W) {K : List Kernel} (m : Int) (t o : Int) (f : String)
    (rs : List Row) : ∀ {c : Lru.Cache SpkKey S}, SoundSpk W K c →
    SoundSpk W K (fetchAll W K m t o f rs c).2 ∧
      (fetchAll W K m t o f rs c).1 = match allSome (rs.map fun r => W.spk K t r.key f o) with
        | some s => .ok s
        | none => .error .runtimeError := by
  induction rs with
  | nil => intro c h; exact ⟨h, rfl⟩
  | cons r rs ih =>
    intro c h
    obtain ⟨h1, h2⟩ := fetch_spec hA h m t o f r
    unfold fetchAll
    rcases hf : fetch W K m t o f r c with ⟨_ | s, c1⟩
    · rw [hf] at h1 h2
      simp only at h1 h2 ⊢
      refine ⟨h1, ?_⟩
      cases hs : W.spk K t r.key f o with
      | none => rw [hs] at h2; cases h2; rw [List.map_cons, hs]; rfl
      | some s => rw [hs] at h2; cases h2
    · rw [hf] at h1 h2
      simp only at h1 h2 ⊢
      obtain ⟨h3, h4⟩ := ih h1
      cases hs : W.spk K t r.key f o with
      | none => rw [hs] at h2; cases h2
      | some s' =>
        rw [hs] at h2
        cases h2
        rw [List.map_cons, hs, allSome]
        cases ha : allSome (rs.map fun r => W.spk K t r.key f o) with
        | none =>
          rw [ha] at h4
          rcases hfa : fetchAll W K m t o f rs c1 with ⟨_ | ss, c2⟩
          · rw [hfa] at h3 h4
            simp only at h4 h3
            cases h4
            exact ⟨h3, rfl⟩
          · rw [hfa] at h4; cases h4
        | some l =>
          rw [ha] at h4
          rcases hfa : fetchAll W K m t o f rs c1 with ⟨_ | ss, c2⟩
          · rw [hfa] at h4; cases h4
          · rw [hfa] at h3 h4
            simp only at h4 h3
            cases h4
            exact ⟨h3, rfl⟩

theorem mem_unique (keys : List Int) (k : Int) : k ∈ (keys.eraseDups.insertionSort (· ≤ ·)) ↔ k ∈ keys := by
  rw [List.mem_insertionSort, List.mem_eraseDups]

theorem getElem?_idxOf_mem {l : List Int} {k : Int} (h : k ∈ l) : l[l.idxOf k]? = some k := by
  rw [List.getElem?_eq_getElem (List.idxOf_lt_length_of_mem h)]
  simp

/-- Kernels seen by the next query: those loaded now, after the default setup if that has not happened. -/
def kernelsFor (W : World Kernel S P) (p : Proc Kernel S) : List Kernel := (setup W p none false).loaded

theorem register_caches (p : Proc Kernel S) (k : Kernel) : (register p k).spkCache = p.spkCache ∧
    (register p k).obsCache = p.obsCache ∧ (register p k).transCache = p.transCache ∧
    (register p k).spkSize = p.spkSize ∧ (register p k).obsSize = p.obsSize ∧ (register p k).transSize = p.transSize ∧
    (register p k).transEnabled = p.transEnabled := by
  unfold register
  split <;> exact ⟨rfl, rfl, rfl, rfl, rfl, rfl, rfl⟩

theorem foldl_register_caches (ks : List Kernel) : ∀ p : Proc Kernel S, (ks.foldl register p).spkCache = p.spkCache ∧
    (ks.foldl register p).obsCache = p.obsCache ∧ (ks.foldl register p).transCache = p.transCache := by
  induction ks with
  | nil => intro p; exact ⟨rfl, rfl, rfl⟩
  | cons k ks ih =>
    intro p
    obtain ⟨h1, h2, h3⟩ := ih (register p k)
    obtain ⟨g1, g2, g3, _⟩ := register_caches p k
    exact ⟨h1.trans g1, h2.trans g2, h3.trans g3⟩

theorem setup_caches (W : World Kernel S P) (p : Proc Kernel S) (ks : Option (List Kernel)) (f : Bool) :
    (setup W p ks f).spkCache = p.spkCache ∧ (setup W p ks f).obsCache = p.obsCache ∧
      (setup W p ks f).transCache = p.transCache := by
  unfold setup
  split
  · exact ⟨rfl, rfl, rfl⟩
  · exact foldl_register_caches _ p

theorem setup_initialised (W : World Kernel S P) (p : Proc Kernel S) : (setup W p none false).initialised = true := by
  unfold setup
  split
  · rename_i h; simpa using h
  · rfl

theorem kernelsFor_of_initialised (W : World Kernel S P) (p : Proc Kernel S) (h : p.initialised = true) :
    kernelsFor W p = p.loaded := by
  unfold kernelsFor setup
  rw [if_pos (by simp [h])]

theorem kernelsFor_setup (W : World Kernel S P) (p : Proc Kernel S) :
    kernelsFor W (setup W p none false) = kernelsFor W p :=
  kernelsFor_of_initialised W _ (setup_initialised W p)

/-- Same kernels, registration and mark. -/
def SameK (p q : Proc Kernel S) : Prop :=
  p.loaded = q.loaded ∧ p.registered = q.registered ∧ p.initialised = q.initialised

theorem foldl_register_sameK (ks : List Kernel) : ∀ {p q : Proc Kernel S}, p.loaded = q.loaded →
    p.registered = q.registered → (ks.foldl register p).loaded = (ks.foldl register q).loaded := by
  induction ks with
  | nil => intro p q h _; exact h
  | cons k ks ih =>
    intro p q h1 h2
    simp only [List.foldl_cons]
    apply ih
    · unfold register; rw [h2]; split
      · exact h1
      · simp [h1]
    · unfold register; rw [h2]; split
      · exact h2
      · rfl

theorem kernelsFor_sameK (W : World Kernel S P) {p q : Proc Kernel S} (h : SameK p q) :
    kernelsFor W p = kernelsFor W q := by
  unfold kernelsFor setup
  rw [h.2.2]
  split
  · exact h.1
  · exact foldl_register_sameK _ h.1 h.2.1

/-- What `getPerturberState` does to a process with a sound state cache. -/
theorem getPerturberState_spec {W : World Kernel S P} (hA : Antisymmetric W) {p : Proc Kernel S}
    (h : SoundSpk W (kernelsFor W p) p.spkCache) (t : Int) (ts : TS) (f : String) (o : Int) :
    SoundSpk W (kernelsFor W p) (getPerturberState W p t ts f o).2.spkCache ∧
    kernelsFor W (getPerturberState W p t ts f o).2 = kernelsFor W p ∧
    (getPerturberState W p t ts f o).2.obsCache = p.obsCache ∧
    (getPerturberState W p t ts f o).2.transCache = p.transCache ∧
    (∀ c, (getPerturberState W p t ts f o).1 = .ok c → (getPerturberState W p t ts f o).2.loaded = kernelsFor W p) ∧
    ((∀ ks, ts.key W.env = .ok ks → Spread ks) → match ts.key W.env with
      | .ok ks => match bodyValues W (kernelsFor W p) t f o ks with
        | some v => (getPerturberState W p t ts f o).1 = .ok ⟨ts, v, if ts.rows = [] then "unspecified" else f, o⟩
        | none => ∃ e, (getPerturberState W p t ts f o).1 = .error e
      | .error _ => ∃ e, (getPerturberState W p t ts f o).1 = .error e) := by
  unfold getPerturberState
  rw [frameSpice_eq]
  cases hf : frameName f with
  | none =>
    refine ⟨h, rfl, rfl, rfl, by simp, fun _ => ?_⟩
    cases ts.key W.env with
    | error e => exact ⟨_, rfl⟩
    | ok ks => simp only [bodyValues, hf, Option.bind_none]; exact ⟨_, rfl⟩
  | some fs =>
    simp only
    obtain ⟨s1, s2, s3⟩ := setup_caches W p none false
    have hk := kernelsFor_setup W p
    have hl : (setup W p none false).loaded = kernelsFor W p := rfl
    by_cases hz : ts.rows.length = 0
    · rw [if_pos hz]
      have hz' := List.length_eq_zero_iff.mp hz
      have hkey : ts.key W.env = .ok [] := by unfold TS.key; rw [if_pos hz]
      refine ⟨by rw [s1]; exact h, hk, s2, s3, fun _ _ => rfl, fun _ => ?_⟩
      rw [hkey]
      simp [bodyValues, hf, allSome, hz']
    · rw [if_neg hz]
      have hz' : ts.rows ≠ [] := by simpa using hz
      rcases rescale_rowwise W.env ts.scale with ⟨g, hg⟩ | ⟨e, he⟩
      · have hr := hg ts.rows
        change ts.rescale W.env "tdb" = _ at hr
        have hkey : ts.key W.env = .ok ((ts.rows.map g).map Row.key) := by
          unfold TS.key; rw [if_neg hz]; simp only [hr]
        rw [hr, hkey]
        simp only [npUnique]
        generalize hrows : ts.rows.map g = rows
        generalize hkeys : rows.map Row.key64 = keys
        -- the exact instant of the representative of a 64-bit key
        obtain ⟨rp, hrp⟩ : ∃ rp : Int → Row, rp = fun k => rows[keys.idxOf k]?.getD ⟨0, 0⟩ := ⟨_, rfl⟩
        have hrep : gather rows ((keys.eraseDups.insertionSort (· ≤ ·)).map fun k => keys.idxOf k) =
            .ok ((keys.eraseDups.insertionSort (· ≤ ·)).map rp) := by
          apply gather_map
          intro k hk'
          have hm := (mem_unique keys k).mp hk'
          have hlt : keys.idxOf k < rows.length := by
            rw [← List.length_map (f := Row.key64), hkeys]; exact List.idxOf_lt_length_of_mem hm
          rw [hrp]
          simp only [List.getElem?_eq_getElem hlt, Option.getD_some]
        have hrepkey : ∀ k ∈ keys, (rp k).key64 = k ∧ rp k ∈ rows := by
          intro k hm
          have h1 : (rows.map Row.key64)[keys.idxOf k]? = some k := by rw [hkeys]; exact getElem?_idxOf_mem hm
          rw [List.getElem?_map, Option.map_eq_some_iff] at h1
          obtain ⟨r, h2, h3⟩ := h1
          rw [hrp]
          simp only [h2]
          exact ⟨h3, List.mem_of_getElem? h2⟩
        have hexact : Spread (rows.map Row.key) → ∀ r ∈ rows, (rp r.key64).key = r.key := by
          intro hsp r hr'
          have hm : r.key64 ∈ keys := by rw [← hkeys]; exact List.mem_map_of_mem hr'
          obtain ⟨h1, h2⟩ := hrepkey _ hm
          refine hsp _ (List.mem_map_of_mem h2) _ (List.mem_map_of_mem hr') ?_
          have h3 : wrap64 (rp r.key64).key = wrap64 r.key := by
            rw [← Int64Props.key64_eq, ← Int64Props.key64_eq]; exact h1
          exact h3
        rw [hrep]
        simp only
        have hS : SoundSpk W (kernelsFor W p) (setup W p none false).spkCache := by rw [s1]; exact h
        obtain ⟨f1, f2⟩ := fetchAll_spec hA (setup W p none false).spkSize t o fs
          ((keys.eraseDups.insertionSort (· ≤ ·)).map rp) hS
        rw [List.map_map] at f2
        change _ = match allSome ((keys.eraseDups.insertionSort (· ≤ ·)).map
          fun k => W.spk (kernelsFor W p) t (rp k).key fs o) with | some s => _ | none => _ at f2
        rw [hl]
        by_cases hall : ∀ k ∈ keys, (W.spk (kernelsFor W p) t (rp k).key fs o).isSome
        · have hsome : ∀ k ∈ keys, W.spk (kernelsFor W p) t (rp k).key fs o =
              some ((W.spk (kernelsFor W p) t (rp k).key fs o).getD 0) := by
            intro k hk'
            obtain ⟨x, hx⟩ := Option.isSome_iff_exists.mp (hall k hk')
            rw [hx]; rfl
          rw [allSome_map _ _ (fun k => (W.spk (kernelsFor W p) t (rp k).key fs o).getD 0)
            (fun k hk' => hsome k ((mem_unique keys k).mp hk'))] at f2
          rcases hfa : fetchAll W (kernelsFor W p) (setup W p none false).spkSize t o fs
            ((keys.eraseDups.insertionSort (· ≤ ·)).map rp) (setup W p none false).spkCache
            with ⟨_ | states, c⟩
          · rw [hfa] at f2; cases f2
          · rw [hfa] at f1 f2
            simp only at f1 f2 ⊢
            have hst : states = (keys.eraseDups.insertionSort (· ≤ ·)).map fun k =>
                (W.spk (kernelsFor W p) t (rp k).key fs o).getD 0 := by
              simpa using f2
            have hinv : gather states (keys.map fun k => (keys.eraseDups.insertionSort (· ≤ ·)).idxOf k) =
                .ok (keys.map fun k => (W.spk (kernelsFor W p) t (rp k).key fs o).getD 0) := by
              apply gather_map
              intro k hk'
              rw [hst, List.getElem?_map, getElem?_idxOf_mem ((mem_unique keys k).mpr hk')]
              rfl
            rw [hinv]
            refine ⟨f1, ?_, s2, s3, fun _ _ => rfl, fun hsp => ?_⟩
            · refine Eq.trans (kernelsFor_sameK W (q := setup W p none false) ?_) hk; exact ⟨rfl, rfl, rfl⟩
            · have hx := hexact (hsp _ rfl)
              simp only [bodyValues, hf, Option.bind_some]
              rw [List.map_map, allSome_map _ _ (fun r : Row => (W.spk (kernelsFor W p) t (rp r.key64).key fs o).getD 0)
                (fun r hr' => by
                  have h1 := hsome r.key64 (by rw [← hkeys]; exact List.mem_map_of_mem hr')
                  rw [hx r hr'] at h1 ⊢
                  exact h1)]
              simp only [if_neg hz', ← hkeys, List.map_map]
              rfl
        · simp only [not_forall] at hall
          obtain ⟨k, hk', hnone⟩ := hall
          have hnone' : W.spk (kernelsFor W p) t (rp k).key fs o = none := by simpa using hnone
          rw [allSome_none _ _ k ((mem_unique keys k).mpr hk') hnone'] at f2
          rcases hfa : fetchAll W (kernelsFor W p) (setup W p none false).spkSize t o fs
            ((keys.eraseDups.insertionSort (· ≤ ·)).map rp) (setup W p none false).spkCache
            with ⟨e | states, c⟩
          · rw [hfa] at f1
            refine ⟨f1, ?_, s2, s3, by simp, fun _ => ?_⟩
            · refine Eq.trans (kernelsFor_sameK W (q := setup W p none false) ?_) hk; exact ⟨rfl, rfl, rfl⟩
            · simp only [bodyValues, hf, Option.bind_some]
              rw [allSome_none _ _ (rp k).key (List.mem_map_of_mem (hrepkey k hk').2) hnone']
              exact ⟨e, rfl⟩
          · rw [hfa] at f2; cases f2
      · have hr := he ts.rows
        change ts.rescale W.env "tdb" = _ at hr
        have hkey : ts.key W.env = .error e := by
          unfold TS.key; rw [if_neg hz]; simp only [hr]
        rw [hr, hkey]
        simp only
        refine ⟨by rw [s1]; exact h, hk, s2, s3, by simp, fun _ => ⟨e, rfl⟩⟩

end Verif.Spice
