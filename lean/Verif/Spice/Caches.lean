import Verif.Spice.Lemmas
import Mathlib.Data.List.Basic

/-! Invariants of the observer and translation caches. -/

set_option linter.unusedSectionVars false

namespace Verif.Spice

open Verif Time Spec

variable {Kernel S P : Type} [DecidableEq Kernel] [StateSpace S]

/-- Lookups and stores keep a property of all entries. -/
theorem lru_get_all {K V : Type} [DecidableEq K] {c : Lru.Cache K V} (hd : Lru.Distinct c) {Q : K → V → Prop}
    (h : ∀ k v, (k, v) ∈ c → Q k v) (k : K) (m : Int) :
    (Lru.Distinct (Lru.get c k m).2 ∧ ∀ k' v, (k', v) ∈ (Lru.get c k m).2 → Q k' v) ∧
      ∀ v, (Lru.get c k m).1 = some v → Q k v := by
  refine ⟨⟨Lru.get_distinct hd k m, fun k' v hm => h k' v ((Lru.get_mem hd k m _).mp hm)⟩, fun v hv => ?_⟩
  unfold Lru.get at hv
  split at hv
  · exact absurd hv (by simp)
  · cases hf : Lru.find c k with
    | none => rw [hf] at hv; exact absurd hv (by simp)
    | some v' =>
      rw [hf] at hv
      have : v' = v := by simpa using hv
      subst this
      exact h k v' ((Lru.find_some_iff hd k v').mp hf)

theorem lru_put_all {K V : Type} [DecidableEq K] {c : Lru.Cache K V} (hd : Lru.Distinct c) {Q : K → V → Prop}
    (h : ∀ k v, (k, v) ∈ c → Q k v) (k : K) (v : V) (m : Int) (hv : Q k v) :
    Lru.Distinct (Lru.put c k v m) ∧ ∀ k' v', (k', v') ∈ Lru.put c k v m → Q k' v' := by
  refine ⟨Lru.put_distinct hd k v m, fun k' v' hm => ?_⟩
  rcases Lru.put_mem hd hm with he | ⟨h1, _⟩
  · cases he; exact hv
  · exact h k' v' h1

/-- What an observer-cache entry promises. -/
def ObsOk (W : World Kernel S P) (K : List Kernel) (D : List Int → Prop) (k : SigKey) (c : Coords S) : Prop :=
  ∃ keys, D keys ∧ k = sigKey W k.name k.frame k.origin keys ∧ c.time.key W.env = .ok keys ∧
    siteValues W K k.name k.frame k.origin keys = some c.vals ∧ c.frame = k.frame ∧ c.origin = k.origin

/-- What a translation-cache entry promises. -/
def TransOk (W : World Kernel S P) (K : List Kernel) (D : List Int → Prop) (k : SigKey) (v : List S) : Prop :=
  ∃ keys body, D keys ∧ k = sigKey W k.name k.frame k.origin keys ∧ W.originCode k.name = some body ∧
    bodyValues W K body k.frame k.origin keys = some v

/-- All three caches agree with the kernels the next query will see. -/
structure Sound (W : World Kernel S P) (D : List Int → Prop) (p : Proc Kernel S) : Prop where
  spk : SoundSpk W (kernelsFor W p) p.spkCache
  obsD : Lru.Distinct p.obsCache
  obs : ∀ k c, (k, c) ∈ p.obsCache → ObsOk W (kernelsFor W p) D k c
  transD : Lru.Distinct p.transCache
  trans : ∀ k v, (k, v) ∈ p.transCache → TransOk W (kernelsFor W p) D k v

theorem kernelsFor_setObs (W : World Kernel S P) (p : Proc Kernel S) (c : Lru.Cache SigKey (Coords S)) :
    kernelsFor W { p with obsCache := c } = kernelsFor W p := kernelsFor_sameK W ⟨rfl, rfl, rfl⟩

theorem kernelsFor_setTrans (W : World Kernel S P) (p : Proc Kernel S) (c : Lru.Cache SigKey (List S)) :
    kernelsFor W { p with transCache := c } = kernelsFor W p := kernelsFor_sameK W ⟨rfl, rfl, rfl⟩

theorem Sound.setObs {W : World Kernel S P} {D : List Int → Prop} {p : Proc Kernel S} (h : Sound W D p)
    {c : Lru.Cache SigKey (Coords S)} (h1 : Lru.Distinct c) (h2 : ∀ k v, (k, v) ∈ c → ObsOk W (kernelsFor W p) D k v) :
    Sound W D { p with obsCache := c } := by
  have hk := kernelsFor_setObs W p c
  exact ⟨hk.symm ▸ h.spk, h1, hk.symm ▸ h2, h.transD, hk.symm ▸ h.trans⟩

theorem Sound.setTrans {W : World Kernel S P} {D : List Int → Prop} {p : Proc Kernel S} (h : Sound W D p)
    {c : Lru.Cache SigKey (List S)} (h1 : Lru.Distinct c) (h2 : ∀ k v, (k, v) ∈ c → TransOk W (kernelsFor W p) D k v) :
    Sound W D { p with transCache := c } := by
  have hk := kernelsFor_setTrans W p c
  exact ⟨hk.symm ▸ h.spk, h.obsD, hk.symm ▸ h.obs, h1, hk.symm ▸ h2⟩

theorem sigKey_inj {W : World Kernel S P} {D : List Int → Prop} (hD : NoCollision W D) {n n' f f' : String} {o o' : Int}
    {a b : List Int} (ha : D a) (hb : D b) (h : sigKey W n f o a = sigKey W n' f' o' b) : a = b := by
  simp only [sigKey, SigKey.mk.injEq] at h
  obtain ⟨_, _, _, h1, h2, h3, h4⟩ := h
  cases a with
  | nil =>
    cases b with
    | nil => rfl
    | cons => simp at h1
  | cons x a =>
    cases b with
    | nil => simp at h1
    | cons y b =>
      apply hD.2 _ _ ha hb
      simp only [List.map_cons, reduceCtorEq, if_false, List.head?_cons, Option.getD_some] at h1 h2 h3 h4
      rw [List.getLast?_eq_some_getLast (List.cons_ne_nil _ _), List.getLast?_eq_some_getLast (List.cons_ne_nil _ _)] at h3
      simp only [Option.getD_some] at h3
      have e1 : (x :: a).length = (y :: b).length := by simpa using h1
      have e2 : ((x :: a).map wrap64).head? = ((y :: b).map wrap64).head? := by simp [h2]
      have e3 : ((x :: a).map wrap64).getLast? = ((y :: b).map wrap64).getLast? := by
        rw [List.map_cons, List.map_cons, List.getLast?_eq_some_getLast (List.cons_ne_nil _ _),
          List.getLast?_eq_some_getLast (List.cons_ne_nil _ _), h3]
      have e4 : W.digest ((x :: a).map wrap64) = W.digest ((y :: b).map wrap64) := h4
      exact Prod.ext e1 (Prod.ext e2 (Prod.ext e3 e4))

theorem zipWith_allSome {α : Type} {β : Type} (keys : List α) (f : α → Option β) (h : α → β → β)
    {v : List β} (hv : allSome (keys.map f) = some v) :
    allSome (keys.map fun k => (f k).map (h k)) = some (List.zipWith (fun k e => h k e) keys v) := by
  induction keys generalizing v with
  | nil => cases hv; rfl
  | cons k keys ih =>
    rw [List.map_cons] at hv
    cases hf : f k with
    | none => rw [hf] at hv; cases hv
    | some e =>
      rw [hf, allSome, Option.map_eq_some_iff] at hv
      obtain ⟨v', h1, rfl⟩ := hv
      rw [List.map_cons, hf]
      simp only [Option.map_some, allSome, ih h1, List.zipWith_cons_cons]

theorem allSome_map_none {α β : Type} (keys : List α) (f : α → Option β) (h : α → β → β)
    (hv : allSome (keys.map f) = none) : allSome (keys.map fun k => (f k).map (h k)) = none := by
  induction keys with
  | nil => cases hv
  | cons k keys ih =>
    rw [List.map_cons] at hv ⊢
    cases hf : f k with
    | none => rfl
    | some e =>
      rw [hf, allSome, Option.map_eq_none_iff] at hv
      rw [Option.map_some, allSome, ih hv]; rfl

theorem sound_of_caches {W : World Kernel S P} {D : List Int → Prop} {p q : Proc Kernel S} (h : Sound W D p)
    (hk : kernelsFor W q = kernelsFor W p) (hs : SoundSpk W (kernelsFor W p) q.spkCache) (ho : q.obsCache = p.obsCache)
    (ht : q.transCache = p.transCache) : Sound W D q :=
  ⟨hk ▸ hs, ho ▸ h.obsD, by rw [ho, hk]; exact h.obs, ht ▸ h.transD, by rw [ht, hk]; exact h.trans⟩

theorem key_length {env : Env} {ts : TS} {ks : List Int} (h : ts.key env = .ok ks) : ks.length = ts.rows.length := by
  by_cases hz : ts.rows = []
  · unfold TS.key at h
    rw [if_pos (by simp [hz])] at h
    cases h; simp [hz]
  · rcases key_rowwise env ts.scale with ⟨f, hf⟩ | ⟨e, he⟩
    · have := hf ts.rows
      change ts.key env = _ at this
      rw [this] at h
      cases h; simp
    · have := he ts.rows hz
      change ts.key env = _ at this
      rw [this] at h
      cases h

theorem getMpcObserverState_spec {W : World Kernel S P} (hA : Antisymmetric W) {D : List Int → Prop}
    (hD : NoCollision W D) {p : Proc Kernel S} (h : Sound W D p) (code : String) (ts : TS) (f : String) (o : Int)
    (hU : ∀ ks, ts.key W.env = .ok ks → D ks) :
    Sound W D (getMpcObserverState W p code ts f o).2 ∧
    kernelsFor W (getMpcObserverState W p code ts f o).2 = kernelsFor W p ∧
    (match ts.key W.env with
      | .ok ks => match siteValues W (kernelsFor W p) code f o ks with
        | some v => ∃ c, (getMpcObserverState W p code ts f o).1 = .ok c ∧ c.vals = v ∧
            (ts.rows ≠ [] ∨ code ≠ "500" → c.frame = f) ∧ c.origin = o ∧ c.time.key W.env = .ok ks
        | none => ∃ e, (getMpcObserverState W p code ts f o).1 = .error e
      | .error _ => ∃ e, (getMpcObserverState W p code ts f o).1 = .error e) := by
  unfold getMpcObserverState
  rw [frameSpice_eq]
  cases hf : frameName f with
  | none =>
    refine ⟨h, rfl, ?_⟩
    cases ts.key W.env with
    | error e => exact ⟨_, rfl⟩
    | ok ks => simp only [siteValues, hf, Option.bind_none]; exact ⟨_, rfl⟩
  | some fs =>
    simp only
    rcases hp : W.parallax code with _ | _ | px
    · refine ⟨h, rfl, ?_⟩
      cases ts.key W.env with
      | error e => exact ⟨_, rfl⟩
      | ok ks => simp only [siteValues, hf, Option.bind_some, hp]; exact ⟨_, rfl⟩
    · refine ⟨h, rfl, ?_⟩
      cases ts.key W.env with
      | error e => exact ⟨_, rfl⟩
      | ok ks => simp only [siteValues, hf, Option.bind_some, hp]; exact ⟨_, rfl⟩
    · simp only
      cases hk : ts.key W.env with
      | error e => exact ⟨h, rfl, ⟨_, rfl⟩⟩
      | ok ks =>
        simp only
        have hDk := hU ks hk
        obtain ⟨⟨g1, g2⟩, g3⟩ := lru_get_all h.obsD h.obs (sigKey W code f o ks) p.obsSize
        rcases hg : Lru.get p.obsCache (sigKey W code f o ks) p.obsSize with ⟨_ | cached, c⟩
        · rw [hg] at g1 g2
          simp only at g1 g2 ⊢
          have hp1 : Sound W D { p with obsCache := c } := h.setObs g1 g2
          have hstore : ∀ (q : Proc Kernel S) (out : Coords S), Sound W D q → kernelsFor W q = kernelsFor W p →
              siteValues W (kernelsFor W p) code f o ks = some out.vals → out.frame = f → out.origin = o →
              out.time.key W.env = .ok ks →
              Sound W D { q with obsCache := Lru.put q.obsCache (sigKey W code f o ks) out q.obsSize } := by
            intro q out hq hkq hv hfr hor hti
            have hkq' : kernelsFor W { q with obsCache := Lru.put q.obsCache (sigKey W code f o ks) out q.obsSize } =
                kernelsFor W q := kernelsFor_sameK W ⟨rfl, rfl, rfl⟩
            obtain ⟨d1, d2⟩ := lru_put_all hq.obsD hq.obs (sigKey W code f o ks) out q.obsSize
              ⟨ks, hDk, rfl, hti, by rw [hkq]; exact hv, hfr, hor⟩
            exact ⟨hkq'.symm ▸ hq.spk, d1, hkq'.symm ▸ d2, hq.transD, hkq'.symm ▸ hq.trans⟩
          by_cases hi : f = "itrf93"
          · simp only [hi, if_true]
            by_cases hoe : o = W.earth
            · simp only [hoe, if_true]
              have hv : siteValues W (kernelsFor W p) code f o ks = some (List.replicate ts.rows.length (W.fixed px)) := by
                simp only [siteValues, hf, Option.bind_some, hp]
                rw [allSome_map ks _ (fun _ => W.fixed px) (fun k _ => by simp [siteValue, hi, hoe])]
                simp [key_length hk, List.map_const']
              have := hstore { p with obsCache := c } ⟨ts, List.replicate ts.rows.length (W.fixed px), f, o⟩ hp1
                (kernelsFor_setObs W p c) hv rfl
                rfl hk
              subst hi hoe
              refine ⟨this, kernelsFor_sameK W ⟨rfl, rfl, rfl⟩, ?_⟩
              rw [hv]
              exact ⟨_, rfl, rfl, fun _ => rfl, rfl, hk⟩
            · simp only [hoe, if_false]
              subst hi
              obtain ⟨e1, e2, e3, e4, _, e6⟩ := getPerturberState_spec hA (p := { p with obsCache := c }) hp1.spk W.earth ts
                "itrf93" o
              replace e6 := e6 fun ks h => hD.1 _ (hU ks h)
              have hsq := sound_of_caches hp1 e2 e1 e3 e4
              have hk1 : kernelsFor W ({ p with obsCache := c } : Proc Kernel S) = kernelsFor W p :=
                kernelsFor_setObs W p c
              rw [hk] at e6
              simp only [hk1] at e6 e2
              rcases hb : bodyValues W (kernelsFor W p) W.earth "itrf93" o ks with _ | v
              · rw [hb] at e6
                obtain ⟨e, he⟩ := e6
                rcases hq : getPerturberState W { p with obsCache := c } W.earth ts "itrf93" o with ⟨_ | st, q⟩
                · rw [hq] at hsq e2
                  refine ⟨hsq, e2, ?_⟩
                  have : siteValues W (kernelsFor W p) code "itrf93" o ks = none := by
                    simp only [siteValues, hf, Option.bind_some, hp]
                    simp only [bodyValues, hf, Option.bind_some] at hb
                    have := allSome_map_none ks (fun k => W.spk (kernelsFor W p) W.earth k fs o) (fun _ e => W.fixed px + e) hb
                    rw [← this]
                    congr 1
                    apply List.map_congr_left
                    intro k _
                    simp [siteValue, hoe]
                  rw [this]
                  exact ⟨_, rfl⟩
                · rw [hq] at he; cases he
              · rw [hb] at e6
                simp only at e6
                rcases hq : getPerturberState W { p with obsCache := c } W.earth ts "itrf93" o with ⟨_ | st, q⟩
                · rw [hq] at e6; cases e6
                · rw [hq] at hsq e2 e6
                  simp only at hsq e2 e6 ⊢
                  have hst : st.vals = v := by cases e6; rfl
                  have hv : siteValues W (kernelsFor W p) code "itrf93" o ks =
                      some (List.zipWith (· + ·) (List.replicate ts.rows.length (W.fixed px)) st.vals) := by
                    simp only [siteValues, hf, Option.bind_some, hp]
                    simp only [bodyValues, hf, Option.bind_some] at hb
                    have h1 := zipWith_allSome ks (fun k => W.spk (kernelsFor W p) W.earth k fs o) (fun _ e => W.fixed px + e) hb
                    have h2 : (ks.map fun k => (W.spk (kernelsFor W p) W.earth k fs o).map fun e => W.fixed px + e) =
                        ks.map (siteValue W (kernelsFor W p) code px "itrf93" fs o) := by
                      apply List.map_congr_left
                      intro k _
                      simp [siteValue, hoe]
                    rw [← h2, h1, hst, ← key_length hk]
                    congr 1
                    clear h1 h2 hb e6 hst hk hDk hg g1 g2 g3 hstore hU
                    induction ks generalizing v with
                    | nil => simp
                    | cons k ks ih =>
                      cases v with
                      | nil => simp
                      | cons x v => simp [List.replicate_succ, ih v]
                  have hst2 := hstore q ⟨ts, _, "itrf93", o⟩ hsq e2 hv rfl rfl hk
                  refine ⟨hst2, Eq.trans (kernelsFor_setObs W q _) e2, ?_⟩
                  rw [hv]
                  exact ⟨_, rfl, rfl, fun _ => rfl, rfl, hk⟩
          · simp only [hi, if_false]
            obtain ⟨e1, e2, e3, e4, e5, e6⟩ := getPerturberState_spec hA (p := { p with obsCache := c }) hp1.spk W.earth ts
              f o
            replace e6 := e6 fun ks h => hD.1 _ (hU ks h)
            have hsq := sound_of_caches hp1 e2 e1 e3 e4
            have hk1 : kernelsFor W ({ p with obsCache := c } : Proc Kernel S) = kernelsFor W p :=
                kernelsFor_setObs W p c
            rw [hk] at e6
            simp only [hk1] at e6 e2 e5
            have hsite : ∀ k, siteValue W (kernelsFor W p) code px f fs o k =
                (W.spk (kernelsFor W p) W.earth k fs o).map fun e => if code = "500" then e else
                  e + W.topo (kernelsFor W p) px fs k := by
              intro k; simp [siteValue, hi]
            rcases hb : bodyValues W (kernelsFor W p) W.earth f o ks with _ | v
            · rw [hb] at e6
              obtain ⟨e, he⟩ := e6
              rcases hq : getPerturberState W { p with obsCache := c } W.earth ts f o with ⟨_ | st, q⟩
              · rw [hq] at hsq e2
                refine ⟨hsq, e2, ?_⟩
                have : siteValues W (kernelsFor W p) code f o ks = none := by
                  simp only [siteValues, hf, Option.bind_some, hp]
                  simp only [bodyValues, hf, Option.bind_some] at hb
                  have := allSome_map_none ks (fun k => W.spk (kernelsFor W p) W.earth k fs o)
                    (fun k e => if code = "500" then e else e + W.topo (kernelsFor W p) px fs k) hb
                  rw [← this]
                  congr 1
                  exact List.map_congr_left fun k _ => hsite k
                rw [this]
                exact ⟨_, rfl⟩
              · rw [hq] at he; cases he
            · rw [hb] at e6
              simp only at e6
              rcases hq : getPerturberState W { p with obsCache := c } W.earth ts f o with ⟨_ | st, q⟩
              · rw [hq] at e6; cases e6
              · rw [hq] at hsq e2 e6 e5
                simp only at hsq e2 e6 e5 ⊢
                have hld := e5 st rfl
                have hst : st = ⟨ts, v, if ts.rows = [] then "unspecified" else f, o⟩ := by cases e6; rfl
                have h1 : siteValues W (kernelsFor W p) code f o ks = some (List.zipWith (fun k e =>
                    if code = "500" then e else e + W.topo (kernelsFor W p) px fs k) ks v) := by
                  simp only [siteValues, hf, Option.bind_some, hp]
                  simp only [bodyValues, hf, Option.bind_some] at hb
                  rw [← zipWith_allSome ks (fun k => W.spk (kernelsFor W p) W.earth k fs o)
                      (fun k e => if code = "500" then e else e + W.topo (kernelsFor W p) px fs k) hb]
                  congr 1
                  exact List.map_congr_left fun k _ => hsite k
                have hlen : ks.length = v.length := by
                  simp only [bodyValues, hf, Option.bind_some] at hb
                  have := allSome_length hb
                  simpa using this
                by_cases hc : code = "500"
                · rw [if_pos hc]
                  refine ⟨hsq, e2, ?_⟩
                  rw [h1]
                  refine ⟨st, rfl, ?_, ?_, by rw [hst], by rw [hst]; exact hk⟩
                  · rw [hst]
                    simp only [hc, if_true]
                    clear h1 hb e6 hst hk hDk hg g1 g2 g3 hstore hU
                    induction ks generalizing v with
                    | nil => cases v <;> simp_all
                    | cons k ks ih =>
                      cases v with
                      | nil => simp at hlen
                      | cons x v => simp only [List.zipWith_cons_cons, List.cons.injEq, true_and]; exact ih v (by simpa using hlen)
                  · intro hne
                    rw [hst]
                    rcases hne with hne | hne
                    · exact if_neg hne
                    · exact absurd hc hne
                · rw [if_neg hc]
                  have hv : siteValues W (kernelsFor W p) code f o ks =
                      some (List.zipWith (· + ·) st.vals (ks.map fun k => W.topo q.loaded px fs k)) := by
                    rw [h1, hst, hld]
                    simp only [hc, if_false]
                    congr 1
                    clear h1 hb e6 hst hk hDk hg g1 g2 g3 hstore hU
                    induction ks generalizing v with
                    | nil => simp
                    | cons k ks ih =>
                      cases v with
                      | nil => simp at hlen
                      | cons x v => simp only [List.map_cons, List.zipWith_cons_cons, List.cons.injEq, true_and]; exact ih v (by simpa using hlen)
                  have hst2 := hstore q ⟨ts, _, f, o⟩ hsq e2 hv rfl rfl hk
                  refine ⟨hst2, Eq.trans (kernelsFor_setObs W q _) e2, ?_⟩
                  rw [hv]
                  exact ⟨_, rfl, rfl, fun _ => rfl, rfl, hk⟩
        · rw [hg] at g1 g2 g3
          simp only at g1 g2 g3 ⊢
          obtain ⟨ks', hD', hsig, hti, hv, hfr, hor⟩ := g3 cached rfl
          have := sigKey_inj hD hDk hD' hsig
          subst this
          refine ⟨h.setObs g1 g2, kernelsFor_setObs W p c, ?_⟩
          change siteValues W (kernelsFor W p) code f o ks = _ at hv
          rw [hv]
          exact ⟨cached, rfl, rfl, fun _ => hfr, hor, hti⟩

theorem Sound.setup {W : World Kernel S P} {D : List Int → Prop} {p : Proc Kernel S} (h : Sound W D p) :
    Sound W D (setup W p none false) := by
  obtain ⟨s1, s2, s3⟩ := setup_caches W p none false
  exact sound_of_caches h (kernelsFor_setup W p) (s1 ▸ h.spk) s2 s3

theorem bodyValues_rows (W : World Kernel S P) (K : List Kernel) (b : Int) (f : String) (o : Int) {ks : List Int}
    (hne : ks ≠ []) :
    bodyValues W K b f o ks = allSome (ks.map fun k => (bodyValues W K b f o [k]).bind List.head?) := by
  unfold bodyValues
  cases frameName f with
  | none =>
    cases ks with
    | nil => exact absurd rfl hne
    | cons k ks => rfl
  | some fs =>
    simp only [Option.bind_some]
    congr 1
    apply List.map_congr_left
    intro k _
    cases h : W.spk K b k fs o <;> simp [h, allSome]

theorem siteValues_rows (W : World Kernel S P) (K : List Kernel) (c : String) (f : String) (o : Int) {ks : List Int}
    (hne : ks ≠ []) :
    siteValues W K c f o ks = allSome (ks.map fun k => (siteValues W K c f o [k]).bind List.head?) := by
  unfold siteValues
  cases ks with
  | nil => exact absurd rfl hne
  | cons k0 ks =>
    cases frameName f with
    | none => rfl
    | some fs =>
      simp only [Option.bind_some]
      rcases W.parallax c with _ | _ | px
      · rfl
      · rfl
      · simp only
        congr 1
        apply List.map_congr_left
        intro k _
        cases h : siteValue W K c px f fs o k <;> simp [h, allSome]

theorem originVectors_spec {W : World Kernel S P} (hA : Antisymmetric W) {D : List Int → Prop} (hD : NoCollision W D)
    (ssb : String → Int → Bool) {p : Proc Kernel S} (h : Sound W D p) (name : String) (ts : TS) (f : String) (o : Int)
    (hU : ∀ ks, ts.key W.env = .ok ks → D ks) (hne : ts.rows ≠ []) :
    Sound W D (originVectors W ssb p name ts f o).2 ∧
    kernelsFor W (originVectors W ssb p name ts f o).2 = kernelsFor W p ∧
    (match ts.key W.env with
      | .ok ks => match allSome (ks.map (originValue W (kernelsFor W p) f o name)) with
        | some v => (originVectors W ssb p name ts f o).1 = .ok v
        | none => ∃ e, (originVectors W ssb p name ts f o).1 = .error e
      | .error _ => ∃ e, (originVectors W ssb p name ts f o).1 = .error e) := by
  have hkne : ∀ ks, ts.key W.env = .ok ks → ks ≠ [] := by
    intro ks hk hks
    have := key_length hk
    rw [hks] at this
    exact hne (List.length_eq_zero_iff.mp this.symm)
  unfold originVectors
  cases hoc : W.originCode name with
  | some body =>
    simp only
    have hov : ∀ ks, ks ≠ [] → allSome (ks.map (originValue W (kernelsFor W p) f o name)) =
        bodyValues W (kernelsFor W p) body f o ks := by
      intro ks hks
      rw [bodyValues_rows _ _ _ _ _ hks]
      congr 1
      apply List.map_congr_left
      intro k _
      simp [originValue, hoc]
    have main : ∀ q : Proc Kernel S, Sound W D q → kernelsFor W q = kernelsFor W p →
        ∃ r q', getPerturberState W q body ts f o = (r, q') ∧ Sound W D q' ∧ kernelsFor W q' = kernelsFor W p ∧
        (match ts.key W.env with
          | .ok ks => match allSome (ks.map (originValue W (kernelsFor W p) f o name)) with
            | some v => ∃ c, r = .ok c ∧ c.vals = v
            | none => ∃ e, r = .error e
          | .error _ => ∃ e, r = .error e) := by
      intro q hq hkq
      obtain ⟨e1, e2, e3, e4, _, e6⟩ := getPerturberState_spec hA hq.spk body ts f o
      replace e6 := e6 fun ks h => hD.1 _ (hU ks h)
      refine ⟨_, _, rfl, sound_of_caches hq e2 e1 e3 e4, e2.trans hkq, ?_⟩
      cases hk : ts.key W.env with
      | error e => rw [hk] at e6; exact e6
      | ok ks =>
        rw [hk] at e6
        simp only at e6 ⊢
        rw [hov ks (hkne ks hk), ← hkq]
        cases hb : bodyValues W (kernelsFor W q) body f o ks with
        | none => rw [hb] at e6; exact e6
        | some v => rw [hb] at e6; exact ⟨_, e6, rfl⟩
    by_cases hc : (p.transEnabled && ssb name o) = true
    · rw [if_pos hc]
      cases hk : ts.key W.env with
      | error e => exact ⟨h, rfl, ⟨_, rfl⟩⟩
      | ok ks =>
        simp only
        have hDk := hU ks hk
        obtain ⟨⟨g1, g2⟩, g3⟩ := lru_get_all h.transD h.trans (sigKey W name f o ks) p.transSize
        rcases hg : Lru.get p.transCache (sigKey W name f o ks) p.transSize with ⟨_ | cached, c⟩
        · rw [hg] at g1 g2
          simp only at g1 g2 ⊢
          obtain ⟨r, q', hr, hs, hkq, hm⟩ := main _ (h.setTrans g1 g2) (kernelsFor_setTrans W p c)
          rw [hr]
          rw [hk] at hm
          simp only at hm ⊢
          cases ha : allSome (ks.map (originValue W (kernelsFor W p) f o name)) with
          | none =>
            rw [ha] at hm
            obtain ⟨e, rfl⟩ := hm
            exact ⟨hs, hkq, ⟨e, rfl⟩⟩
          | some v =>
            rw [ha] at hm
            obtain ⟨cc, rfl, hv⟩ := hm
            simp only
            refine ⟨?_, (kernelsFor_setTrans W q' _).trans hkq, by rw [hv]⟩
            obtain ⟨d1, d2⟩ := lru_put_all hs.transD hs.trans (sigKey W name f o ks) cc.vals q'.transSize
              ⟨ks, body, hDk, rfl, hoc, by
                rw [hkq, hv, ← ha]; exact (hov ks (hkne ks hk)).symm⟩
            exact hs.setTrans d1 d2
        · rw [hg] at g1 g2 g3
          simp only at g1 g2 g3 ⊢
          obtain ⟨ks', body', hD', hsig, hb', hv⟩ := g3 cached rfl
          have := sigKey_inj hD hDk hD' hsig
          subst this
          change W.originCode name = some body' at hb'
          rw [hoc] at hb'
          cases hb'
          refine ⟨h.setTrans g1 g2, kernelsFor_setTrans W p c, ?_⟩
          rw [hov ks (hkne ks hk)]
          change bodyValues W (kernelsFor W p) body f o ks = _ at hv
          rw [hv]
    · rw [if_neg hc]
      obtain ⟨r, q', hr, hs, hkq, hm⟩ := main p h rfl
      rw [hr]
      cases hk : ts.key W.env with
      | error e =>
        rw [hk] at hm
        obtain ⟨e, rfl⟩ := hm
        exact ⟨hs, hkq, ⟨e, rfl⟩⟩
      | ok ks =>
        rw [hk] at hm
        simp only at hm ⊢
        cases ha : allSome (ks.map (originValue W (kernelsFor W p) f o name)) with
        | none =>
          rw [ha] at hm
          obtain ⟨e, rfl⟩ := hm
          exact ⟨hs, hkq, ⟨e, rfl⟩⟩
        | some v =>
          rw [ha] at hm
          obtain ⟨cc, rfl, hv⟩ := hm
          exact ⟨hs, hkq, by simp only; rw [hv]⟩
  | none =>
    simp only
    by_cases hob : W.obsCodes name = true
    · rw [if_pos hob]
      obtain ⟨m1, m2, m3⟩ := getMpcObserverState_spec hA hD h.setup name ts f o hU
      rw [kernelsFor_setup] at m2 m3
      have hov : ∀ ks, ks ≠ [] → allSome (ks.map (originValue W (kernelsFor W p) f o name)) =
          siteValues W (kernelsFor W p) name f o ks := by
        intro ks hks
        rw [siteValues_rows _ _ _ _ _ hks]
        congr 1
        apply List.map_congr_left
        intro k _
        simp [originValue, hoc, hob]
      cases hk : ts.key W.env with
      | error e =>
        rw [hk] at m3
        obtain ⟨e, he⟩ := m3
        rcases hq : getMpcObserverState W (Spice.setup W p none false) name ts f o with ⟨_ | st, q⟩
        · rw [hq] at m1 m2; exact ⟨m1, m2, ⟨_, rfl⟩⟩
        · rw [hq] at he; cases he
      | ok ks =>
        rw [hk] at m3
        simp only at m3 ⊢
        rw [hov ks (hkne ks hk)]
        cases hv : siteValues W (kernelsFor W p) name f o ks with
        | none =>
          rw [hv] at m3
          obtain ⟨e, he⟩ := m3
          rcases hq : getMpcObserverState W (Spice.setup W p none false) name ts f o with ⟨_ | st, q⟩
          · rw [hq] at m1 m2; exact ⟨m1, m2, ⟨_, rfl⟩⟩
          · rw [hq] at he; cases he
        | some v =>
          rw [hv] at m3
          obtain ⟨c, he, hcv, _⟩ := m3
          rcases hq : getMpcObserverState W (Spice.setup W p none false) name ts f o with ⟨_ | st, q⟩
          · rw [hq] at he; cases he
          · rw [hq] at m1 m2 he
            cases he
            refine ⟨m1, m2, ?_⟩
            simp only
            rw [hcv]
    · rw [if_neg hob]
      refine ⟨h, rfl, ?_⟩
      cases hk : ts.key W.env with
      | error e => exact ⟨_, rfl⟩
      | ok ks =>
        simp only
        have : allSome (ks.map (originValue W (kernelsFor W p) f o name)) = none := by
          cases ks with
          | nil => exact absurd rfl (hkne [] hk)
          | cons k ks => exact allSome_none _ _ k (by simp) (by simp [originValue, hoc, hob])
        rw [this]
        exact ⟨_, rfl⟩

theorem applyMask_map {T α : Type} (l : List T) (g : T → α) (q : T → Bool) :
    applyMask (l.map g) (l.map q) = (l.filter q).map g := by
  unfold applyMask
  induction l with
  | nil => rfl
  | cons t l ih =>
    simp only [List.map_cons, List.zip_cons_cons, List.filter_cons]
    cases q t <;> simp [ih]

theorem scatter_map {T α : Type} (l : List T) (q : T → Bool) (vec val : T → α) :
    scatter (l.map q) (l.map vec) ((l.filter q).map val) = .ok (l.map fun t => if q t then val t else vec t) := by
  induction l with
  | nil => rfl
  | cons t l ih =>
    simp only [List.map_cons, List.filter_cons]
    cases hq : q t with
    | false => simp [scatter, ih]
    | true => simp [scatter, ih]

/-- The loop over origins fills exactly the rows of the origins it has visited. -/
theorem originLoop_spec {W : World Kernel S P} (hA : Antisymmetric W) {D : List Int → Prop} (hD : NoCollision W D)
    (ssb : String → Int → Bool) (scale f : String) (o : Int) (K : List Kernel) (T : List (String × Row))
    (key : Row → Int) (hkey : ∀ rows, TS.key W.env ⟨scale, rows⟩ = .ok (rows.map key))
    (hU : ∀ n ∈ T.map (·.1), D (((T.filter fun t => decide (t.1 = n)).map (·.2)).map key)) (os : List String) :
    ∀ (vec : String × Row → S) (p : Proc Kernel S), Sound W D p → kernelsFor W p = K → (∀ n ∈ os, n ∈ T.map (·.1)) →
      ∃ r p', originLoop W ssb (T.map (·.1)) ⟨scale, T.map (·.2)⟩ f o os (T.map vec) p = (r, p') ∧ Sound W D p' ∧
        kernelsFor W p' = K ∧
        ((∀ t ∈ T, t.1 ∈ os → (originValue W K f o t.1 (key t.2)).isSome) →
          r = .ok (T.map fun t => if t.1 ∈ os then (originValue W K f o t.1 (key t.2)).getD 0 else vec t)) ∧
        ((∃ t ∈ T, t.1 ∈ os ∧ originValue W K f o t.1 (key t.2) = none) → ∃ e, r = .error e) := by
  induction os with
  | nil =>
    intro vec p hp hk _
    exact ⟨_, _, rfl, hp, hk, by simp, by simp⟩
  | cons n os ih =>
    intro vec p hp hk hin
    have hn := hin n (by simp)
    have hfne : T.filter (fun t => decide (t.1 = n)) ≠ [] := by
      obtain ⟨t, ht, rfl⟩ := List.mem_map.mp hn
      intro hc
      have : t ∈ T.filter (fun u => decide (u.1 = t.1)) := List.mem_filter.mpr ⟨ht, by simp⟩
      rw [hc] at this
      simp at this
    have hmask : (T.map (·.1)).map (fun c => decide (c = n)) = T.map fun t => decide (t.1 = n) := by
      rw [List.map_map]; rfl
    unfold originLoop
    simp only [hmask, applyMask_map]
    obtain ⟨v1, v2, v3⟩ := originVectors_spec hA hD ssb hp n ⟨scale, (T.filter fun t => decide (t.1 = n)).map (·.2)⟩ f o
      (by intro ks hks; rw [hkey] at hks; cases hks; exact hU n hn) (by simpa using hfne)
    rw [hkey] at v3
    simp only [hk] at v3 v2
    rw [List.map_map, List.map_map] at v3
    by_cases hall : ∀ t ∈ T.filter (fun t => decide (t.1 = n)), (originValue W K f o n (key t.2)).isSome
    · have hsome : allSome ((T.filter fun t => decide (t.1 = n)).map
          ((originValue W K f o n ∘ key) ∘ fun t => t.2)) =
          some ((T.filter fun t => decide (t.1 = n)).map fun t => (originValue W K f o t.1 (key t.2)).getD 0) := by
        apply allSome_map
        intro t ht
        have h1 : t.1 = n := by simpa using (List.mem_filter.mp ht).2
        obtain ⟨x, hx⟩ := Option.isSome_iff_exists.mp (hall t ht)
        simp only [Function.comp, h1, hx, Option.getD_some]
      have v3' : (originVectors W ssb p n ⟨scale, (T.filter fun t => decide (t.1 = n)).map (·.2)⟩ f o).1 =
          .ok ((T.filter fun t => decide (t.1 = n)).map fun t => (originValue W K f o t.1 (key t.2)).getD 0) := by
        simp only [Function.comp_assoc] at hsome v3
        rw [hsome] at v3
        exact v3
      rcases hov : originVectors W ssb p n ⟨scale, (T.filter fun t => decide (t.1 = n)).map (·.2)⟩ f o with ⟨_ | v, q⟩
      · rw [hov] at v3'; cases v3'
      · rw [hov] at v1 v2 v3'
        simp only at v1 v2 v3'
        cases v3'
        rw [hov]
        simp only [scatter_map]
        obtain ⟨r, p', hr, hs, hkp, hok, herr⟩ := ih
          (fun t => if decide (t.1 = n) = true then (originValue W K f o t.1 (key t.2)).getD 0 else vec t) q v1 v2
          (fun m hm => hin m (List.mem_cons_of_mem _ hm))
        refine ⟨r, p', hr, hs, hkp, ?_, ?_⟩
        · intro hA'
          rw [hok fun t ht hto => hA' t ht (List.mem_cons_of_mem _ hto)]
          congr 1
          apply List.map_congr_left
          intro t _
          by_cases h1 : t.1 ∈ os
          · rw [if_pos h1, if_pos (List.mem_cons_of_mem _ h1)]
          · rw [if_neg h1]
            by_cases h2 : t.1 = n
            · simp [h2]
            · simp [h1, h2]
        · rintro ⟨t, ht, hto, hnone⟩
          apply herr
          refine ⟨t, ht, ?_, hnone⟩
          rcases List.mem_cons.mp hto with h1 | h1
          · exfalso
            have := hall t (List.mem_filter.mpr ⟨ht, by simp [h1]⟩)
            rw [← h1, hnone] at this
            simp at this
          · exact h1
    · simp only [not_forall] at hall
      obtain ⟨t, ht, hnone⟩ := hall
      have hnone' : originValue W K f o n (key t.2) = none := by simpa using hnone
      have h1 : t.1 = n := by simpa using (List.mem_filter.mp ht).2
      have hno : allSome ((T.filter fun t => decide (t.1 = n)).map ((originValue W K f o n ∘ key) ∘ fun t => t.2)) = none :=
        allSome_none _ _ t ht hnone'
      simp only [Function.comp_assoc] at hno v3
      rw [hno] at v3
      obtain ⟨e, he⟩ := v3
      rcases hov : originVectors W ssb p n ⟨scale, (T.filter fun t => decide (t.1 = n)).map (·.2)⟩ f o with ⟨e' | v, q⟩
      · rw [hov] at v1 v2
        rw [hov]
        refine ⟨_, _, rfl, v1, v2, ?_, fun _ => ⟨e', rfl⟩⟩
        intro hA'
        have := hA' t (List.mem_filter.mp ht).1 (by simp [h1])
        rw [h1, hnone'] at this
        simp at this
      · rw [hov] at he; cases he

theorem table_rows {α β : Type} (as : List α) (bs : List β) (h : as.length = bs.length) :
    (as.zip bs).map (·.1) = as ∧ (as.zip bs).map (·.2) = bs := by
  constructor
  · exact List.map_fst_zip (by omega)
  · exact List.map_snd_zip (by omega)

theorem zipWith_eq_zip_map {α β γ : Type} (g : α → β → γ) (as : List α) (bs : List β) :
    List.zipWith g as bs = (as.zip bs).map fun t => g t.1 t.2 := by
  rw [List.zip, List.map_zipWith]

theorem cartesianToOrigin_spec {W : World Kernel S P} (hA : Antisymmetric W) {D : List Int → Prop}
    (hD : NoCollision W D) (ssb : String → Int → Bool) {p : Proc Kernel S} (h : Sound W D p) (codes : List String)
    (ts : TS) (vals : List S) (f : String) (o : Int) (hU : Uses (Kernel := Kernel) W D (.translate codes ts vals f o)) :
    Sound W D (cartesianToOrigin W ssb p codes ts vals f o).2 ∧
    kernelsFor W (cartesianToOrigin W ssb p codes ts vals f o).2 = kernelsFor W p ∧
    (match ts.key W.env with
      | .ok ks => match allSome (List.zipWith (originValue W (kernelsFor W p) f o) codes ks) with
        | some v => (cartesianToOrigin W ssb p codes ts vals f o).1 = .ok ⟨ts, List.zipWith (· + ·) vals v, f, o⟩
        | none => ∃ e, (cartesianToOrigin W ssb p codes ts vals f o).1 = .error e
      | .error _ => ∃ e, (cartesianToOrigin W ssb p codes ts vals f o).1 = .error e) := by
  obtain ⟨hl1, hl2, hU⟩ := hU
  obtain ⟨t1, t2⟩ := table_rows codes ts.rows hl1
  obtain ⟨scale, rows⟩ := ts
  simp only at hl1 hl2 t1 t2 hU
  unfold cartesianToOrigin
  rcases key_rowwise W.env scale with ⟨key, hkey⟩ | ⟨e, he⟩
  · have hU' : ∀ n ∈ (codes.zip rows).map (·.1),
        D ((((codes.zip rows).filter fun t => decide (t.1 = n)).map (·.2)).map key) := by
      intro n hn
      rw [t1] at hn
      apply hU n hn
      rw [hkey]
      congr 2
      conv_lhs => rw [← t2, ← t1, List.map_map]
      rw [t1]
      exact applyMask_map _ _ _
    have hvec : (vals.map fun _ => (0 : S)) = (codes.zip rows).map fun _ => 0 := by
      simp only [List.map_const', List.length_zip]
      congr 1
      omega
    obtain ⟨r, p', hr, hs, hk, hok, herr⟩ := originLoop_spec hA hD ssb scale f o (kernelsFor W p) (codes.zip rows) key hkey
      hU' codes.eraseDups (fun _ => 0) p h rfl (by intro n hn; rw [t1]; exact List.mem_eraseDups.mp hn)
    rw [t1, t2] at hr
    rw [hvec, hr]
    have hkeys : TS.key W.env ⟨scale, rows⟩ = .ok (rows.map key) := hkey rows
    rw [hkeys]
    simp only
    have hz : List.zipWith (originValue W (kernelsFor W p) f o) codes (rows.map key) =
        (codes.zip rows).map fun t => originValue W (kernelsFor W p) f o t.1 (key t.2) := by
      rw [List.zipWith_map_right, zipWith_eq_zip_map]
    rw [hz]
    have hmem : ∀ t ∈ codes.zip rows, t.1 ∈ codes.eraseDups := by
      intro t ht
      rw [List.mem_eraseDups, ← t1]
      exact List.mem_map.mpr ⟨t, ht, rfl⟩
    by_cases hall : ∀ t ∈ codes.zip rows, (originValue W (kernelsFor W p) f o t.1 (key t.2)).isSome
    · have h1 := hok fun t ht _ => hall t ht
      have h2 : allSome ((codes.zip rows).map fun t => originValue W (kernelsFor W p) f o t.1 (key t.2)) =
          some ((codes.zip rows).map fun t => (originValue W (kernelsFor W p) f o t.1 (key t.2)).getD 0) := by
        apply allSome_map
        intro t ht
        obtain ⟨x, hx⟩ := Option.isSome_iff_exists.mp (hall t ht)
        rw [hx]; rfl
      rw [h2]
      have h3 : ((codes.zip rows).map fun t => if t.1 ∈ codes.eraseDups then
          (originValue W (kernelsFor W p) f o t.1 (key t.2)).getD 0 else 0) =
          (codes.zip rows).map fun t => (originValue W (kernelsFor W p) f o t.1 (key t.2)).getD 0 :=
        List.map_congr_left fun t ht => if_pos (hmem t ht)
      rw [h3] at h1
      subst h1
      exact ⟨hs, hk, rfl⟩
    · simp only [not_forall] at hall
      obtain ⟨t, ht, hn⟩ := hall
      have hn' : originValue W (kernelsFor W p) f o t.1 (key t.2) = none := by simpa using hn
      obtain ⟨e, rfl⟩ := herr ⟨t, ht, hmem t ht, hn'⟩
      rw [allSome_none _ _ t ht hn']
      exact ⟨hs, hk, ⟨e, rfl⟩⟩
  · by_cases hne : rows = []
    · subst hne
      have : codes = [] := List.length_eq_zero_iff.mp (by simpa using hl1)
      subst this
      have : vals = [] := List.length_eq_zero_iff.mp (by simpa using hl2)
      subst this
      exact ⟨h, rfl, rfl⟩
    · rw [he rows hne]
      simp only
      cases codes with
      | nil => exact absurd (List.length_eq_zero_iff.mp hl1.symm) hne
      | cons c cs =>
        have hmem : c ∈ (c :: cs).eraseDups := List.mem_eraseDups.mpr (by simp)
        rw [List.eraseDups_cons]
        unfold originLoop
        simp only
        have hmne : applyMask rows ((c :: cs).map fun c' => decide (c' = c)) ≠ [] := by
          cases rows with
          | nil => exact absurd rfl hne
          | cons r rs => simp [applyMask]
        obtain ⟨v1, v2, v3⟩ := originVectors_spec hA hD ssb h c
          ⟨scale, applyMask rows ((c :: cs).map fun c' => decide (c' = c))⟩ f o (hU c (by simp)) hmne
        rw [he _ hmne] at v3
        obtain ⟨e', he'⟩ := v3
        rcases hov : originVectors W ssb p c ⟨scale, applyMask rows ((c :: cs).map fun c' => decide (c' = c))⟩ f o with
          ⟨e2 | v, q⟩
        · rw [hov] at v1 v2
          exact ⟨v1, v2, ⟨_, rfl⟩⟩
        · rw [hov] at he'; cases he'

theorem step_sound {W : World Kernel S P} (hA : Antisymmetric W) {D : List Int → Prop}
    (hD : NoCollision W D) (ssb : String → Int → Bool) {p : Proc Kernel S} (h : Sound W D p) (op : Op Kernel S)
    (hq : Quiet op) (hU : Uses W D op) :
    Sound W D (step W ssb p op) ∧ kernelsFor W (step W ssb p op) = kernelsFor W p := by
  have nilD : ∀ {A B : Type}, Lru.Distinct ([] : Lru.Cache A B) := by
    intro A B; unfold Lru.Distinct; exact List.nodup_nil
  cases op with
  | register k => exact absurd hq (by simp [Quiet])
  | unregister k => exact absurd hq (by simp [Quiet])
  | setup ks b => exact absurd hq (by simp [Quiet])
  | clearSpk =>
    have hk : kernelsFor W { p with spkCache := [] } = kernelsFor W p := kernelsFor_sameK W ⟨rfl, rfl, rfl⟩
    exact ⟨sound_of_caches h hk (soundSpk_nil _ _) rfl rfl, hk⟩
  | clearObs => exact ⟨h.setObs nilD (by simp), kernelsFor_setObs W p _⟩
  | clearTrans => exact ⟨h.setTrans nilD (by simp), kernelsFor_setTrans W p _⟩
  | perturber t ts f o =>
    obtain ⟨e1, e2, e3, e4, _⟩ := getPerturberState_spec hA h.spk t ts f o
    exact ⟨sound_of_caches h e2 e1 e3 e4, e2⟩
  | observer c ts f o =>
    obtain ⟨e1, e2, _⟩ := getMpcObserverState_spec hA hD h c ts f o hU
    exact ⟨e1, e2⟩
  | translate cs ts vs f o =>
    obtain ⟨e1, e2, _⟩ := cartesianToOrigin_spec hA hD ssb h cs ts vs f o hU
    exact ⟨e1, e2⟩

theorem run_sound {W : World Kernel S P} (hA : Antisymmetric W) {D : List Int → Prop}
    (hD : NoCollision W D) (ssb : String → Int → Bool) (ops : List (Op Kernel S)) : ∀ {p : Proc Kernel S}, Sound W D p →
    (∀ op ∈ ops, Quiet op ∧ Uses W D op) →
    Sound W D (run W ssb p ops) ∧ kernelsFor W (run W ssb p ops) = kernelsFor W p := by
  induction ops with
  | nil => intro p h _; exact ⟨h, rfl⟩
  | cons op ops ih =>
    intro p h hq
    obtain ⟨h1, h2⟩ := step_sound hA hD ssb h op (hq op (by simp)).1 (hq op (by simp)).2
    obtain ⟨h3, h4⟩ := ih h1 fun o ho => hq o (List.mem_cons_of_mem _ ho)
    exact ⟨h3, h4.trans h2⟩

theorem blank_sound (W : World Kernel S P) (D : List Int → Prop) {p : Proc Kernel S} (h : Blank p) : Sound W D p := by
  obtain ⟨h1, h2, h3⟩ := h
  have nilD : ∀ {A B : Type}, Lru.Distinct ([] : Lru.Cache A B) := by
    intro A B; unfold Lru.Distinct; exact List.nodup_nil
  exact ⟨by rw [h1]; exact soundSpk_nil _ _, by rw [h2]; exact nilD, by rw [h2]; simp, by rw [h3]; exact nilD,
    by rw [h3]; simp⟩

/-- The state cache alone stays sound through any calls, whatever the other caches hold. -/
def Keeps (W : World Kernel S P) (p q : Proc Kernel S) : Prop :=
  kernelsFor W q = kernelsFor W p ∧ SoundSpk W (kernelsFor W p) q.spkCache

theorem Keeps.trans {W : World Kernel S P} {p q r : Proc Kernel S} (h1 : Keeps W p q) (h2 : Keeps W q r) :
    Keeps W p r := ⟨h2.1.trans h1.1, h1.1 ▸ h2.2⟩

theorem keeps_perturber {W : World Kernel S P} (hA : Antisymmetric W) {p : Proc Kernel S}
    (h : SoundSpk W (kernelsFor W p) p.spkCache) (t : Int) (ts : TS) (f : String) (o : Int) :
    Keeps W p (getPerturberState W p t ts f o).2 := by
  obtain ⟨e1, e2, _⟩ := getPerturberState_spec hA h t ts f o
  exact ⟨e2, e1⟩

theorem keeps_obs (W : World Kernel S P) {p : Proc Kernel S} (h : SoundSpk W (kernelsFor W p) p.spkCache)
    (c : Lru.Cache SigKey (Coords S)) : Keeps W p { p with obsCache := c } := ⟨kernelsFor_setObs W p c, h⟩

theorem keeps_trans (W : World Kernel S P) {p : Proc Kernel S} (h : SoundSpk W (kernelsFor W p) p.spkCache)
    (c : Lru.Cache SigKey (List S)) : Keeps W p { p with transCache := c } := ⟨kernelsFor_setTrans W p c, h⟩

theorem Keeps.sound {W : World Kernel S P} {p q : Proc Kernel S} (h : Keeps W p q) :
    SoundSpk W (kernelsFor W q) q.spkCache := h.1.symm ▸ h.2

theorem keeps_observer {W : World Kernel S P} (hA : Antisymmetric W) {p : Proc Kernel S}
    (h : SoundSpk W (kernelsFor W p) p.spkCache) (code : String) (ts : TS) (f : String) (o : Int) :
    Keeps W p (getMpcObserverState W p code ts f o).2 := by
  have hp : Keeps W p p := ⟨rfl, h⟩
  unfold getMpcObserverState
  cases frameSpice f with
  | none => exact hp
  | some fs =>
    simp only
    rcases W.parallax code with _ | _ | px
    · exact hp
    · exact hp
    · simp only
      cases ts.key W.env with
      | error e => exact hp
      | ok ks =>
        simp only
        rcases Lru.get p.obsCache (sigKey W code f o ks) p.obsSize with ⟨_ | cached, c⟩
        · simp only
          have h1 := keeps_obs W h c
          split
          · split
            · exact h1.trans (keeps_obs W h1.sound _)
            · have h2 := h1.trans (keeps_perturber hA h1.sound W.earth ts "itrf93" o)
              rcases hq : getPerturberState W { p with obsCache := c } W.earth ts "itrf93" o with ⟨_ | st, q⟩
              · rw [hq] at h2; exact h2
              · rw [hq] at h2; exact h2.trans (keeps_obs W h2.sound _)
          · have h2 := h1.trans (keeps_perturber hA h1.sound W.earth ts f o)
            rcases hq : getPerturberState W { p with obsCache := c } W.earth ts f o with ⟨_ | st, q⟩
            · rw [hq] at h2; exact h2
            · rw [hq] at h2
              simp only
              split
              · exact h2
              · exact h2.trans (keeps_obs W h2.sound _)
        · exact keeps_obs W h c

theorem keeps_setup {W : World Kernel S P} {p : Proc Kernel S} (h : SoundSpk W (kernelsFor W p) p.spkCache) :
    Keeps W p (setup W p none false) := ⟨kernelsFor_setup W p, by rw [(setup_caches W p none false).1]; exact h⟩

theorem keeps_origin {W : World Kernel S P} (hA : Antisymmetric W) (ssb : String → Int → Bool) {p : Proc Kernel S}
    (h : SoundSpk W (kernelsFor W p) p.spkCache) (name : String) (ts : TS) (f : String) (o : Int) :
    Keeps W p (originVectors W ssb p name ts f o).2 := by
  have hp : Keeps W p p := ⟨rfl, h⟩
  unfold originVectors
  cases W.originCode name with
  | some body =>
    simp only
    split
    · cases ts.key W.env with
      | error e => exact hp
      | ok ks =>
        simp only
        rcases Lru.get p.transCache (sigKey W name f o ks) p.transSize with ⟨_ | cached, c⟩
        · simp only
          have h1 := keeps_trans W h c
          have h2 := h1.trans (keeps_perturber hA h1.sound body ts f o)
          rcases hq : getPerturberState W { p with transCache := c } body ts f o with ⟨_ | st, q⟩
          · rw [hq] at h2; exact h2
          · rw [hq] at h2; exact h2.trans (keeps_trans W h2.sound _)
        · exact keeps_trans W h c
    · have h2 := keeps_perturber hA h body ts f o
      rcases hq : getPerturberState W p body ts f o with ⟨_ | st, q⟩
      · rw [hq] at h2; exact h2
      · rw [hq] at h2; exact h2
  | none =>
    simp only
    split
    · have h1 := keeps_setup h
      have h2 := h1.trans (keeps_observer hA h1.sound name ts f o)
      rcases hq : getMpcObserverState W (setup W p none false) name ts f o with ⟨_ | st, q⟩
      · rw [hq] at h2; exact h2
      · rw [hq] at h2; exact h2
    · exact hp

theorem keeps_loop {W : World Kernel S P} (hA : Antisymmetric W) (ssb : String → Int → Bool) (codes : List String)
    (ts : TS) (f : String) (o : Int) (os : List String) : ∀ (vec : List S) {p : Proc Kernel S},
    SoundSpk W (kernelsFor W p) p.spkCache → Keeps W p (originLoop W ssb codes ts f o os vec p).2 := by
  induction os with
  | nil => intro vec p h; exact ⟨rfl, h⟩
  | cons n os ih =>
    intro vec p h
    unfold originLoop
    simp only
    have h1 := keeps_origin hA ssb h n ⟨ts.scale, applyMask ts.rows (codes.map fun c => decide (c = n))⟩ f o
    rcases hq : originVectors W ssb p n ⟨ts.scale, applyMask ts.rows (codes.map fun c => decide (c = n))⟩ f o with
      ⟨_ | v, q⟩
    · rw [hq] at h1; exact h1
    · rw [hq] at h1
      simp only
      cases scatter (codes.map fun c => decide (c = n)) vec v with
      | error e => exact h1
      | ok vec' => exact h1.trans (ih vec' h1.sound)

theorem keeps_step {W : World Kernel S P} (hA : Antisymmetric W) (ssb : String → Int → Bool) {p : Proc Kernel S}
    (h : SoundSpk W (kernelsFor W p) p.spkCache) (op : Op Kernel S) (hq : Quiet op) : Keeps W p (step W ssb p op) := by
  cases op with
  | register k => exact absurd hq (by simp [Quiet])
  | unregister k => exact absurd hq (by simp [Quiet])
  | setup ks b => exact absurd hq (by simp [Quiet])
  | clearSpk => exact ⟨kernelsFor_sameK W ⟨rfl, rfl, rfl⟩, soundSpk_nil _ _⟩
  | clearObs => exact keeps_obs W h _
  | clearTrans => exact keeps_trans W h _
  | perturber t ts f o => exact keeps_perturber hA h t ts f o
  | observer c ts f o => exact keeps_observer hA h c ts f o
  | translate cs ts vs f o =>
    have h1 := keeps_loop hA ssb cs ts f o cs.eraseDups (vs.map fun _ => 0) h
    simp only [step, cartesianToOrigin]
    rcases hq : originLoop W ssb cs ts f o cs.eraseDups (vs.map fun _ => 0) p with ⟨_ | v, q⟩
    · rw [hq] at h1; exact h1
    · rw [hq] at h1; exact h1

theorem keeps_run {W : World Kernel S P} (hA : Antisymmetric W) (ssb : String → Int → Bool) (ops : List (Op Kernel S)) :
    ∀ {p : Proc Kernel S}, SoundSpk W (kernelsFor W p) p.spkCache → (∀ op ∈ ops, Quiet op) →
      Keeps W p (run W ssb p ops) := by
  induction ops with
  | nil => intro p h _; exact ⟨rfl, h⟩
  | cons op ops ih =>
    intro p h hq
    have h1 := keeps_step hA ssb h op (hq op (by simp))
    exact h1.trans (ih h1.sound fun o ho => hq o (List.mem_cons_of_mem _ ho))

end Verif.Spice
