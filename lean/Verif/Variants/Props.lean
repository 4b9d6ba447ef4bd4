import Verif.Variants.Model
import Verif.Sigma.VariantProps
import Verif.Collapse.Props
import Verif.Dc.Props

/-! # Variants of orbits: the properties -/

namespace Verif.Variants.Props

open Verif Sched Sigma.Props

variable {I J O P σ : Type}

/-- The covariances of the orbits are symmetric. -/
def Symmetric (orbits : List (Orbit I J O P)) : Prop := ∀ c ∈ orbits.map coord, ∀ i j, c.cov i j = c.cov j i

theorem gather_forall₂ {α β : Type} {f : α → Except PyErr β} {l : List α} {out : List β} (h : gather f l = .ok out) :
    List.Forall₂ (fun a b => f a = .ok b) l out := by
  induction l generalizing out with
  | nil =>
    cases h
    exact List.Forall₂.nil
  | cons a l ih =>
    unfold gather at h
    cases hf : f a with
    | error e => rw [hf] at h; cases h
    | ok b =>
      rw [hf] at h
      cases hg : gather f l with
      | error e => simp only [hg] at h; cases h
      | ok bs =>
        simp only [hg] at h
        cases h
        exact List.Forall₂.cons hf (ih hg)

theorem create_ok {p : Sigma.Params σ} {orbits : List (Orbit I J O P)} {hs : Symmetric orbits} {vs : List (Variant I J O P)}
    (h : create p orbits hs = .ok vs) : ∃ rows, Sigma.createVariants p (orbits.map coord) hs = .ok rows ∧
      List.Forall₂ (fun q v => row orbits q = .ok v) rows.zipIdx vs := by
  unfold create at h
  split at h
  · cases h
  · rename_i rows hr
    exact ⟨rows, hr, gather_forall₂ h⟩

/-- What a variant takes from its orbit. -/
def Of (o : Orbit I J O P) (v : Variant I J O P) : Prop :=
  v.orbit = o.id ∧ v.obj = o.obj ∧ v.days = o.days ∧ v.nanos = o.nanos ∧ v.origin = o.origin ∧ v.phys = o.phys

theorem row_ok {orbits : List (Orbit I J O P)} {q : Sigma.Variant (O × Int × Int) × Nat} {v : Variant I J O P} (h : row orbits q = .ok v) :
    ∃ o, orbits[q.1.index]? = some o ∧ v = ⟨o.id, o.obj, q.2, q.1.time.2.1, q.1.time.2.2, q.1.origin.1, o.phys, q.1.values, q.1.weight,
      q.1.weightCov⟩ := by
  unfold row at h
  split at h
  · cases h
  · rename_i o ho
    exact ⟨o, ho, (Except.ok.inj h).symm⟩

/-- The sample that a variant was made from has what travels along from its orbit. -/
theorem sample_of {p : Sigma.Params σ} {orbits : List (Orbit I J O P)} {hs : Symmetric orbits}
    {rows : List (Sigma.Variant (O × Int × Int))} (h : Sigma.createVariants p (orbits.map coord) hs = .ok rows)
    {q : Sigma.Variant (O × Int × Int)} (hq : q ∈ rows) :
    ∃ o, orbits[q.index]? = some o ∧ q.origin = (o.origin, o.days, o.nanos) ∧ q.time = (o.origin, o.days, o.nanos) := by
  obtain ⟨h1, -, h3⟩ := C104_rows h
  have hi := h1 q hq
  rw [List.length_map] at hi
  refine ⟨orbits[q.index], List.getElem?_eq_getElem hi, ?_⟩
  obtain ⟨m, C, hC, s, -, -, e⟩ := h3 q.index (coord orbits[q.index]) (by rw [List.getElem?_map, List.getElem?_eq_getElem hi]; rfl)
  have : q ∈ rows.filter fun v => v.index = q.index := List.mem_filter.mpr ⟨hq, by simp⟩
  rw [e] at this
  obtain ⟨z, -, hz⟩ := List.mem_map.mp this
  exact ⟨(congrArg Sigma.Variant.origin hz).symm, (congrArg Sigma.Variant.time hz).symm⟩

/-- Every variant belongs to one of the orbits and takes ids, epoch, origin and physical parameters from it; the variants of an orbit come
together, in the order of the orbits; and the variant ids are the numbers 0, 1, 2, ... over the whole table. -/
theorem C153_create {p : Sigma.Params σ} {orbits : List (Orbit I J O P)} {hs : Symmetric orbits} {vs : List (Variant I J O P)}
    (h : create p orbits hs = .ok vs) :
    vs.map Variant.variant = List.range vs.length ∧
    ∃ of : List Nat, of.Pairwise (· ≤ ·) ∧ List.Forall₂ (fun k v => ∃ o, orbits[k]? = some o ∧ Of o v) of vs := by
  obtain ⟨rows, hr, hf⟩ := create_ok h
  have hlen : rows.length = vs.length := by
    have := hf.length_eq
    rwa [List.length_zipIdx] at this
  constructor
  · have : vs.map Variant.variant = rows.zipIdx.map Prod.snd := by
      symm
      have : ∀ {l : List (Sigma.Variant (O × Int × Int) × Nat)} {w : List (Variant I J O P)},
          List.Forall₂ (fun q v => row orbits q = .ok v) l w → l.map Prod.snd = w.map Variant.variant := by
        intro l w hf
        induction hf with
        | nil => rfl
        | cons h1 _ ih =>
          obtain ⟨o, -, rfl⟩ := row_ok h1
          rw [List.map_cons, List.map_cons, ih]
      exact this hf
    rw [this, List.zipIdx_map_snd, ← List.range_eq_range', hlen]
  · refine ⟨rows.map (·.index), ?_, ?_⟩
    · rw [List.pairwise_map]
      exact (C104_rows hr).2.1
    · have hrows : rows.map (·.index) = rows.zipIdx.map fun q => q.1.index := by
        conv_lhs => rw [← List.zipIdx_map_fst 0 rows, List.map_map]
        rfl
      rw [hrows, List.forall₂_map_left_iff]
      have hmem : ∀ q ∈ rows.zipIdx, q.1 ∈ rows := fun q hq => List.fst_mem_of_mem_zipIdx hq
      clear h hlen hrows
      generalize rows.zipIdx = l at hf hmem
      induction hf with
      | nil => exact List.Forall₂.nil
      | cons h1 _ ih =>
        refine List.Forall₂.cons ?_ (ih fun q hq => hmem q (List.mem_cons_of_mem _ hq))
        obtain ⟨o, ho, rfl⟩ := row_ok h1
        obtain ⟨o', ho', e1, e2⟩ := sample_of hr (hmem _ List.mem_cons_self)
        rw [ho, Option.some.injEq] at ho'
        subst ho'
        refine ⟨o, ho, rfl, rfl, ?_, ?_, ?_, rfl⟩
        · show (_ : Int) = _; rw [e2]
        · show (_ : Int) = _; rw [e2]
        · show (_ : O) = _; rw [e1]

/-- There is a result exactly when the covariances can be sampled. -/
theorem C153_error {p : Sigma.Params σ} {orbits : List (Orbit I J O P)} {hs : Symmetric orbits} (e : PyErr) :
    create p orbits hs = .error e ↔ Sigma.createVariants p (orbits.map coord) hs = .error e := by
  unfold create
  cases hr : Sigma.createVariants p (orbits.map coord) hs with
  | error e' =>
    show (Except.error e' : Except PyErr (List (Variant I J O P))) = .error e ↔ _
    constructor <;> (intro h; cases h; rfl)
  | ok rows =>
    simp only
    constructor
    · intro h
      exfalso
      have hall : ∀ q ∈ rows.zipIdx, ∃ v, row orbits q = .ok v := by
        intro q hq
        obtain ⟨o, ho, -⟩ := sample_of hr (List.fst_mem_of_mem_zipIdx hq)
        unfold row
        rw [ho]
        exact ⟨_, rfl⟩
      generalize rows.zipIdx = l at h hall
      induction l with
      | nil => cases h
      | cons q l ih =>
        obtain ⟨v, hv⟩ := hall q List.mem_cons_self
        unfold gather at h
        rw [hv] at h
        cases hg : gather (row orbits) l with
        | error e' =>
          simp only [hg] at h
          cases h
          exact ih hg fun q hq => hall q (List.mem_cons_of_mem _ hq)
        | ok bs => simp only [hg] at h; cases h
    · intro h
      cases h

/-- The orbit has the values `m` and the covariance `C`. -/
def Complete (o : Orbit I J O P) (m : Fin 6 → ℝ) (C : Fin 6 → Fin 6 → ℝ) : Prop :=
  (∀ i, o.values i = some (m i)) ∧ ∀ i j, o.cov i j = some (C i j)

theorem forall₂_filter_map {α β γ : Type} {R : α → β → Prop} {P : α → Bool} {Q : β → Bool} {f : α → γ} {g : β → γ} {l : List α}
    {m : List β} (h : List.Forall₂ R l m) (hpq : ∀ a ∈ l, ∀ b, R a b → P a = Q b) (hfg : ∀ a b, R a b → f a = g b) :
    (l.filter P).map f = (m.filter Q).map g := by
  induction h with
  | nil => rfl
  | cons h1 _ ih =>
    rename_i a b l m _
    have ih := ih fun a ha b hr => hpq a (List.mem_cons_of_mem _ ha) b hr
    have hb := hpq a List.mem_cons_self b h1
    cases hp : P a with
    | true =>
      rw [List.filter_cons_of_pos hp, List.filter_cons_of_pos (hb ▸ hp), List.map_cons, List.map_cons, ih, hfg a b h1]
    | false =>
      rw [List.filter_cons_of_neg (by rw [hp]; simp), List.filter_cons_of_neg (by rw [← hb, hp]; simp), ih]

/-- No two orbits have the same id and epoch (to the millisecond). -/
def Distinct (orbits : List (Orbit I J O P)) : Prop :=
  orbits.Pairwise fun a b => ¬ (a.id = b.id ∧ a.days = b.days ∧ a.nanos / 1000000 = b.nanos / 1000000)

theorem distinct_index {orbits : List (Orbit I J O P)} (h : Distinct orbits) {k l : Nat} {a b : Orbit I J O P} (hk : orbits[k]? = some a)
    (hl : orbits[l]? = some b) (he : a.id = b.id ∧ a.days = b.days ∧ a.nanos / 1000000 = b.nanos / 1000000) : k = l := by
  obtain ⟨hk1, hk2⟩ := List.getElem?_eq_some_iff.mp hk
  obtain ⟨hl1, hl2⟩ := List.getElem?_eq_some_iff.mp hl
  have hp := List.pairwise_iff_getElem.mp h
  rcases lt_trichotomy k l with hlt | heq | hgt
  · exact absurd (by rw [hk2, hl2]; exact he) (hp k l hk1 hl1 hlt)
  · exact heq
  · exact absurd (by rw [hk2, hl2]; exact ⟨he.1.symm, he.2.1.symm, he.2.2.symm⟩) (hp l k hl1 hk1 hgt)

/-- Sums over the variants linked to an orbit are sums over its samples. -/
theorem linked_sum [DecidableEq I] {p : Sigma.Params σ} {orbits : List (Orbit I J O P)} {hs : Symmetric orbits}
    {vs : List (Variant I J O P)} (hd : Distinct orbits) {rows : List (Sigma.Variant (O × Int × Int))}
    (hr : Sigma.createVariants p (orbits.map coord) hs = .ok rows) (hf : List.Forall₂ (fun q v => row orbits q = .ok v) rows.zipIdx vs)
    {k : Nat} {o : Orbit I J O P} (hk : orbits[k]? = some o) {γ : Type} (f : ℝ → (Fin 6 → ℝ) → γ) :
    ((vs.map vRow).filter (Collapse.linked (oRow o))).map (fun v => f (v.wc.getD 0) v.state) =
      (rows.filter fun v => v.index = k).map fun v => f v.weightCov v.values := by
  rw [List.filter_map, List.map_map]
  have h1 : (rows.filter fun v => decide (v.index = k)).map (fun v => f v.weightCov v.values) =
      (rows.zipIdx.filter fun q => decide (q.1.index = k)).map fun q => f q.1.weightCov q.1.values := by
    conv_lhs => rw [← List.zipIdx_map_fst 0 rows, List.filter_map, List.map_map]
    rfl
  rw [h1]
  symm
  refine forall₂_filter_map hf ?_ ?_
  · intro q hq v hv
    obtain ⟨o', ho', rfl⟩ := row_ok hv
    obtain ⟨o'', ho'', e1, e2⟩ := sample_of hr (List.fst_mem_of_mem_zipIdx hq)
    rw [ho', Option.some.injEq] at ho''
    subst ho''
    simp only [Function.comp, vRow, oRow, Collapse.linked, Collapse.millis, e2]
    rw [decide_eq_decide]
    constructor
    · intro hx
      rw [hx, hk, Option.some.injEq] at ho'
      subst ho'
      exact ⟨rfl, rfl, rfl⟩
    · intro hx
      exact distinct_index hd ho' hk hx
  · intro q v hv
    obtain ⟨o', -, rfl⟩ := row_ok hv
    rfl

/-- Sampling with sigma points (or `auto`) and collapsing onto the same orbits gives the orbits back with their covariances, for every
table of orbits that differ in id or epoch. -/
theorem C153_round_trip [DecidableEq I] {p : Sigma.Params σ} (hm : p.method = .sigmaPoint ∨ p.method = .auto)
    {orbits : List (Orbit I J O P)} {hs : Symmetric orbits} {vs : List (Variant I J O P)} (h : create p orbits hs = .ok vs)
    (hd : Distinct orbits)
    (hroot : ∀ o ∈ orbits, ∀ m C, Complete o m C → IsRoot (p.sqrtm ((p.alpha ^ 2 * (6 + p.kappa)) • C)) ((p.alpha ^ 2 * (6 + p.kappa)) • C)) :
    vs.length = 13 * orbits.length ∧
    ∃ out, Collapse.collapseOrbits true (orbits.map oRow) (vs.map vRow) = .ok out ∧ out.length = orbits.length ∧
      ∀ (k : Nat) o, orbits[k]? = some o → ∃ m C, Complete o m C ∧ out[k]? = some (oRow o, some C) := by
  obtain ⟨rows, hr, hf⟩ := create_ok h
  have hcomp : ∀ (k : Nat) o, orbits[k]? = some o → ∃ m C, Complete o m C := by
    intro k o hk
    obtain ⟨m, C, -, -, hc, -⟩ := (C104_rows hr).2.2 k (coord o) (by rw [List.getElem?_map, hk]; rfl)
    exact ⟨m, C, hc.1, hc.2⟩
  have hne : orbits ≠ [] := by
    rintro rfl
    obtain ⟨e, he⟩ := C104_missing (p := p) (hs := hs) (Or.inl rfl)
    rw [hr] at he
    cases he
  refine ⟨?_, ?_⟩
  · have hlen : rows.length = vs.length := by
      have := hf.length_eq
      rwa [List.length_zipIdx] at this
    rw [← hlen]
    have hcount : ∀ k < orbits.length, (rows.filter fun v => v.index = k).length = 13 := by
      intro k hk
      have hk' := List.getElem?_eq_getElem hk
      obtain ⟨m, C, hc⟩ := hcomp k _ hk'
      exact (C104_recover hm hr (k := k) (c := coord orbits[k]) (by rw [List.getElem?_map, hk']; rfl) (m := m) (C := C) hc
        (hroot _ (List.getElem_mem hk) m C hc)).1
    have hlt : ∀ v ∈ rows, v.index < orbits.length := by
      intro v hv
      have := (C104_rows hr).1 v hv
      rwa [List.length_map] at this
    clear hr hf hlen
    generalize orbits.length = n at hcount hlt
    induction n generalizing rows with
    | zero =>
      cases rows with
      | nil => rfl
      | cons v l => exact absurd (hlt v List.mem_cons_self) (by omega)
    | succ n ih =>
      have hsplit : rows.length = (rows.filter fun v => v.index = n).length + (rows.filter fun v => !decide (v.index = n)).length :=
        (List.length_eq_length_filter_add _)
      rw [hsplit, hcount n (by omega)]
      have := ih (rows.filter fun v => !decide (v.index = n)) ?_ ?_
      · rw [this]; ring
      · intro k hk
        rw [← hcount k (by omega), List.filter_filter]
        congr 1
        apply List.filter_congr
        intro v _
        by_cases hv : v.index = k
        · simp [hv]; omega
        · simp [hv]
      · intro v hv
        obtain ⟨hv, hn⟩ := List.mem_filter.mp hv
        have := hlt v hv
        simp at hn
        omega
  · obtain ⟨out, ho, hl, hall⟩ := Collapse.Props.C59_orbits_general (orbits.map oRow) (vs.map vRow) (by simpa using hne) (by
      intro v hv
      obtain ⟨w, -, rfl⟩ := List.mem_map.mp hv
      simp [vRow])
    refine ⟨out, ho, by rw [hl, List.length_map], ?_⟩
    intro k o hk
    obtain ⟨m, C, hc⟩ := hcomp k o hk
    refine ⟨m, C, hc, ?_⟩
    obtain ⟨M, hM, hcov⟩ := hall k (oRow o) (by rw [List.getElem?_map, hk]; rfl)
    rw [hM]
    have hMC : M = C := by
      funext i j
      rw [hcov i j]
      have hrec := (C104_recover hm hr (k := k) (c := coord o) (by rw [List.getElem?_map, hk]; rfl) (m := m) (C := C) hc
        (hroot _ (List.mem_of_getElem? hk) m C hc)).2.2.2 i j
      rw [← hrec]
      have hstate : (oRow o).state = m := by
        funext i
        show (o.values i).getD 0 = m i
        rw [hc.1 i]
        rfl
      have := linked_sum hd hr hf hk fun w x => w * (x i - m i) * (x j - m j)
      rw [← this, hstate]
      congr 1
      apply List.map_congr_left
      intro v _
      ring
    rw [hMC]

/-- Row `n` of the variants is sample `n mod 13` of orbit `n / 13`. -/
theorem C153_position {p : Sigma.Params σ} (hm : p.method = .sigmaPoint) {orbits : List (Orbit I J O P)} {hs : Symmetric orbits}
    {vs : List (Variant I J O P)} (h : create p orbits hs = .ok vs) {n : Nat} {v : Variant I J O P} (hn : vs[n]? = some v) :
    v.variant = n ∧ ∃ o, orbits[n / 13]? = some o ∧ Of o v := by
  obtain ⟨rows, hr, hf⟩ := create_ok h
  have hidx : ∀ (cs : List (Sigma.Coord (O × Int × Int))) (i : Nat) (hs : Sigma.Props.Symmetric cs) (rows : List (Sigma.Variant (O × Int × Int))),
      Sigma.variantsFrom p i cs hs = .ok rows → ∀ (n : Nat) q, rows[n]? = some q → q.index = i + n / 13 := by
    intro cs
    induction cs with
    | nil =>
      intro i hs rows h n q hq
      cases h
      simp at hq
    | cons c cs ih =>
      intro i hs rows h n q hq
      obtain ⟨r, rest, h1, h2, rfl⟩ := variantsFrom_cons h
      obtain ⟨m, C, hC, s, -, b, rfl⟩ := variantsOf_ok h1
      unfold Sigma.sampleRow at b
      rw [hm] at b
      obtain ⟨l1, l2, l3, -⟩ := C48_count b
      have hl : (Sigma.rowsOf i c s).length = 13 := by simp [Sigma.rowsOf, l1, l2, l3]
      by_cases hlt : n < 13
      · rw [List.getElem?_append_left (by omega)] at hq
        unfold Sigma.rowsOf at hq
        rw [List.getElem?_map] at hq
        obtain ⟨z, -, rfl⟩ := Option.map_eq_some_iff.mp hq
        show i = _
        omega
      · rw [List.getElem?_append_right (by omega), hl] at hq
        have := ih (i + 1) _ rest h2 (n - 13) q hq
        omega
  have hr' := hr
  unfold Sigma.createVariants at hr'
  split at hr'
  · cases hr'
  have hlen : rows.length = vs.length := by
    have := hf.length_eq
    rwa [List.length_zipIdx] at this
  obtain ⟨hn1, hn2⟩ := List.getElem?_eq_some_iff.mp hn
  have hrow : row orbits (rows[n], n) = .ok v := by
    have := List.Forall₂.get hf (i := n) (by rw [List.length_zipIdx]; omega) hn1
    simpa [hn2] using this
  obtain ⟨o, ho, rfl⟩ := row_ok hrow
  have hi := hidx _ 0 _ rows hr' n _ (List.getElem?_eq_getElem (by omega))
  rw [zero_add] at hi
  obtain ⟨o', ho', e1, e2⟩ := sample_of hr (List.getElem_mem (by omega : n < rows.length))
  rw [ho, Option.some.injEq] at ho'
  subst ho'
  refine ⟨rfl, o, by rw [← hi]; exact ho, rfl, rfl, ?_, ?_, ?_, rfl⟩
  · show (_ : Int) = _; rw [e2]
  · show (_ : Int) = _; rw [e2]
  · show (_ : O) = _; rw [e1]

/-! ## Affine propagation -/

/-- Propagation to a common time. -/
def move (F : I → (Fin 6 → ℝ) → Fin 6 → ℝ) (days nanos : Int) (v : Collapse.VRow I J O ℝ) : Collapse.VRow I J O ℝ :=
  { v with days := days, nanos := nanos, state := F v.orbit v.state }

/-- Propagation of the orbits to a common time. -/
def moveO (F : I → (Fin 6 → ℝ) → Fin 6 → ℝ) (days nanos : Int) (r : Collapse.ORow I O ℝ) : Collapse.ORow I O ℝ :=
  { r with days := days, nanos := nanos, state := F r.orbit r.state }

/-- If orbits with distinct ids and their variants are moved to a common time by maps that are affine, the covariance found by collapsing
is the one carried by the linear part: A C Aᵀ. -/
theorem C153_affine [DecidableEq I] {p : Sigma.Params σ} (hm : p.method = .sigmaPoint ∨ p.method = .auto)
    {orbits : List (Orbit I J O P)} {hs : Symmetric orbits} {vs : List (Variant I J O P)} (h : create p orbits hs = .ok vs)
    (hd : (orbits.map Orbit.id).Nodup)
    (hroot : ∀ o ∈ orbits, ∀ m C, Complete o m C → IsRoot (p.sqrtm ((p.alpha ^ 2 * (6 + p.kappa)) • C)) ((p.alpha ^ 2 * (6 + p.kappa)) • C))
    (A : I → Matrix (Fin 6) (Fin 6) ℝ) (b : I → Fin 6 → ℝ) (days nanos : Int) :
    ∃ out, Collapse.collapseOrbits true (orbits.map fun o => moveO (fun i x => (A i).mulVec x + b i) days nanos (oRow o))
        (vs.map fun v => move (fun i x => (A i).mulVec x + b i) days nanos (vRow v)) = .ok out ∧
      ∀ (k : Nat) o, orbits[k]? = some o → ∃ m C r M, Complete o m C ∧ out[k]? = some (r, some M) ∧ r.orbit = o.id ∧
        r.state = (A o.id).mulVec m + b o.id ∧ Matrix.of M = A o.id * Matrix.of C * (A o.id).transpose := by
  obtain ⟨rows, hr, hf⟩ := create_ok h
  have hid : ∀ {k l : Nat} {a c : Orbit I J O P}, orbits[k]? = some a → orbits[l]? = some c → a.id = c.id → k = l := by
    intro k l a c hk hl he
    obtain ⟨hk1, hk2⟩ := List.getElem?_eq_some_iff.mp hk
    obtain ⟨hl1, hl2⟩ := List.getElem?_eq_some_iff.mp hl
    refine (List.Nodup.getElem_inj_iff hd (hi := by simpa using hk1) (hj := by simpa using hl1)).mp ?_
    rw [List.getElem_map, List.getElem_map, hk2, hl2, he]
  have hcomp : ∀ (k : Nat) o, orbits[k]? = some o → ∃ m C, Complete o m C := by
    intro k o hk
    obtain ⟨m, C, -, -, hc, -⟩ := (C104_rows hr).2.2 k (coord o) (by rw [List.getElem?_map, hk]; rfl)
    exact ⟨m, C, hc.1, hc.2⟩
  have hne : orbits ≠ [] := by
    rintro rfl
    obtain ⟨e, he⟩ := C104_missing (p := p) (hs := hs) (Or.inl rfl)
    rw [hr] at he
    cases he
  obtain ⟨out, ho, hl, hall⟩ := Collapse.Props.C59_orbits_general
    (orbits.map fun o => moveO (fun i x => (A i).mulVec x + b i) days nanos (oRow o))
    (vs.map fun v => move (fun i x => (A i).mulVec x + b i) days nanos (vRow v)) (by simpa using hne) (by
      intro v hv
      obtain ⟨w, -, rfl⟩ := List.mem_map.mp hv
      simp [vRow, move])
  refine ⟨out, ho, ?_⟩
  intro k o hk
  obtain ⟨m, C, hc⟩ := hcomp k o hk
  obtain ⟨M, hM, hcov⟩ := hall k (moveO (fun i x => (A i).mulVec x + b i) days nanos (oRow o)) (by rw [List.getElem?_map, hk]; rfl)
  have hstate : (oRow o).state = m := by
    funext i
    show (o.values i).getD 0 = m i
    rw [hc.1 i]
    rfl
  refine ⟨m, C, _, M, hc, hM, rfl, ?_, ?_⟩
  · show (A o.id).mulVec (oRow o).state + b o.id = _
    rw [hstate]
  · have hsum : ∀ i j, M i j = ((rows.filter fun v => v.index = k).map fun v =>
        v.weightCov * ((A o.id).mulVec (v.values - m) i * (A o.id).mulVec (v.values - m) j)).sum := by
      intro i j
      rw [hcov i j, List.filter_map, List.map_map]
      have h1 : (rows.filter fun v => decide (v.index = k)).map (fun v =>
          v.weightCov * ((A o.id).mulVec (v.values - m) i * (A o.id).mulVec (v.values - m) j)) =
          (rows.zipIdx.filter fun q => decide (q.1.index = k)).map fun q =>
            q.1.weightCov * ((A o.id).mulVec (q.1.values - m) i * (A o.id).mulVec (q.1.values - m) j) := by
        conv_lhs => rw [← List.zipIdx_map_fst 0 rows, List.filter_map, List.map_map]
        rfl
      rw [h1]
      congr 1
      symm
      -- the rows selected are those of orbit `k`
      have hsel : ∀ q ∈ rows.zipIdx, ∀ v, row orbits q = .ok v → (decide (q.1.index = k)) =
          (decide (v.orbit = o.id)) := by
        intro q hq v hv
        obtain ⟨o', ho', rfl⟩ := row_ok hv
        rw [decide_eq_decide]
        constructor
        · intro hx
          rw [hx, hk, Option.some.injEq] at ho'
          exact congrArg Orbit.id ho'.symm
        · intro hx
          exact hid ho' hk hx
      have hfil : (vs.filter ((fun v => decide (v.orbit = (moveO (fun i x => (A i).mulVec x + b i) days nanos (oRow o)).orbit ∧
          v.days = (moveO (fun i x => (A i).mulVec x + b i) days nanos (oRow o)).days ∧
          v.nanos / 1000000 = (moveO (fun i x => (A i).mulVec x + b i) days nanos (oRow o)).nanos / 1000000)) ∘
          fun v => move (fun i x => (A i).mulVec x + b i) days nanos (vRow v))) =
          vs.filter fun v => decide (v.orbit = o.id) := by
        apply List.filter_congr
        intro v _
        simp only [Function.comp, move, moveO, oRow, vRow, and_self, and_true]
      rw [hfil]
      have hor : ∀ q v, row orbits q = .ok v → v.values = q.1.values ∧ v.weightCov = q.1.weightCov := by
        intro q v hv
        obtain ⟨o', -, rfl⟩ := row_ok hv
        exact ⟨rfl, rfl⟩
      -- replace the orbit id of the selected variants by that of the orbit
      have hrep : (vs.filter fun v => decide (v.orbit = o.id)).map
          ((fun v => v.wc.getD 0 * ((v.state i - (moveO (fun i x => (A i).mulVec x + b i) days nanos (oRow o)).state i) *
            (v.state j - (moveO (fun i x => (A i).mulVec x + b i) days nanos (oRow o)).state j))) ∘
            fun v => move (fun i x => (A i).mulVec x + b i) days nanos (vRow v)) =
          (vs.filter fun v => decide (v.orbit = o.id)).map fun v =>
            v.weightCov * ((A o.id).mulVec (v.values - m) i * (A o.id).mulVec (v.values - m) j) := by
        apply List.map_congr_left
        intro v hv
        have hv' : v.orbit = o.id := of_decide_eq_true (List.mem_filter.mp hv).2
        simp only [Function.comp, move, moveO, vRow, hv', hstate, Option.getD_some]
        have e : ∀ i, ((A o.id).mulVec v.values + b o.id) i - ((A (oRow o).orbit).mulVec m + b (oRow o).orbit) i =
            (A o.id).mulVec (v.values - m) i := by
          intro i
          show _ - ((A o.id).mulVec m + b o.id) i = _
          rw [Matrix.mulVec_sub]
          simp only [Pi.add_apply, Pi.sub_apply]
          ring
        rw [e i, e j]
      rw [hrep]
      refine forall₂_filter_map hf hsel ?_
      intro q v hv
      obtain ⟨e1, e2⟩ := hor q v hv
      rw [e1, e2]
    have hrec := (C104_recover hm hr (k := k) (c := coord o) (by rw [List.getElem?_map, hk]; rfl) (m := m) (C := C) hc
      (hroot _ (List.mem_of_getElem? hk) m C hc)).2.2.2
    ext i j
    show M i j = _
    rw [hsum i j]
    have hC : ∀ a c, C a c = ((rows.filter fun v => v.index = k).map fun v => v.weightCov * (v.values a - m a) * (v.values c - m c)).sum :=
      fun a c => (hrec a c).symm
    rw [Matrix.mul_apply]
    simp only [Matrix.mul_apply, Matrix.of_apply, Matrix.transpose_apply, hC]
    generalize (rows.filter fun v => decide (v.index = k)) = l
    induction l with
    | nil => simp
    | cons v l ih =>
      rw [List.map_cons, List.sum_cons, ih]
      simp only [List.map_cons, List.sum_cons, mul_add, Finset.sum_add_distrib, add_mul]
      congr 1
      simp only [Matrix.mulVec, dotProduct, Pi.sub_apply, Finset.sum_mul, Finset.mul_sum]
      apply Finset.sum_congr rfl
      intro a _
      apply Finset.sum_congr rfl
      intro c _
      ring

/-! ## Orbits with the same id and epoch -/

/-- An orbit with zero covariance at the given position. -/
noncomputable def point (x : ℝ) : Orbit Nat Nat Nat Nat := ⟨0, 0, 60000, 0, 0, 0, fun _ => some x, fun _ _ => some 0⟩

/-- Sigma points with the square root of zero. -/
noncomputable def zeroRoot : Sigma.Params Nat := ⟨fun _ => 0, fun _ _ _ _ => [], 0, .sigmaPoint, 0, 1, 0, 0, none⟩

theorem point_symmetric (xs : List ℝ) : Symmetric (xs.map point) := by
  intro c hc i j
  simp only [List.map_map, List.mem_map, Function.comp] at hc
  obtain ⟨x, -, rfl⟩ := hc
  rfl

theorem point_create (x : ℝ) (xs : List ℝ) : ∃ vs, create zeroRoot ((x :: xs).map point) (point_symmetric (x :: xs)) = .ok vs := by
  cases h : create zeroRoot ((x :: xs).map point) (point_symmetric (x :: xs)) with
  | ok vs => exact ⟨vs, rfl⟩
  | error e =>
    exfalso
    rw [C153_error] at h
    obtain ⟨rows, hr⟩ := (C104_defined (p := zeroRoot) rfl _ (point_symmetric (x :: xs))).mpr ⟨by simp, by
      intro c hc
      simp only [List.map_map, List.mem_map, Function.comp] at hc
      obtain ⟨y, -, rfl⟩ := hc
      exact ⟨fun _ => y, fun _ _ => 0, fun _ => rfl, fun _ _ => rfl⟩, by simp [zeroRoot], by simp [zeroRoot]⟩
    rw [hr] at h
    cases h

theorem point_root (p : Sigma.Params Nat) (hp : p = zeroRoot) (x : ℝ) (m : Fin 6 → ℝ) (C : Fin 6 → Fin 6 → ℝ) (hc : Complete (point x) m C) :
    IsRoot (p.sqrtm ((p.alpha ^ 2 * (6 + p.kappa)) • C)) ((p.alpha ^ 2 * (6 + p.kappa)) • C) := by
  subst hp
  have hC : C = 0 := by
    funext i j
    exact (Option.some.inj (hc.2 i j)).symm
  subst hC
  have e : (zeroRoot.alpha ^ 2 * (6 + zeroRoot.kappa)) • (0 : Fin 6 → Fin 6 → ℝ) = 0 := smul_zero _
  rw [show ((zeroRoot.alpha ^ 2 * (6 + zeroRoot.kappa)) • (0 : Fin 6 → Fin 6 → ℝ) : Matrix (Fin 6) (Fin 6) ℝ) = 0 from e]
  constructor
  · exact Matrix.transpose_zero
  · exact Matrix.mul_zero _

/-- Two orbits with the same id and epoch do not come back with their covariances: the variants of one are used for both. -/
theorem C153_duplicates_false :
    ¬ ∀ (p : Sigma.Params Nat) (orbits : List (Orbit Nat Nat Nat Nat)) (hs : Symmetric orbits) (vs : List (Variant Nat Nat Nat Nat)),
      p.method = .sigmaPoint → create p orbits hs = .ok vs →
      (∀ o ∈ orbits, ∀ m C, Complete o m C →
        IsRoot (p.sqrtm ((p.alpha ^ 2 * (6 + p.kappa)) • C)) ((p.alpha ^ 2 * (6 + p.kappa)) • C)) →
      ∃ out, Collapse.collapseOrbits true (orbits.map oRow) (vs.map vRow) = .ok out ∧
        ∀ (k : Nat) o, orbits[k]? = some o → ∃ m C, Complete o m C ∧ out[k]? = some (oRow o, some C) := by
  intro hall
  obtain ⟨vs, hvs⟩ := point_create 0 [10]
  obtain ⟨out, ho, hk⟩ := hall zeroRoot _ _ vs rfl hvs (by
    intro o hom m C hc
    obtain ⟨x, -, rfl⟩ := List.mem_map.mp hom
    exact point_root _ rfl x m C hc)
  obtain ⟨m, C, hc, hout⟩ := hk 0 (point 0) rfl
  obtain ⟨out', ho', -, hcov⟩ := Collapse.Props.C59_orbits_general (([0, 10] : List ℝ).map point |>.map oRow) (vs.map vRow) (by simp) (by
    intro v hv
    obtain ⟨w, -, rfl⟩ := List.mem_map.mp hv
    simp [vRow])
  rw [ho] at ho'
  cases ho'
  obtain ⟨M, hM, hM'⟩ := hcov 0 (oRow (point 0)) rfl
  rw [hout] at hM
  have hMC : M = C := by
    have := Option.some.inj hM
    exact (Option.some.inj (Prod.mk.inj this).2).symm
  have h00 := hM' 0 0
  rw [hMC] at h00
  have hC0 : C 0 0 = 0 := (Option.some.inj (hc.2 0 0)).symm
  rw [hC0] at h00
  -- all variants are selected
  obtain ⟨rows, hr, hf⟩ := create_ok hvs
  have hfil : (vs.map vRow).filter (fun v => decide (v.orbit = (oRow (point 0)).orbit ∧ v.days = (oRow (point 0)).days ∧
      v.nanos / 1000000 = (oRow (point 0)).nanos / 1000000)) = vs.map vRow := by
    rw [List.filter_eq_self]
    intro w hw
    obtain ⟨v, hv, rfl⟩ := List.mem_map.mp hw
    obtain ⟨n, hn⟩ := List.mem_iff_getElem?.mp hv
    obtain ⟨-, o, hon, h1, -, h3, h4, -⟩ := C153_position rfl hvs hn
    have : o = point 0 ∨ o = point 10 := by
      have := List.mem_of_getElem? hon
      simpa using this
    rw [decide_eq_true_eq]
    rcases this with rfl | rfl
    · exact ⟨h1, h3, by show v.nanos / 1000000 = _; rw [h4]; rfl⟩
    · exact ⟨h1, h3, by show v.nanos / 1000000 = _; rw [h4]; rfl⟩
  rw [hfil, List.map_map] at h00
  -- the sum splits by orbit
  have hsum : (vs.map ((fun v => v.wc.getD 0 * ((v.state 0 - (oRow (point 0)).state 0) * (v.state 0 - (oRow (point 0)).state 0))) ∘ vRow)).sum =
      (rows.map fun q => q.weightCov * (q.values 0 * q.values 0)).sum := by
    congr 1
    have hz : (oRow (point 0)).state 0 = 0 := rfl
    have := forall₂_filter_map (P := fun _ => true) (Q := fun _ => true)
      (f := fun q : Sigma.Variant (Nat × Int × Int) × Nat => q.1.weightCov * (q.1.values 0 * q.1.values 0))
      (g := fun v : Variant Nat Nat Nat Nat => v.weightCov * (v.values 0 * v.values 0)) hf (fun _ _ _ _ => rfl) (by
        intro q v hv
        obtain ⟨o', -, rfl⟩ := row_ok hv
        rfl)
    simp only [List.filter_true] at this
    have h2 : rows.map (fun q => q.weightCov * (q.values 0 * q.values 0)) =
        rows.zipIdx.map fun q => q.1.weightCov * (q.1.values 0 * q.1.values 0) := by
      conv_lhs => rw [← List.zipIdx_map_fst 0 rows, List.map_map]
      rfl
    rw [h2, this]
    apply List.map_congr_left
    intro v _
    simp only [Function.comp, hz, sub_zero, vRow, Option.getD_some]
  rw [hsum] at h00
  have hidx : ∀ q ∈ rows, q.index = 0 ∨ q.index = 1 := by
    intro q hq
    have := (C104_rows hr).1 q hq
    simp at this
    omega
  have hparts : ∀ k x, ([0, 10] : List ℝ)[k]? = some x →
      ((rows.filter fun v => v.index = k).map fun v => v.weightCov * (v.values 0 * v.values 0)).sum = x * x := by
    intro k x hk
    have hkc : (([0, 10] : List ℝ).map point).map coord = [coord (point 0), coord (point 10)] := rfl
    obtain ⟨m', C', hC', s, hcomp, hs, e⟩ := (C104_rows hr).2.2 k (coord (point x)) (by
      rw [List.getElem?_map, List.getElem?_map, hk]; rfl)
    have hm' : m' = fun _ => x := by
      funext i
      exact (Option.some.inj (hcomp.1 i)).symm
    have hC0 : C' = 0 := by
      funext i j
      exact (Option.some.inj (hcomp.2 i j)).symm
    subst hm'
    subst hC0
    have hs' : Sigma.sigmaPoints (fun _ => 0) (fun _ => x) (0 : Matrix (Fin 6) (Fin 6) ℝ) 1 0 0 = .ok s := hs
    obtain ⟨l1, l2, l3, -⟩ := C48_count hs'
    have hw := (C48_weights hs').2
    have hsamples : ∀ z ∈ s.samples, z = fun _ => x := by
      unfold Sigma.sigmaPoints at hs'
      simp only at hs'
      split at hs'
      · cases hs'
      · injection hs' with hs'
        subst hs'
        intro z hz
        simp only [List.cons_append, List.mem_cons, List.mem_append, List.mem_ofFn] at hz
        rcases hz with rfl | ⟨_, rfl⟩ | ⟨_, rfl⟩
        · rfl
        · funext i
          exact add_zero x
        · funext i
          exact sub_zero x
    rw [e, List.map_map]
    have : (s.samples.zip (s.W.zip s.Wcov)).map ((fun v : Sigma.Variant (Nat × Int × Int) => v.weightCov * (v.values 0 * v.values 0)) ∘
        fun q => ⟨k, q.1, (coord (point x)).origin, (coord (point x)).time, q.2.1, q.2.2⟩) = s.Wcov.map fun w => w * (x * x) := by
      apply List.ext_getElem
      · simp [l1, l2, l3]
      · intro i h1 h2
        simp only [List.getElem_map, Function.comp, List.getElem_zip]
        have hi : i < s.samples.length := by simp at h1; omega
        rw [hsamples (s.samples[i]'hi) (List.getElem_mem _)]
    rw [this, List.sum_map_mul_right, List.map_id', hw]
    norm_num
  have hsplit : ∀ (l : List (Sigma.Variant (Nat × Int × Int))), (∀ q ∈ l, q.index = 0 ∨ q.index = 1) →
      (l.map fun q => q.weightCov * (q.values 0 * q.values 0)).sum =
      ((l.filter fun v => decide (v.index = 0)).map fun v => v.weightCov * (v.values 0 * v.values 0)).sum +
      ((l.filter fun v => decide (v.index = 1)).map fun v => v.weightCov * (v.values 0 * v.values 0)).sum := by
    intro l hl
    induction l with
    | nil => simp
    | cons q l ih =>
      rw [List.map_cons, List.sum_cons, ih fun q hq => hl q (List.mem_cons_of_mem _ hq)]
      rcases hl q List.mem_cons_self with hq | hq
      · rw [List.filter_cons_of_pos (by simpa using hq), List.filter_cons_of_neg (by simp [hq]), List.map_cons, List.sum_cons]
        ring
      · rw [List.filter_cons_of_neg (by simp [hq]), List.filter_cons_of_pos (by simpa using hq), List.map_cons, List.sum_cons]
        ring
  rw [hsplit rows hidx, hparts 0 0 rfl, hparts 1 10 rfl] at h00
  norm_num at h00

/-- The hypotheses of `C153_round_trip` are met. -/
example : ∃ vs, create zeroRoot ([1].map point) (point_symmetric [1]) = .ok vs ∧ zeroRoot.method = .sigmaPoint ∧ Distinct ([1].map point) ∧
    (([1].map point).map Orbit.id).Nodup ∧
    ∀ o ∈ [1].map point, ∀ m C, Complete o m C → IsRoot (zeroRoot.sqrtm ((zeroRoot.alpha ^ 2 * (6 + zeroRoot.kappa)) • C))
      ((zeroRoot.alpha ^ 2 * (6 + zeroRoot.kappa)) • C) := by
  obtain ⟨vs, h⟩ := point_create 1 []
  refine ⟨vs, h, rfl, by simp [Distinct], by simp, ?_⟩
  intro o ho m C hc
  obtain ⟨x, -, rfl⟩ := List.mem_map.mp ho
  exact point_root _ rfl x m C hc

end Verif.Variants.Props
