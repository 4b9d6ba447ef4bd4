import Verif.Ades.Build

/-! # Observations and contexts through ADES text: C70 -/

namespace Verif.Ades.Props

open Verif Mpc Obs80 Sched

variable {lib : Lib} {secs : Nat} {snap : ℤ × ℤ → ℤ × ℤ} {prec : Col → Option Nat}

/-! ## Lines -/

/-- A metadata line as it is written. -/
def MetaLine (l : Str) : Prop := '\n' ∉ l ∧ (l.head? = some '#' ∨ l.head? = some '!')

theorem metaLine_hash {sec : String} (h : '\n' ∉ sec.toList) : MetaLine (hash sec) :=
  ⟨by
    have e : hash sec = '#' :: ' ' :: sec.toList := rfl
    rw [e]
    simpa using h, Or.inl rfl⟩

theorem metaLine_bang {key : String} {v : Str} (h : '\n' ∉ key.toList) (hv : Spaced v) : MetaLine (bang key v) := by
  have hn : '\n' ∉ v := fun hc => absurd (hv.2 _ hc (by decide)) (by decide)
  refine ⟨?_, Or.inr rfl⟩
  have e : bang key v = '!' :: ' ' :: (key.toList ++ ' ' :: v) := rfl
  rw [e]
  simp [h, hn]

theorem metaLine_opt {key : String} {v : Option Str} (h : '\n' ∉ key.toList) (hv : ∀ s ∈ v.toList, Spaced s) : ∀ l ∈ bangOpt key v, MetaLine l := by
  intro l hl
  obtain ⟨s, hs, rfl⟩ := List.mem_map.1 hl
  exact metaLine_bang h (hv s hs)

theorem metaLine_names {key : String} {vs : List Str} (h : '\n' ∉ key.toList) (hv : ∀ s ∈ vs, Spaced s) : ∀ l ∈ vs.map (bang key), MetaLine l := by
  intro l hl
  obtain ⟨s, hs, rfl⟩ := List.mem_map.1 hl
  exact metaLine_bang h (hv s hs)

theorem lines_meta {c : Ctx} (hc : c.Good lib) : ∀ l ∈ c.lines lib, MetaLine l := by
  have ht : ∀ s, s ∈ c.texts → Spaced s := hc.texts
  unfold Ctx.texts at ht
  simp only [List.mem_append, List.mem_cons, List.not_mem_nil, or_false] at ht
  have hrep : ∀ x, x ∈ c.numbers → Spaced (lib.repr x) := fun x hx => spaced_repr hc hx
  unfold Ctx.numbers at hrep
  simp only [List.mem_append, List.mem_cons] at hrep
  have hmap : ∀ o : Option ℚ, (∀ x ∈ o.toList, Spaced (lib.repr x)) → ∀ s ∈ (o.map lib.repr).toList, Spaced s := by
    intro o ho s hs
    cases o with
    | none => simp at hs
    | some x =>
      have : s = lib.repr x := by simpa using hs
      rw [this]
      exact ho x (by simp)
  have hnames : ∀ (sec : String) (o : Option (List Str)), '\n' ∉ sec.toList → (∀ x ∈ o.getD [], Spaced x) → ∀ l ∈ nameLines sec o, MetaLine l := by
    intro sec o h1 h2 l hl
    cases o with
    | none => simp [nameLines] at hl
    | some vs =>
      rcases List.mem_cons.1 hl with rfl | hl
      · exact metaLine_hash h1
      · exact metaLine_names (by decide) h2 l hl
  unfold Ctx.lines
  simp only [List.forall_mem_append, List.forall_mem_cons, List.cons_append, List.append_assoc, List.nil_append]
  refine ⟨metaLine_hash (by decide), metaLine_bang (by decide) (ht _ (by simp)), metaLine_opt (by decide) fun s hs => ht s (by simp [hs]),
    metaLine_hash (by decide), metaLine_bang (by decide) (ht _ (by simp)), metaLine_opt (by decide) fun s hs => ht s (by simp [hs]),
    metaLine_hash (by decide), metaLine_names (by decide) fun s hs => ht s (by simp [hs]),
    metaLine_hash (by decide), metaLine_names (by decide) fun s hs => ht s (by simp [hs]),
    metaLine_hash (by decide), metaLine_bang (by decide) (ht _ (by simp)), metaLine_bang (by decide) (hrep _ (by simp)),
    metaLine_bang (by decide) (ht _ (by simp)), metaLine_opt (by decide) fun s hs => ht s (by simp [hs]),
    metaLine_opt (by decide) (hmap _ fun x hx => hrep x (by simp [hx])), metaLine_opt (by decide) fun s hs => ht s (by simp [hs]),
    metaLine_opt (by decide) fun s hs => ht s (by simp [hs]), metaLine_opt (by decide) (hmap _ fun x hx => hrep x (by simp [hx])),
    ?_, hnames _ _ (by decide) fun x hx => ht x (by simp [hx]), hnames _ _ (by decide) fun x hx => ht x (by simp [hx]), ?_, ?_⟩
  · intro l hl
    cases hs : c.software with
    | none => rw [hs] at hl; simp [softLines] at hl
    | some s =>
      rw [hs] at hl ht
      simp only [softLines, List.cons_append, List.mem_cons, List.mem_append, or_assoc] at hl
      rcases hl with rfl | hl | hl | hl | hl
      · exact metaLine_hash (by decide)
      · exact metaLine_opt (by decide) (fun x hx => ht x (by simp [hx])) l hl
      · exact metaLine_opt (by decide) (fun x hx => ht x (by simp [hx])) l hl
      · exact metaLine_opt (by decide) (fun x hx => ht x (by simp [hx])) l hl
      · exact metaLine_opt (by decide) (fun x hx => ht x (by simp [hx])) l hl
  · intro l hl
    cases hf : c.fundingSource with
    | none => rw [hf] at hl; simp [fundLines] at hl
    | some v =>
      rw [hf] at hl
      have hv : Spaced v := ht v (by simp [hf])
      have hn : '\n' ∉ v := fun hc => absurd (hv.2 _ hc (by decide)) (by decide)
      rw [fundLines, List.mem_singleton] at hl
      rw [hl]
      refine ⟨?_, Or.inl rfl⟩
      rw [List.mem_append, List.mem_cons]
      rintro (h | h | h)
      · exact absurd h (by decide)
      · exact absurd h (by decide)
      · exact hn h
  · intro l hl
    cases hf : c.comments with
    | none => rw [hf] at hl; simp [commentLines] at hl
    | some v =>
      rw [hf] at hl
      unfold commentLines at hl
      simp only at hl
      split_ifs at hl with hv
      · simp at hl
      · rcases List.mem_cons.1 hl with rfl | hl
        · exact metaLine_hash (by decide)
        · exact metaLine_names (by decide) (fun x hx => ht x (by simp [hf, hx])) l hl

theorem strip_meta {l : Str} (h : MetaLine l) : isMeta (strip l) = true ∧ strip l ≠ [] := by
  obtain ⟨_, h⟩ := h
  cases l with
  | nil => simp at h
  | cons c s =>
    have hc : c = '#' ∨ c = '!' := by simpa using h
    have hs : isSpace c = false := by rcases hc with rfl | rfl <;> decide
    obtain ⟨t, ht⟩ := strip_cons hs s
    rw [ht]
    refine ⟨(isMeta_iff _).2 ?_, by simp⟩
    rcases hc with rfl | rfl
    · exact Or.inl rfl
    · exact Or.inr rfl

/-! ## Tables -/

theorem join_ne {fs : List Str} {f : Str} (h : f ∈ fs) (hne : f ≠ []) : join '|' fs ≠ [] := by
  cases fs with
  | nil => simp at h
  | cons g fs =>
    cases fs with
    | nil =>
      rw [List.mem_singleton] at h
      subst h
      exact hne
    | cons g' fs =>
      change g ++ '|' :: join '|' (g' :: fs) ≠ []
      simp

theorem table_lines (hl : TimesOk lib secs snap) {part : List Row} (h : PartOk part) : ∀ l ∈ tableLines lib secs prec part,
    isMeta l = false ∧ '\n' ∉ l ∧ strip l = l ∧ l ≠ [] := by
  intro l hl'
  rcases List.mem_cons.1 hl' with rfl | hl'
  · obtain ⟨c, cs, hk, _⟩ := h.head
    obtain ⟨h1, _⟩ := header_line (lib := lib) (secs := secs) (prec := prec) h
    obtain ⟨h2, h3⟩ := header_line' part
    refine ⟨h1, h3, strip_trim h2, ?_⟩
    rw [csvLine_headers]
    refine join_ne (f := c.header) (by rw [hk]; simp) ?_
    cases c <;> decide
  · obtain ⟨r, hr, rfl⟩ := List.mem_map.1 hl'
    obtain ⟨h1, _, _, h4, h5⟩ := data_line (prec := prec) hl h hr
    refine ⟨h1, h5, strip_trim h4, ?_⟩
    rw [csvLine_cells hl (h.good r hr)]
    have hg := h.good r hr
    cases hv : r .obsTime with
    | none => exact absurd hv (hg.required .obsTime rfl)
    | some v =>
      have ht := hg.typed _ _ hv
      cases v with
      | text s => cases ht
      | num x => cases ht
      | time t =>
        refine join_ne (f := cellText lib secs prec .obsTime (r .obsTime)) (List.mem_map.2 ⟨.obsTime, required_kept h rfl, rfl⟩) ?_
        rw [hv]
        simp [cellText]

theorem linesOf_textOf {lines : List Str} (h1 : ∀ l ∈ lines, '\n' ∉ l) (h2 : ∀ l ∈ lines, strip l ≠ []) :
    linesOf (textOf lines) = lines.map strip := by
  unfold linesOf
  rw [splitOn_textOf h1, List.map_append, List.filter_append]
  have e : (List.map strip [[]]).filter (fun l => l ≠ []) = [] := rfl
  rw [e, List.append_nil, List.filter_eq_self]
  intro l hl
  obtain ⟨x, hx, rfl⟩ := List.mem_map.1 hl
  exact decide_eq_true (h2 x hx)

/-! ## The contexts -/

theorem readMeta_skip (rest : List Str) : ∀ (ls : List Str) (m : Meta), (∀ l ∈ ls, isMeta l = false) → readMeta m (ls ++ rest) = readMeta m rest := by
  intro ls
  induction ls with
  | nil => intro m _; rfl
  | cons l ls ih =>
    intro m h
    have hl := h l (by simp)
    unfold isMeta at hl
    rw [Bool.or_eq_false_iff] at hl
    rw [List.cons_append, readMeta, hl.1, hl.2]
    simp only [Bool.false_eq_true, if_false]
    exact ih m fun x hx => h x (List.mem_cons_of_mem _ hx)

theorem ctxDict_ne (c : Ctx) : ctxDict lib c ≠ [] := by
  intro h
  have := find_observatory (lib := lib) (c := c)
  rw [h] at this
  cases this

theorem read_contexts (hl : TimesOk lib secs snap) : ∀ (bs : List (Ctx × List Row)) (m : Meta) (cs : List (Option Str × Ctx)),
    (∀ b ∈ bs, b.1.Good lib ∧ PartOk b.2) → finish m = .ok cs →
    readMeta m (bs.flatMap fun b => (b.1.lines lib).map strip ++ tableLines lib secs prec b.2) =
      .ok (bs.foldl (fun cs b => insert (some b.1.mpcCode) b.1.readBack cs) cs) := by
  intro bs
  induction bs with
  | nil =>
    intro m cs _ h
    simpa [readMeta] using h
  | cons b bs ih =>
    intro m cs hb h
    obtain ⟨hg, hp⟩ := hb b (by simp)
    obtain ⟨s, hs⟩ := steps_ctx hg h
    rw [List.flatMap_cons, List.append_assoc, readMeta_append, hs]
    simp only
    rw [readMeta_skip _ _ _ fun l hl' => (table_lines (prec := prec) hl hp l hl').1]
    rw [ih _ (insert (some b.1.mpcCode) b.1.readBack cs) fun x hx => hb x (List.mem_cons_of_mem _ hx)]
    · rfl
    · unfold finish
      rw [if_neg (ctxDict_ne b.1)]
      simp only [build_ctx hg]

theorem foldl_insert {α : Type} {K V : Type} [DecidableEq K] (key : α → K) (val : α → V) : ∀ (l : List α) (cs : List (K × V)),
    (l.map key).Nodup → (∀ a ∈ l, key a ∉ cs.map Prod.fst) →
    l.foldl (fun cs a => insert (key a) (val a) cs) cs = cs ++ l.map fun a => (key a, val a) := by
  have hins : ∀ (k : K) (v : V) (d : List (K × V)), k ∉ d.map Prod.fst → insert k v d = d ++ [(k, v)] := by
    intro k v d h
    induction d with
    | nil => rfl
    | cons p d ih =>
      obtain ⟨a, b⟩ := p
      rw [List.map_cons, List.mem_cons, not_or] at h
      simp only [insert]
      rw [if_neg (fun e => h.1 e.symm), ih h.2]
      rfl
  intro l
  induction l with
  | nil => intro cs _ _; simp
  | cons a l ih =>
    intro cs hn hc
    rw [List.map_cons, List.nodup_cons] at hn
    rw [List.foldl_cons, hins _ _ _ (hc a (by simp)), ih _ hn.2]
    · simp
    · intro b hb
      rw [List.map_append, List.mem_append]
      rintro (h | h)
      · exact hc b (List.mem_cons_of_mem _ hb) h
      · rw [List.map_cons, List.map_nil, List.mem_singleton] at h
        exact hn.1 (List.mem_map.2 ⟨b, hb, h⟩)

/-! ## Blocks -/

theorem mem_rowsOf {rows : List Row} {s : Str} {r : Row} : r ∈ rowsOf rows s ↔ r ∈ rows ∧ station r = s := by
  unfold rowsOf
  rw [(sortBy_perm _ _).mem_iff, List.mem_filter, decide_eq_true_eq]

theorem mem_stations {rows : List Row} {s : Str} : s ∈ stations rows ↔ ∃ r ∈ rows, station r = s := by
  unfold stations
  rw [(sortBy_perm _ _).mem_iff, mem_uniq, List.mem_map]

theorem stations_lt (rows : List Row) : (stations rows).Pairwise (· < ·) := by
  have h1 : (stations rows).Pairwise fun a b => a ≤ b := sortBy_sorted id _
  have h2 : (stations rows).Nodup := (sortBy_perm _ _).nodup_iff.2 (nodup_uniq _)
  exact (h1.and h2).imp fun h => lt_of_le_of_ne h.1 h.2

theorem rangeOk_congr {a b : List Row} (h : ∀ r, r ∈ a ↔ r ∈ b) : RangeOk snap prec a ↔ RangeOk snap prec b := by
  have hb : ∀ r, back snap prec a r = back snap prec b r := by
    intro r
    funext c
    unfold back
    simp only [h]
  unfold RangeOk
  simp only [h, hb]

theorem block_cases (contexts : List (Str × Ctx)) (rows : List Row) (s : Str) :
    (∃ c, contexts.lookup s = some c ∧ (∃ r ∈ rowsOf rows s, ∃ i, isId i ∧ r i ≠ none) ∧
      block lib secs prec contexts rows s = .ok (c.lines lib ++ tableLines lib secs prec (rowsOf rows s))) ∨
    ((∀ c, contexts.lookup s = some c → ∀ r ∈ rowsOf rows s, ∀ i, isId i → r i = none) ∧
      block lib secs prec contexts rows s = .error .valueError) := by
  unfold block
  cases hc : contexts.lookup s with
  | none => exact Or.inr ⟨fun c h => (by cases h), rfl⟩
  | some c =>
    simp only
    by_cases h : (rowsOf rows s).all (fun r => r .permID = none && r .provID = none && r .trkSub = none) = true
    · right
      rw [if_pos h]
      refine ⟨fun c' _ r hr i hi => ?_, rfl⟩
      rw [List.all_eq_true] at h
      have := h r hr
      simp only [Bool.and_eq_true, decide_eq_true_eq] at this
      rcases hi with rfl | rfl | rfl
      · exact this.1.1
      · exact this.1.2
      · exact this.2
    · left
      rw [if_neg h]
      refine ⟨c, rfl, ?_, rfl⟩
      rw [List.all_eq_true] at h
      push Not at h
      obtain ⟨r, hr, hn⟩ := h
      simp only [ne_eq, Bool.and_eq_true, decide_eq_true_eq, not_and_or] at hn
      rcases hn with (h | h) | h
      · exact ⟨r, hr, .permID, Or.inl rfl, h⟩
      · exact ⟨r, hr, .provID, Or.inr (Or.inl rfl), h⟩
      · exact ⟨r, hr, .trkSub, Or.inr (Or.inr rfl), h⟩

theorem id_lt {a b : Option Val} (ha : ∀ v, a = some v → v.kind = .text) (hb : ∀ v, b = some v → v.kind = .text) :
    (sortText a < sortText b → IdBefore a b) ∧ (sortText a = sortText b → a = b) := by
  have key : ∀ x : Option Val, (∀ v, x = some v → v.kind = .text) → x = none ∨ ∃ s, x = some (.text s) := by
    intro x hx
    cases x with
    | none => exact Or.inl rfl
    | some v =>
      have := hx v rfl
      cases v with
      | text s => exact Or.inr ⟨s, rfl⟩
      | num n => cases this
      | time t => cases this
  rcases key a ha with rfl | ⟨s, rfl⟩ <;> rcases key b hb with rfl | ⟨t, rfl⟩
  · exact ⟨fun h => absurd h (lt_irrefl _), fun _ => rfl⟩
  · exact ⟨fun h => absurd h not_top_lt, fun h => absurd h.symm (WithTop.coe_ne_top)⟩
  · exact ⟨fun _ => trivial, fun h => absurd h (WithTop.coe_ne_top)⟩
  · refine ⟨fun h => WithTop.coe_lt_coe.1 h, fun h => ?_⟩
    have : s = t := WithTop.coe_injective h
    rw [this]

theorem inOrder_of_key {r q : Row} (hr : Good r) (hq : Good q) (h : rowKey r ≤ rowKey q) : InOrder r q := by
  have hid : ∀ c, isId c → (sortText (r c) < sortText (q c) → IdBefore (r c) (q c)) ∧ (sortText (r c) = sortText (q c) → r c = q c) := by
    intro c hc
    have hk : c.kind = .text := by rcases hc with rfl | rfl | rfl <;> rfl
    exact id_lt (fun v hv => (hr.typed c v hv).trans hk) (fun v hv => (hq.typed c v hv).trans hk)
  have htime : ∀ x : Row, Good x → ∃ t, x .obsTime = some (.time t) := by
    intro x hx
    cases hv : x .obsTime with
    | none => exact absurd hv (hx.required _ rfl)
    | some v =>
      have := hx.typed _ _ hv
      cases v with
      | text s => cases this
      | num n => cases this
      | time t => exact ⟨t, rfl⟩
  obtain ⟨t, ht⟩ := htime r hr
  obtain ⟨u, hu⟩ := htime q hq
  unfold rowKey at h
  rw [ht, hu] at h
  simp only [Prod.Lex.toLex_le_toLex, timeOf] at h
  unfold InOrder
  rw [ht, hu]
  rcases h with h | ⟨h1, h⟩
  · exact Or.inl ((hid _ (Or.inr (Or.inl rfl))).1 h)
  · refine Or.inr ⟨(hid _ (Or.inr (Or.inl rfl))).2 h1, ?_⟩
    rcases h with h | ⟨h1, h⟩
    · exact Or.inl ((hid _ (Or.inl rfl)).1 h)
    · refine Or.inr ⟨(hid _ (Or.inl rfl)).2 h1, ?_⟩
      rcases h with h | ⟨h1, h⟩
      · exact Or.inl ((hid _ (Or.inr (Or.inr rfl))).1 h)
      · exact Or.inr ⟨(hid _ (Or.inr (Or.inr rfl))).2 h1, h⟩

/-- **C70.** Text is written exactly when every observation's station has a context and an observation with an identifier; otherwise
a ValueError is raised. -/
theorem C70_written (rows : List Row) (contexts : List (Str × Ctx)) :
    ((∃ text, toText lib secs prec rows contexts = .ok text) ↔
      ∀ r ∈ rows, (∃ c, contexts.lookup (station r) = some c) ∧ ∃ q ∈ rows, station q = station r ∧ ∃ i, isId i ∧ q i ≠ none) ∧
    ∀ e, toText lib secs prec rows contexts = .error e → e = .valueError := by
  have hgo : (∀ r ∈ rows, (∃ c, contexts.lookup (station r) = some c) ∧ ∃ q ∈ rows, station q = station r ∧ ∃ i, isId i ∧ q i ≠ none) ↔
      ∀ s ∈ stations rows, ∃ c, contexts.lookup s = some c ∧ (∃ r ∈ rowsOf rows s, ∃ i, isId i ∧ r i ≠ none) := by
    constructor
    · intro h s hs
      obtain ⟨r, hr, rfl⟩ := mem_stations.1 hs
      obtain ⟨⟨c, hc⟩, q, hq, hqs, i, hi, hn⟩ := h r hr
      exact ⟨c, hc, q, mem_rowsOf.2 ⟨hq, hqs⟩, i, hi, hn⟩
    · intro h r hr
      obtain ⟨c, hc, q, hq, i, hi, hn⟩ := h (station r) (mem_stations.2 ⟨r, hr, rfl⟩)
      exact ⟨⟨c, hc⟩, q, (mem_rowsOf.1 hq).1, (mem_rowsOf.1 hq).2, i, hi, hn⟩
  have herr : ∀ s, (∃ b, block lib secs prec contexts rows s = .ok b) ∨ block lib secs prec contexts rows s = .error .valueError := by
    intro s
    rcases block_cases (lib := lib) (secs := secs) (prec := prec) contexts rows s with ⟨c, _, _, h⟩ | ⟨_, h⟩
    · exact Or.inl ⟨_, h⟩
    · exact Or.inr h
  have hgather : ∀ l : List Str, (∃ bs, gather (block lib secs prec contexts rows) l = .ok bs ∧
        ∀ s ∈ l, ∃ b, block lib secs prec contexts rows s = .ok b) ∨
      (gather (block lib secs prec contexts rows) l = .error .valueError ∧ ∃ s ∈ l, block lib secs prec contexts rows s = .error .valueError) := by
    intro l
    induction l with
    | nil => exact Or.inl ⟨[], rfl, by simp⟩
    | cons s l ih =>
      rw [gather]
      rcases herr s with ⟨b, hb⟩ | hb
      · rw [hb]
        rcases ih with ⟨bs, h1, h2⟩ | ⟨h1, x, hx, h2⟩
        · left
          simp only [h1]
          refine ⟨_, rfl, fun x hx => ?_⟩
          rcases List.mem_cons.1 hx with rfl | hx
          · exact ⟨b, hb⟩
          · exact h2 x hx
        · right
          simp only [h1]
          exact ⟨trivial, x, List.mem_cons_of_mem _ hx, h2⟩
      · right
        rw [hb]
        exact ⟨rfl, s, by simp, hb⟩
  rw [hgo]
  unfold toText
  rcases hgather (stations rows) with ⟨bs, h1, h2⟩ | ⟨h1, s, hs, h2⟩
  · rw [h1]
    refine ⟨⟨fun _ s hs => ?_, fun _ => ⟨_, rfl⟩⟩, fun e he => by cases he⟩
    obtain ⟨b, hb⟩ := h2 s hs
    rcases block_cases (lib := lib) (secs := secs) (prec := prec) contexts rows s with ⟨c, h3, h4, _⟩ | ⟨_, h⟩
    · exact ⟨c, h3, h4⟩
    · rw [hb] at h
      cases h
  · rw [h1]
    refine ⟨⟨fun ⟨t, ht⟩ => (by cases ht), fun h => ?_⟩, fun e he => by cases he; rfl⟩
    obtain ⟨c, hc, r, hr, i, hi, hn⟩ := h s hs
    rcases block_cases (lib := lib) (secs := secs) (prec := prec) contexts rows s with ⟨c, _, _, h⟩ | ⟨h, _⟩
    · rw [h2] at h
      cases h
    · exact absurd (h c hc r hr i hi) hn

/-- What reading the text of a table does, block by block. -/
theorem read_all (hl : TimesOk lib secs snap) {rows : List Row} {contexts : List (Str × Ctx)} {text : Str}
    (hrows : ∀ r ∈ rows, Good r) (hctx : ∀ s c, (∃ r ∈ rows, station r = s) → contexts.lookup s = some c → c.Good lib)
    (htext : toText lib secs prec rows contexts = .ok text) :
    ∃ bs : List (Str × Ctx × List Row), bs.map (·.1) = stations rows ∧
      (∀ b ∈ bs, contexts.lookup b.1 = some b.2.1 ∧ b.2.1.Good lib ∧ b.2.2 = rowsOf rows b.1 ∧ PartOk b.2.2) ∧
      (open Classical in readData lib [] [] (linesOf text) = if ∀ b ∈ bs, RangeOk snap prec b.2.2 then
        .ok (bs.flatMap fun b => b.2.2.map (back snap prec b.2.2)) else .error .valueError) ∧
      readMeta ⟨[], [], none, none⟩ (linesOf text) =
        .ok (bs.foldl (fun cs b => insert (some b.2.1.mpcCode) b.2.1.readBack cs) []) := by
  have hw := (C70_written (lib := lib) (secs := secs) (prec := prec) rows contexts).1.1 ⟨text, htext⟩
  -- the blocks
  have hbl : ∀ l : List Str, (∀ s ∈ l, ∃ r ∈ rows, station r = s) → ∃ bs : List (Str × Ctx × List Row), bs.map (·.1) = l ∧
      (∀ b ∈ bs, contexts.lookup b.1 = some b.2.1 ∧ b.2.1.Good lib ∧ b.2.2 = rowsOf rows b.1 ∧ PartOk b.2.2) ∧
      gather (block lib secs prec contexts rows) l = .ok (bs.map fun b => b.2.1.lines lib ++ tableLines lib secs prec b.2.2) := by
    intro l
    induction l with
    | nil => exact fun _ => ⟨[], rfl, by simp, rfl⟩
    | cons s l ih =>
      intro hs
      obtain ⟨bs, h1, h2, h3⟩ := ih fun x hx => hs x (List.mem_cons_of_mem _ hx)
      obtain ⟨r, hr, hrs⟩ := hs s (by simp)
      obtain ⟨⟨c, hc⟩, q, hq, hqs, i, hi, hn⟩ := hw r hr
      rw [hrs] at hc hqs
      have hmem : q ∈ rowsOf rows s := mem_rowsOf.2 ⟨hq, hqs⟩
      rcases block_cases (lib := lib) (secs := secs) (prec := prec) contexts rows s with ⟨c', hc', hid, hb⟩ | ⟨hbad, _⟩
      · have e : c' = c := by rw [hc] at hc'; exact (Option.some.inj hc').symm
        subst e
        refine ⟨(s, c', rowsOf rows s) :: bs, by rw [List.map_cons, h1], ?_, ?_⟩
        · intro b hb'
          rcases List.mem_cons.1 hb' with rfl | hb'
          · exact ⟨hc, hctx s c' ⟨r, hr, hrs⟩ hc, rfl, fun x hx => hrows x (mem_rowsOf.1 hx).1, hid⟩
          · exact h2 b hb'
        · rw [gather, hb]
          simp only [h3, List.map_cons]
      · exact absurd (hbad c hc q hmem i hi) hn
  obtain ⟨bs, h1, h2, h3⟩ := hbl (stations rows) fun s hs => mem_stations.1 hs
  refine ⟨bs, h1, h2, ?_⟩
  unfold toText at htext
  rw [h3] at htext
  simp only [Except.ok.injEq] at htext
  have hver : MetaLine "# version=2022".toList := ⟨by decide, Or.inl rfl⟩
  have hlines : ∀ l ∈ "# version=2022".toList :: (bs.map fun b => b.2.1.lines lib ++ tableLines lib secs prec b.2.2).flatten,
      '\n' ∉ l ∧ strip l ≠ [] := by
    intro l hl'
    rcases List.mem_cons.1 hl' with rfl | hl'
    · exact ⟨hver.1, (strip_meta hver).2⟩
    · obtain ⟨x, hx, hlx⟩ := List.mem_flatten.1 hl'
      obtain ⟨b, hb, rfl⟩ := List.mem_map.1 hx
      obtain ⟨_, hg, _, hp⟩ := h2 b hb
      rcases List.mem_append.1 hlx with h | h
      · exact ⟨(lines_meta hg l h).1, (strip_meta (lines_meta hg l h)).2⟩
      · obtain ⟨_, a, b, c⟩ := table_lines hl hp l h
        exact ⟨a, by rw [b]; exact c⟩
  have hall : linesOf text = strip "# version=2022".toList ::
      bs.flatMap fun b => (b.2.1.lines lib).map strip ++ tableLines lib secs prec b.2.2 := by
    rw [← htext, linesOf_textOf (fun l h => (hlines l h).1) fun l h => (hlines l h).2, List.map_cons, List.map_flatten, List.map_map,
      List.flatMap_def]
    refine congrArg (fun x => strip _ :: List.flatten x) (List.map_congr_left fun b hb => ?_)
    rw [Function.comp, List.map_append]
    refine congrArg (fun x => (b.2.1.lines lib).map strip ++ x) ?_
    conv_rhs => rw [← List.map_id (tableLines lib secs prec b.2.2)]
    exact List.map_congr_left fun l hlx => (table_lines hl (h2 b hb).2.2.2 l hlx).2.2.1
  rw [hall]
  constructor
  · have hm := read_meta (lib := lib) [] [] (bs.flatMap fun b => (b.2.1.lines lib).map strip ++ tableLines lib secs prec b.2.2)
      [strip "# version=2022".toList] (by
        intro l hl'
        rw [List.mem_singleton] at hl'
        rw [hl']
        exact (strip_meta hver).1)
    rw [List.singleton_append] at hm
    rw [hm]
    have := read_blocks (prec := prec) hl (bs.map fun b => ((b.2.1.lines lib).map strip, b.2.2)) [] [] [] (by
      intro p hp
      obtain ⟨b, hb, rfl⟩ := List.mem_map.1 hp
      refine ⟨fun l hl' => ?_, (h2 b hb).2.2.2⟩
      obtain ⟨x, hx, rfl⟩ := List.mem_map.1 hl'
      exact (strip_meta (lines_meta (h2 b hb).2.1 x hx)).1) rfl
    rw [List.flatMap_map, List.flatMap_map] at this
    rw [this]
    have hiff : (∀ p ∈ bs.map (fun b => ((b.2.1.lines lib).map strip, b.2.2)), RangeOk snap prec p.2) ↔ ∀ b ∈ bs, RangeOk snap prec b.2.2 := by
      constructor
      · exact fun h b hb => h _ (List.mem_map.2 ⟨b, hb, rfl⟩)
      · intro h p hp
        obtain ⟨b, hb, rfl⟩ := List.mem_map.1 hp
        exact h b hb
    by_cases h : ∀ b ∈ bs, RangeOk snap prec b.2.2
    · rw [if_pos h, if_pos (hiff.2 h)]
      rfl
    · rw [if_neg h, if_neg fun h' => h (hiff.1 h')]
  · have hs : steps ⟨[], [], none, none⟩ [strip "# version=2022".toList] = .ok ⟨[], [], none, none⟩ := rfl
    have ha := readMeta_append [strip "# version=2022".toList]
      (bs.flatMap fun b => (b.2.1.lines lib).map strip ++ tableLines lib secs prec b.2.2) ⟨[], [], none, none⟩
    rw [List.singleton_append, hs] at ha
    rw [ha]
    simp only
    have := read_contexts (prec := prec) hl (bs.map fun b => (b.2.1, b.2.2)) ⟨[], [], none, none⟩ [] (by
      intro p hp
      obtain ⟨b, hb, rfl⟩ := List.mem_map.1 hp
      exact ⟨(h2 b hb).2.1, (h2 b hb).2.2.2⟩) rfl
    rw [List.flatMap_map, List.foldl_map] at this
    exact this

/-- **C70.** Reading the text that was written gives, station by station in the order of their codes, the rows of the station in the order
of their identifiers and times, each as `back` says, and the contexts of the stations as `readBack` says. -/
theorem C70_round_trip (hl : TimesOk lib secs snap) {rows : List Row} {contexts : List (Str × Ctx)} {text : Str}
    (hrows : ∀ r ∈ rows, Good r)
    (hctx : ∀ s c, (∃ r ∈ rows, station r = s) → contexts.lookup s = some c → c.Good lib ∧ c.mpcCode = s)
    (htext : toText lib secs prec rows contexts = .ok text)
    (hrange : ∀ s, RangeOk snap prec (rows.filter fun r => station r = s)) :
    ∃ blocks : List (Str × Ctx × List Row),
      ofText lib text = .ok (blocks.map fun b => (some b.1, b.2.1.readBack), blocks.flatMap fun b => b.2.2.map (back snap prec b.2.2)) ∧
      (blocks.map fun b => b.1).Pairwise (· < ·) ∧
      (∀ s, s ∈ blocks.map (fun b => b.1) ↔ ∃ r ∈ rows, station r = s) ∧
      ∀ b ∈ blocks, contexts.lookup b.1 = some b.2.1 ∧ b.2.2.Perm (rows.filter fun r => station r = b.1) ∧ b.2.2.Pairwise InOrder := by
  obtain ⟨bs, h1, h2, h3, h4⟩ := read_all (prec := prec) hl hrows (fun s c h hc => (hctx s c h hc).1) htext
  have hst : ∀ b ∈ bs, ∃ r ∈ rows, station r = b.1 := by
    intro b hb
    apply mem_stations.1
    rw [← h1]
    exact List.mem_map.2 ⟨b, hb, rfl⟩
  refine ⟨bs, ?_, by rw [h1]; exact stations_lt rows, fun s => by rw [h1]; exact mem_stations, ?_⟩
  · rw [if_pos] at h3
    · have hfold : bs.foldl (fun cs b => insert (some b.2.1.mpcCode) b.2.1.readBack cs) [] = bs.map fun b => (some b.1, b.2.1.readBack) := by
        have hcode : ∀ b ∈ bs, b.2.1.mpcCode = b.1 := fun b hb => (hctx b.1 b.2.1 (hst b hb) (h2 b hb).1).2
        rw [foldl_insert (fun b : Str × Ctx × List Row => some b.2.1.mpcCode) (fun b => b.2.1.readBack) bs []]
        · rw [List.nil_append]
          exact List.map_congr_left fun b hb => by rw [hcode b hb]
        · have e : bs.map (fun b : Str × Ctx × List Row => some b.2.1.mpcCode) = (stations rows).map some := by
            rw [← h1, List.map_map]
            exact List.map_congr_left fun b hb => by rw [hcode b hb]; rfl
          rw [e]
          exact List.Nodup.map (Option.some_injective _) ((stations_lt rows).imp fun h => ne_of_lt h)
        · simp
      unfold ofText
      rw [h3, h4, hfold]
    · intro b hb
      rw [(h2 b hb).2.2.1]
      refine (rangeOk_congr fun r => ?_).2 (hrange b.1)
      rw [mem_rowsOf, List.mem_filter, decide_eq_true_eq]
  · intro b hb
    obtain ⟨hc, _, hp, hok⟩ := h2 b hb
    refine ⟨hc, by rw [hp]; exact sortBy_perm _ _, ?_⟩
    have hs : b.2.2.Pairwise fun r q => rowKey r ≤ rowKey q := by rw [hp]; exact sortBy_sorted _ _
    exact hs.imp_of_mem fun hr hq h => inOrder_of_key (hok.good _ hr) (hok.good _ hq) h

/-- **C70.** If an uncertainty that is read back is not accepted, reading the text raises a ValueError. -/
theorem C70_refused (hl : TimesOk lib secs snap) {rows : List Row} {contexts : List (Str × Ctx)} {text : Str}
    (hrows : ∀ r ∈ rows, Good r) (hctx : ∀ s c, (∃ r ∈ rows, station r = s) → contexts.lookup s = some c → c.Good lib)
    (htext : toText lib secs prec rows contexts = .ok text)
    (hrange : ∃ s, ¬ RangeOk snap prec (rows.filter fun r => station r = s)) : ofText lib text = .error .valueError := by
  obtain ⟨bs, h1, h2, h3, h4⟩ := read_all (prec := prec) hl hrows hctx htext
  obtain ⟨s, hs⟩ := hrange
  have hmem : ∃ b ∈ bs, b.1 = s := by
    have : ∃ r ∈ rows, station r = s := by
      by_contra hc
      push Not at hc
      apply hs
      intro r hr
      have := List.mem_filter.1 hr
      exact absurd (by simpa using this.2) (hc r this.1)
    have := mem_stations.2 this
    rw [← h1] at this
    obtain ⟨b, hb, h⟩ := List.mem_map.1 this
    exact ⟨b, hb, h⟩
  obtain ⟨b, hb, rfl⟩ := hmem
  unfold ofText
  rw [h3, if_neg]
  intro h
  apply hs
  refine (rangeOk_congr fun r => ?_).2 (h b hb)
  rw [(h2 b hb).2.2.1, mem_rowsOf, List.mem_filter, decide_eq_true_eq]

/-- **C70.** A finite number is read back within half a unit of its last decimal; the sign of a number that is not rounded to zero stays. -/
theorem C70_rounding (p : Nat) (x : ℚ) : ∃ y, rounded p (.fin x) = .fin y ∧ |y - x| ≤ 1 / 2 / 10 ^ p := rounded_near p x

end Verif.Ades.Props
