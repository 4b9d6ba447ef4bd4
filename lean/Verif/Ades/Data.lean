import Verif.Ades.Text
import Verif.Sched.Lemmas
import Verif.Sched.Orbits

/-! Helper lemmas on the data lines. -/

namespace Verif.Ades

open Verif Mpc Obs80 Sched

variable {lib : Lib} {secs : Nat} {snap : ℤ × ℤ → ℤ × ℤ} {prec : Col → Option Nat}

theorem uniq_nodup {α : Type} [DecidableEq α] {l : List α} (h : l.Nodup) : uniq l = l := by
  induction l with
  | nil => rfl
  | cons a l ih =>
    rw [List.nodup_cons] at h
    rw [uniq, ih h.2, List.filter_eq_self.2]
    intro b hb
    exact decide_eq_true fun e => h.1 (e ▸ hb)

/-! ## One cell -/

theorem time_chars (hl : TimesOk lib secs snap) (t : ℤ × ℤ) : ∀ c ∈ lib.isot secs t ++ ['Z'],
    isSpace c = false ∧ c ≠ '|' ∧ c ≠ '"' ∧ c ≠ 'r' := by
  intro c hc
  rcases List.mem_append.1 hc with h | h
  · rcases hl.chars t c h with h | h
    · refine ⟨digit_not_space h, ?_, ?_, ?_⟩ <;> (rintro rfl; exact absurd h (by decide))
    · have : ∀ c ∈ "-:.T".toList, isSpace c = false ∧ c ≠ '|' ∧ c ≠ '"' ∧ c ≠ 'r' := by decide
      exact this c h
  · rw [List.mem_singleton] at h
    subst h
    decide

/-- What a cell's text is like. -/
structure CellOk (s : Str) : Prop where
  trim : Trim s
  chars : ∀ c ∈ s, c ≠ '|' ∧ c ≠ '"' ∧ c ≠ '\n' ∧ c ≠ '\r'
  keyword : NoKeyword s

theorem cellOk_of {s : Str} (h : ∀ c ∈ s, isSpace c = false ∧ c ≠ '|' ∧ c ≠ '"' ∧ c ≠ 'r') : CellOk s where
  trim := trim_of_noSpace fun c hc => (h c hc).1
  chars := fun c hc => ⟨(h c hc).2.1, (h c hc).2.2.1, by rintro rfl; exact absurd (h _ hc).1 (by decide),
    by rintro rfl; exact absurd (h _ hc).1 (by decide)⟩
  keyword := noKeyword_of_r fun hc => (h _ hc).2.2.2 rfl

theorem cell_ok (hl : TimesOk lib secs snap) {r : Row} (hr : Good r) (c : Col) : CellOk (cellText lib secs prec c (r c)) := by
  have hnil : CellOk [] := cellOk_of (by simp)
  have hfix : ∀ p x, CellOk (fixed p x) := fun p x => cellOk_of fun c hc => ⟨(fixed_ok c hc).1, (fixed_ok c hc).2.1, (fixed_ok c hc).2.2.1,
    (fixed_ok c hc).2.2.2.1⟩
  unfold cellText
  split
  · split
    · exact hfix 0 .nan
    · exact hnil
  · next s h =>
    have := hr.plain c s h
    exact ⟨this.trim, this.chars, this.keyword⟩
  · split
    · exact hfix _ _
    · split
      · exact hnil
      · exact hfix _ _
  · next t h => exact cellOk_of (time_chars hl t)

theorem emptyToNone_some {s : Str} (h : s ≠ []) (ht : Trim s) : emptyToNone s = some s := by
  unfold emptyToNone
  rw [if_neg]
  rintro (e | e)
  · exact h e
  · obtain ⟨c, cs, rfl⟩ := List.exists_cons_of_ne_nil h
    have h1 := ht.1 c rfl
    rw [List.all_eq_true] at e
    rw [e c (by simp)] at h1
    cases h1

theorem convert_num {c : Col} (hc : c.kind = .num) (p : Nat) (x : Num) :
    convert lib c (fixed p x) = .ok (some (.num (rounded p x))) := by
  unfold convert
  rw [emptyToNone_some (fixed_ne p x) (trim_of_noSpace fun c hc => (fixed_ok c hc).1)]
  simp only [hc, number_fixed]

theorem convert_cell (hl : TimesOk lib secs snap) {r : Row} (hr : Good r) (c : Col) :
    convert lib c (cellText lib secs prec c (r c)) = .ok (readCell snap prec c (r c)) := by
  have hnil : c.kind ≠ .time → convert lib c [] = .ok none := by
    intro h
    simp [convert, emptyToNone, h]
  cases hv : r c with
  | none =>
    have hk : c.kind ≠ .time := by
      intro hk
      have : c = .obsTime := by revert hk; cases c <;> simp [Col.kind]
      subst this
      exact hr.required .obsTime rfl hv
    simp only [cellText, readCell]
    split_ifs with h2
    · exact convert_num h2.1 0 .nan
    · exact hnil hk
  | some v =>
    have hk := (hr.typed c _ hv).symm
    cases v with
    | text s =>
      have hp := hr.plain c s hv
      have hk : c.kind = .text := hk
      simp only [cellText, readCell]
      unfold convert
      rw [emptyToNone_some hp.nonempty hp.trim]
      simp only [hk, strip_trim hp.trim, ite_self]
    | num x =>
      have hk : c.kind = .num := hk
      simp only [cellText, readCell]
      cases prec c with
      | some p => exact convert_num hk _ _
      | none =>
        simp only
        split_ifs
        · exact hnil (by rw [hk]; decide)
        · exact convert_num hk _ _
    | time t =>
      have hk : c.kind = .time := hk
      simp only [cellText, readCell]
      unfold convert
      rw [emptyToNone_some (by simp) (trim_of_noSpace fun c hc => (time_chars hl t c hc).1)]
      simp only [hk, List.dropLast_concat, hl.back]

/-! ## Headers -/

theorem header_injective : Function.Injective Col.header := by
  intro a b h
  revert h
  cases a <;> cases b <;> decide

theorem col_mem (c : Col) : c ∈ Col.all := by cases c <;> decide

theorem ofHeader_header (c : Col) : ofHeader c.header = some c := by cases c <;> decide

theorem header_trim (c : Col) : ∀ d ∈ c.header, isSpace d = false ∧ d ≠ '|' ∧ d ≠ '"' ∧ d ≠ '#' ∧ d ≠ '!' := by cases c <;> decide

theorem kept_nodup (part : List Row) : (kept part).Nodup := List.Nodup.filter _ (by decide)

theorem mem_kept {part : List Row} {c : Col} : c ∈ kept part ↔ ∃ r ∈ part, r c ≠ none ∧ r c ≠ some (.num .nan) := by
  simp [kept, col_mem, missing]

theorem kept_head {part : List Row} (h : ∃ r ∈ part, Good r ∧ ∃ c, isId c ∧ r c ≠ none) :
    ∃ c cs, kept part = c :: cs ∧ isId c := by
  have hm : ∃ c, isId c ∧ c ∈ kept part := by
    obtain ⟨r, hr, hg, c, hc, hn⟩ := h
    refine ⟨c, hc, mem_kept.2 ⟨r, hr, hn, fun e => ?_⟩⟩
    have := hg.typed c _ e
    rcases hc with rfl | rfl | rfl <;> cases this
  obtain ⟨c, hc, hk⟩ := hm
  unfold kept at hk ⊢
  generalize (fun c => part.any fun r => !missing (r c)) = f at hk ⊢
  have hf : f c = true := (List.mem_filter.1 hk).2
  unfold Col.all
  by_cases h1 : f .permID = true
  · exact ⟨.permID, _, by rw [List.filter_cons_of_pos h1], Or.inl rfl⟩
  by_cases h2 : f .provID = true
  · exact ⟨.provID, _, by rw [List.filter_cons_of_neg h1, List.filter_cons_of_pos h2], Or.inr (Or.inl rfl)⟩
  by_cases h3 : f .trkSub = true
  · exact ⟨.trkSub, _, by rw [List.filter_cons_of_neg h1, List.filter_cons_of_neg h2, List.filter_cons_of_pos h3], Or.inr (Or.inr rfl)⟩
  · rcases hc with rfl | rfl | rfl
    · exact absurd hf h1
    · exact absurd hf h2
    · exact absurd hf h3

/-! ## The table of a station -/

/-- The dictionary after reading the lines of a station. -/
def dictOf (lib : Lib) (secs : Nat) (prec : Col → Option Nat) (part rows : List Row) : List (Str × List Str) :=
  (kept part).map fun c => (c.header, rows.map fun r => cellText lib secs prec c (r c))

theorem addLine_map (cs : List Col) (f : Col → List Str) (g : Col → Str) :
    addLine (cs.map fun c => (c.header, f c)) (cs.map g) = cs.map fun c => (c.header, f c ++ [g c]) := by
  induction cs with
  | nil => rfl
  | cons c cs ih => simp only [List.map_cons, addLine, ih]

theorem csvLine_cells (hl : TimesOk lib secs snap) {r : Row} (hr : Good r) (cs : List Col) :
    csvLine (cs.map fun c => cellText lib secs prec c (r c)) = join '|' (cs.map fun c => cellText lib secs prec c (r c)) := by
  unfold csvLine
  congr 1
  rw [List.map_map]
  exact List.map_congr_left fun c _ => csvField_plain (cell_ok hl hr c).chars

theorem csvLine_headers (cs : List Col) : csvLine (cs.map Col.header) = join '|' (cs.map Col.header) := by
  unfold csvLine
  congr 1
  rw [List.map_map]
  refine List.map_congr_left fun c _ => csvField_plain fun d hd => ?_
  obtain ⟨h1, h2, h3, _⟩ := header_trim c d hd
  exact ⟨h2, h3, by rintro rfl; exact absurd h1 (by decide), by rintro rfl; exact absurd h1 (by decide)⟩

theorem join_head {f : Str} {fs : List Str} {c : Char} (h : c ∈ (join '|' (f :: fs)).head?) : c ∈ f.head? ∨ c = '|' := by
  cases fs with
  | nil => exact Or.inl h
  | cons g fs =>
    change c ∈ (f ++ '|' :: join '|' (g :: fs)).head? at h
    cases f with
    | nil => right; simpa using h.symm
    | cons x xs => left; simpa using h

theorem isMeta_iff (s : Str) : isMeta s = true ↔ s.head? = some '#' ∨ s.head? = some '!' := by
  cases s with
  | nil => simp [isMeta]
  | cons x xs =>
    simp only [isMeta, Bool.or_eq_true, List.isPrefixOf_iff_prefix, List.head?_cons, Option.some.injEq]
    exact or_congr ((List.cons_prefix_cons (l₁ := [])).trans ⟨fun h => h.1.symm, fun h => ⟨h.symm, List.nil_prefix⟩⟩)
      ((List.cons_prefix_cons (l₁ := [])).trans ⟨fun h => h.1.symm, fun h => ⟨h.symm, List.nil_prefix⟩⟩)

/-- What is asked of the rows of a station. -/
structure PartOk (part : List Row) : Prop where
  good : ∀ r ∈ part, Good r
  id : ∃ r ∈ part, ∃ c, isId c ∧ r c ≠ none

theorem PartOk.head {part : List Row} (h : PartOk part) : ∃ c cs, kept part = c :: cs ∧ isId c := by
  obtain ⟨r, hr, c, hc, hn⟩ := h.id
  exact kept_head ⟨r, hr, h.good r hr, c, hc, hn⟩

theorem header_line {part : List Row} (h : PartOk part) :
    isMeta (csvLine ((kept part).map Col.header)) = false ∧ isHeader (csvLine ((kept part).map Col.header)) = true ∧
    (uniq ((splitOn '|' (csvLine ((kept part).map Col.header))).map strip)).map (fun h => (h, ([] : List Str))) =
      dictOf lib secs prec part [] := by
  obtain ⟨c, cs, hk, hc⟩ := h.head
  rw [csvLine_headers]
  refine ⟨?_, ?_, ?_⟩
  · rw [← Bool.not_eq_true, isMeta_iff, hk, List.map_cons]
    rintro (e | e)
    · rcases join_head e with e | e
      · exact (header_trim c _ (List.mem_of_mem_head? e)).2.2.2.1 rfl
      · exact absurd e (by decide)
    · rcases join_head e with e | e
      · exact (header_trim c _ (List.mem_of_mem_head? e)).2.2.2.2 rfl
      · exact absurd e (by decide)
  · rw [← Bool.not_eq_false, isHeader_join]
    intro hn
    have := hn c.header (by rw [hk]; simp)
    rcases hc with rfl | rfl | rfl
    · exact this.1 (List.infix_refl _)
    · exact this.2.1 (List.infix_refl _)
    · exact this.2.2 (List.infix_refl _)
  · rw [splitOn_join (by rw [hk]; simp)]
    · rw [List.map_map]
      have e : (kept part).map (strip ∘ Col.header) = (kept part).map Col.header :=
        List.map_congr_left fun c _ => strip_trim (trim_of_noSpace fun d hd => (header_trim c d hd).1)
      rw [e, uniq_nodup ((kept_nodup part).map header_injective), List.map_map]
      rfl
    · intro w hw
      obtain ⟨c, _, rfl⟩ := List.mem_map.1 hw
      exact fun hd => (header_trim c _ hd).2.1 rfl

theorem data_line (hl : TimesOk lib secs snap) {part : List Row} (h : PartOk part) {r : Row} (hr : r ∈ part) :
    let line := csvLine ((kept part).map fun c => cellText lib secs prec c (r c))
    isMeta line = false ∧ isHeader line = false ∧ splitOn '|' line = (kept part).map (fun c => cellText lib secs prec c (r c)) ∧
      Trim line ∧ '\n' ∉ line := by
  intro line
  have hg := h.good r hr
  obtain ⟨c, cs, hk, hc⟩ := h.head
  have hline : line = join '|' ((kept part).map fun c => cellText lib secs prec c (r c)) := csvLine_cells hl hg _
  have hcell : ∀ f ∈ (kept part).map (fun c => cellText lib secs prec c (r c)), CellOk f := by
    intro f hf
    obtain ⟨c, _, rfl⟩ := List.mem_map.1 hf
    exact cell_ok hl hg c
  rw [hline]
  refine ⟨?_, isHeader_join.2 fun f hf => (hcell f hf).keyword, splitOn_join (by rw [hk]; simp) fun f hf hd => ((hcell f hf).chars _ hd).1 rfl,
    trim_join fun f hf => (hcell f hf).trim, newline_join (by decide) fun f hf hd => ((hcell f hf).chars _ hd).2.2.1 rfl⟩
  have hct : c.kind = .text := by rcases hc with rfl | rfl | rfl <;> rfl
  have hfirst : ∀ d ∈ (cellText lib secs prec c (r c)).head?, d ≠ '#' ∧ d ≠ '!' := by
    intro d hd
    cases hv : r c with
    | none =>
      rw [hv] at hd
      simp [cellText, hct] at hd
    | some v =>
      have := hg.typed c v hv
      rw [hct] at this
      cases v with
      | text s =>
        rw [hv] at hd
        have hd' : s.head? = some d := hd
        have h2 := hg.ids c s hc hv
        rw [hd'] at h2
        exact ⟨fun e => h2.1 (by rw [e]), fun e => h2.2 (by rw [e])⟩
      | num x => cases this
      | time t => cases this
  rw [← Bool.not_eq_true, isMeta_iff, hk, List.map_cons]
  rintro (e | e)
  · rcases join_head e with e | e
    · exact (hfirst _ e).1 rfl
    · exact absurd e (by decide)
  · rcases join_head e with e | e
    · exact (hfirst _ e).2 rfl
    · exact absurd e (by decide)

theorem header_line' (part : List Row) :
    Trim (csvLine ((kept part).map Col.header)) ∧ '\n' ∉ csvLine ((kept part).map Col.header) := by
  rw [csvLine_headers]
  constructor
  · refine trim_join fun f hf => ?_
    obtain ⟨c, _, rfl⟩ := List.mem_map.1 hf
    exact trim_of_noSpace fun d hd => (header_trim c d hd).1
  · refine newline_join (by decide) fun f hf hd => ?_
    obtain ⟨c, _, rfl⟩ := List.mem_map.1 hf
    exact absurd (header_trim c _ hd).1 (by decide)

theorem read_rows (hl : TimesOk lib secs snap) {part : List Row} (h : PartOk part) (acc : List Row) (rest : List Str) :
    ∀ (rows done : List Row), (∀ r ∈ rows, r ∈ part) →
    readData lib acc (dictOf lib secs prec part done)
      (rows.map (fun r => csvLine ((kept part).map fun c => cellText lib secs prec c (r c))) ++ rest) =
    readData lib acc (dictOf lib secs prec part (done ++ rows)) rest := by
  intro rows
  induction rows with
  | nil => intro done _; simp
  | cons r rows ih =>
    intro done hs
    obtain ⟨h1, h2, h3, _⟩ := data_line (prec := prec) hl h (hs r (by simp))
    rw [List.map_cons, List.cons_append, readData, if_neg (by rw [h1]; decide), if_neg (by rw [h2]; decide), h3]
    have e : addLine (dictOf lib secs prec part done) ((kept part).map fun c => cellText lib secs prec c (r c)) =
        dictOf lib secs prec part (done ++ [r]) := by
      unfold dictOf
      rw [addLine_map]
      simp
    rw [e, ih (done ++ [r]) fun x hx => hs x (List.mem_cons_of_mem _ hx), List.append_assoc]
    rfl

theorem read_table (hl : TimesOk lib secs snap) {part : List Row} (h : PartOk part) (acc : List Row) (dict : List (Str × List Str))
    (rest : List Str) :
    readData lib acc dict (tableLines lib secs prec part ++ rest) =
    match dictToTable lib dict with
    | .error e => .error e
    | .ok t => readData lib (acc ++ t) (dictOf lib secs prec part part) rest := by
  obtain ⟨h1, h2, h3⟩ := header_line (lib := lib) (secs := secs) (prec := prec) h
  unfold tableLines
  rw [List.cons_append, readData, if_neg (by rw [h1]; decide), if_pos h2]
  cases dictToTable lib dict with
  | error e => rfl
  | ok t =>
    simp only
    rw [h3, read_rows hl h _ _ part [] fun r hr => hr]
    rfl

theorem lookup_map (cs : List Col) {V : Type} (f : Col → V) (c : Col) :
    (cs.map fun c => (c, f c)).lookup c = if c ∈ cs then some (f c) else none := by
  induction cs with
  | nil => simp
  | cons a cs ih =>
    rw [List.map_cons, List.lookup_cons]
    by_cases e : c = a
    · subst e; simp
    · rw [beq_false_of_ne e, ih]
      simp [e]

theorem convertCols_dict (hl : TimesOk lib secs snap) {part : List Row} (h : PartOk part) :
    convertCols lib (dictOf lib secs prec part part) =
      .ok ((kept part).map fun c => (c, part.map fun r => readCell snap prec c (r c))) := by
  unfold convertCols
  have e : (dictOf lib secs prec part part).filterMap (fun (h, l) => (ofHeader h).map fun c => (c, l)) =
      (kept part).map fun c => (c, part.map fun r => cellText lib secs prec c (r c)) := by
    unfold dictOf
    rw [List.filterMap_map]
    induction kept part with
    | nil => rfl
    | cons c cs ih =>
      rw [List.filterMap_cons_some (b := (c, part.map fun r => cellText lib secs prec c (r c))), ih]
      · rfl
      · simp [ofHeader_header]
  rw [e, gather_ok (g := fun p => (p.1, part.map fun r => readCell snap prec p.1 (r p.1)))]
  · rw [List.map_map]
    rfl
  · intro p hp
    obtain ⟨c, -, rfl⟩ := List.mem_map.1 hp
    simp only
    have e2 : gather (convert lib c) (part.map fun r => cellText lib secs prec c (r c)) = .ok (part.map fun r => readCell snap prec c (r c)) := by
      have hrows : ∀ r ∈ part, convert lib c (cellText lib secs prec c (r c)) = .ok (readCell snap prec c (r c)) :=
        fun r hr => convert_cell hl (h.good r hr) c
      clear e h
      clear hp
      induction part with
      | nil => rfl
      | cons r rs ih =>
        rw [List.map_cons, gather, hrows r (by simp)]
        simp only
        rw [ih fun x hx => hrows x (List.mem_cons_of_mem _ hx)]
        rfl
    rw [e2]

theorem back_eq {part : List Row} (r : Row) (c : Col) :
    back snap prec part r c = if c ∈ kept part then readCell snap prec c (r c) else none := by
  unfold back
  by_cases hk : c ∈ kept part
  · rw [if_pos hk, if_pos (mem_kept.1 hk)]
  · rw [if_neg hk, if_neg fun e => hk (mem_kept.2 e)]

theorem inRange_iff (v : Option Val) :
    inRange v = true ↔ v = none ∨ ∃ x : ℚ, v = some (.num (.fin x)) ∧ 1 / 10000000 ≤ x ∧ x < 100 := by
  unfold inRange
  split
  · simp
  · simp
  · next h1 h2 =>
    constructor
    · intro h; cases h
    · rintro (rfl | ⟨x, rfl, _⟩)
      · exact absurd rfl h2
      · exact absurd rfl (h1 x)

theorem required_kept {part : List Row} (h : PartOk part) {c : Col} (hc : c.required = true) : c ∈ kept part := by
  obtain ⟨r, hr, _⟩ := h.id
  have hg := h.good r hr
  refine mem_kept.2 ⟨r, hr, hg.required c hc, fun e => ?_⟩
  have := hg.typed c _ e
  revert hc this e
  cases c
  case ra => exact fun _ e _ => hg.nan.1 e
  case dec => exact fun _ e _ => hg.nan.2 e
  all_goals simp [Col.required, Col.kind, Val.kind]

theorem required_some {r : Row} (hg : Good r) {c : Col} (hc : c.required = true) : readCell snap prec c (r c) ≠ none := by
  cases hv : r c with
  | none => exact absurd hv (hg.required c hc)
  | some v =>
    cases v with
    | text s => simp [readCell]
    | time t => simp [readCell]
    | num x =>
      simp only [readCell]
      split
      · simp
      · split
        · next hx =>
          subst hx
          have := hg.typed c _ hv
          revert hc this hv
          cases c
          case ra => exact fun _ e _ => absurd e hg.nan.1
          case dec => exact fun _ e _ => absurd e hg.nan.2
          all_goals simp [Col.required, Col.kind, Val.kind]
        · simp

open Classical in
theorem dictToTable_ok (hl : TimesOk lib secs snap) {part : List Row} (h : PartOk part) :
    dictToTable lib (dictOf lib secs prec part part) =
      if RangeOk snap prec part then .ok (part.map (back snap prec part)) else .error .valueError := by
  obtain ⟨c0, cs, hk, _⟩ := h.head
  unfold dictToTable
  rw [if_neg (by unfold dictOf; rw [hk]; simp), convertCols_dict hl h]
  simp only
  have hcols : ∀ c, ((kept part).map fun c => (c, part.map fun r => readCell snap prec c (r c))).lookup c =
      if c ∈ kept part then some (part.map fun r => readCell snap prec c (r c)) else none := fun c => lookup_map _ _ _
  have hall : ∀ p ∈ (kept part).map (fun c => (c, part.map fun r => readCell snap prec c (r c))), p.2.length = part.length := by
    intro p hp
    obtain ⟨c, _, rfl⟩ := List.mem_map.1 hp
    simp
  split
  · next e =>
    rw [hk] at e
    simp at e
  · next c1 first tl e =>
    have hlen : first.length = part.length := hall (c1, first) (by rw [e]; simp)
    rw [if_neg]
    · rw [if_neg]
      · have hr : ((kept part).map fun c => (c, part.map fun r => readCell snap prec c (r c))).any (fun p =>
            (p.1 = .rmsRACosDec || p.1 = .rmsDec) && p.2.any fun v => !inRange v) = true ↔ ¬ RangeOk snap prec part := by
          unfold RangeOk
          simp only [List.any_eq_true, Bool.and_eq_true, Bool.or_eq_true, decide_eq_true_eq, Bool.not_eq_true', ← Bool.not_eq_true,
            inRange_iff]
          constructor
          · rintro ⟨p, hp, hc, v, hv, hbad⟩ hok
            obtain ⟨c, hck, rfl⟩ := List.mem_map.1 hp
            obtain ⟨r, hr, rfl⟩ := List.mem_map.1 hv
            have := hok r hr c hc
            rw [back_eq, if_pos hck] at this
            exact hbad this
          · intro hbad
            push Not at hbad
            obtain ⟨r, hr, c, hc, hb1, hb2⟩ := hbad
            by_cases hck : c ∈ kept part
            · rw [back_eq, if_pos hck] at hb1 hb2
              refine ⟨_, List.mem_map.2 ⟨c, hck, rfl⟩, hc, _, List.mem_map.2 ⟨r, hr, rfl⟩, ?_⟩
              rintro (e | ⟨x, e, h1, h2⟩)
              · exact hb1 e
              · exact absurd h2 (not_lt.2 (hb2 x e h1))
            · rw [back_eq, if_neg hck] at hb1
              exact absurd rfl hb1
        by_cases hR : RangeOk snap prec part
        · rw [if_neg (fun e => (hr.1 e) hR), if_pos hR, hlen]
          congr 1
          apply List.ext_getElem
          · simp
          · intro i h1 h2
            rw [List.getElem_map, List.getElem_map, List.getElem_range]
            funext c
            have hi : i < part.length := by simpa using h2
            rw [hcols c, back_eq]
            split
            · simp [hi]
            · rfl
        · rw [if_pos (hr.2 hR), if_neg hR]
      · simp only [List.any_eq_true, Bool.and_eq_true, not_exists, not_and]
        intro c _ hc
        rw [hcols c, if_pos (required_kept h hc)]
        simp only [List.any_eq_true, decide_eq_true_eq, not_exists, not_and]
        intro v hv
        obtain ⟨r, hr, rfl⟩ := List.mem_map.1 hv
        exact required_some (h.good r hr) hc
    · simp only [List.any_eq_true, decide_eq_true_eq, not_exists, not_and, not_not]
      intro p hp
      rw [hall p hp, hlen]

/-! ## All stations -/

theorem read_meta (acc : List Row) (dict : List (Str × List Str)) (rest : List Str) :
    ∀ (metas : List Str), (∀ l ∈ metas, isMeta l = true) → readData lib acc dict (metas ++ rest) = readData lib acc dict rest := by
  intro metas
  induction metas with
  | nil => intro _; rfl
  | cons l ls ih =>
    intro h
    rw [List.cons_append, readData, if_pos (h l (by simp)), ih fun x hx => h x (List.mem_cons_of_mem _ hx)]

open Classical in
theorem read_blocks (hl : TimesOk lib secs snap) : ∀ (ps : List (List Str × List Row)) (acc : List Row) (dict : List (Str × List Str))
    (t : List Row), (∀ p ∈ ps, (∀ l ∈ p.1, isMeta l = true) ∧ PartOk p.2) → dictToTable lib dict = .ok t →
    readData lib acc dict (ps.flatMap fun p => p.1 ++ tableLines lib secs prec p.2) =
      if ∀ p ∈ ps, RangeOk snap prec p.2 then .ok (acc ++ t ++ ps.flatMap fun p => p.2.map (back snap prec p.2))
      else .error .valueError := by
  intro ps
  induction ps with
  | nil =>
    intro acc dict t _ hd
    simp [readData, hd]
  | cons p ps ih =>
    intro acc dict t hp hd
    obtain ⟨hm, hpart⟩ := hp p (by simp)
    have hps : ∀ q ∈ ps, (∀ l ∈ q.1, isMeta l = true) ∧ PartOk q.2 := fun q hq => hp q (List.mem_cons_of_mem _ hq)
    rw [List.flatMap_cons, List.append_assoc, read_meta _ _ _ _ hm, read_table hl hpart, hd]
    simp only
    have ht := dictToTable_ok (prec := prec) hl hpart
    by_cases hR : RangeOk snap prec p.2
    · rw [if_pos hR] at ht
      rw [ih _ _ _ hps ht]
      by_cases hA : ∀ q ∈ ps, RangeOk snap prec q.2
      · rw [if_pos hA, if_pos]
        · simp
        · intro q hq
          rcases List.mem_cons.1 hq with rfl | hq
          · exact hR
          · exact hA q hq
      · rw [if_neg hA, if_neg fun hB => hA fun q hq => hB q (List.mem_cons_of_mem _ hq)]
    · rw [if_neg hR] at ht
      rw [if_neg fun hB => hR (hB p (by simp))]
      cases ps with
      | nil => simp [readData, ht]
      | cons q qs =>
        obtain ⟨hm2, hpart2⟩ := hps q (by simp)
        rw [List.flatMap_cons, List.append_assoc, read_meta _ _ _ _ hm2, read_table hl hpart2, ht]

end Verif.Ades
