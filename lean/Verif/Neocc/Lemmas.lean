import Verif.Neocc.Spec
import Verif.Ades.Text
import Verif.Sched.Lemmas

/-! Helper lemmas: the text of a document, line by line. -/

namespace Verif.Neocc

open Verif Verif.Neocc.Spec

theorem blank_space (n : Nat) : ∀ c ∈ blank n, Mpc.isSpace c = true := by
  intro c hc
  rw [List.eq_of_mem_replicate hc]
  rfl

theorem dropWhile_spaces {a b : Str} (h : ∀ c ∈ a, Mpc.isSpace c = true) : (a ++ b).dropWhile Mpc.isSpace = b.dropWhile Mpc.isSpace := by
  induction a with
  | nil => rfl
  | cons x xs ih =>
    rw [List.cons_append, List.dropWhile_cons_of_pos (h x (by simp)), ih fun c hc => h c (List.mem_cons_of_mem _ hc)]

theorem strip_around {a s b : Str} (ha : ∀ c ∈ a, Mpc.isSpace c = true) (hb : ∀ c ∈ b, Mpc.isSpace c = true) (hs : Ades.Trim s)
    (hne : s ≠ []) : Mpc.strip (a ++ s ++ b) = s := by
  unfold Mpc.strip
  rw [List.append_assoc, dropWhile_spaces ha]
  have h1 : (s ++ b).dropWhile Mpc.isSpace = s ++ b := by
    apply Ades.dropWhile_trim
    intro c hc
    apply hs.1
    obtain ⟨x, xs, rfl⟩ := List.exists_cons_of_ne_nil hne
    simpa using hc
  rw [h1, List.reverse_append, dropWhile_spaces fun c hc => hb c (List.mem_reverse.1 hc), Ades.dropWhile_trim (s := s.reverse),
    List.reverse_reverse]
  rw [List.head?_reverse]
  exact hs.2

theorem strip_left {a s : Str} (ha : ∀ c ∈ a, Mpc.isSpace c = true) (hs : Ades.Trim s) (hne : s ≠ []) : Mpc.strip (a ++ s) = s := by
  have := strip_around (b := []) ha (by simp) hs hne
  rwa [List.append_nil] at this

theorem strip_right {s b : Str} (hb : ∀ c ∈ b, Mpc.isSpace c = true) (hs : Ades.Trim s) (hne : s ≠ []) : Mpc.strip (s ++ b) = s := by
  have := strip_around (a := []) (by simp) hb hs hne
  rwa [List.nil_append] at this

/-! ## Words -/

theorem splitWs_ne (s : Str) : splitWs s ≠ [] := by
  cases s with
  | nil => simp [splitWs]
  | cons x xs =>
    simp only [splitWs]
    split
    · simp
    · split <;> simp

theorem splitWs_word {w : Str} (h : ∀ c ∈ w, Mpc.isSpace c = false) : splitWs w = [w] := by
  induction w with
  | nil => rfl
  | cons x xs ih =>
    simp only [splitWs]
    rw [if_neg (by simp [h x (by simp)]), ih fun c hc => h c (List.mem_cons_of_mem _ hc)]

theorem splitWs_append {w r : Str} (h : ∀ c ∈ w, Mpc.isSpace c = false) : splitWs (w ++ ' ' :: r) = w :: splitWs r := by
  induction w with
  | nil =>
    simp only [List.nil_append, splitWs]
    rw [if_pos (by rfl)]
  | cons x xs ih =>
    rw [List.cons_append]
    simp only [splitWs]
    rw [if_neg (by simp [h x (by simp)]), ih fun c hc => h c (List.mem_cons_of_mem _ hc)]

theorem words_blank (n : Nat) (r : Str) : words (blank n ++ r) = words r := by
  induction n with
  | zero => rfl
  | succ n ih =>
    rw [← ih]
    unfold words
    have e : blank (n + 1) ++ r = ([] : Str) ++ ' ' :: (blank n ++ r) := rfl
    rw [e, splitWs_append (by simp)]
    simp

theorem words_values {vs : List (Nat × Str)} (h : ∀ v ∈ vs, Word v.2) {w : Str} (hw : Word w) :
    words (w ++ vs.flatMap fun v => blank (v.1 + 1) ++ v.2) = w :: vs.map Prod.snd := by
  induction vs generalizing w with
  | nil =>
    rw [List.flatMap_nil, List.append_nil, List.map_nil]
    unfold words
    rw [splitWs_word hw.2]
    simp [hw.1]
  | cons v vs ih =>
    have e : w ++ (v :: vs).flatMap (fun v => blank (v.1 + 1) ++ v.2)
        = w ++ ' ' :: (blank v.1 ++ (v.2 ++ vs.flatMap fun v => blank (v.1 + 1) ++ v.2)) := by
      rw [List.flatMap_cons]
      simp [blank, List.replicate_succ]
    rw [e]
    unfold words
    rw [splitWs_append hw.2, List.filter_cons_of_pos (by simpa using hw.1)]
    change w :: words _ = _
    rw [words_blank, ih (fun x hx => h x (List.mem_cons_of_mem _ hx)) (h v (by simp)), List.map_cons]

theorem words_record {n : Nat} {tag : Str} {vs : List (Nat × Str)} (h : (Line.record n tag vs).Ok) :
    words (Line.record n tag vs).text = tag :: vs.map Prod.snd := by
  change words (blank (n + 1) ++ tag ++ _) = _
  rw [List.append_assoc, words_blank, words_values h.2.2.1 h.1]

/-! ## Lines -/

theorem trim_values {vs : List (Nat × Str)} (h : ∀ v ∈ vs, Word v.2) {w : Str} (hw : Word w) :
    Ades.Trim (w ++ vs.flatMap fun v => blank (v.1 + 1) ++ v.2) := by
  rcases List.eq_nil_or_concat vs with rfl | ⟨l, v, rfl⟩
  · simpa using Ades.trim_of_noSpace hw.2
  · have hv := h v (by simp)
    have e : w ++ (l.concat v).flatMap (fun v => blank (v.1 + 1) ++ v.2)
        = w ++ (l.flatMap (fun v => blank (v.1 + 1) ++ v.2) ++ blank (v.1 + 1)) ++ v.2 := by
      simp
    rw [e]
    exact Ades.trim_append hw.1 hv.1 (Ades.trim_of_noSpace hw.2) (Ades.trim_of_noSpace hv.2) _

theorem strip_record {n : Nat} {tag : Str} {vs : List (Nat × Str)} (h : (Line.record n tag vs).Ok) :
    Mpc.strip (Line.record n tag vs).text = tag ++ vs.flatMap fun v => blank (v.1 + 1) ++ v.2 := by
  change Mpc.strip (blank (n + 1) ++ tag ++ _) = _
  rw [List.append_assoc]
  exact strip_left (blank_space _) (trim_values h.2.2.1 h.1) (by
    intro hc
    exact h.1.1 (List.append_eq_nil_iff.1 hc).1)

theorem prefix_of_word {k tag r : Str} (hk : ∀ c ∈ k, Mpc.isSpace c = false) (hr : ∀ c ∈ r.head?, Mpc.isSpace c = true)
    (h : k <+: tag ++ r) : k <+: tag := by
  rcases Nat.le_total k.length tag.length with hl | hl
  · exact List.prefix_of_prefix_length_le h (List.prefix_append _ _) hl
  · obtain ⟨u, hu⟩ := List.prefix_of_prefix_length_le (List.prefix_append tag r) h hl
    subst hu
    cases u with
    | nil => simp
    | cons x xs =>
      have h2 : x :: xs <+: r := (List.prefix_append_right_inj _).1 h
      obtain ⟨v, hv⟩ := h2
      have h1 := hk x (by simp)
      have h3 := hr x (by rw [← hv]; simp)
      rw [h1] at h3
      cases h3

theorem head_values (vs : List (Nat × Str)) : ∀ c ∈ (vs.flatMap fun v => blank (v.1 + 1) ++ v.2).head?, Mpc.isSpace c = true := by
  intro c hc
  cases vs with
  | nil => simp at hc
  | cons v vs =>
    have : c = ' ' := by simpa [blank, List.replicate_succ] using hc.symm
    subst this
    rfl

theorem tag_word {k : Str} (hk : k ∈ tags) : ∀ c ∈ k, Mpc.isSpace c = false := by
  revert k
  decide

theorem starts_record {n : Nat} {tag : Str} {vs : List (Nat × Str)} (h : (Line.record n tag vs).Ok) {k : Str} (hk : k ∈ tags) :
    starts k (Line.record n tag vs).text = decide (tag = k) := by
  unfold starts
  rw [strip_record h, Bool.eq_iff_iff, List.isPrefixOf_iff_prefix, decide_eq_true_eq]
  constructor
  · intro hp
    exact h.2.2.2 k hk (prefix_of_word (tag_word hk) (head_values vs) hp)
  · rintro rfl
    exact List.prefix_append _ _

/-- A line that begins with a character no tag begins with. -/
theorem starts_other {k line : Str} (hk : k ∈ tags) {c : Char} {cs : Str} (hs : Mpc.strip line = c :: cs)
    (hc : c ≠ 'K' ∧ c ≠ 'M' ∧ c ≠ 'C') : starts k line = false := by
  unfold starts
  rw [hs, ← Bool.not_eq_true, List.isPrefixOf_iff_prefix]
  rintro ⟨r, hr⟩
  have hh : k.head? = some 'K' ∨ k.head? = some 'M' ∨ k.head? = some 'C' := by
    clear hr
    revert k
    decide
  cases k with
  | nil => simp at hh
  | cons x xs =>
    have hx : x = c := (List.cons.inj hr).1
    subst hx
    simp [hc.1, hc.2.1, hc.2.2] at hh

theorem starts_comment {t : Str} (h : (Line.comment t).Ok) {k : Str} (hk : k ∈ tags) : starts k (Line.comment t).text = false :=
  starts_other hk (Ades.strip_trim h.1) (by decide)

theorem key_head {e : Entry} (h : e.Ok) : ∃ c cs, e.key = c :: cs ∧ (c = 'f' ∨ c = 'r') := by
  obtain ⟨p, hp, r, hr⟩ := h.name
  simp only [List.mem_cons, List.not_mem_nil, or_false] at hp
  rcases hp with rfl | rfl | rfl
  · exact ⟨'f', _, hr.symm, Or.inl rfl⟩
  · exact ⟨'r', _, hr.symm, Or.inr rfl⟩
  · exact ⟨'r', _, hr.symm, Or.inr rfl⟩

theorem trim_entry {e : Entry} (h : e.Ok) : Ades.Trim e.text := by
  obtain ⟨c, cs, hk, _⟩ := key_head h
  have e1 : e.text = e.key ++ (blank e.blanks.1 ++ '=' :: (blank e.blanks.2.1 ++ quote e ++ blank e.blanks.2.2)) ++ ('!' :: e.comment) := by
    simp [Entry.text]
  rw [e1]
  exact Ades.trim_append (by rw [hk]; simp) (by simp) h.key.1 h.comment.1 _

theorem entry_head {e : Entry} (h : e.Ok) : ∃ c cs, e.text = c :: cs ∧ (c = 'f' ∨ c = 'r') := by
  obtain ⟨c, cs, hk, hc⟩ := key_head h
  exact ⟨c, cs ++ blank e.blanks.1 ++ '=' :: (blank e.blanks.2.1 ++ quote e ++ blank e.blanks.2.2 ++ '!' :: e.comment), by
    unfold Entry.text
    rw [hk, List.cons_append, List.cons_append], hc⟩

theorem starts_entry {e : Entry} (h : e.Ok) {k : Str} (hk : k ∈ tags) : starts k e.text = false := by
  obtain ⟨c, cs, hs, hc⟩ := entry_head h
  refine starts_other hk (c := c) (cs := cs) ?_ ?_
  · rw [Ades.strip_trim (trim_entry h), hs]
  · rcases hc with rfl | rfl <;> decide

theorem quote_trim {e : Entry} (h : e.Ok) : Ades.Trim (quote e) ∧ quote e ≠ [] ∧ '!' ∉ quote e ∧ '\n' ∉ quote e := by
  unfold quote
  split
  · refine ⟨?_, by simp, ?_, ?_⟩
    · have : Ades.Trim ['\''] := by constructor <;> decide
      have e1 : '\'' :: e.value ++ ['\''] = ['\''] ++ e.value ++ ['\''] := rfl
      rw [e1]
      exact Ades.trim_append (by simp) (by simp) this this _
    · have := h.value.2.2.1
      simp [this]
    · have := h.value.2.2.2.1
      simp [this]
  · exact ⟨h.value.1, h.value.2.1, h.value.2.2.1, h.value.2.2.2.1⟩

theorem unquote_plain {s : Str} (h1 : s.head? ≠ some '\'') (h2 : s.getLast? ≠ some '\'') : unquote s = s := by
  have key : ∀ t : Str, t.head? ≠ some '\'' → t.dropWhile (· = '\'') = t := by
    intro t ht
    cases t with
    | nil => rfl
    | cons x xs =>
      rw [List.dropWhile_cons_of_neg]
      intro hc
      exact ht (by simpa using hc)
  unfold unquote
  rw [key s h1, key s.reverse (by rwa [List.head?_reverse]), List.reverse_reverse]

theorem unquote_quote {e : Entry} (h : e.Ok) : unquote (quote e) = e.value := by
  obtain ⟨_, hne, _, _, h1, h2⟩ := h.value
  unfold quote
  split
  · have e1 : unquote ('\'' :: e.value ++ ['\'']) = unquote e.value := by
      unfold unquote
      have a1 : ('\'' :: e.value ++ ['\'']).dropWhile (· = '\'') = (e.value ++ ['\'']).dropWhile (· = '\'') := by
        rw [List.cons_append, List.dropWhile_cons_of_pos (by simp)]
      have a2 : (e.value ++ ['\'']).dropWhile (· = '\'') = e.value.dropWhile (· = '\'') ++ ['\''] := by
        obtain ⟨x, xs, hx⟩ := List.exists_cons_of_ne_nil hne
        rw [hx] at h1 ⊢
        have hx' : x ≠ '\'' := by simpa using h1
        rw [List.cons_append, List.dropWhile_cons_of_neg (by simpa using hx'), List.dropWhile_cons_of_neg (by simpa using hx')]
        rfl
      rw [a1, a2, List.reverse_append]
      rfl
    rw [e1, unquote_plain h1 h2]
  · exact unquote_plain h1 h2

theorem takeWhile_stop {p : Char → Bool} {a r : Str} {c : Char} (h : ∀ x ∈ a, p x = true) (hc : p c = false) :
    (a ++ c :: r).takeWhile p = a ∧ (a ++ c :: r).dropWhile p = c :: r := by
  induction a with
  | nil => simp [hc]
  | cons x xs ih =>
    have := ih fun y hy => h y (List.mem_cons_of_mem _ hy)
    have hx := h x (by simp)
    rw [List.cons_append, List.takeWhile_cons_of_pos hx, List.dropWhile_cons_of_pos hx, this.1, this.2]
    exact ⟨rfl, rfl⟩

theorem header_entry {e : Entry} (h : e.Ok) (ls : List Str) : headerOf (e.text :: ls) = (e.key, e.value) :: headerOf ls := by
  simp only [headerOf]
  rw [Ades.strip_trim (trim_entry h)]
  have hmem : '=' ∈ e.text := by simp [Entry.text]
  have hne : e.text ≠ "END_OF_HEADER".toList := by
    intro hc
    rw [hc] at hmem
    revert hmem
    decide
  rw [if_neg hne, if_pos hmem]
  obtain ⟨q1, q2, q3, q4⟩ := quote_trim h
  have t1 := takeWhile_stop (p := fun x => decide (x ≠ '=')) (a := e.key ++ blank e.blanks.1)
    (r := blank e.blanks.2.1 ++ quote e ++ blank e.blanks.2.2 ++ '!' :: e.comment) (c := '=') (by
      intro x hx
      rw [decide_eq_true_eq]
      rintro rfl
      rcases List.mem_append.1 hx with hx | hx
      · exact h.key.2.1 hx
      · have := List.eq_of_mem_replicate hx
        revert this
        decide) (by simp)
  have t2 := takeWhile_stop (p := fun x => decide (x ≠ '!')) (a := blank e.blanks.2.1 ++ quote e ++ blank e.blanks.2.2)
    (r := e.comment) (c := '!') (by
      intro x hx
      rw [decide_eq_true_eq]
      rintro rfl
      simp only [List.mem_append] at hx
      rcases hx with (hx | hx) | hx
      · have := List.eq_of_mem_replicate hx
        revert this
        decide
      · exact q3 hx
      · have := List.eq_of_mem_replicate hx
        revert this
        decide) (by simp)
  have et : e.text = e.key ++ blank e.blanks.1 ++ '=' :: (blank e.blanks.2.1 ++ quote e ++ blank e.blanks.2.2 ++ '!' :: e.comment) := rfl
  obtain ⟨c, cs, hk, _⟩ := key_head h
  rw [et, t1.1, t1.2, List.drop_succ_cons, List.drop_zero, t2.1, strip_right (blank_space _) h.key.1 (by rw [hk]; simp),
    strip_around (blank_space _) (blank_space _) q1 q2, unquote_quote h]

/-! ## Text -/

theorem trim_join {c : Char} {a : Str} {ls : List Str} (hne : ∀ l ∈ a :: ls, l ≠ [])
    (hh : ∀ x ∈ a.head?, Mpc.isSpace x = false) (hl : ∀ l ∈ a :: ls, ∀ x ∈ l.getLast?, Mpc.isSpace x = false) :
    Ades.Trim (Ades.join c (a :: ls)) ∧ Ades.join c (a :: ls) ≠ [] := by
  have last : ∀ (ls : List Str) (a : Str), (∀ l ∈ a :: ls, l ≠ []) → (∀ l ∈ a :: ls, ∀ x ∈ l.getLast?, Mpc.isSpace x = false) →
      Ades.join c (a :: ls) ≠ [] ∧ ∀ x ∈ (Ades.join c (a :: ls)).getLast?, Mpc.isSpace x = false := by
    intro ls
    induction ls with
    | nil => exact fun a h1 h2 => ⟨h1 a (by simp), h2 a (by simp)⟩
    | cons b ls ih =>
      intro a h1 h2
      obtain ⟨i1, i2⟩ := ih b (fun l hl => h1 l (List.mem_cons_of_mem _ hl)) fun l hl => h2 l (List.mem_cons_of_mem _ hl)
      change a ++ c :: Ades.join c (b :: ls) ≠ [] ∧ ∀ x ∈ (a ++ c :: Ades.join c (b :: ls)).getLast?, _
      refine ⟨by simp, ?_⟩
      rw [List.getLast?_append_of_ne_nil _ (by simp), List.getLast?_cons_of_ne_nil i1]
      exact i2
  obtain ⟨i1, i2⟩ := last ls a hne hl
  refine ⟨⟨?_, i2⟩, i1⟩
  intro x hx
  obtain ⟨y, ys, hy⟩ := List.exists_cons_of_ne_nil (hne a (by simp))
  apply hh
  cases ls with
  | nil => exact hx
  | cons b ls =>
    change x ∈ (a ++ c :: Ades.join c (b :: ls)).head? at hx
    rw [hy] at hx ⊢
    exact hx

theorem line_end {l : Line} (h : l.Ok) : l.text ≠ [] ∧ ∀ x ∈ l.text.getLast?, Mpc.isSpace x = false := by
  cases l with
  | comment t => exact ⟨by simp [Line.text], h.1.2⟩
  | record n tag vs =>
    have hne : tag ++ (vs.flatMap fun v => blank (v.1 + 1) ++ v.2) ≠ [] := fun hc => h.1.1 (List.append_eq_nil_iff.1 hc).1
    change blank (n + 1) ++ tag ++ _ ≠ [] ∧ ∀ x ∈ (blank (n + 1) ++ tag ++ _).getLast?, _
    rw [List.append_assoc]
    refine ⟨fun hc => hne (List.append_eq_nil_iff.1 hc).2, ?_⟩
    rw [List.getLast?_append_of_ne_nil _ hne]
    exact (trim_values h.2.2.1 h.1).2

theorem newline_blank (n : Nat) : '\n' ∉ blank n := by
  intro hc
  have := List.eq_of_mem_replicate hc
  revert this
  decide

theorem newline_word {w : Str} (h : Word w) : '\n' ∉ w := by
  intro hc
  have := h.2 _ hc
  revert this
  decide

theorem line_newline {l : Line} (h : l.Ok) : '\n' ∉ l.text := by
  cases l with
  | comment t => simpa [Line.text] using h.2
  | record n tag vs =>
    change '\n' ∉ blank (n + 1) ++ tag ++ _
    simp only [List.mem_append, List.mem_flatMap, not_or, not_exists, not_and]
    exact ⟨⟨newline_blank _, newline_word h.1⟩, fun v hv => ⟨newline_blank _, newline_word (h.2.2.1 v hv)⟩⟩

theorem entry_newline {e : Entry} (h : e.Ok) : '\n' ∉ e.text := by
  unfold Entry.text
  simp only [List.mem_append, List.mem_cons, not_or]
  exact ⟨⟨h.key.2.2, newline_blank _⟩, by decide, ⟨⟨newline_blank _, (quote_trim h).2.2.2⟩, newline_blank _⟩, by decide, h.comment.2⟩

theorem linesOf_text {d : Document} (h : d.Ok) {tail : Str} (ht : ∀ c ∈ tail, Mpc.isSpace c = true) : linesOf (d.text tail) = d.lines := by
  have hdis : ∀ l ∈ d.lines, (∃ e ∈ d.header, l = e.text) ∨ l = "END_OF_HEADER".toList ∨ l = d.name ∨ ∃ b ∈ d.body, l = b.text := by
    intro l hl
    simp only [Document.lines, List.mem_append, List.mem_map, List.mem_cons, List.not_mem_nil, or_false] at hl
    rcases hl with (⟨e, he, rfl⟩ | rfl | rfl) | ⟨b, hb, rfl⟩
    · exact Or.inl ⟨e, he, rfl⟩
    · exact Or.inr (Or.inl rfl)
    · exact Or.inr (Or.inr (Or.inl rfl))
    · exact Or.inr (Or.inr (Or.inr ⟨b, hb, rfl⟩))
  have hend : ∀ l ∈ d.lines, l ≠ [] ∧ ∀ x ∈ l.getLast?, Mpc.isSpace x = false := by
    intro l hl
    rcases hdis l hl with ⟨e, he, rfl⟩ | rfl | rfl | ⟨b, hb, rfl⟩
    · refine ⟨?_, (trim_entry (h.header e he)).2⟩
      obtain ⟨c, cs, hs, _⟩ := entry_head (h.header e he)
      rw [hs]
      simp
    · decide
    · exact ⟨h.name.2.1, h.name.1.2⟩
    · exact line_end (h.body b hb)
  have hnl : ∀ l ∈ d.lines, '\n' ∉ l := by
    intro l hl
    rcases hdis l hl with ⟨e, he, rfl⟩ | rfl | rfl | ⟨b, hb, rfl⟩
    · exact entry_newline (h.header e he)
    · decide
    · exact h.name.2.2.1
    · exact line_newline (h.body b hb)
  have hcons : ∃ a ls, d.lines = a :: ls ∧ ∀ x ∈ a.head?, Mpc.isSpace x = false := by
    cases hh : d.header with
    | nil =>
      refine ⟨"END_OF_HEADER".toList, d.name :: d.body.map Line.text, ?_, by decide⟩
      unfold Document.lines
      rw [hh]
      rfl
    | cons e es =>
      refine ⟨e.text, es.map Entry.text ++ ["END_OF_HEADER".toList, d.name] ++ d.body.map Line.text, ?_,
        (trim_entry (h.header e (by rw [hh]; simp))).1⟩
      unfold Document.lines
      rw [hh]
      rfl
  obtain ⟨a, ls, hls, hhead⟩ := hcons
  have htrim := trim_join (c := '\n') (a := a) (ls := ls) (fun l hl => (hend l (by rw [hls]; exact hl)).1) hhead
    fun l hl => (hend l (by rw [hls]; exact hl)).2
  rw [← hls] at htrim
  unfold linesOf Document.text
  rw [strip_right ht htrim.1 htrim.2, Ades.splitOn_join (by rw [hls]; simp) hnl]

theorem headerOf_lines {d : Document} (h : d.Ok) : headerOf d.lines = d.header.map fun e => (e.key, e.value) := by
  have key : ∀ es : List Entry, (∀ e ∈ es, e.Ok) → ∀ r, headerOf (es.map Entry.text ++ "END_OF_HEADER".toList :: r) = es.map fun e => (e.key, e.value) := by
    intro es
    induction es with
    | nil =>
      intro _ r
      simp only [List.map_nil, List.nil_append, headerOf]
      rw [if_pos (by decide)]
    | cons e es ih =>
      intro he r
      rw [List.map_cons, List.cons_append, header_entry (he e (by simp)), ih fun x hx => he x (List.mem_cons_of_mem _ hx), List.map_cons]
  have e1 : d.lines = d.header.map Entry.text ++ "END_OF_HEADER".toList :: (d.name :: d.body.map Line.text) := by
    simp [Document.lines]
  rw [e1]
  exact key _ h.header _

theorem objectId_lines {d : Document} (h : d.Ok) : objectId d.lines = some d.name := by
  unfold objectId Document.lines
  have h1 : (d.header.map Entry.text).find? (fun l => !(notName.any fun p => p.isPrefixOf l)) = none := by
    rw [List.find?_eq_none]
    intro l hl
    obtain ⟨e, he, rfl⟩ := List.mem_map.1 hl
    obtain ⟨p, hp, hpk⟩ := (h.header e he).name
    have : notName.any (fun p => p.isPrefixOf e.text) = true := by
      rw [List.any_eq_true]
      refine ⟨p, ?_, ?_⟩
      · clear hpk
        revert p
        decide
      · rw [List.isPrefixOf_iff_prefix]
        refine hpk.trans ?_
        unfold Entry.text
        rw [List.append_assoc]
        exact List.prefix_append _ _
    rw [this]
    decide
  have h2 : (!(notName.any fun p => p.isPrefixOf "END_OF_HEADER".toList)) = false := by decide
  have h3 : (!(notName.any fun p => p.isPrefixOf d.name)) = true := by
    rw [Bool.not_eq_true', ← Bool.not_eq_true, List.any_eq_true]
    rintro ⟨p, hp, hpn⟩
    exact h.name.2.2.2 p (List.mem_append_left _ hp) (List.isPrefixOf_iff_prefix.1 hpn)
  rw [List.append_assoc, List.find?_append, h1, Option.none_or, List.find?_append]
  have h4 : ["END_OF_HEADER".toList, d.name].find? (fun l => !(notName.any fun p => p.isPrefixOf l)) = some d.name := by
    rw [List.find?_cons_of_neg (by rw [h2]; decide), List.find?_cons_of_pos (p := fun l => !(notName.any fun p => p.isPrefixOf l)) h3]
  rw [h4, Option.some_or, Option.map_some, Ades.strip_trim h.name.1]

/-! ## Loops -/

theorem starts_before {d : Document} (h : d.Ok) {k : Str} (hk : k ∈ tags) :
    ∀ l ∈ d.header.map Entry.text ++ ["END_OF_HEADER".toList, d.name], starts k l = false := by
  intro l hl
  simp only [List.mem_append, List.mem_map, List.mem_cons, List.not_mem_nil, or_false] at hl
  rcases hl with ⟨e, he, rfl⟩ | rfl | rfl
  · exact starts_entry (h.header e he) hk
  · exact starts_other hk (c := 'E') (cs := "ND_OF_HEADER".toList) (by decide) (by decide)
  · unfold starts
    rw [Ades.strip_trim h.name.1, ← Bool.not_eq_true, List.isPrefixOf_iff_prefix]
    exact h.name.2.2.2 k (List.mem_append_right _ hk)

/-- The result of a loop that keeps the last one. -/
def keepLast {α : Type} : Except PyErr (List α) → Except PyErr (Option α)
  | .error e => .error e
  | .ok l => .ok l.getLast?

/-- The result of a loop that collects. -/
def collect {α : Type} : Except PyErr (List (List α)) → Except PyErr (List α)
  | .error e => .error e
  | .ok l => .ok l.flatten

theorem lastOf_skip {α : Type} {k : Str} {f : List Str → Except PyErr α} {a : List Str} (h : ∀ l ∈ a, starts k l = false) (b : List Str) :
    lastOf k f (a ++ b) = lastOf k f b := by
  induction a with
  | nil => rfl
  | cons x xs ih =>
    rw [List.cons_append]
    simp only [lastOf]
    rw [if_neg (by simp [h x (by simp)]), ih fun l hl => h l (List.mem_cons_of_mem _ hl)]

theorem allOf_skip {K : Type} {k : Str} {num : Str → Option K} {a : List Str} (h : ∀ l ∈ a, starts k l = false) (b : List Str) :
    allOf k num (a ++ b) = allOf k num b := by
  induction a with
  | nil => rfl
  | cons x xs ih =>
    rw [List.cons_append]
    simp only [allOf]
    rw [if_neg (by simp [h x (by simp)]), ih fun l hl => h l (List.mem_cons_of_mem _ hl)]

/-- The words of the records with a tag among some lines. -/
def recordsIn (k : Str) (ls : List Line) : List (List Str) :=
  ls.filterMap fun l => match l with
    | .comment _ => none
    | .record _ t vs => if t = k then some (vs.map Prod.snd) else none

theorem lastOf_body {α : Type} {k : Str} (hk : k ∈ tags) (f : List Str → Except PyErr α) {ls : List Line} (h : ∀ l ∈ ls, l.Ok) :
    lastOf k f (ls.map Line.text) = keepLast (Sched.gather f (recordsIn k ls)) := by
  induction ls with
  | nil => rfl
  | cons l ls ih =>
    have ih := ih fun x hx => h x (List.mem_cons_of_mem _ hx)
    have hl := h l (by simp)
    rw [List.map_cons]
    simp only [lastOf]
    cases l with
    | comment t =>
      rw [starts_comment hl hk, ih]
      rfl
    | record n t vs =>
      rw [starts_record hl hk]
      by_cases e : t = k
      · have er : recordsIn k (Line.record n t vs :: ls) = vs.map Prod.snd :: recordsIn k ls := by simp [recordsIn, e]
        rw [er, decide_eq_true e, if_pos rfl, words_record hl, List.drop_succ_cons, List.drop_zero]
        simp only [Sched.gather]
        cases hf : f (vs.map Prod.snd) with
        | error x => rfl
        | ok x =>
          simp only
          rw [ih]
          cases hg : Sched.gather f (recordsIn k ls) with
          | error x => rfl
          | ok xs =>
            simp only [keepLast]
            cases xs with
            | nil => rfl
            | cons y ys =>
              rw [List.getLast?_cons_cons]
              cases hy : (y :: ys).getLast? with
              | none => simp at hy
              | some z => rfl
      · have er : recordsIn k (Line.record n t vs :: ls) = recordsIn k ls := by simp [recordsIn, e]
        rw [er, decide_eq_false e, if_neg (by decide), ih]

theorem allOf_body {K : Type} {k : Str} (hk : k ∈ tags) (num : Str → Option K) {ls : List Line} (h : ∀ l ∈ ls, l.Ok) :
    allOf k num (ls.map Line.text) = collect (Sched.gather (readAll num) (recordsIn k ls)) := by
  induction ls with
  | nil => rfl
  | cons l ls ih =>
    have ih := ih fun x hx => h x (List.mem_cons_of_mem _ hx)
    have hl := h l (by simp)
    rw [List.map_cons]
    simp only [allOf]
    cases l with
    | comment t =>
      rw [starts_comment hl hk, ih]
      rfl
    | record n t vs =>
      rw [starts_record hl hk]
      by_cases e : t = k
      · have er : recordsIn k (Line.record n t vs :: ls) = vs.map Prod.snd :: recordsIn k ls := by simp [recordsIn, e]
        rw [er, decide_eq_true e, if_pos rfl, words_record hl, List.drop_succ_cons, List.drop_zero]
        simp only [Sched.gather]
        cases hf : readAll num (vs.map Prod.snd) with
        | error x => rfl
        | ok x =>
          simp only
          rw [ih]
          cases hg : Sched.gather (readAll num) (recordsIn k ls) with
          | error x => rfl
          | ok xs => rfl
      · have er : recordsIn k (Line.record n t vs :: ls) = recordsIn k ls := by simp [recordsIn, e]
        rw [er, decide_eq_false e, if_neg (by decide), ih]

theorem lastOf_lines {α : Type} {d : Document} (h : d.Ok) {k : Str} (hk : k ∈ tags) (f : List Str → Except PyErr α) :
    lastOf k f d.lines = keepLast (Sched.gather f (d.records k)) := by
  unfold Document.lines
  rw [lastOf_skip (starts_before h hk), lastOf_body hk f h.body]
  rfl

theorem allOf_lines {K : Type} {d : Document} (h : d.Ok) {k : Str} (hk : k ∈ tags) (num : Str → Option K) :
    allOf k num d.lines = collect (Sched.gather (readAll num) (d.records k)) := by
  unfold Document.lines
  rw [allOf_skip (starts_before h hk), allOf_body hk num h.body]
  rfl

end Verif.Neocc
