import Verif.Ades.Spec
import Verif.Obs80.Lemmas
import Verif.Time.Lemmas
import Mathlib.Tactic.Positivity

/-! Helper lemmas on text. -/

namespace Verif.Ades

open Verif Mpc Obs80 Sched

theorem splitOn_ne (c : Char) (s : Str) : splitOn c s ≠ [] := by
  cases s with
  | nil => simp [splitOn]
  | cons x xs =>
    simp only [splitOn]
    split
    · simp
    · split <;> simp

theorem splitOn_free {c : Char} {w : Str} (h : c ∉ w) : splitOn c w = [w] := by
  induction w with
  | nil => rfl
  | cons x xs ih =>
    rw [List.mem_cons, not_or] at h
    simp only [splitOn]
    rw [if_neg (fun e => h.1 e.symm), ih h.2]

theorem splitOn_cons {c : Char} {w r : Str} (h : c ∉ w) : splitOn c (w ++ c :: r) = w :: splitOn c r := by
  induction w with
  | nil => simp [splitOn]
  | cons x xs ih =>
    rw [List.mem_cons, not_or] at h
    rw [List.cons_append]
    simp only [splitOn]
    rw [if_neg (fun e => h.1 e.symm), ih h.2]

theorem splitOn_join {c : Char} {ws : List Str} (hne : ws ≠ []) (h : ∀ w ∈ ws, c ∉ w) : splitOn c (join c ws) = ws := by
  induction ws with
  | nil => exact absurd rfl hne
  | cons w ws ih =>
    cases ws with
    | nil => exact splitOn_free (h w (by simp))
    | cons w' ws =>
      change splitOn c (w ++ c :: join c (w' :: ws)) = _
      rw [splitOn_cons (h w (by simp)), ih (by simp) fun x hx => h x (List.mem_cons_of_mem _ hx)]

theorem join_splitOn (c : Char) (s : Str) : join c (splitOn c s) = s := by
  induction s with
  | nil => rfl
  | cons x xs ih =>
    simp only [splitOn]
    split
    · next e =>
      obtain ⟨w, ws, hw⟩ := List.exists_cons_of_ne_nil (splitOn_ne c xs)
      rw [hw] at ih ⊢
      change c :: join c (w :: ws) = _
      rw [ih, e]
    · split
      · next h => exact absurd h (splitOn_ne c xs)
      · next w ws hw =>
        rw [hw] at ih
        cases ws with
        | nil => exact congrArg (x :: ·) ih
        | cons w' ws =>
          change x :: (w ++ c :: join c (w' :: ws)) = _
          exact congrArg (x :: ·) ih

theorem mem_of_splitOn {c : Char} {s w : Str} (h : w ∈ splitOn c s) : ∀ x ∈ w, x ∈ s ∧ x ≠ c := by
  induction s generalizing w with
  | nil =>
    rw [splitOn, List.mem_singleton] at h
    subst h
    simp
  | cons y ys ih =>
    simp only [splitOn] at h
    split at h
    · rcases List.mem_cons.1 h with rfl | h
      · simp
      · exact fun x hx => ⟨List.mem_cons_of_mem _ (ih h x hx).1, (ih h x hx).2⟩
    · next hy =>
      split at h
      · next hs => exact absurd hs (splitOn_ne c ys)
      · next v vs hs =>
        rcases List.mem_cons.1 h with rfl | h
        · intro x hx
          rcases List.mem_cons.1 hx with rfl | hx
          · exact ⟨by simp, hy⟩
          · have := ih (w := v) (by rw [hs]; simp) x hx
            exact ⟨List.mem_cons_of_mem _ this.1, this.2⟩
        · have := ih (w := w) (by rw [hs]; exact List.mem_cons_of_mem _ h)
          exact fun x hx => ⟨List.mem_cons_of_mem _ (this x hx).1, (this x hx).2⟩

theorem splitOn_textOf {lines : List Str} (h : ∀ l ∈ lines, '\n' ∉ l) : splitOn '\n' (textOf lines) = lines ++ [[]] := by
  induction lines with
  | nil => rfl
  | cons l ls ih =>
    have e : textOf (l :: ls) = l ++ '\n' :: textOf ls := by simp [textOf]
    rw [e, splitOn_cons (h l (by simp)), ih fun x hx => h x (List.mem_cons_of_mem _ hx), List.cons_append]

theorem dropWhile_trim {s : Str} (h : ∀ c ∈ s.head?, isSpace c = false) : s.dropWhile isSpace = s := by
  cases s with
  | nil => rfl
  | cons x xs => rw [List.dropWhile_cons_of_neg]; simpa using h x rfl

theorem strip_trim {s : Str} (h : Trim s) : strip s = s := by
  unfold strip
  rw [dropWhile_trim h.1, dropWhile_trim (s := s.reverse), List.reverse_reverse]
  rw [List.head?_reverse]
  exact h.2

theorem trim_of_noSpace {s : Str} (h : ∀ c ∈ s, isSpace c = false) : Trim s :=
  ⟨fun c hc => h c (List.mem_of_mem_head? hc), fun c hc => h c (List.mem_of_mem_getLast? hc)⟩

theorem trim_append {a b : Str} (ha : a ≠ []) (hb : b ≠ []) (h1 : Trim a) (h2 : Trim b) (m : Str) : Trim (a ++ m ++ b) := by
  constructor
  · intro c hc
    obtain ⟨x, xs, rfl⟩ := List.exists_cons_of_ne_nil ha
    exact h1.1 c (by simpa using hc)
  · intro c hc
    rw [List.getLast?_append_of_ne_nil _ hb] at hc
    exact h2.2 c hc

theorem trim_join {fs : List Str} (h : ∀ f ∈ fs, Trim f) : Trim (join '|' fs) := by
  induction fs with
  | nil => constructor <;> intro c hc <;> simp [join] at hc
  | cons f fs ih =>
    cases fs with
    | nil => exact h f (by simp)
    | cons g fs =>
      have ih := ih fun x hx => h x (List.mem_cons_of_mem _ hx)
      change Trim (f ++ '|' :: join '|' (g :: fs))
      constructor
      · intro c hc
        cases f with
        | nil =>
          have : c = '|' := by simpa using hc.symm
          subst this; rfl
        | cons x xs => exact (h (x :: xs) (by simp)).1 c (by simpa using hc)
      · intro c hc
        rw [List.getLast?_append_of_ne_nil _ (by simp), List.getLast?_cons] at hc
        cases hl : (join '|' (g :: fs)).getLast? with
        | none =>
          rw [hl] at hc
          have : c = '|' := by simpa using hc.symm
          subst this; rfl
        | some y =>
          rw [hl] at hc
          have : c = y := by simpa using hc.symm
          subst this
          exact ih.2 _ hl

theorem occurs_iff (t s : Str) : occurs t s = true ↔ t <:+: s := by
  simp only [occurs, List.any_eq_true, List.mem_tails, List.isPrefixOf_iff_prefix, List.infix_iff_prefix_suffix]
  exact ⟨fun ⟨x, h1, h2⟩ => ⟨x, h2, h1⟩, fun ⟨x, h1, h2⟩ => ⟨x, h2, h1⟩⟩

theorem infix_split {c : Char} {t a b : Str} (hc : c ∉ t) (h : t <:+: a ++ c :: b) : t <:+: a ∨ t <:+: b := by
  obtain ⟨u, v, e⟩ := h
  rw [List.append_assoc] at e
  rcases List.append_eq_append_iff.1 e with ⟨w, hw1, hw2⟩ | ⟨w, hw1, hw2⟩
  · rcases List.append_eq_append_iff.1 hw2 with ⟨x, hx1, hx2⟩ | ⟨x, hx1, hx2⟩
    · exact Or.inl ⟨u, x, by rw [hw1, hx1, List.append_assoc]⟩
    · cases x with
      | nil => exact Or.inl ⟨u, [], by rw [hw1]; simp at hx1; simp [hx1]⟩
      | cons y ys =>
        rw [List.cons_append] at hx2
        have : c = y := (List.cons.inj hx2).1
        exact absurd (by rw [hx1, this]; simp) hc
  · cases w with
    | nil =>
      rw [List.nil_append] at hw2
      cases t with
      | nil => exact Or.inl ⟨[], a, by simp⟩
      | cons y ys =>
        rw [List.cons_append] at hw2
        have := (List.cons.inj hw2).1
        exact absurd (by rw [this]; simp) hc
    | cons y ys =>
      rw [List.cons_append] at hw2
      have := (List.cons.inj hw2).2
      exact Or.inr ⟨ys, v, by rw [this, List.append_assoc]⟩

theorem infix_join {t : Str} (ht : t ≠ []) (hc : '|' ∉ t) {fs : List Str} : t <:+: join '|' fs ↔ ∃ f ∈ fs, t <:+: f := by
  induction fs with
  | nil =>
    simp only [join, List.infix_nil, List.not_mem_nil, false_and, exists_false, iff_false]
    exact ht
  | cons f fs ih =>
    cases fs with
    | nil => simp [join]
    | cons g fs =>
      change t <:+: f ++ '|' :: join '|' (g :: fs) ↔ _
      constructor
      · intro h
        rcases infix_split hc h with h | h
        · exact ⟨f, by simp, h⟩
        · obtain ⟨x, hx, h⟩ := ih.1 h
          exact ⟨x, List.mem_cons_of_mem _ hx, h⟩
      · rintro ⟨x, hx, h⟩
        rcases List.mem_cons.1 hx with rfl | hx
        · exact h.trans (List.prefix_append _ _).isInfix
        · have := ih.2 ⟨x, hx, h⟩
          exact this.trans ((List.suffix_cons _ _).trans (List.suffix_append _ _)).isInfix

theorem noKeyword_of_r {s : Str} (h : 'r' ∉ s) : NoKeyword s := by
  refine ⟨fun hi => h (hi.subset (by decide)), fun hi => h (hi.subset (by decide)), fun hi => h (hi.subset (by decide))⟩

theorem isHeader_join {fs : List Str} : isHeader (join '|' fs) = false ↔ ∀ f ∈ fs, NoKeyword f := by
  have e : ∀ s, isHeader s = false ↔ NoKeyword s := by
    intro s
    unfold isHeader NoKeyword
    rw [Bool.or_eq_false_iff, Bool.or_eq_false_iff, ← Bool.not_eq_true, ← Bool.not_eq_true, ← Bool.not_eq_true, occurs_iff, occurs_iff,
      occurs_iff, and_assoc]
  rw [e]
  unfold NoKeyword
  rw [infix_join (by decide) (by decide), infix_join (by decide) (by decide), infix_join (by decide) (by decide)]
  push Not
  exact ⟨fun ⟨a, b, c⟩ f hf => ⟨a f hf, b f hf, c f hf⟩, fun h => ⟨fun f hf => (h f hf).1, fun f hf => (h f hf).2.1, fun f hf => (h f hf).2.2⟩⟩

theorem csvField_plain {s : Str} (h : ∀ c ∈ s, c ≠ '|' ∧ c ≠ '"' ∧ c ≠ '\n' ∧ c ≠ '\r') : csvField s = s := by
  unfold csvField
  rw [if_neg]
  simp only [List.any_eq_true, Bool.or_eq_true, decide_eq_true_eq, not_exists, not_and, not_or]
  intro c hc
  obtain ⟨h1, h2, h3, h4⟩ := h c hc
  exact ⟨⟨⟨h1, h2⟩, h3⟩, h4⟩

theorem newline_join {fs : List Str} {c : Char} (hc : c ≠ '|') (h : ∀ f ∈ fs, c ∉ f) : c ∉ join '|' fs := by
  induction fs with
  | nil => simp [join]
  | cons f fs ih =>
    cases fs with
    | nil => exact h f (by simp)
    | cons g fs =>
      have ih := ih fun x hx => h x (List.mem_cons_of_mem _ hx)
      change c ∉ f ++ '|' :: join '|' (g :: fs)
      simp only [List.mem_append, List.mem_cons, not_or]
      exact ⟨h f (by simp), hc, ih⟩

/-! ## Numbers -/

theorem digits_fixedNat {p n : Nat} : ∀ c ∈ fixedNat p n, c.isDigit = true ∨ c = '.' := by
  intro c hc
  unfold fixedNat at hc
  split at hc
  · exact Or.inl (digits_dec n c hc)
  · rcases List.mem_append.1 hc with h | h
    · exact Or.inl (digits_dec _ c h)
    · rcases List.mem_cons.1 h with h | h
      · exact Or.inr h
      · exact Or.inl (digits_zfill (digits_dec _) c h)

theorem digits_spec {s : Str} (h : ∀ c ∈ s, c.isDigit = true) : Obs80.Spec.Digits s := by
  intro c hc
  have := h c hc
  simp only [Char.isDigit, Bool.and_eq_true, decide_eq_true_eq] at this
  exact ⟨this.1, this.2⟩

theorem number_fixedNat (p n : Nat) : number (fixedNat p n) = some (.fin ((n : ℚ) / 10 ^ p)) := by
  unfold fixedNat
  split
  · next h =>
    subst h
    rw [number_int (digits_spec (digits_dec n)) (dec_ne_nil n), digitsValue_eq, ← zfill_zero (dec n), ofDigits_zfill_dec]
    simp
  · next h =>
    rw [number_decimal (digits_spec (digits_dec _)) (dec_ne_nil _) (digits_spec (digits_zfill (digits_dec _))), digitsValue_eq,
      digitsValue_eq, ofDigits_zfill_dec, length_zfill_dec (by omega) (Nat.mod_lt _ (by positivity)), ← zfill_zero (dec (n / 10 ^ p)),
      ofDigits_zfill_dec]
    have e : (n : ℚ) = (10 ^ p : ℚ) * ((n / 10 ^ p : ℕ) : ℚ) + ((n % 10 ^ p : ℕ) : ℚ) := by
      have := Nat.div_add_mod n (10 ^ p)
      exact_mod_cast this.symm
    have h10 : (10 ^ p : ℚ) ≠ 0 := by positivity
    rw [Option.some.injEq, Num.fin.injEq]
    conv_rhs => rw [e]
    field_simp

theorem space_fixedNat {p n : Nat} : ∀ c ∈ fixedNat p n, isSpace c = false := by
  intro c hc
  rcases digits_fixedNat c hc with h | h
  · exact digit_not_space h
  · subst h; rfl

theorem fixedNat_cons (p n : Nat) : ∃ c cs, fixedNat p n = c :: cs ∧ c.isDigit = true := by
  unfold fixedNat
  split
  · obtain ⟨c, cs, h⟩ := List.exists_cons_of_ne_nil (dec_ne_nil n)
    exact ⟨c, cs, h, digits_dec n c (by rw [h]; simp)⟩
  · obtain ⟨c, cs, h⟩ := List.exists_cons_of_ne_nil (dec_ne_nil (n / 10 ^ p))
    exact ⟨c, cs ++ '.' :: zfill p (dec (n % 10 ^ p)), by rw [h]; rfl, digits_dec _ c (by rw [h]; simp)⟩

theorem unsignedAny_fixedNat (p n : Nat) : unsignedAny (fixedNat p n) = some (.fin ((n : ℚ) / 10 ^ p)) := by
  obtain ⟨c, cs, h, hc⟩ := fixedNat_cons p n
  have hn := number_fixedNat p n
  unfold number at hn
  rw [strip_trim (trim_of_noSpace space_fixedNat), h] at hn
  have h1 : c ≠ '-' := by rintro rfl; exact absurd hc (by decide)
  have h2 : c ≠ '+' := by rintro rfl; exact absurd hc (by decide)
  rw [h]
  split at hn
  · rename_i e; simp only [List.cons.injEq] at e; exact absurd e.1 h1
  · rename_i e; simp only [List.cons.injEq] at e; exact absurd e.1 h2
  · exact hn

theorem chars_fixed {p : Nat} {x : Num} : ∀ c ∈ fixed p x, c.isDigit = true ∨ c ∈ ".-infa".toList := by
  intro c hc
  cases x with
  | fin x =>
    simp only [fixed] at hc
    rcases List.mem_append.1 hc with h | h
    · split at h
      · rw [List.mem_singleton] at h; subst h; right; decide
      · simp at h
    · rcases digits_fixedNat c h with h | h
      · exact Or.inl h
      · subst h; right; decide
  | inf =>
    right
    have : ∀ c ∈ "inf".toList, c ∈ ".-infa".toList := by decide
    exact this c hc
  | nan =>
    right
    have : ∀ c ∈ "nan".toList, c ∈ ".-infa".toList := by decide
    exact this c hc

theorem fixed_ok {p : Nat} {x : Num} : ∀ c ∈ fixed p x, isSpace c = false ∧ c ≠ '|' ∧ c ≠ '"' ∧ c ≠ 'r' ∧ c ≠ '#' ∧ c ≠ '!' := by
  intro c hc
  rcases chars_fixed c hc with h | h
  · refine ⟨digit_not_space h, ?_, ?_, ?_, ?_, ?_⟩ <;> (rintro rfl; exact absurd h (by decide))
  · clear hc
    revert c
    decide

theorem number_fixed (p : Nat) (x : Num) : number (fixed p x) = some (rounded p x) := by
  cases x with
  | fin x =>
    unfold number
    rw [strip_trim (trim_of_noSpace fun c hc => (fixed_ok c hc).1)]
    simp only [fixed, rounded]
    split_ifs with h
    · simp only [List.cons_append, List.nil_append, unsignedAny_fixedNat, Option.map_some]
    · have := number_fixedNat p (Time.roundHalfEven (|x| * 10 ^ p)).toNat
      unfold number at this
      rw [strip_trim (trim_of_noSpace space_fixedNat)] at this
      exact this
  | inf =>
    have : number "inf".toList = some .inf := by decide
    exact this
  | nan =>
    have : number "nan".toList = some .nan := by decide
    exact this

theorem fixed_ne (p : Nat) (x : Num) : fixed p x ≠ [] := by
  cases x with
  | fin x =>
    simp only [fixed]
    obtain ⟨c, cs, h, _⟩ := fixedNat_cons p (Time.roundHalfEven (|x| * 10 ^ p)).toNat
    rw [h]
    simp
  | inf =>
    have : "inf".toList ≠ [] := by decide
    exact this
  | nan =>
    have : "nan".toList ≠ [] := by decide
    exact this

/-- The rounded number is within half a unit of the last decimal. -/
theorem rounded_near (p : Nat) (x : ℚ) : ∃ y, rounded p (.fin x) = .fin y ∧ |y - x| ≤ 1 / 2 / 10 ^ p := by
  refine ⟨_, rfl, ?_⟩
  have h := Time.roundHalfEven_near (|x| * 10 ^ p)
  have h10 : (0 : ℚ) < 10 ^ p := by positivity
  have hn : 0 ≤ Time.roundHalfEven (|x| * 10 ^ p) := by
    by_contra hc
    have h1 : Time.roundHalfEven (|x| * 10 ^ p) ≤ -1 := by omega
    have h2 : ((Time.roundHalfEven (|x| * 10 ^ p) : Int) : ℚ) ≤ -1 := by exact_mod_cast h1
    have h3 : 0 ≤ |x| * 10 ^ p := by positivity
    have := (abs_le.1 h).1
    linarith
  have hc : (((Time.roundHalfEven (|x| * 10 ^ p)).toNat : ℕ) : ℚ) = ((Time.roundHalfEven (|x| * 10 ^ p) : Int) : ℚ) := by
    exact_mod_cast Int.toNat_of_nonneg hn
  rw [hc]
  generalize ((Time.roundHalfEven (|x| * 10 ^ p) : Int) : ℚ) = y at h
  rw [le_div_iff₀ h10]
  split_ifs with hx
  · rw [abs_of_neg hx] at h
    rw [← abs_of_pos h10, ← abs_mul, abs_of_pos h10]
    have e : (-(y / 10 ^ p) - x) * 10 ^ p = -(y - -x * 10 ^ p) := by field_simp; ring
    rw [e, abs_neg]
    exact h
  · rw [abs_of_nonneg (not_lt.1 hx)] at h
    rw [← abs_of_pos h10, ← abs_mul, abs_of_pos h10]
    have e : (y / 10 ^ p - x) * 10 ^ p = y - x * 10 ^ p := by field_simp
    rw [e]
    exact h

end Verif.Ades
