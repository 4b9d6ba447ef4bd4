import Verif.Obs80.Spec
import Verif.Mpc.Lemmas
import Verif.Time.Lemmas
import Mathlib.Tactic.FieldSimp
import Mathlib.Data.List.Induction

/-! Helper lemmas for 80-column observations. -/

namespace Verif.Obs80

open Spec
open Verif.Mpc (Str isSpace strip pyInt)

theorem isLeap_iff (y : Int) : isLeap y = true ↔ Leap y := by
  simp only [isLeap, Leap, Bool.and_eq_true, Bool.or_eq_true, decide_eq_true_eq]
  omega

theorem monthLength_unique {y m n n' : Int} (h : MonthLength y m n) (h' : MonthLength y m n') : n = n' := by
  simp only [MonthLength, List.mem_cons, List.not_mem_nil, or_false] at h h'
  by_cases hl : Leap y
  · simp only [hl, true_and, not_true_eq_false, false_and, and_false, or_false] at h h'
    omega
  · simp only [hl, false_and, and_false, not_false_eq_true, true_and, false_or] at h h'
    omega

theorem daysInMonth_spec {y m : Int} (h1 : 1 ≤ m) (h2 : m ≤ 12) : MonthLength y m (daysInMonth y m) := by
  have hl := isLeap_iff y
  simp only [MonthLength, daysInMonth, List.mem_cons, List.not_mem_nil, or_false]
  by_cases h : isLeap y = true
  · have hl' := hl.mp h
    simp only [h, hl', if_true, true_and, not_true_eq_false, false_and, and_false, or_false]
    split
    · omega
    · split <;> omega
  · have hl' : ¬ Leap y := fun hc => h (hl.mpr hc)
    simp only [h, hl', false_and, and_false, not_false_eq_true, true_and, false_or, Bool.false_eq_true, if_false]
    split
    · omega
    · split <;> omega

theorem mjd_next_month {y m : Int} (h1 : 1 ≤ m) (h2 : m < 12) :
    mjdOf y (m + 1) 1 = mjdOf y m (daysInMonth y m) + 1 := by
  have hm : m = 1 ∨ m = 2 ∨ m = 3 ∨ m = 4 ∨ m = 5 ∨ m = 6 ∨ m = 7 ∨ m = 8 ∨ m = 9 ∨ m = 10 ∨ m = 11 := by omega
  by_cases h : isLeap y = true
  · rcases hm with rfl | rfl | rfl | rfl | rfl | rfl | rfl | rfl | rfl | rfl | rfl <;>
      simp [mjdOf, ordinal, daysBeforeMonth, daysInMonth, h] <;> omega
  · rcases hm with rfl | rfl | rfl | rfl | rfl | rfl | rfl | rfl | rfl | rfl | rfl <;>
      simp [mjdOf, ordinal, daysBeforeMonth, daysInMonth, h] <;> omega

theorem mjd_next_year (y : Int) : mjdOf (y + 1) 1 1 = mjdOf y 12 31 + 1 := by
  have : isLeap y = true ↔ (y % 4 = 0 ∧ (y % 100 ≠ 0 ∨ y % 400 = 0)) := by
    simp only [isLeap, Bool.and_eq_true, Bool.or_eq_true, decide_eq_true_eq]
  have e4 : (y - 1) / 4 = y / 4 - (if y % 4 = 0 then 1 else 0) := by split <;> omega
  have e100 : (y - 1) / 100 = y / 100 - (if y % 100 = 0 then 1 else 0) := by split <;> omega
  have e400 : (y - 1) / 400 = y / 400 - (if y % 400 = 0 then 1 else 0) := by split <;> omega
  simp only [mjdOf, ordinal, daysBeforeMonth]
  by_cases h : isLeap y = true
  · have hl := this.mp h
    have f4 : y % 4 = 0 := hl.1
    by_cases f100 : y % 100 = 0
    · have f400 : y % 400 = 0 := by omega
      simp only [f4, f100, f400, if_true] at e4 e100 e400
      simp [h]; omega
    · have f400 : ¬ y % 400 = 0 := by omega
      simp only [f4, f100, f400, if_true, if_false] at e4 e100 e400
      simp [h]; omega
  · have h' : ¬ (y % 4 = 0 ∧ (y % 100 ≠ 0 ∨ y % 400 = 0)) := fun hc => h (this.mpr hc)
    by_cases f4 : y % 4 = 0
    · have f100 : y % 100 = 0 := by omega
      have f400 : ¬ y % 400 = 0 := by omega
      simp only [f4, f100, f400, if_true, if_false] at e4 e100 e400
      simp [h]; omega
    · have f100 : ¬ y % 100 = 0 := by omega
      have f400 : ¬ y % 400 = 0 := by omega
      simp only [f4, f100, f400, if_false] at e4 e100 e400
      simp [h]; omega

theorem next_mjd {a b : Int × Int × Int} (ha : ValidDate a.1 a.2.1 a.2.2) (h : Next a b) :
    mjdOf b.1 b.2.1 b.2.2 = mjdOf a.1 a.2.1 a.2.2 + 1 := by
  obtain ⟨y, m, d⟩ := a
  obtain ⟨h1, h2, h3, -⟩ := ha
  simp only at h1 h2 h3
  have hl := daysInMonth_spec (y := y) h1 h2
  simp only [Next] at h
  rcases h with ⟨n, hn, hd, rfl⟩ | ⟨n, hn, hd, hm, rfl⟩ | ⟨hn, hm, rfl⟩
  · simp only [mjdOf, ordinal]; omega
  · have := monthLength_unique hn hl
    simp only
    rw [mjd_next_month h1 hm, hd, this]
  · have := monthLength_unique hn hl
    subst hm
    have h31 : daysInMonth y 12 = 31 := by simp [daysInMonth]
    simp only
    rw [mjd_next_year, this, h31]

theorem dayNumber_mjd {a : Int × Int × Int} {n : Int} (h : DayNumber a n) : n = mjdOf a.1 a.2.1 a.2.2 := by
  induction h with
  | base => simp [mjdOf]
  | succ _ hv hn ih => rw [next_mjd hv hn]; omega
  | pred _ hv hn ih => have := next_mjd hv hn; omega

theorem valid_of {y m d : Int} (h1 : 1 ≤ m) (h2 : m ≤ 12) (h3 : 1 ≤ d) (h4 : d ≤ daysInMonth y m) : ValidDate y m d :=
  ⟨h1, h2, h3, _, daysInMonth_spec h1 h2, h4⟩

theorem daysInMonth_ge (y m : Int) : 28 ≤ daysInMonth y m := by
  unfold daysInMonth; split
  · split <;> omega
  · split <;> omega

/-- Some number is reached for the date. -/
def Reached (y m d : Int) : Prop := ∃ n, DayNumber (y, m, d) n

theorem reached_next {a b : Int × Int × Int} (hv : ValidDate a.1 a.2.1 a.2.2) (h : Next a b) :
    Reached a.1 a.2.1 a.2.2 ↔ Reached b.1 b.2.1 b.2.2 :=
  ⟨fun ⟨_, hn⟩ => ⟨_, .succ hn hv h⟩, fun ⟨_, hn⟩ => ⟨_, .pred hn hv h⟩⟩

theorem reached_day {y m : Int} (h1 : 1 ≤ m) (h2 : m ≤ 12) (k : Nat) (hk : (k : Int) + 1 ≤ daysInMonth y m) :
    Reached y m 1 ↔ Reached y m (k + 1) := by
  induction k with
  | zero => simp
  | succ k ih =>
    rw [ih (by push_cast at hk; omega)]
    have := reached_next (a := (y, m, (k : Int) + 1)) (b := (y, m, (k : Int) + 1 + 1))
      (valid_of h1 h2 (by simp only; omega) (by push_cast at hk ⊢; omega))
      (Or.inl ⟨_, daysInMonth_spec h1 h2, by push_cast at hk ⊢; omega, rfl⟩)
    push_cast
    exact this

theorem reached_month {y : Int} (k : Nat) (hk : k < 12) : Reached y 1 1 ↔ Reached y (k + 1) 1 := by
  induction k with
  | zero => simp
  | succ k ih =>
    rw [ih (by omega)]
    have h1 : (1 : Int) ≤ k + 1 := by omega
    have h2 : (k : Int) + 1 ≤ 12 := by omega
    have hd := daysInMonth_ge y (k + 1)
    rw [reached_day h1 h2 (daysInMonth y (k + 1) - 1).toNat (by omega)]
    have e : (((daysInMonth y (k + 1) - 1).toNat : Nat) : Int) + 1 = daysInMonth y (k + 1) := by omega
    rw [e]
    have := reached_next (a := (y, (k : Int) + 1, daysInMonth y (k + 1))) (b := (y, (k : Int) + 1 + 1, 1))
      (valid_of h1 h2 (by simp only; omega) le_rfl)
      (Or.inr (Or.inl ⟨_, daysInMonth_spec h1 h2, rfl, by omega, rfl⟩))
    push_cast
    exact this

theorem reached_any {y m d : Int} (h : ValidDate y m d) : Reached y 1 1 ↔ Reached y m d := by
  obtain ⟨h1, h2, h3, n, hn, h4⟩ := h
  have e := monthLength_unique hn (daysInMonth_spec h1 h2)
  subst e
  rw [reached_month (m - 1).toNat (by omega)]
  have e1 : (((m - 1).toNat : Nat) : Int) + 1 = m := by omega
  rw [e1, reached_day h1 h2 (d - 1).toNat (by omega)]
  have e2 : (((d - 1).toNat : Nat) : Int) + 1 = d := by omega
  rw [e2]

theorem reached_year (y : Int) : Reached y 1 1 ↔ Reached (y + 1) 1 1 := by
  have hv : ValidDate y 12 31 := valid_of (by omega) (by omega) (by omega) (by simp [daysInMonth])
  rw [reached_any hv]
  have hl := daysInMonth_spec (y := y) (m := 12) (by omega) (by omega)
  have h31 : daysInMonth y 12 = 31 := by simp [daysInMonth]
  rw [h31] at hl
  exact reached_next (a := (y, 12, 31)) (b := (y + 1, 1, 1)) hv (Or.inr (Or.inr ⟨hl, rfl, rfl⟩))

theorem reached_all {y m d : Int} (h : ValidDate y m d) : Reached y m d := by
  rw [← reached_any h]
  have base : Reached 1858 1 1 :=
    (reached_any (valid_of (by omega) (by omega) (by omega) (by simp [daysInMonth]))).mpr ⟨0, .base⟩
  have up : ∀ k : Nat, Reached (1858 + k) 1 1 := by
    intro k; induction k with
    | zero => simpa using base
    | succ k ih => push_cast; rw [← add_assoc]; exact (reached_year _).mp ih
  have down : ∀ k : Nat, Reached (1858 - k) 1 1 := by
    intro k; induction k with
    | zero => simpa using base
    | succ k ih =>
      rw [reached_year]
      have : (1858 - ((k + 1 : Nat) : Int) + 1) = 1858 - k := by push_cast; ring
      rw [this]; exact ih
  rcases Int.le_total 1858 y with hy | hy
  · have := up (y - 1858).toNat
    have e : (1858 : Int) + ((y - 1858).toNat : Nat) = y := by omega
    rwa [e] at this
  · have := down (1858 - y).toNat
    have e : (1858 : Int) - ((1858 - y).toNat : Nat) = y := by omega
    rwa [e] at this

theorem digitsValue_eq (s : Str) : digitsValue s = Nat.ofDigitChars 10 s 0 := by
  simp [digitsValue, Nat.ofDigitChars]

theorem digits_isDigit {s : Str} (h : Digits s) : ∀ c ∈ s, c.isDigit = true := by
  intro c hc
  obtain ⟨a, b⟩ := h c hc
  simp only [Char.isDigit, Bool.and_eq_true, decide_eq_true_eq]
  exact ⟨a, b⟩

theorem takeWhile_all {p : Char → Bool} {s : Str} (h : ∀ c ∈ s, p c = true) (rest : Str)
    (hr : ∀ c, rest.head? = some c → p c = false) :
    (s ++ rest).takeWhile p = s ∧ (s ++ rest).dropWhile p = rest := by
  induction s with
  | nil =>
    cases rest with
    | nil => simp
    | cons c cs => simp [hr c rfl]
  | cons c cs ih =>
    have hc := h c (by simp)
    obtain ⟨i1, i2⟩ := ih (fun d hd => h d (List.mem_cons_of_mem _ hd))
    simp [hc, i1, i2]

theorem ofDigits_append_value (ip fp : Str) :
    Nat.ofDigitChars 10 (ip ++ fp) 0 = 10 ^ fp.length * Nat.ofDigitChars 10 ip 0 + Nat.ofDigitChars 10 fp 0 := by
  rw [Nat.ofDigitChars_append, Nat.ofDigitChars_eq_ofDigitChars_zero]

theorem ofDigits_lt {s : Str} (h : ∀ c ∈ s, c.isDigit = true) : Nat.ofDigitChars 10 s 0 < 10 ^ s.length := by
  induction s using List.reverseRecOn with
  | nil => simp [Nat.ofDigitChars]
  | append_singleton s c ih =>
    have hc := h c (by simp)
    have ih' := ih fun d hd => h d (by simp [hd])
    rw [ofDigits_append_value]
    have h9 : Nat.ofDigitChars 10 [c] 0 ≤ 9 := by
      simp only [Char.isDigit, Bool.and_eq_true, decide_eq_true_eq] at hc
      have h2 : c.toNat ≤ 57 := hc.2
      simp only [Nat.ofDigitChars, List.foldl_cons, List.foldl_nil]
      change 10 * 0 + (c.toNat - 48) ≤ 9
      omega
    simp only [List.length_singleton, List.length_append, pow_succ]
    omega

theorem digit_toLower {c : Char} (h : c.isDigit = true) : c.toLower = c := by
  obtain ⟨h1, h2⟩ : 48 ≤ c.toNat ∧ c.toNat ≤ 57 := by
    simp only [Char.isDigit, Bool.and_eq_true, decide_eq_true_eq] at h
    exact ⟨h.1, h.2⟩
  unfold Char.toLower
  rw [dif_neg]
  intro hc
  have h3 : c.toNat ≥ 65 := hc.1
  omega

theorem unsignedAny_digits_first {c : Char} {s : Str} (h : c.isDigit = true) :
    unsignedAny (c :: s) = (unsignedNum (c :: s)).map .fin := by
  have e := digit_toLower h
  have h1 : c ≠ 'n' := by rintro rfl; exact absurd h (by decide)
  have h2 : c ≠ 'i' := by rintro rfl; exact absurd h (by decide)
  unfold unsignedAny
  simp only [List.map_cons, e]
  rw [if_neg (by simp [h1]), if_neg (by simp [h2])]

/-- A decimal literal `iii.fff` has the value its digits say. -/
theorem number_decimal {ip fp : Str} (hi : Digits ip) (hne : ip ≠ []) (hf : Digits fp) :
    number (ip ++ '.' :: fp) = some (.fin ((digitsValue ip : ℚ) + (digitsValue fp : ℚ) / 10 ^ fp.length)) := by
  have hi' := digits_isDigit hi
  have hf' := digits_isDigit hf
  have hs : strip (ip ++ '.' :: fp) = ip ++ '.' :: fp := by
    apply Mpc.strip_id
    intro c hc
    rcases List.mem_append.mp hc with hc | hc
    · exact Mpc.digit_not_space (hi' c hc)
    · rcases List.mem_cons.mp hc with rfl | hc
      · decide
      · exact Mpc.digit_not_space (hf' c hc)
  cases ip with
  | nil => exact absurd rfl hne
  | cons c cs =>
    have hc := hi' c (by simp)
    have h1 : c ≠ '-' := by rintro rfl; exact absurd hc (by decide)
    have h2 : c ≠ '+' := by rintro rfl; exact absurd hc (by decide)
    unfold number
    rw [hs]
    simp only [List.cons_append]
    split
    · rename_i e; simp only [List.cons.injEq] at e; exact absurd e.1 h1
    · rename_i e; simp only [List.cons.injEq] at e; exact absurd e.1 h2
    · rw [unsignedAny_digits_first hc]
      obtain ⟨t1, t2⟩ := takeWhile_all (p := Char.isDigit) hi' ('.' :: fp) (by intro d hd; simp at hd; subst hd; decide)
      obtain ⟨t3, t4⟩ := takeWhile_all (p := Char.isDigit) hf' [] (by simp)
      rw [List.append_nil] at t3 t4
      rw [List.cons_append] at t1 t2
      unfold unsignedNum
      simp only [t1, t2, t3, t4, exponent]
      rw [if_neg (by simp)]
      simp only [Option.map_some, Option.some.injEq, Num.fin.injEq]
      rw [ofDigits_append_value, digitsValue_eq, digitsValue_eq]
      push_cast
      rw [zero_sub, zpow_neg, zpow_natCast]
      field_simp

/-- An integer literal has the value its digits say. -/
theorem number_int {ip : Str} (hi : Digits ip) (hne : ip ≠ []) : number ip = some (.fin (digitsValue ip : ℚ)) := by
  have hi' := digits_isDigit hi
  have hs : strip ip = ip := Mpc.strip_id fun c hc => Mpc.digit_not_space (hi' c hc)
  cases ip with
  | nil => exact absurd rfl hne
  | cons c cs =>
    have hc := hi' c (by simp)
    have h1 : c ≠ '-' := by rintro rfl; exact absurd hc (by decide)
    have h2 : c ≠ '+' := by rintro rfl; exact absurd hc (by decide)
    unfold number
    rw [hs]
    split
    · rename_i e; simp only [List.cons.injEq] at e; exact absurd e.1 h1
    · rename_i e; simp only [List.cons.injEq] at e; exact absurd e.1 h2
    · rw [unsignedAny_digits_first hc]
      obtain ⟨t1, t2⟩ := takeWhile_all (p := Char.isDigit) hi' [] (by simp)
      rw [List.append_nil] at t1 t2
      unfold unsignedNum
      simp only [t1, t2, exponent]
      rw [if_neg (by simp)]
      simp [digitsValue_eq]

/-- A text without white space, surrounded by or separated with blanks, is one token. -/
theorem tokensGo_word {w : Str} (hw : ∀ c ∈ w, isSpace c = false) (cur rest : Str) :
    tokensGo cur (w ++ rest) = tokensGo (cur ++ w) rest := by
  induction w generalizing cur with
  | nil => simp
  | cons c cs ih =>
    have hc := hw c (by simp)
    simp only [List.cons_append, tokensGo, hc, Bool.false_eq_true, if_false]
    rw [ih (fun d hd => hw d (List.mem_cons_of_mem _ hd))]
    simp

theorem tokens_three {a b c : Str} (ha : a ≠ []) (hb : b ≠ []) (hc : c ≠ [])
    (ha' : ∀ x ∈ a, isSpace x = false) (hb' : ∀ x ∈ b, isSpace x = false) (hc' : ∀ x ∈ c, isSpace x = false) :
    tokens (a ++ ' ' :: (b ++ ' ' :: c)) = [a, b, c] := by
  have sp : isSpace ' ' = true := by decide
  unfold tokens
  rw [tokensGo_word ha']
  simp only [List.nil_append, tokensGo, sp, if_true, ha, if_false]
  rw [tokensGo_word hb']
  simp only [List.nil_append, tokensGo, sp, if_true, hb, if_false]
  have := tokensGo_word hc' [] []
  rw [List.append_nil] at this
  rw [this]
  simp [tokensGo, hc]

theorem strip_words {a b c : Str} (ha : a ≠ []) (hc : c ≠ [])
    (ha' : ∀ x ∈ a, isSpace x = false) (hc' : ∀ x ∈ c, isSpace x = false) :
    strip (a ++ ' ' :: (b ++ ' ' :: c)) = a ++ ' ' :: (b ++ ' ' :: c) := by
  unfold strip
  obtain ⟨x, xs, rfl⟩ := List.exists_cons_of_ne_nil ha
  have h1 : ((x :: xs) ++ ' ' :: (b ++ ' ' :: c)).dropWhile isSpace = (x :: xs) ++ ' ' :: (b ++ ' ' :: c) := by
    rw [List.cons_append, List.dropWhile_cons_of_neg]
    simp [ha' x (by simp)]
  rw [h1]
  obtain ⟨ys, y, rfl⟩ : ∃ ys y, c = ys ++ [y] := ⟨c.dropLast, c.getLast hc, (List.dropLast_append_getLast hc).symm⟩
  have h2 : ((x :: xs) ++ ' ' :: (b ++ ' ' :: (ys ++ [y]))).reverse
      = y :: ((x :: xs) ++ ' ' :: (b ++ ' ' :: ys)).reverse := by simp
  rw [h2, List.dropWhile_cons_of_neg (by simp [hc' y (by simp)]), ← h2, List.reverse_reverse]

theorem dropWhile_nil_iff {p : Char → Bool} (l : Str) : l.dropWhile p = [] ↔ ∀ x ∈ l, p x = true := by
  induction l with
  | nil => simp
  | cons c cs ih =>
    by_cases h : p c = true
    · simp [h, ih]
    · simp [h]

theorem dropWhile_head {p : Char → Bool} {l xs : Str} {x : Char} (h : l.dropWhile p = x :: xs) : p x = false := by
  induction l with
  | nil => simp at h
  | cons c cs ih =>
    by_cases hc : p c = true
    · simp only [List.dropWhile_cons, hc, if_true] at h; exact ih h
    · simp only [List.dropWhile_cons, hc, Bool.false_eq_true, if_false, List.cons.injEq] at h
      rw [← h.1]; simpa using hc

theorem strip_eq_nil_iff (l : Str) : strip l = [] ↔ l.all isSpace = true := by
  unfold strip
  rw [List.reverse_eq_nil_iff, dropWhile_nil_iff]
  simp only [List.mem_reverse, List.all_eq_true]
  constructor
  · intro h
    have : l.dropWhile isSpace = [] := by
      by_contra hne
      obtain ⟨x, xs, hx⟩ := List.exists_cons_of_ne_nil hne
      have h1 := h x (by rw [hx]; simp)
      rw [dropWhile_head hx] at h1
      exact absurd h1 (by simp)
    rw [dropWhile_nil_iff] at this
    exact this
  · intro h x hx
    exact h x ((List.dropWhile_sublist _).mem hx)

theorem parseRa_error {raw : Str} {e : Err} (h : parseRa raw = .error e) : e = .obs80 := by
  unfold parseRa at h
  split at h
  · split at h
    · split at h
      · exact absurd h (by simp)
      · exact (Except.error.inj h).symm
    · exact (Except.error.inj h).symm
  · exact (Except.error.inj h).symm

theorem parseDec_error {raw : Str} {e : Err} (h : parseDec raw = .error e) : e = .obs80 := by
  unfold parseDec at h
  split at h
  · split at h
    · simp only at h
      split at h
      · split at h
        · generalize (if _ = '-' then (-1 : ℚ) else 1) = sg at h
          split at h
          · exact absurd h (by simp)
          · exact (Except.error.inj h).symm
        · exact (Except.error.inj h).symm
      · exact (Except.error.inj h).symm
    · exact (Except.error.inj h).symm
  · exact (Except.error.inj h).symm

theorem parseRa_nonneg {raw : Str} {v : ℚ} (h : parseRa raw = .ok v) : 0 ≤ v := by
  unfold parseRa at h
  split at h
  · split at h
    · split at h
      · rename_i hr
        rw [← Except.ok.inj h]
        obtain ⟨a, -, b, -, c, -⟩ := hr
        positivity
      · exact absurd h (by simp)
    · exact absurd h (by simp)
  · exact absurd h (by simp)

theorem parseDec_range {raw : Str} {v : ℚ} (h : parseDec raw = .ok v) : -90 ≤ v ∧ v ≤ 90 := by
  unfold parseDec at h
  split at h
  · split at h
    · simp only at h
      split at h
      · split at h
        · generalize (if _ = '-' then (-1 : ℚ) else 1) = sg at h
          split at h
          · rename_i hr
            rw [← Except.ok.inj h]
            exact hr
          · exact absurd h (by simp)
        · exact absurd h (by simp)
      · exact absurd h (by simp)
    · exact absurd h (by simp)
  · exact absurd h (by simp)

theorem parseLine_angles {line : Str} {o : Obs} (h : parseLine line = .ok o) :
    parseRa (slice (line.take 80) 32 44) = .ok o.ra ∧ parseDec (slice (line.take 80) 44 56) = .ok o.dec ∧ o.ra ≤ 360 := by
  unfold parseLine at h
  split at h
  · exact absurd h (by simp)
  · simp only at h
    split at h
    · exact absurd h (by simp)
    · split at h
      · exact absurd h (by simp)
      · split at h
        · exact absurd h (by simp)
        · split at h
          · exact absurd h (by simp)
          · split at h
            · exact absurd h (by simp)
            · split at h
              · exact absurd h (by simp)
              · rename_i ra hra
                split at h
                · exact absurd h (by simp)
                · rename_i dec hdec
                  split at h
                  · exact absurd h (by simp)
                  · rename_i hle
                    rw [← Except.ok.inj h]
                    exact ⟨hra, hdec, not_lt.mp hle⟩

theorem slice_at {line pre f post : Str} {i j : Nat} (h : line = pre ++ (f ++ post)) (hi : pre.length = i)
    (hj : i + f.length = j) : slice line i j = f := by
  subst h hi hj
  unfold slice
  rw [← List.append_assoc, List.take_append_of_le_length (by simp), List.take_of_length_le (by simp)]
  simp

theorem orNone_blank {s : Str} (h : s.all isSpace = true) : orNone s = none := by
  simp [orNone, (strip_eq_nil_iff s).mpr h]

theorem orNone_text {s : Str} (h : s.all isSpace = false) : orNone s = some (strip s) := by
  have : strip s ≠ [] := fun hc => by rw [(strip_eq_nil_iff s).mp hc] at h; exact absurd h (by simp)
  simp [orNone, this]

theorem strip_single {c : Char} (h : isSpace c = false) : strip [c] = [c] :=
  Mpc.strip_id fun d hd => by simp at hd; subst hd; exact h

end Verif.Obs80
