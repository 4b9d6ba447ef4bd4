import Verif.Mpc.Spec
import Mathlib.Tactic.Linarith
import Mathlib.Tactic.Ring

/-! Helper lemmas for designations. -/

namespace Verif.Mpc

open Spec

theorem text_eq (n : Nat) : Spec.text n = dec n := by
  simp [Spec.text, dec]

theorem b62_table : ∀ n : Fin 62, (BASE62[n.val]?.any fun c => decide (BASE62.idxOf? c = some n.val ∧
    value62 c = some n.val ∧ (10 ≤ n.val → c.isDigit = false) ∧ (n.val < 10 → c = Nat.digitChar n.val) ∧ c ≠ '~'))
      = true := by
  decide +kernel

theorem b62_ok {n : Nat} (h : n < 62) : ∃ c, b62 n = .ok c ∧ BASE62[n]? = some c ∧ b62Map c = .ok n ∧
    value62 c = some n ∧ (10 ≤ n → c.isDigit = false) ∧ (n < 10 → c = Nat.digitChar n) ∧ c ≠ '~' := by
  have := b62_table ⟨n, h⟩
  simp only at this
  cases e : BASE62[n]? with
  | none => rw [e] at this; simp at this
  | some c =>
    rw [e] at this
    simp only [Option.any_some, decide_eq_true_eq] at this
    obtain ⟨h1, h2, h3, h4, h5⟩ := this
    exact ⟨c, by simp [b62, e], rfl, by simp [b62Map, h1], h2, h3, h4, h5⟩

/-- A list of decimal digits. -/
def Digits (s : Str) : Prop := ∀ c ∈ s, c.isDigit = true

theorem digits_dec (n : Nat) : Digits (dec n) := fun _ hc => Nat.isDigit_of_mem_toDigits (by omega) (by omega) hc

theorem dec_ne_nil (n : Nat) : dec n ≠ [] := Nat.toDigits_ne_nil

theorem digits_zfill {w : Nat} {s : Str} (h : Digits s) : Digits (zfill w s) := by
  intro c hc
  rcases List.mem_append.mp hc with hc | hc
  · rw [List.mem_replicate] at hc
    rw [hc.2]; rfl
  · exact h c hc

theorem digit_not_space {c : Char} (h : c.isDigit = true) : isSpace c = false := by
  by_contra hc
  simp only [isSpace, Bool.not_eq_false, Bool.or_eq_true, decide_eq_true_eq] at hc
  rcases hc with ((((rfl | rfl) | rfl) | rfl) | rfl) | rfl <;> exact absurd h (by decide)

theorem dropWhile_none {p : Char → Bool} {s : Str} (h : ∀ c ∈ s, p c = false) : s.dropWhile p = s := by
  cases s with
  | nil => rfl
  | cons c cs => rw [List.dropWhile_cons_of_neg]; simp [h c (by simp)]

theorem strip_id {s : Str} (h : ∀ c ∈ s, isSpace c = false) : strip s = s := by
  unfold strip
  rw [dropWhile_none h, dropWhile_none (by simpa using h), List.reverse_reverse]

theorem digitsGo_digits {s : Str} (h : Digits s) (acc : Nat) (prev : Bool) (hp : prev = true ∨ s ≠ []) :
    digitsGo acc prev s = some (Nat.ofDigitChars 10 s acc) := by
  induction s generalizing acc prev with
  | nil =>
    rcases hp with hp | hp
    · simp [digitsGo, hp]
    · exact absurd rfl hp
  | cons c cs ih =>
    have hc := h c (by simp)
    simp only [digitsGo, hc, if_true]
    rw [ih (fun d hd => h d (List.mem_cons_of_mem _ hd)) _ true (Or.inl rfl), Nat.ofDigitChars_cons]
    simp [Nat.mul_comm]

theorem pyInt_digits {s : Str} (h : Digits s) (hne : s ≠ []) : pyInt s = .ok (Nat.ofDigitChars 10 s 0 : Nat) := by
  unfold pyInt
  rw [strip_id (fun c hc => digit_not_space (h c hc))]
  cases s with
  | nil => exact absurd rfl hne
  | cons c cs =>
    have hc := h c (by simp)
    have h1 : c ≠ '-' := by rintro rfl; exact absurd hc (by decide)
    have h2 : c ≠ '+' := by rintro rfl; exact absurd hc (by decide)
    have : literal (c :: cs) = (digitsGo 0 false (c :: cs)).map Int.ofNat := by
      unfold literal
      split
      · rename_i e; simp only [List.cons.injEq] at e; exact absurd e.1 h1
      · rename_i e; simp only [List.cons.injEq] at e; exact absurd e.1 h2
      · rfl
    rw [this, digitsGo_digits h 0 false (Or.inr hne)]
    rfl

theorem ofDigits_zfill_dec (w n : Nat) : Nat.ofDigitChars 10 (zfill w (dec n)) 0 = n := by
  rw [zfill, Nat.ofDigitChars_append, Nat.ofDigitChars_replicate_zero, Nat.mul_zero, dec,
    Nat.ofDigitChars_toDigits (by omega) (by omega)]

theorem zfill_ne_nil {w : Nat} {s : Str} (h : s ≠ []) : zfill w s ≠ [] := by
  simp [zfill, h]

theorem pyInt_zfill_dec (w n : Nat) : pyInt (zfill w (dec n)) = .ok (n : Int) := by
  rw [pyInt_digits (digits_zfill (digits_dec n)) (zfill_ne_nil (dec_ne_nil n)), ofDigits_zfill_dec]

theorem zfill_zero (s : Str) : zfill 0 s = s := by simp [zfill]

theorem pyInt_dec (n : Nat) : pyInt (dec n) = .ok (n : Int) := by
  have := pyInt_zfill_dec 0 n
  rwa [zfill_zero] at this

theorem isDecimal_digits {s : Str} (h : Digits s) (hne : s ≠ []) : isDecimal s = true := by
  cases s with
  | nil => exact absurd rfl hne
  | cons c cs => simpa [isDecimal, Digits] using h

theorem length_zfill_dec {w n : Nat} (hw : 0 < w) (h : n < 10 ^ w) : (zfill w (dec n)).length = w := by
  have := (Nat.length_toDigits_le_iff (b := 10) (n := n) (k := w) (by omega) hw).mpr h
  simp only [zfill, List.length_append, List.length_replicate, dec]
  omega

theorem decInt_nat (n : Nat) : decInt (n : Int) = dec n := by
  simp [decInt]

theorem fmt0_nat (w n : Nat) : fmt0 w (n : Int) = zfill w (dec n) := by
  simp [fmt0]

/-- Base-62 value of a text by the usual left-to-right rule. -/
def horner : Str → Nat → Option Nat
  | [], acc => some acc
  | c :: cs, acc => (value62 c).bind fun v => horner cs (acc * 62 + v)

theorem b62Sum_append_single {l : Str} {m : Nat} (hl : b62Sum l = .ok m) {c : Char} {v : Nat} (hc : b62Map c = .ok v) :
    b62Sum (l ++ [c]) = .ok (m * 62 + v) := by
  induction l generalizing m with
  | nil =>
    simp only [b62Sum, Except.ok.injEq] at hl
    subst hl
    simp [b62Sum, hc, bind, Except.bind, pure, Except.pure]
  | cons d ds ih =>
    simp only [b62Sum, bind, Except.bind] at hl
    cases e1 : b62Map d with
    | error e => rw [e1] at hl; cases hl
    | ok v1 =>
      rw [e1] at hl
      cases e2 : b62Sum ds with
      | error e => rw [e2] at hl; cases hl
      | ok m2 =>
        rw [e2] at hl
        simp only [pure, Except.pure, Except.ok.injEq] at hl
        have := ih e2
        simp only [List.cons_append, b62Sum, bind, Except.bind, e1, this, pure, Except.pure, List.length_append,
          List.length_cons, List.length_nil]
        rw [← hl]
        congr 1
        rw [Nat.pow_succ]
        ring

theorem b62Sum_low (x : Nat) : b62Sum (b62Low x).reverse = .ok x := by
  induction x using Nat.strong_induction_on with
  | _ x ih =>
    unfold b62Low
    split
    · rename_i h; subst h; rfl
    · obtain ⟨c, _, h1, h2, _⟩ := b62_ok (n := x % 62) (Nat.mod_lt _ (by omega))
      rw [h1]
      simp only [List.reverse_cons]
      rw [b62Sum_append_single (ih (x / 62) (by omega)) h2]
      congr 1
      omega

theorem length_low {x k : Nat} (h : x < 62 ^ k) : (b62Low x).length ≤ k := by
  induction k generalizing x with
  | zero =>
    have : x = 0 := by simpa using h
    subst this
    simp [b62Low]
  | succ k ih =>
    unfold b62Low
    split
    · simp
    · obtain ⟨c, _, h1, _⟩ := b62_ok (n := x % 62) (Nat.mod_lt _ (by omega))
      rw [h1]
      simp only [List.length_cons]
      have := ih (x := x / 62) (by rw [Nat.div_lt_iff_lt_mul (by omega)]; rwa [Nat.pow_succ] at h)
      omega

theorem b62Sum_zeros (n : Nat) (s : Str) : b62Sum (List.replicate n '0' ++ s) = b62Sum s := by
  induction n with
  | zero => rfl
  | succ n ih =>
    simp only [List.replicate_succ, List.cons_append, b62Sum]
    have : b62Map '0' = .ok 0 := by decide
    rw [this, ih]
    cases b62Sum s <;> simp [bind, Except.bind, pure, Except.pure]

/-- If a text holds a character that no integer literal may contain, `int()` raises ValueError. -/
theorem digitsGo_bad {s : Str} {c : Char} (hc : c ∈ s) (h1 : c.isDigit = false) (h2 : c ≠ '_') (acc : Nat) (prev : Bool) :
    digitsGo acc prev s = none := by
  induction s generalizing acc prev with
  | nil => simp at hc
  | cons d ds ih =>
    simp only [digitsGo]
    rcases List.mem_cons.mp hc with rfl | hc
    · simp [h1, h2]
    · split
      · exact ih hc _ _
      · split
        · exact ih hc _ _
        · rfl

theorem mem_dropWhile {p : Char → Bool} {s : Str} {c : Char} (hc : c ∈ s) (h : p c = false) : c ∈ s.dropWhile p := by
  induction s with
  | nil => simp at hc
  | cons d ds ih =>
    rw [List.dropWhile_cons]
    split
    · rename_i hd
      rcases List.mem_cons.mp hc with rfl | hc
      · rw [h] at hd; simp at hd
      · exact ih hc
    · exact hc

theorem pyInt_bad {s : Str} {c : Char} (hc : c ∈ s) (h1 : c.isDigit = false) (h2 : c ≠ '_') (h3 : isSpace c = false)
    (h4 : c ≠ '-') (h5 : c ≠ '+') : pyInt s = .error .valueError := by
  have hm : c ∈ strip s := by
    unfold strip
    rw [List.mem_reverse]
    exact mem_dropWhile (List.mem_reverse.mpr (mem_dropWhile hc h3)) h3
  have key : literal (strip s) = none := by
    generalize strip s = ds at hm
    unfold literal
    split
    · rcases List.mem_cons.mp hm with h | h
      · exact absurd h h4
      · rw [digitsGo_bad h h1 h2]; rfl
    · rcases List.mem_cons.mp hm with h | h
      · exact absurd h h5
      · rw [digitsGo_bad h h1 h2]; rfl
    · rw [digitsGo_bad hm h1 h2]; rfl
  unfold pyInt
  rw [key]

/-- Upper-case letters are harmless for every test the parsers make. -/
theorem upper_facts {c : Char} (h : Upper c) : c.isDigit = false ∧ c ≠ '_' ∧ isSpace c = false ∧ c ≠ '-' ∧ c ≠ '+' := by
  obtain ⟨h1, h2⟩ := h
  have a1 : 'A'.toNat ≤ c.toNat := h1
  have a2 : c.toNat ≤ 'Z'.toNat := h2
  have key : ∀ d : Char, (d.toNat < 65 ∨ 90 < d.toNat) → c ≠ d := by
    rintro d hd rfl
    have : 'A'.toNat = 65 := rfl
    have : 'Z'.toNat = 90 := rfl
    omega
  refine ⟨?_, key _ (by decide), ?_, key _ (by decide), key _ (by decide)⟩
  · by_contra hd
    simp only [Bool.not_eq_false, Char.isDigit, Bool.and_eq_true, decide_eq_true_eq] at hd
    have : c.toNat ≤ 57 := hd.2
    have : 'A'.toNat = 65 := rfl
    omega
  · have k1 := key ' ' (by decide)
    have k2 := key '\t' (by decide)
    have k3 := key '\n' (by decide)
    have k4 := key '\r' (by decide)
    have k5 := key '\x0b' (by decide)
    have k6 := key '\x0c' (by decide)
    simp [isSpace, k1, k2, k3, k4, k5, k6]

theorem upper_char {c : Char} (h : Upper c) {d : Char} (hd : d.toNat < 65 ∨ 90 < d.toNat) : c ≠ d := by
  rintro rfl
  have a1 : 'A'.toNat ≤ c.toNat := h.1
  have a2 : c.toNat ≤ 'Z'.toNat := h.2
  have : 'A'.toNat = 65 := rfl
  have : 'Z'.toNat = 90 := rfl
  omega

end Verif.Mpc
