import Verif.Mpc.Lemmas

/-! # Designation properties C11 – C15, C74 -/

namespace Verif.Mpc.Props

open Verif Verif.Mpc Verif.Mpc.Spec

private theorem packNumbered_nat (n : Nat) : packNumbered (dec n) =
    if n > 15396335 then .error .valueError
    else if n ≤ 99999 then .ok (zfill 5 (dec n))
    else if n ≤ 619999 then (b62 (n / 10000)).bind fun c => .ok (c :: zfill 4 (dec (n % 10000)))
    else .ok ('~' :: zfill 4 (b62Low (n - 620000)).reverse) := by
  unfold packNumbered
  rw [pyInt_dec]
  simp only [bind, Except.bind, pure, Except.pure, throw, throwThe, MonadExceptOf.throw]
  have e1 : ((n : Int) > 15396335) ↔ n > 15396335 := by omega
  have e2 : ((n : Int) ≤ 99999) ↔ n ≤ 99999 := by omega
  simp only [e1, e2]
  by_cases h1 : n > 15396335
  · simp [h1]
  · by_cases h2 : n ≤ 99999
    · simp [h1, h2, fmt0_nat]
    · by_cases h3 : n ≤ 619999
      · have e3 : ((n : Int) ≥ 100000 ∧ (n : Int) ≤ 619999) := by omega
        have e4 : ((n : Int) / 10000).toNat = n / 10000 := by omega
        have e5 : (n : Int) % 10000 = ((n % 10000 : Nat) : Int) := by omega
        simp only [h1, h2, h3, if_false, if_true, e3, e4, e5, fmt0_nat, and_self]
      · have e3 : ¬ ((n : Int) ≥ 100000 ∧ (n : Int) ≤ 619999) := by omega
        have e4 : ((n : Int) - 620000).toNat = n - 620000 := by omega
        simp only [h1, h2, h3, if_false, e3, e4]

private theorem unpackNumbered_tilde {rest : Str} {m : Nat} (h : b62Sum rest = .ok m) :
    unpackNumbered ('~' :: rest) = .ok (dec (620000 + m)) := by
  have hd : isDecimal ('~' :: rest) = false := by simp [isDecimal]
  unfold unpackNumbered
  simp only [hd, h, bind, Except.bind, pure, Except.pure, Bool.false_eq_true, if_false, if_true]

private theorem unpackNumbered_letter {c : Char} {rest : Str} {v : Nat} (h1 : c.isDigit = false) (h2 : c ≠ '~')
    (h3 : b62Map c = .ok v) :
    unpackNumbered (c :: rest) = (pyInt rest).bind fun n => .ok (decInt ((v : Int) * 10000 + n)) := by
  have hd : isDecimal (c :: rest) = false := by simp [isDecimal, h1]
  unfold unpackNumbered
  simp only [hd, h2, h3, bind, Except.bind, pure, Except.pure, Bool.false_eq_true, if_false]

private theorem tilde_bound {n : Nat} (h : n ≤ 15396335) : n - 620000 < 62 ^ 4 := by
  have e : 62 ^ 4 = 14776336 := by norm_num
  rw [e]
  omega

private theorem zfill_length {w : Nat} {s : Str} (h : s.length ≤ w) : (zfill w s).length = w := by
  simp only [zfill, List.length_append, List.length_replicate]
  omega

/-- C11. Every number up to 15396335 packs to five characters, in the published format, and unpacks to its decimal text. -/
theorem C11_numbered_round_trip (n : Nat) (h : n ≤ 15396335) :
    ∃ s, packNumbered (text n) = .ok s ∧ s.length = 5 ∧ unpackNumbered s = .ok (text n) := by
  rw [text_eq, packNumbered_nat]
  by_cases h2 : n ≤ 99999
  · refine ⟨zfill 5 (dec n), by rw [if_neg (by omega), if_pos h2], length_zfill_dec (by omega) (Nat.lt_of_le_of_lt h2 (by norm_num)), ?_⟩
    unfold unpackNumbered
    rw [isDecimal_digits (digits_zfill (digits_dec n)) (zfill_ne_nil (dec_ne_nil n)), pyInt_zfill_dec]
    simp [bind, Except.bind, pure, Except.pure, decInt_nat]
  · by_cases h3 : n ≤ 619999
    · obtain ⟨c, c1, c2, c3, c4, c5, c6, c7⟩ := b62_ok (n := n / 10000) (by omega)
      refine ⟨c :: zfill 4 (dec (n % 10000)), by rw [if_neg (by omega), if_neg h2, if_pos h3, c1]; rfl, ?_, ?_⟩
      · simp [length_zfill_dec (w := 4) (n := n % 10000) (by omega) (by omega)]
      · rw [unpackNumbered_letter (c5 (by omega)) c7 c3, pyInt_zfill_dec]
        have : ((n / 10000 : Nat) : Int) * 10000 + ((n % 10000 : Nat) : Int) = (n : Int) := by omega
        simp only [Except.bind]
        rw [this, decInt_nat]
    · refine ⟨'~' :: zfill 4 (b62Low (n - 620000)).reverse, by rw [if_neg (by omega), if_neg h2, if_neg h3], ?_, ?_⟩
      · have := length_low (x := n - 620000) (k := 4) (tilde_bound h)
        rw [List.length_cons, zfill_length (by simpa using this)]
      · have e : 620000 + (n - 620000) = n := Nat.add_sub_cancel' (by omega)
        have hs : b62Sum (zfill 4 (b62Low (n - 620000)).reverse) = .ok (n - 620000) := by
          rw [zfill, b62Sum_zeros, b62Sum_low]
        rw [unpackNumbered_tilde hs, e]

/-- C11, format: below 100000 the text is decimal; up to 619999 the first character is the base-62 digit of `n / 10000`
and the rest the four digits of `n % 10000`; above, a tilde is followed by the four base-62 digits of `n - 620000`. -/
theorem C11_numbered_format (n : Nat) (h : n ≤ 15396335) :
    (n < 100000 → ∃ s, packNumbered (text n) = .ok s ∧ Nat.ofDigitChars 10 s 0 = n ∧ ∀ c ∈ s, c.isDigit = true) ∧
    (100000 ≤ n ∧ n < 620000 → ∃ c ds, packNumbered (text n) = .ok (c :: ds) ∧ value62 c = some (n / 10000) ∧
      ds.length = 4 ∧ Nat.ofDigitChars 10 ds 0 = n % 10000 ∧ ∀ d ∈ ds, d.isDigit = true) ∧
    (620000 ≤ n → ∃ cs, packNumbered (text n) = .ok ('~' :: cs) ∧ cs.length = 4 ∧ b62Sum cs = .ok (n - 620000)) := by
  rw [text_eq, packNumbered_nat]
  refine ⟨fun h1 => ?_, fun h1 => ?_, fun h1 => ?_⟩
  · exact ⟨zfill 5 (dec n), by rw [if_neg (by omega), if_pos (by omega)], ofDigits_zfill_dec _ _,
      digits_zfill (digits_dec n)⟩
  · obtain ⟨c, c1, _, _, c4, _⟩ := b62_ok (n := n / 10000) (by omega)
    refine ⟨c, zfill 4 (dec (n % 10000)), ?_, c4, length_zfill_dec (by omega) (by omega), ofDigits_zfill_dec _ _,
      digits_zfill (digits_dec _)⟩
    rw [if_neg (by omega), if_neg (by omega), if_pos (by omega), c1]
    rfl
  · refine ⟨zfill 4 (b62Low (n - 620000)).reverse, ?_, ?_, ?_⟩
    · rw [if_neg (by omega), if_neg (by omega), if_neg (by omega)]
    · have := length_low (x := n - 620000) (k := 4) (tilde_bound h)
      exact zfill_length (by simpa using this)
    · rw [zfill, b62Sum_zeros, b62Sum_low]

/-- C11: different numbers have different packed forms. -/
theorem C11_numbered_injective (m n : Nat) (hm : m ≤ 15396335) (hn : n ≤ 15396335)
    (h : packNumbered (text m) = packNumbered (text n)) : m = n := by
  obtain ⟨s, h1, _, h2⟩ := C11_numbered_round_trip m hm
  obtain ⟨s', h1', _, h2'⟩ := C11_numbered_round_trip n hn
  rw [h1, h1'] at h
  simp only [Except.ok.injEq] at h
  subst h
  rw [h2] at h2'
  simp only [Except.ok.injEq, text_eq] at h2'
  have e1 := Nat.ofDigitChars_toDigits (b := 10) (n := m) (by omega) (by omega)
  have e2 := Nat.ofDigitChars_toDigits (b := 10) (n := n) (by omega) (by omega)
  unfold dec at h2'
  rw [← e1, ← e2, h2']

/-- C11: larger numbers are rejected. -/
theorem C11_numbered_rejects (n : Nat) (h : 15396335 < n) : packNumbered (text n) = .error .valueError := by
  rw [text_eq, packNumbered_nat, if_pos (by omega)]

example : packNumbered (text 620061) = .ok "~000z".toList ∧ packNumbered (text 360017) = .ok "a0017".toList := by
  decide +kernel

/-! ## C12 -/

private theorem dec4 {y : Nat} (h1 : 1000 ≤ y) (h2 : y ≤ 9999) : dec y =
    [Nat.digitChar (y / 1000), Nat.digitChar (y / 100 % 10), Nat.digitChar (y / 10 % 10), Nat.digitChar (y % 10)] := by
  unfold dec
  rw [Nat.toDigits_of_base_le (by omega) (by omega : 10 ≤ y),
    Nat.toDigits_of_base_le (by omega) (by omega : 10 ≤ y / 10),
    Nat.toDigits_of_base_le (by omega) (by omega : 10 ≤ y / 10 / 10),
    Nat.toDigits_of_lt_base (by omega : y / 10 / 10 / 10 < 10)]
  have e1 : y / 10 / 10 / 10 = y / 1000 := by omega
  have e2 : y / 10 / 10 % 10 = y / 100 % 10 := by omega
  rw [e1, e2]
  rfl

private theorem zfill2 {c : Nat} (h : c ≤ 99) : zfill 2 (dec c) = [Nat.digitChar (c / 10), Nat.digitChar (c % 10)] := by
  unfold dec zfill
  by_cases h1 : c < 10
  · rw [Nat.toDigits_of_lt_base h1]
    have : c / 10 = 0 := by omega
    rw [this, Nat.mod_eq_of_lt h1]
    rfl
  · rw [Nat.toDigits_of_base_le (by omega) (by omega : 10 ≤ c), Nat.toDigits_of_lt_base (by omega : c / 10 < 10)]
    rfl

private theorem pyInt_two {a b : Nat} (ha : a < 10) (hb : b < 10) :
    pyInt [Nat.digitChar a, Nat.digitChar b] = .ok ((a * 10 + b : Nat) : Int) := by
  have hd : Digits [Nat.digitChar a, Nat.digitChar b] := by
    intro c hc
    simp only [List.mem_cons, List.not_mem_nil, or_false] at hc
    rcases hc with rfl | rfl <;> simp [Nat.isDigit_digitChar, ha, hb]
  rw [pyInt_digits hd (by simp), Nat.ofDigitChars_cons_digitChar_of_lt_ten ha,
    Nat.ofDigitChars_cons_digitChar_of_lt_ten hb, Nat.ofDigitChars_nil]
  congr 2
  omega

private theorem map_digit {k : Nat} (h : k < 10) : b62Map (Nat.digitChar k) = .ok k := by
  obtain ⟨c, _, _, c3, _, _, c6, _⟩ := b62_ok (n := k) (by omega)
  rw [← c6 h]; exact c3

/-- What packing a valid provisional designation produces, character by character. -/
private theorem packProvisional_text (p : Prov) (hp : p.Valid) : ∃ c0 k1 k2, packProvisional p.text =
      .ok [c0, Nat.digitChar (p.year / 10 % 10), Nat.digitChar (p.year % 10), p.letter1, k1, k2, p.letter2] ∧
      b62Map c0 = .ok (p.year / 100) ∧ 10 ≤ p.year / 100 ∧ c0.isDigit = false ∧ c0 ≠ '~' ∧
      b62Map k1 = .ok (p.cycle / 10) ∧ b62Map k2 = .ok (p.cycle % 10) := by
  obtain ⟨hy1, hy2, hl1, hI, hZ, hl2, hc⟩ := hp
  obtain ⟨year, l1, l2, cyc⟩ := p
  simp only at *
  obtain ⟨c0, c1, _, c3, _, c5, _, c7⟩ := b62_ok (n := year / 100) (by omega)
  obtain ⟨u1, u2, u3, u4, u5⟩ := upper_facts hl1
  obtain ⟨v1, v2, v3, v4, v5⟩ := upper_facts hl2
  have hcyc : ∃ rest, (if cyc = 0 then [] else Spec.text cyc) = rest ∧ ('-' : Char) ∉ rest ∧
      ∃ k1 k2, packCycle rest = .ok [k1, k2] ∧
        b62Map k1 = .ok (cyc / 10) ∧ b62Map k2 = .ok (cyc % 10) := by
    by_cases h0 : cyc = 0
    · subst h0
      refine ⟨[], rfl, by simp, '0', '0', rfl, by decide, by decide⟩
    · refine ⟨dec cyc, by rw [if_neg h0, text_eq], ?_, ?_⟩
      · intro hm
        exact absurd (digits_dec cyc _ hm) (by decide)
      · have hl : (dec cyc).length > 0 := List.length_pos_iff.mpr (dec_ne_nil cyc)
        simp only [packCycle, hl, if_true, pyInt_dec, bind, Except.bind, pure, Except.pure]
        by_cases h99 : cyc ≤ 99
        · refine ⟨_, _, ?_, map_digit (k := cyc / 10) (by omega), map_digit (k := cyc % 10) (by omega)⟩
          have : (cyc : Int) ≤ 99 := by omega
          simp only [this, if_true, decInt_nat, zfill2 h99]
        · obtain ⟨b, b1, _, b3, _⟩ := b62_ok (n := cyc / 10) (by omega)
          refine ⟨b, _, ?_, b3, map_digit (k := cyc % 10) (by omega)⟩
          have e0 : ¬ (cyc : Int) ≤ 99 := by omega
          have e1 : ((cyc : Int) / 10).toNat = cyc / 10 := by omega
          have e2 : (cyc : Int) % 10 = ((cyc % 10 : Nat) : Int) := by omega
          simp only [e0, if_false, e1, e2, b1, decInt_nat]
          unfold dec
          rw [Nat.toDigits_of_lt_base (Nat.mod_lt _ (by omega))]
  obtain ⟨rest, hr, hdash, k1, k2, hk, m1, m2⟩ := hcyc
  refine ⟨c0, k1, k2, ?_, c3, by omega, c5 (by omega), c7, m1, m2⟩
  simp only [Prov.text]
  rw [hr, text_eq, dec4 hy1 (by omega)]
  unfold packProvisional
  simp only [List.cons_append, List.nil_append, List.length_cons, List.take_succ_cons, List.take_zero,
    List.drop_succ_cons, List.drop_zero, List.getElem?_cons_succ, List.getElem?_cons_zero]
  have t1 : isDecimal [Nat.digitChar (year / 1000), Nat.digitChar (year / 100 % 10), Nat.digitChar (year / 10 % 10)]
      = true := by
    apply isDecimal_digits _ (by simp)
    intro c hc
    simp only [List.mem_cons, List.not_mem_nil, or_false] at hc
    rcases hc with rfl | rfl | rfl <;> simp [Nat.isDigit_digitChar] <;> omega
  have t2 : (Nat.digitChar (year / 1000) :: Nat.digitChar (year / 100 % 10) :: Nat.digitChar (year / 10 % 10) ::
      Nat.digitChar (year % 10) :: ' ' :: l1 :: l2 :: rest).contains '-' = false := by
    rw [List.contains_eq_mem, decide_eq_false_iff_not]
    intro hm
    have nd : ∀ k : Nat, k < 10 → '-' ≠ Nat.digitChar k := by
      intro k hk he
      have : (Nat.digitChar k).isDigit = true := by simp [Nat.isDigit_digitChar, hk]
      rw [← he] at this
      exact absurd this (by decide)
    simp only [List.mem_cons] at hm
    rcases hm with h | h | h | h | h | h | h | h
    · exact nd _ (by omega) h
    · exact nd _ (by omega) h
    · exact nd _ (by omega) h
    · exact nd _ (by omega) h
    · exact absurd h (by decide)
    · exact u4 h.symm
    · exact v4 h.symm
    · exact hdash h
  have t3 : pyInt [Nat.digitChar (year / 1000), Nat.digitChar (year / 100 % 10)] = .ok ((year / 100 : Nat) : Int) := by
    rw [pyInt_two (by omega) (by omega)]
    congr 2
    omega
  have t4 : isDecimal [l1] = false := by simp [isDecimal, u1]
  have t5 : isDecimal [l2] = false := by simp [isDecimal, v1]
  have t6 : ¬ (rest.length + 1 + 1 + 1 + 1 + 1 + 1 + 1 < 6) := by omega
  rw [t1, t2, t3]
  simp only [t4, t5, t6, if_false, Bool.not_true, Bool.false_eq_true, ne_eq, not_true_eq_false, bind, Except.bind,
    pure, Except.pure, Int.toNat_natCast, c1, hI, hZ, or_self, Bool.or_self]
  rw [hk]
  rfl

/-- C12. Every well-formed provisional designation packs to seven characters and unpacks to itself. -/
theorem C12_provisional_round_trip (p : Prov) (hp : p.Valid) :
    ∃ s, packProvisional p.text = .ok s ∧ s.length = 7 ∧ unpackProvisional s = .ok p.text := by
  obtain ⟨c0, k1, k2, h1, h2, h3, _, _, h6, h7⟩ := packProvisional_text p hp
  refine ⟨_, h1, rfl, ?_⟩
  obtain ⟨hy1, hy2, hl1, hI, hZ, hl2, hc⟩ := hp
  have hd1 : isDecimal [Nat.digitChar (p.year / 10 % 10)] = true := by
    simp [isDecimal, Nat.isDigit_digitChar]; omega
  have hd2 : isDecimal [Nat.digitChar (p.year % 10)] = true := by
    simp [isDecimal, Nat.isDigit_digitChar]; omega
  have t4 : isDecimal [p.letter1] = false := by simp [isDecimal, (upper_facts hl1).1]
  have t5 : isDecimal [p.letter2] = false := by simp [isDecimal, (upper_facts hl2).1]
  have t3 := pyInt_two (a := p.year / 10 % 10) (b := p.year % 10) (by omega) (by omega)
  unfold unpackProvisional
  simp only [hd1, hd2, t4, t5, h2, h6, h7, t3, bind, Except.bind, pure, Except.pure, Bool.not_true, Bool.or_self,
    if_false, Bool.false_eq_true]
  have e1 : ((p.year / 100 : Nat) : Int) * 100 + ((p.year / 10 % 10 * 10 + p.year % 10 : Nat) : Int) = (p.year : Int) := by
    omega
  have e2 : p.cycle / 10 * 10 + p.cycle % 10 = p.cycle := by omega
  rw [e1, e2, decInt_nat]
  simp only [Prov.text, text_eq]

/-- C12: packing is injective on well-formed designation texts. -/
theorem C12_provisional_injective (p q : Prov) (hp : p.Valid) (hq : q.Valid)
    (h : packProvisional p.text = packProvisional q.text) : p.text = q.text := by
  obtain ⟨s, h1, _, h2⟩ := C12_provisional_round_trip p hp
  obtain ⟨s', h1', _, h2'⟩ := C12_provisional_round_trip q hq
  rw [h1, h1'] at h
  simp only [Except.ok.injEq] at h
  subst h
  rw [h2] at h2'
  simpa using h2'

/-- C12: the packed characters are the base-62 century, two year digits, the half-month letter, the two cycle characters
(base-62 tens, decimal units) and the second letter. -/
theorem C12_provisional_format (p : Prov) (hp : p.Valid) : ∃ c0 k1 k2, packProvisional p.text =
      .ok [c0, Nat.digitChar (p.year / 10 % 10), Nat.digitChar (p.year % 10), p.letter1, k1, k2, p.letter2] ∧
      b62Map c0 = .ok (p.year / 100) ∧ b62Map k1 = .ok (p.cycle / 10) ∧ b62Map k2 = .ok (p.cycle % 10) := by
  obtain ⟨c0, k1, k2, h1, h2, _, _, _, h6, h7⟩ := packProvisional_text p hp
  exact ⟨c0, k1, k2, h1, h2, h6, h7⟩

/-- A well-formed designation and its packed form. -/
example : (⟨1998, 'S', 'S', 162⟩ : Prov).Valid ∧
    packProvisional (⟨1998, 'S', 'S', 162⟩ : Prov).text = .ok "J98SG2S".toList := by
  refine ⟨by simp [Prov.Valid, Upper], by decide +kernel⟩

/-! ## C13 -/

private theorem fourDigits_facts {ds : Str} (h : FourDigits ds) : Digits ds ∧ ds ≠ [] ∧
    ∃ a b c d, ds = [a, b, c, d] := by
  obtain ⟨h1, h2⟩ := h
  refine ⟨fun c hc => ?_, by rintro rfl; simp at h1, ?_⟩
  · obtain ⟨q1, q2⟩ := h2 c hc
    simp only [Char.isDigit, Bool.and_eq_true, decide_eq_true_eq]
    exact ⟨q1, q2⟩
  · match ds, h1 with
    | [a, b, c, d], _ => exact ⟨a, b, c, d, rfl⟩

private theorem digitChar_of_isDigit {c : Char} (h : c.isDigit = true) : ∃ k, k < 10 ∧ c = Nat.digitChar k := by
  simp only [Char.isDigit, Bool.and_eq_true, decide_eq_true_eq] at h
  have h1 : 48 ≤ c.toNat := h.1
  have h2 : c.toNat ≤ 57 := h.2
  refine ⟨c.toNat - 48, by omega, ?_⟩
  apply Char.ext
  apply UInt32.toNat_inj.mp
  have := Nat.toNat_digitChar_of_lt_ten (n := c.toNat - 48) (by omega)
  have e : c.val.toNat = c.toNat := rfl
  have e' : (Nat.digitChar (c.toNat - 48)).val.toNat = (Nat.digitChar (c.toNat - 48)).toNat := rfl
  rw [e, e', this]
  omega

/-- Decimal texts without a leading zero are canonical. -/
private theorem dec_ofDigits {a b c d : Char} (h : Digits [a, b, c, d]) (h0 : a ≠ '0') :
    dec (Nat.ofDigitChars 10 [a, b, c, d] 0) = [a, b, c, d] ∧ Nat.ofDigitChars 10 [a, b, c, d] 0 < 10000 := by
  obtain ⟨a', ha, rfl⟩ := digitChar_of_isDigit (h a (by simp))
  obtain ⟨b', hb, rfl⟩ := digitChar_of_isDigit (h b (by simp))
  obtain ⟨c', hc, rfl⟩ := digitChar_of_isDigit (h c (by simp))
  obtain ⟨d', hd, rfl⟩ := digitChar_of_isDigit (h d (by simp))
  have ha0 : a' ≠ 0 := by rintro rfl; exact h0 rfl
  rw [Nat.ofDigitChars_cons_digitChar_of_lt_ten ha, Nat.ofDigitChars_cons_digitChar_of_lt_ten hb,
    Nat.ofDigitChars_cons_digitChar_of_lt_ten hc, Nat.ofDigitChars_cons_digitChar_of_lt_ten hd, Nat.ofDigitChars_nil]
  refine ⟨?_, by omega⟩
  rw [dec4 (by omega) (by omega)]
  congr 1
  · congr 1; omega
  congr 1
  · congr 1; omega
  congr 1
  · congr 1; omega
  congr 1
  congr 1; omega

private theorem packSurvey_text (ds : Str) (s : Survey) (h : FourDigits ds) : ∃ k1 k2, packSurvey (surveyText ds s) =
    .ok (k1 :: k2 :: 'S' :: ds) ∧ Upper k1 ∧ (k2.isDigit = true ∨ Upper k2) ∧
    unpackSurvey (k1 :: k2 :: 'S' :: ds) = .ok (decInt (Nat.ofDigitChars 10 ds 0 : Nat) ++ [' '] ++ s.text) := by
  obtain ⟨hd, hne, a, b, c, d, rfl⟩ := fourDigits_facts h
  have hz : zfill 4 [a, b, c, d] = [a, b, c, d] := by simp [zfill]
  have hi := pyInt_digits hd hne
  cases s with
  | PL =>
    refine ⟨'P', 'L', ?_, by decide, by decide, ?_⟩
    · simp [packSurvey, surveyText, Survey.text, hz, pure, Except.pure]
    · simp [unpackSurvey, hi, bind, Except.bind, pure, Except.pure, Survey.text]
  | T1 =>
    refine ⟨'T', '1', ?_, by decide, by decide, ?_⟩
    · simp [packSurvey, surveyText, Survey.text, hz, pure, Except.pure]
    · simp [unpackSurvey, hi, bind, Except.bind, pure, Except.pure, Survey.text]
  | T2 =>
    refine ⟨'T', '2', ?_, by decide, by decide, ?_⟩
    · simp [packSurvey, surveyText, Survey.text, hz, pure, Except.pure]
    · simp [unpackSurvey, hi, bind, Except.bind, pure, Except.pure, Survey.text]
  | T3 =>
    refine ⟨'T', '3', ?_, by decide, by decide, ?_⟩
    · simp [packSurvey, surveyText, Survey.text, hz, pure, Except.pure]
    · simp [unpackSurvey, hi, bind, Except.bind, pure, Except.pure, Survey.text]

/-- Survey designations whose number has no leading zero survive both round trips. -/
theorem C13_no_leading_zero (ds : Str) (s : Survey) (h : FourDigits ds) (h0 : ds.head? ≠ some '0') :
    ∃ pf, packSurvey (surveyText ds s) = .ok pf ∧ pf.length = 7 ∧ unpackSurvey pf = .ok (surveyText ds s) ∧
      (unpackSurvey pf).bind packSurvey = .ok pf := by
  obtain ⟨k1, k2, h1, _, _, h4⟩ := packSurvey_text ds s h
  obtain ⟨hd, hne, a, b, c, d, rfl⟩ := fourDigits_facts h
  have ha : a ≠ '0' := by simpa using h0
  have e : unpackSurvey (k1 :: k2 :: 'S' :: [a, b, c, d]) = .ok (surveyText [a, b, c, d] s) := by
    rw [h4, decInt_nat, (dec_ofDigits hd ha).1]
    rfl
  exact ⟨_, h1, rfl, e, by rw [e]; exact h1⟩

private theorem packSurvey_short : ∀ n : Fin 1000,
    packSurvey (decInt (n.val : Nat) ++ [' '] ++ "P-L".toList) = .error .valueError ∧
    packSurvey (decInt (n.val : Nat) ++ [' '] ++ "T-1".toList) = .error .valueError ∧
    packSurvey (decInt (n.val : Nat) ++ [' '] ++ "T-2".toList) = .error .valueError ∧
    packSurvey (decInt (n.val : Nat) ++ [' '] ++ "T-3".toList) = .error .valueError := by
  decide +kernel

private theorem ofDigits_short {b c d : Char} (h : Digits ['0', b, c, d]) :
    Nat.ofDigitChars 10 ['0', b, c, d] 0 < 1000 := by
  obtain ⟨b', hb, rfl⟩ := digitChar_of_isDigit (h b (by simp))
  obtain ⟨c', hc, rfl⟩ := digitChar_of_isDigit (h c (by simp))
  obtain ⟨d', hd, rfl⟩ := digitChar_of_isDigit (h d (by simp))
  rw [show '0' = Nat.digitChar 0 from rfl, Nat.ofDigitChars_cons_digitChar_of_lt_ten (by omega),
    Nat.ofDigitChars_cons_digitChar_of_lt_ten hb, Nat.ofDigitChars_cons_digitChar_of_lt_ten hc,
    Nat.ofDigitChars_cons_digitChar_of_lt_ten hd, Nat.ofDigitChars_nil]
  omega

/-- C13: every survey designation packs into seven characters; unpacking returns the original text exactly if the number
has no leading zero, and exactly then the unpacked text packs again, into the same seven characters. With a leading zero
the unpacked text is refused. -/
theorem C13_survey_round_trip (ds : Str) (s : Survey) (h : FourDigits ds) :
    ∃ pf, packSurvey (surveyText ds s) = .ok pf ∧ pf.length = 7 ∧
      (unpackSurvey pf = .ok (surveyText ds s) ↔ ds.head? ≠ some '0') ∧
      (ds.head? ≠ some '0' → (unpackSurvey pf).bind packSurvey = .ok pf) ∧
      (ds.head? = some '0' → (unpackSurvey pf).bind packSurvey = .error .valueError) := by
  by_cases h0 : ds.head? = some '0'
  · obtain ⟨k1, k2, h1, _, _, h4⟩ := packSurvey_text ds s h
    obtain ⟨hd, hne, a, b, c, d, rfl⟩ := fourDigits_facts h
    obtain rfl : a = '0' := by simpa using h0
    have hlt := ofDigits_short hd
    have hp : (unpackSurvey (k1 :: k2 :: 'S' :: ['0', b, c, d])).bind packSurvey = .error .valueError := by
      rw [h4]
      have := packSurvey_short ⟨_, hlt⟩
      cases s with
      | PL => exact this.1
      | T1 => exact this.2.1
      | T2 => exact this.2.2.1
      | T3 => exact this.2.2.2
    refine ⟨_, h1, rfl, ⟨fun e => ?_, fun e => absurd h0 e⟩, fun e => absurd h0 e, fun _ => hp⟩
    rw [e] at hp
    have : packSurvey (surveyText ['0', b, c, d] s) = .error .valueError := hp
    rw [h1] at this
    cases this
  · obtain ⟨pf, h1, h2, h3, h4⟩ := C13_no_leading_zero ds s h h0
    exact ⟨pf, h1, h2, ⟨fun _ => h0, fun _ => h3⟩, fun _ => h4, fun e => absurd e h0⟩

/-- C13 fails as stated: a leading zero is lost on unpacking, and the unpacked text can then not be packed again. -/
theorem C13_leading_zero_lost : ∃ pf, packSurvey "0123 P-L".toList = .ok pf ∧
    unpackSurvey pf = .ok "123 P-L".toList ∧ packSurvey "123 P-L".toList = .error .valueError :=
  ⟨"PLS0123".toList, by decide +kernel, by decide +kernel, by decide +kernel⟩

example : FourDigits "2040".toList ∧ "2040".toList.head? ≠ some '0' := by
  refine ⟨⟨rfl, ?_⟩, by decide⟩
  decide

/-! ## C14 -/

/-- C14 fails as stated: other exceptions escape from both dispatchers. -/
theorem C14_other_exceptions :
    packMpc "1995 X".toList = .error .indexError ∧ packMpc "1995 XA620".toList = .error .indexError ∧
    packMpc "6200 XA".toList = .error .indexError ∧ packMpc "3138 T-".toList = .error .indexError ∧
    unpackMpc [] = .error .indexError ∧ unpackMpc "-0005".toList = .error .keyError ∧
    unpackMpc "~00-0".toList = .error .keyError := by
  decide +kernel

private theorem pyInt_err {s : Str} {e : PyErr} (h : pyInt s = .error e) : e = .valueError := by
  unfold pyInt at h
  split at h <;> simp_all

private theorem b62_err {n : Nat} {e : PyErr} (h : b62 n = .error e) : e = .indexError := by
  unfold b62 at h
  split at h <;> simp_all

private theorem b62Map_err {c : Char} {e : PyErr} (h : b62Map c = .error e) : e = .keyError := by
  unfold b62Map at h
  split at h <;> simp_all

private theorem b62Sum_err {s : Str} {e : PyErr} (h : b62Sum s = .error e) : e = .keyError := by
  induction s with
  | nil => cases h
  | cons c cs ih =>
    simp only [b62Sum, bind, Except.bind] at h
    cases h1 : b62Map c with
    | error e1 =>
      rw [h1] at h
      simp only [Except.error.injEq] at h
      subst h
      exact b62Map_err h1
    | ok v =>
      rw [h1] at h
      cases h2 : b62Sum cs with
      | error e2 =>
        rw [h2] at h
        simp only [Except.error.injEq] at h
        subst h
        exact ih h2
      | ok r => rw [h2] at h; cases h

private theorem packCycle_err {s : Str} {e : PyErr} (h : packCycle s = .error e) :
    e = .valueError ∨ e = .indexError := by
  unfold packCycle at h
  split at h
  · cases h1 : pyInt s with
    | error e1 =>
      simp only [h1, bind, Except.bind, Except.error.injEq] at h
      subst h; exact Or.inl (pyInt_err h1)
    | ok n =>
      simp only [h1, bind, Except.bind, pure, Except.pure] at h
      split at h
      · cases h
      · cases h2 : b62 (n / 10).toNat with
        | error e2 =>
          simp only [h2, Except.error.injEq] at h
          subst h; exact Or.inr (b62_err h2)
        | ok c => simp only [h2] at h; cases h
  · cases h

private theorem tryValue_err {x y : Except PyErr Str} {e : PyErr} (h : tryValue x y = .error e) :
    (x = .error e ∧ e ≠ .valueError) ∨ y = .error e := by
  unfold tryValue at h
  split at h
  · exact Or.inr h
  · rename_i hne
    left
    refine ⟨h, ?_⟩
    rintro rfl
    exact hne h

/-- C14, what holds: the dispatchers only ever fail with ValueError, IndexError or KeyError, and unpacking raises
IndexError only for the empty text. -/
theorem C14_errors (d : Str) (e : PyErr) :
    (packMpc d = .error e → e = .valueError ∨ e = .indexError) ∧
    (unpackMpc d = .error e → e = .valueError ∨ e = .keyError ∨ (e = .indexError ∧ d = [])) := by
  have hN : ∀ e, packNumbered d = .error e → e = .valueError ∨ e = .indexError := by
    intro e h
    unfold packNumbered at h
    cases h1 : pyInt d with
    | error e1 =>
      simp only [h1, bind, Except.bind, Except.error.injEq] at h
      subst h; exact Or.inl (pyInt_err h1)
    | ok n =>
      simp only [h1, bind, Except.bind, pure, Except.pure, throw, throwThe, MonadExceptOf.throw] at h
      split at h
      · simp only [Except.error.injEq] at h; exact Or.inl h.symm
      · split at h
        · cases h
        · split at h
          · cases h2 : b62 (n / 10000).toNat with
            | error e2 =>
              simp only [h2, Except.error.injEq] at h
              subst h; exact Or.inr (b62_err h2)
            | ok c => simp only [h2] at h; cases h
          · cases h
  have hP : ∀ e, packProvisional d = .error e → e = .valueError ∨ e = .indexError := by
    intro e h
    unfold packProvisional at h
    simp only [bind, Except.bind, pure, Except.pure, throw, throwThe, MonadExceptOf.throw] at h
    split at h
    · simp only [Except.error.injEq] at h; exact Or.inl h.symm
    split at h
    · simp only [Except.error.injEq] at h; exact Or.inl h.symm
    split at h
    · simp only [Except.error.injEq] at h; exact Or.inl h.symm
    split at h
    · simp only [Except.error.injEq] at h; exact Or.inl h.symm
    split at h
    · rename_i h1; simp only [Except.error.injEq] at h; subst h; exact Or.inl (pyInt_err h1)
    split at h
    · rename_i h1; simp only [Except.error.injEq] at h; subst h; exact Or.inr (b62_err h1)
    split at h
    case h_2 => simp only [Except.error.injEq] at h; exact Or.inr h.symm
    split at h
    case h_2 => simp only [Except.error.injEq] at h; exact Or.inr h.symm
    split at h
    · simp only [Except.error.injEq] at h; exact Or.inl h.symm
    split at h
    · simp only [Except.error.injEq] at h; exact Or.inl h.symm
    split at h
    · rename_i h1; simp only [Except.error.injEq] at h; subst h; exact packCycle_err h1
    · cases h
  have hS : ∀ e, packSurvey d = .error e → e = .valueError ∨ e = .indexError := by
    intro e h
    unfold packSurvey at h
    simp only [pure, Except.pure, throw, throwThe, MonadExceptOf.throw] at h
    split at h
    · cases h
    split at h
    · split at h
      · simp only [Except.error.injEq] at h; exact Or.inr h.symm
      · split at h
        · cases h
        · simp only [Except.error.injEq] at h; exact Or.inl h.symm
    · simp only [Except.error.injEq] at h; exact Or.inl h.symm
  have uN : ∀ e, unpackNumbered d = .error e → e = .valueError ∨ e = .keyError ∨ (e = .indexError ∧ d = []) := by
    intro e h
    unfold unpackNumbered at h
    simp only [bind, Except.bind, pure, Except.pure, throw, throwThe, MonadExceptOf.throw] at h
    split at h
    · split at h
      · rename_i h1; simp only [Except.error.injEq] at h; subst h; exact Or.inl (pyInt_err h1)
      · cases h
    · split at h
      · simp only [Except.error.injEq] at h; exact Or.inr (Or.inr ⟨h.symm, rfl⟩)
      · split at h
        · split at h
          · rename_i h1; simp only [Except.error.injEq] at h; subst h; exact Or.inr (Or.inl (b62Sum_err h1))
          · cases h
        · split at h
          · rename_i h1; simp only [Except.error.injEq] at h; subst h; exact Or.inr (Or.inl (b62Map_err h1))
          · split at h
            · rename_i h1; simp only [Except.error.injEq] at h; subst h; exact Or.inl (pyInt_err h1)
            · cases h
  have uP : ∀ e, unpackProvisional d = .error e → e = .valueError ∨ e = .keyError ∨ (e = .indexError ∧ d = []) := by
    intro e h
    unfold unpackProvisional at h
    simp only [bind, Except.bind, pure, Except.pure, throw, throwThe, MonadExceptOf.throw] at h
    split at h
    · split at h
      · simp only [Except.error.injEq] at h; exact Or.inl h.symm
      split at h
      · rename_i h1; simp only [Except.error.injEq] at h; subst h; exact Or.inr (Or.inl (b62Map_err h1))
      split at h
      · rename_i h1; simp only [Except.error.injEq] at h; subst h; exact Or.inl (pyInt_err h1)
      split at h
      · simp only [Except.error.injEq] at h; exact Or.inl h.symm
      split at h
      · rename_i h1; simp only [Except.error.injEq] at h; subst h; exact Or.inr (Or.inl (b62Map_err h1))
      split at h
      · rename_i h1; simp only [Except.error.injEq] at h; subst h; exact Or.inr (Or.inl (b62Map_err h1))
      · cases h
    · simp only [Except.error.injEq] at h; exact Or.inl h.symm
  have uS : ∀ e, unpackSurvey d = .error e → e = .valueError ∨ e = .keyError ∨ (e = .indexError ∧ d = []) := by
    intro e h
    unfold unpackSurvey at h
    simp only [bind, Except.bind, pure, Except.pure, throw, throwThe, MonadExceptOf.throw] at h
    split at h
    · rename_i h1; simp only [Except.error.injEq] at h; subst h; exact Or.inl (pyInt_err h1)
    · repeat' split at h
      all_goals first
        | (simp only [Except.error.injEq] at h; exact Or.inl h.symm)
        | cases h
  constructor
  · intro h
    rcases tryValue_err h with ⟨h, _⟩ | h
    · exact hN _ h
    rcases tryValue_err h with ⟨h, _⟩ | h
    · exact hP _ h
    rcases tryValue_err h with ⟨h, _⟩ | h
    · exact hS _ h
    · simp only [Except.error.injEq] at h; exact Or.inl h.symm
  · intro h
    rcases tryValue_err h with ⟨h, _⟩ | h
    · exact uN _ h
    rcases tryValue_err h with ⟨h, _⟩ | h
    · exact uP _ h
    rcases tryValue_err h with ⟨h, _⟩ | h
    · exact uS _ h
    · simp only [Except.error.injEq] at h; exact Or.inl h.symm

/-! ## C15, C74 -/

private theorem value_error_dispatch {d : Str} (h : pyInt d = .error .valueError) :
    packNumbered d = .error .valueError := by
  simp [packNumbered, h, bind, Except.bind]

/-- C15. The dispatchers route every valid designation of every family to its own encoder and decoder: packing then
unpacking returns the designation. -/
theorem C15_dispatch_round_trip (d : Str) (h : Valid d) : ∃ s, packMpc d = .ok s ∧ unpackMpc s = .ok d := by
  cases h with
  | numbered n h =>
    obtain ⟨s, h1, _, h2⟩ := C11_numbered_round_trip n h
    exact ⟨s, by simp [packMpc, tryValue, h1], by simp [unpackMpc, tryValue, h2]⟩
  | provisional p h =>
    obtain ⟨c0, k1, k2, h1, h2, h3, h4, h5, _, _⟩ := packProvisional_text p h
    obtain ⟨s, g1, _, g2⟩ := C12_provisional_round_trip p h
    rw [h1] at g1
    simp only [Except.ok.injEq] at g1
    subst g1
    obtain ⟨_, _, hl1, _, _, _, _⟩ := h
    obtain ⟨u1, u2, u3, u4, u5⟩ := upper_facts hl1
    have hn : packNumbered p.text = .error .valueError :=
      value_error_dispatch (pyInt_bad (c := p.letter1) (by simp [Prov.text]) u1 u2 u3 u4 u5)
    refine ⟨_, by rw [packMpc, hn]; simp only [tryValue]; rw [h1], ?_⟩
    have hun : unpackNumbered [c0, Nat.digitChar (p.year / 10 % 10), Nat.digitChar (p.year % 10), p.letter1, k1, k2,
        p.letter2] = .error .valueError := by
      rw [unpackNumbered_letter h4 h5 h2, pyInt_bad (c := p.letter1) (by simp) u1 u2 u3 u4 u5]
      rfl
    rw [unpackMpc, hun]
    simp only [tryValue]
    rw [g2]
  | survey ds s h h0 =>
    obtain ⟨k1, k2, h1, hk1, hk2, _⟩ := packSurvey_text ds s h
    obtain ⟨pf, g1, _, g2, _⟩ := C13_no_leading_zero ds s h h0
    rw [h1] at g1
    simp only [Except.ok.injEq] at g1
    subst g1
    obtain ⟨hd, hne, a, b, c, d, rfl⟩ := fourDigits_facts h
    have hdash : ('-' : Char) ∈ surveyText [a, b, c, d] s := by cases s <;> simp [surveyText, Survey.text]
    have hcap : ∃ u, u ∈ surveyText [a, b, c, d] s ∧ Upper u := by
      cases s
      · exact ⟨'P', by simp [surveyText, Survey.text], by decide⟩
      all_goals exact ⟨'T', by simp [surveyText, Survey.text], by decide⟩
    obtain ⟨u, hu, hu'⟩ := hcap
    obtain ⟨u1, u2, u3, u4, u5⟩ := upper_facts hu'
    have hn : packNumbered (surveyText [a, b, c, d] s) = .error .valueError :=
      value_error_dispatch (pyInt_bad hu u1 u2 u3 u4 u5)
    have hp : packProvisional (surveyText [a, b, c, d] s) = .error .valueError := by
      unfold packProvisional
      simp only [throw, throwThe, MonadExceptOf.throw, bind, Except.bind]
      split
      · rfl
      split
      · rfl
      split
      · rfl
      rw [if_pos (by simpa using hdash)]
    refine ⟨_, by rw [packMpc, hn]; simp only [tryValue]; rw [hp]; simp only; rw [h1], ?_⟩
    obtain ⟨s1, s2, s3, s4, s5⟩ := upper_facts (c := 'S') (by decide)
    obtain ⟨w1, _⟩ := upper_facts hk1
    have hmap : ∃ v, b62Map k1 = .ok v := by
      have : ∀ n : Fin 26, ∃ v : Fin 62, BASE62.idxOf? (Char.ofNat (65 + n.val)) = some v.val := by decide +kernel
      have a1 : 65 ≤ k1.toNat := hk1.1
      have a2 : k1.toNat ≤ 90 := hk1.2
      obtain ⟨v, hv⟩ := this ⟨k1.toNat - 65, by omega⟩
      have e : Char.ofNat (65 + (k1.toNat - 65)) = k1 := by
        rw [Nat.add_sub_cancel' a1, Char.ofNat_toNat]
      simp only [e] at hv
      exact ⟨v.val, by simp [b62Map, hv]⟩
    obtain ⟨v, hv⟩ := hmap
    have hun : unpackNumbered (k1 :: k2 :: 'S' :: [a, b, c, d]) = .error .valueError := by
      rw [unpackNumbered_letter w1 (upper_char hk1 (by decide)) hv, pyInt_bad (c := 'S') (by simp) s1 s2 s3 s4 s5]
      rfl
    have hup : unpackProvisional (k1 :: k2 :: 'S' :: [a, b, c, d]) = .error .valueError := by
      have : isDecimal ['S'] = false := by decide
      simp [unpackProvisional, this, bind, Except.bind, throw, throwThe, MonadExceptOf.throw]
    rw [unpackMpc, hun]
    simp only [tryValue]
    rw [hup]
    simp only
    rw [g2]

/-- C15: packed forms of different valid designations are different, also across families. -/
theorem C15_dispatch_injective (d d' : Str) (h : Valid d) (h' : Valid d') (he : packMpc d = packMpc d') : d = d' := by
  obtain ⟨s, h1, h2⟩ := C15_dispatch_round_trip d h
  obtain ⟨s', h1', h2'⟩ := C15_dispatch_round_trip d' h'
  rw [h1, h1'] at he
  simp only [Except.ok.injEq] at he
  subst he
  rw [h2] at h2'
  simpa using h2'

/-- C74 fails as stated: packing accepts texts whose packed form cannot be unpacked, or unpacks to something else. -/
theorem C74_accepts_garbage :
    packMpc "-5".toList = .ok "-0005".toList ∧ unpackMpc "-0005".toList = .error .keyError ∧
    packMpc "0195 XA".toList = .ok "195X00A".toList ∧ unpackMpc "195X00A".toList = .ok "195 XA".toList := by
  decide +kernel

/-- C74, what holds: on valid designations the packed form always unpacks, and re-packing gives the same packed form. -/
theorem C74_packed_unpacks (d : Str) (h : Valid d) :
    ∃ s, packMpc d = .ok s ∧ (unpackMpc s).bind packMpc = .ok s := by
  obtain ⟨s, h1, h2⟩ := C15_dispatch_round_trip d h
  exact ⟨s, h1, by rw [h2]; exact h1⟩

example : Valid "1998 SS162".toList ∧ Valid "2040 P-L".toList ∧ Valid "3140113".toList := by
  refine ⟨?_, ?_, ?_⟩
  · exact Valid.provisional ⟨1998, 'S', 'S', 162⟩ (by simp [Prov.Valid, Upper])
  · exact Valid.survey ['2', '0', '4', '0'] .PL ⟨rfl, by decide⟩ (by decide)
  · exact Valid.numbered 3140113 (by decide)

end Verif.Mpc.Props
