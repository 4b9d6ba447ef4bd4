import Verif.Dates.Lemmas

/-! # C128: packed dates -/

namespace Verif.Dates.Props

open Verif Verif.Dates Verif.F64

/-! ## Specification -/

/-- The packed form of a number below 32: the digits, then the capital letters. -/
def letter (n : Nat) : Char := "0123456789ABCDEFGHIJKLMNOPQRSTUV".toList.getD n '0'

/-- The packed form of a date: century, two digits of the year, month, day, digits of the fraction of the day. -/
def packed (year month day : Nat) (ds : List Nat) : List Char :=
  letter (year / 100) :: letter (year % 100 / 10) :: letter (year % 10) :: letter month :: letter day :: ds.map letter

/-- The time of day in microseconds. -/
def trueMicros (ds : List Nat) : ℚ := 86400000000 * fraction ds

/-! ## Lemmas -/

theorem digit32_letter : ∀ n < 32, digit32 (letter n) = some n := by decide +kernel

theorem digit10_letter : ∀ n < 10, digit10 (letter n) = some n := by decide +kernel

theorem mapM_letters (ds : List Nat) (h : ∀ d ∈ ds, d < 10) : (ds.map letter).mapM digit10 = some ds := by
  induction ds with
  | nil => rfl
  | cons d ds ih =>
    rw [List.map_cons, List.mapM_cons, digit10_letter d (h d List.mem_cons_self),
      ih fun x hx => h x (List.mem_cons_of_mem _ hx)]
    rfl

/-! ## C128 -/

/-- Packing and unpacking: century, year, month and day come back, with a time of day exactly when there are digits. -/
theorem C128_round_trip (year month day : Nat) (ds : List Nat) (hy : year < 3200) (hm : month < 32) (hd : day < 32)
    (hds : ∀ d ∈ ds, d < 10) :
    unpack (packed year month day ds) =
      .ok ⟨year, month, day, if ds = [] then none else some (tod (fl (fraction ds)))⟩ := by
  unfold packed unpack
  simp only [List.take_succ_cons, List.take_zero, List.drop_succ_cons, List.drop_zero]
  rw [digit32_letter _ (by omega), digit32_letter _ hm]
  simp only [int2, digit32_letter _ hd, digit10_letter (year % 100 / 10) (by omega), digit10_letter (year % 10) (by omega)]
  have hyear : ((year / 100 : ℕ) : ℤ) * 100 + (10 * ((year % 100 / 10 : ℕ) : ℤ) + ((year % 10 : ℕ) : ℤ)) = year := by omega
  rw [hyear]
  cases ds with
  | nil => rfl
  | cons d ds =>
    have := mapM_letters (d :: ds) hds
    rw [List.map_cons] at this ⊢
    simp only
    rw [this]
    rfl

/-- What is refused before astropy sees it, and how: too short a text is an `IndexError`, unless the year is already unreadable;
everything else unreadable is a `ValueError`. -/
theorem C128_refuses (s : List Char) (e : PyErr) : unpack s = .error e ↔
    (s = [] ∧ e = .indexError) ∨
    (∃ c rest, s = c :: rest ∧ (digit32 c = none ∨ int2 (rest.take 2) = none) ∧ e = .valueError) ∨
    (∃ c rest, s = c :: rest ∧ (digit32 c).isSome ∧ (int2 (rest.take 2)).isSome ∧
      ((rest.drop 2 = [] ∧ e = .indexError) ∨
       (∃ mc, rest.drop 2 = [mc] ∧ (digit32 mc).isSome ∧ e = .indexError) ∨
       (∃ mc r, rest.drop 2 = mc :: r ∧ digit32 mc = none ∧ e = .valueError) ∨
       (∃ mc dc r, rest.drop 2 = mc :: dc :: r ∧ (digit32 mc).isSome ∧
          (digit32 dc = none ∨ r.mapM digit10 = none) ∧ e = .valueError))) := by
  cases s with
  | nil => simp [unpack, @eq_comm PyErr e]
  | cons c rest =>
    unfold unpack
    simp only [reduceCtorEq, false_and, false_or, List.cons.injEq, exists_and_right]
    cases h1 : digit32 c with
    | none => simp [h1, @eq_comm PyErr e]
    | some x =>
      cases h2 : int2 (rest.take 2) with
      | none => simp [h1, h2, @eq_comm PyErr e]
      | some y =>
        cases h3 : rest.drop 2 with
        | nil => simp [h1, h2, h3, @eq_comm PyErr e]
        | cons mc r =>
          cases h4 : digit32 mc with
          | none => simp [h1, h2, h3, h4, @eq_comm PyErr e]
          | some m =>
            cases r with
            | nil => simp [h1, h2, h3, h4, @eq_comm PyErr e]
            | cons dc fr =>
              cases h5 : digit32 dc with
              | none => simp [h1, h2, h3, h4, h5, @eq_comm PyErr e]
              | some d =>
                cases fr with
                | nil => simp [h1, h2, h3, h4, h5]
                | cons a b =>
                  cases h6 : (a :: b).mapM digit10 with
                  | none => simp [h1, h2, h3, h4, h5, h6, @eq_comm PyErr e]
                  | some ds => simp [h1, h2, h3, h4, h5, h6]

/-- A time of day that astropy reads is within half a microsecond (and the rounding errors, less than a tenth of a nanosecond) of
the time that was packed, for every number of digits. -/
theorem C128_time (ds : List Nat) (hds : ∀ d ∈ ds, d < 10) (u : Int)
    (h : (tod (fl (fraction ds))).read = some u) : |(u : ℚ) - trueMicros ds| ≤ 1 / 2 + 1 / 10 ^ 4 := by
  have hb := bounds (fraction_nonneg ds) (fraction_lt_one ds hds)
  unfold Tod.read tod at h
  simp only at h
  generalize (hoursOf (fl (fraction ds))).1 = hh at *
  generalize minutesOf (hoursOf (fl (fraction ds))).2 = m at *
  generalize secondsOf (hoursOf (fl (fraction ds))).2 m = s at *
  split at h
  · next hc =>
    cases h
    obtain ⟨_, _, hneg⟩ := hc
    rw [decide_eq_false_iff_not, not_lt] at hneg
    have hs := hb.sec
    rw [abs_of_nonneg hneg]
    have hr := rne_error (s * 10 ^ 6)
    have hn := rne_nonneg (q := s * 10 ^ 6) (by positivity)
    obtain ⟨k, hk⟩ := Int.eq_ofNat_of_zero_le hn
    rw [hk] at hr ⊢
    simp only [Int.toNat_natCast]
    unfold trueMicros
    push_cast at hr ⊢
    rw [abs_le] at hs hr ⊢
    norm_num at hs hr ⊢
    constructor <;> linarith
  · cases h

/-- The fields of the text: never more than 24 hours, 60 minutes and 60.000000 seconds, and a minus sign only before zero. -/
theorem C128_fields (ds : List Nat) (hds : ∀ d ∈ ds, d < 10) :
    let t := tod (fl (fraction ds))
    0 ≤ t.hours ∧ t.hours ≤ 24 ∧ 0 ≤ t.minutes ∧ t.minutes ≤ 60 ∧ t.micros ≤ 60000000 ∧
      (t.negative = true → t.micros = 0) := by
  have hb := bounds (fraction_nonneg ds) (fraction_lt_one ds hds)
  have h1 := fraction_lt_one ds hds
  unfold tod
  simp only
  generalize (hoursOf (fl (fraction ds))).1 = hh at *
  generalize minutesOf (hoursOf (fl (fraction ds))).2 = m at *
  generalize secondsOf (hoursOf (fl (fraction ds))).2 m = s at *
  obtain ⟨a1, a2, a3, a4, a5, a6, a7, a8⟩ := hb
  norm_num at a3 a4 a5 a6 a7
  rw [abs_le] at a7
  refine ⟨a1, ?_, a2, ?_, ?_, ?_⟩
  · have : (hh : ℚ) < 25 := by linarith
    have : hh < 25 := by exact_mod_cast this
    omega
  · have : (m : ℚ) < 61 := by linarith
    have : m < 61 := by exact_mod_cast this
    omega
  · have hs : |s| * 10 ^ 6 ≤ 60000001 / 1 - 9 / 10 := by
      rw [show |s| = max s (-s) from rfl]
      rcases max_cases s (-s) with ⟨h, _⟩ | ⟨h, _⟩ <;> rw [h] <;> norm_num <;> linarith
    generalize |s| * 10 ^ 6 = t at *
    have hr := (abs_le.mp (rne_error t)).2
    have : (rne t : ℚ) < 60000001 := by linarith
    have : rne t < 60000001 := by exact_mod_cast this
    omega
  · intro hn
    rw [decide_eq_true_eq] at hn
    rw [abs_of_neg hn]
    have hr := (abs_le.mp (rne_error (-s * 10 ^ 6))).2
    have : (rne (-s * 10 ^ 6) : ℚ) < 1 := by norm_num at hr ⊢; linarith
    have : rne (-s * 10 ^ 6) < 1 := by exact_mod_cast this
    omega

theorem whole_minutes : ∀ j < 160, (tod (fl ((j : ℕ) / 160))).read = some (540000000 * (j : ℕ)) := by decide +kernel

/-- With at most fourteen digits the text is always accepted. -/
theorem C128_fourteen_digits (ds : List Nat) (hds : ∀ d ∈ ds, d < 10) (hl : ds.length ≤ 14) :
    ∃ u, (tod (fl (fraction ds))).read = some u := by
  rcases whole_or_far ds hds hl with ⟨j, hj, he⟩ | hfar
  · exact ⟨_, by rw [he]; exact whole_minutes j hj⟩
  · have hb := bounds (fraction_nonneg ds) (fraction_lt_one ds hds)
    have h1 := fraction_lt_one ds hds
    unfold Tod.read tod
    simp only
    generalize (hoursOf (fl (fraction ds))).1 = hh at *
    generalize minutesOf (hoursOf (fl (fraction ds))).2 = m at *
    generalize secondsOf (hoursOf (fl (fraction ds))).2 m = s at *
    obtain ⟨a1, a2, a3, a4, a5, a6, a7, a8⟩ := hb
    norm_num at a3 a4 a5 a6 a7
    have ht : 1 / 10 ^ 12 ≤ 1440 * fraction ds - 60 * hh - m := by
      have := hfar (60 * hh + m)
      push_cast at this
      rw [le_abs] at this
      norm_num at this ⊢
      rcases this with h | h <;> linarith
    have hh23 : hh ≤ 23 := by
      by_contra hc
      have : (24 : ℚ) ≤ hh := by exact_mod_cast (by omega : 24 ≤ hh)
      have := hfar 1440
      rw [le_abs] at this
      norm_num at this
      rcases this with h | h <;> linarith
    have hm59 : m ≤ 59 := by
      by_contra hc
      have : (60 : ℚ) ≤ m := by exact_mod_cast (by omega : 60 ≤ m)
      have := hfar (60 * hh + 60)
      push_cast at this
      rw [le_abs] at this
      norm_num at this ht
      rcases this with h | h <;> linarith
    have hs : 0 ≤ s := a8 ht
    rw [if_pos ⟨hh23, hm59, by rw [decide_eq_false_iff_not]; exact not_lt.mpr hs⟩]
    exact ⟨_, rfl⟩

/-- With more digits it need not be: this one becomes `T01:23:-0.000000`, and enough nines become `T24:00:00.000000`. -/
theorem C128_long_refused :
    tod (fl (fraction [0, 5, 7, 6, 3, 8, 8, 8, 8, 8, 8, 8, 8, 8, 8, 8, 9])) = ⟨1, 23, true, 0⟩ ∧
    tod (fl (fraction (List.replicate 17 9))) = ⟨24, 0, false, 0⟩ ∧
    (tod (fl (fraction [0, 5, 7, 6, 3, 8, 8, 8, 8, 8, 8, 8, 8, 8, 8, 8, 9]))).read = none ∧
    (tod (fl (fraction (List.replicate 17 9)))).read = none := by
  decide +kernel

/-- Sixty seconds are written also for short fractions: `.3` of a day, 7:12:00, becomes `T07:11:60.000000`. -/
theorem C128_sixty_seconds : tod (fl (fraction [3])) = ⟨7, 11, false, 60000000⟩ ∧
    tod (fl (fraction [3, 5])) = ⟨8, 23, false, 60000000⟩ := by
  decide +kernel

/-- Month and day are not checked here and both cases of letters are taken; a year can have a sign: `J-51V` is 1895 Jan. 31. -/
theorem C128_lenient : unpack "J-51V".toList = .ok ⟨1895, 1, 31, none⟩ ∧ unpack "k01am".toList = .ok ⟨2001, 10, 22, none⟩ ∧
    unpack "K010V".toList = .ok ⟨2001, 0, 31, none⟩ := by
  decide +kernel

/-- The characters taken for century, month and day are the 32 digits and letters up to `V`, in either case, with their places as values;
the ones taken in a fraction are the ten decimal digits. -/
theorem C128_characters (c : Char) (n : Nat) :
    (digit32 c = some n ↔ "0123456789ABCDEFGHIJKLMNOPQRSTUV".toList[n]? = some c ∨ "0123456789abcdefghijklmnopqrstuv".toList[n]? = some c) ∧
    (digit10 c = some n ↔ "0123456789".toList[n]? = some c) := by
  have up : ∀ k < "0123456789ABCDEFGHIJKLMNOPQRSTUV".toList.length, (digit32 <$> "0123456789ABCDEFGHIJKLMNOPQRSTUV".toList[k]?) = some (some k) := by decide +kernel
  have low : ∀ k < "0123456789abcdefghijklmnopqrstuv".toList.length, (digit32 <$> "0123456789abcdefghijklmnopqrstuv".toList[k]?) = some (some k) := by decide +kernel
  have ten : ∀ k < "0123456789".toList.length, (digit10 <$> "0123456789".toList[k]?) = some (some k) := by decide +kernel
  have all : ∀ m < 128, (digit32 (Char.ofNat m)).isSome = true →
      Char.ofNat m ∈ "0123456789ABCDEFGHIJKLMNOPQRSTUV".toList ∨ Char.ofNat m ∈ "0123456789abcdefghijklmnopqrstuv".toList := by decide +kernel
  have all10 : ∀ m < 128, (digit10 (Char.ofNat m)).isSome = true → Char.ofNat m ∈ "0123456789".toList := by decide +kernel
  have small : ∀ {m : Char} {l : Char}, m ≤ l → l.toNat < 128 → m.toNat < 128 := fun h h' => lt_of_le_of_lt h h'
  have place : ∀ (l : List Char) (f : Char → Option Nat), (∀ k < l.length, f <$> l[k]? = some (some k)) →
      ∀ c ∈ l, f c = some n → l[n]? = some c := by
    intro l f hf c hc hn
    obtain ⟨k, hk, rfl⟩ := List.getElem_of_mem hc
    have := hf k hk
    rw [List.getElem?_eq_getElem hk] at this
    simp only [Option.map_eq_map, Option.map_some, Option.some.injEq] at this
    rw [this] at hn
    cases hn
    exact List.getElem?_eq_getElem hk
  have back : ∀ (l : List Char) (f : Char → Option Nat), (∀ k < l.length, f <$> l[k]? = some (some k)) →
      l[n]? = some c → f c = some n := by
    intro l f hf h
    have := hf n (List.getElem?_eq_some_iff.mp h).1
    rw [h] at this
    simpa using this
  constructor
  · constructor
    · intro h
      have hs : c.toNat < 128 := by
        unfold digit32 at h
        split at h
        · rename_i h'; exact small h'.2 (by decide)
        split at h
        · rename_i h'; exact small h'.2 (by decide)
        split at h
        · rename_i h'; exact small h'.2 (by decide)
        · cases h
      have hc : Char.ofNat c.toNat = c := Char.ofNat_toNat c
      have := all c.toNat hs
      rw [hc, h] at this
      rcases this rfl with h' | h'
      · exact Or.inl (place _ digit32 up c h' h)
      · exact Or.inr (place _ digit32 low c h' h)
    · rintro (h | h)
      · exact back _ digit32 up h
      · exact back _ digit32 low h
  · constructor
    · intro h
      have hs : c.toNat < 128 := by
        unfold digit10 at h
        split at h
        · rename_i h'; exact small h'.2 (by decide)
        · cases h
      have := all10 c.toNat hs
      rw [Char.ofNat_toNat c, h] at this
      exact place _ digit10 ten c (this rfl) h
    · exact back _ digit10 ten

/-- A list of dates is converted in order, or not at all if one is refused. -/
theorem C128_list (l : List (List Char)) :
    (∀ cs, convert l = .ok cs ↔ List.Forall₂ (fun s c => unpack s = .ok c) l cs) ∧
      ((∃ e, convert l = .error e) ↔ ∃ s ∈ l, ∃ e, unpack s = .error e) := by
  unfold convert
  induction l with
  | nil =>
    refine ⟨fun cs => ?_, by simp [pure, Except.pure]⟩
    cases cs <;> simp [pure, Except.pure]
  | cons a l ih =>
    obtain ⟨ih1, ih2⟩ := ih
    rw [List.mapM_cons]
    cases ha : unpack a with
    | error e =>
      refine ⟨fun cs => ?_, ?_⟩
      · cases cs <;> simp [bind, Except.bind, ha]
      · simp [bind, Except.bind, ha]
    | ok c =>
      cases hl : l.mapM unpack with
      | error e =>
        rw [hl] at ih1 ih2
        refine ⟨fun cs => ?_, ?_⟩
        · cases cs with
          | nil => simp [bind, Except.bind]
          | cons x xs =>
            have := ih1 xs
            simp [bind, Except.bind, ← this]
        · obtain ⟨s, hs, e', he'⟩ := ih2.mp ⟨e, rfl⟩
          simp only [bind, Except.bind, Except.error.injEq, exists_eq', true_iff]
          exact ⟨s, List.mem_cons_of_mem _ hs, e', he'⟩
      | ok xs =>
        rw [hl] at ih1 ih2
        refine ⟨fun cs => ?_, ?_⟩
        · cases cs with
          | nil => simp [bind, Except.bind, pure, Except.pure]
          | cons y ys =>
            have := ih1 ys
            rw [List.forall₂_cons, ← this, ha]
            simp [bind, Except.bind, pure, Except.pure]
        · simp only [bind, Except.bind, pure, Except.pure, reduceCtorEq, exists_false, false_iff]
          rintro ⟨s, hs, e, he⟩
          rcases List.mem_cons.mp hs with rfl | hs
          · rw [ha] at he; cases he
          · obtain ⟨_, hx⟩ := ih2.mpr ⟨s, hs, e, he⟩
            cases hx

/-- The two examples of the documentation: 1998 Jan. 18.73 and 2001 Oct. 22.138303. -/
theorem C128_case : packed 1998 1 18 [7, 3] = "J981I73".toList ∧ packed 2001 10 22 [1, 3, 8, 3, 0, 3] = "K01AM138303".toList ∧
    unpack "J981I73".toList = .ok ⟨1998, 1, 18, some ⟨17, 31, false, 12000000⟩⟩ ∧
    unpack "K01AM138303".toList = .ok ⟨2001, 10, 22, some ⟨3, 19, false, 9379200⟩⟩ := by
  decide +kernel

end Verif.Dates.Props
