import Verif.Band.ResolveSpec
import Mathlib.Data.List.TakeWhile
import Mathlib.Tactic.IntervalCases

/-! # Properties of band resolution (C68) -/

namespace Verif.Band.ResolveProps

open Verif Verif.Band Verif.Band.Spec

/-! ### the names of station X05 -/

theorem dropWhile_all {p : Char → Bool} : ∀ {pre l : Str}, (∀ x ∈ pre, p x = true) → (pre ++ l).dropWhile p = l.dropWhile p
  | [], _, _ => rfl
  | a :: pre, l, h => by
    rw [List.cons_append, List.dropWhile_cons, if_pos (h a (by simp))]
    exact dropWhile_all fun x hx => h x (List.mem_cons_of_mem _ hx)

theorem dropWhile_head {p : Char → Bool} {l : Str} (h : ∀ x, l.head? = some x → ¬ p x = true) : l.dropWhile p = l := by
  cases l with
  | nil => rfl
  | cons a l => rw [List.dropWhile_cons, if_neg (h a rfl)]

theorem dropWhile_head_not (p : Char → Bool) : ∀ (l : Str) (x : Char), (l.dropWhile p).head? = some x → ¬ p x = true
  | [], x, h => by cases h
  | a :: l, x, h => by
    rw [List.dropWhile_cons] at h
    split at h
    · exact dropWhile_head_not p l x h
    · rename_i ha
      cases h
      exact ha

theorem trim_of {b c : Str} (h : Trimmed b c) : trim b = c := by
  obtain ⟨pre, post, rfl, hpre, hpost, hhead, hlast, hnil⟩ := h
  unfold trim
  rw [List.append_assoc, dropWhile_all hpre]
  by_cases hc : c = []
  · subst hc
    rw [hnil rfl]
    rfl
  · have h1 : (c ++ post).dropWhile Char.isWhitespace = c ++ post := by
      refine dropWhile_head fun x hx => hhead x ?_
      rwa [List.head?_append_of_ne_nil _ hc] at hx
    rw [h1, List.reverse_append, dropWhile_all (fun x hx => hpost x (List.mem_reverse.mp hx)),
      dropWhile_head, List.reverse_reverse]
    intro x hx
    rw [List.head?_reverse] at hx
    exact hlast x hx

theorem trimmed_trim (b : Str) : Trimmed b (trim b) := by
  have h0 : b = b.takeWhile Char.isWhitespace ++ b.dropWhile Char.isWhitespace := (List.takeWhile_append_dropWhile).symm
  set d := b.dropWhile Char.isWhitespace with hd
  have h1 : d.reverse = d.reverse.takeWhile Char.isWhitespace ++ d.reverse.dropWhile Char.isWhitespace :=
    (List.takeWhile_append_dropWhile).symm
  have h2 : d = (d.reverse.dropWhile Char.isWhitespace).reverse ++ (d.reverse.takeWhile Char.isWhitespace).reverse := by
    rw [← List.reverse_append, ← h1, List.reverse_reverse]
  have ht : trim b = (d.reverse.dropWhile Char.isWhitespace).reverse := rfl
  refine ⟨b.takeWhile Char.isWhitespace, (d.reverse.takeWhile Char.isWhitespace).reverse, ?_, ?_, ?_, ?_, ?_, ?_⟩
  · rw [List.append_assoc, ht, ← h2, ← h0]
  · exact fun x hx => List.mem_takeWhile_imp hx
  · exact fun x hx => List.mem_takeWhile_imp (List.mem_reverse.mp hx)
  · intro x hx
    have hne : trim b ≠ [] := by intro h; rw [h] at hx; cases hx
    refine dropWhile_head_not Char.isWhitespace b x ?_
    rw [← hd, h2, ← ht, List.head?_append_of_ne_nil _ hne]
    exact hx
  · intro x hx
    rw [ht, List.getLast?_reverse] at hx
    exact dropWhile_head_not _ _ x hx
  · intro h
    rw [ht] at h
    rw [h, List.nil_append] at h2
    cases hdd : d with
    | nil => rfl
    | cons a l =>
      exfalso
      have ha : ¬ a.isWhitespace = true := dropWhile_head_not Char.isWhitespace b a (by rw [← hd, hdd]; rfl)
      refine ha ?_
      have : a ∈ (d.reverse.takeWhile Char.isWhitespace).reverse := by rw [← h2, hdd]; simp
      exact List.mem_takeWhile_imp (List.mem_reverse.mp this)

theorem strip_of {c d : Str} (h : Stripped c d) : stripLsst c = d := by
  rcases h with rfl | ⟨rfl, h⟩
  · rfl
  · unfold stripLsst
    rw [if_neg]
    intro hp
    obtain ⟨e, he⟩ := List.isPrefixOf_iff_prefix.mp hp
    exact h e he.symm

theorem stripped_strip (c : Str) : Stripped c (stripLsst c) := by
  by_cases hp : "LSST_".toList.isPrefixOf c = true
  · obtain ⟨e, he⟩ := List.isPrefixOf_iff_prefix.mp hp
    left
    rw [← he]
    rfl
  · right
    unfold stripLsst
    rw [if_neg hp]
    refine ⟨rfl, ?_⟩
    rintro e rfl
    exact hp rfl

/-- The last steps of `rewrite`. -/
def lastSteps (b : Str) : Str :=
  let b := if isL "ugrizy".toList b then b.drop 1 else b
  let b := if isL "UGRIZY".toList b then (b.drop 1).map Char.toLower else b
  if b = ['Y'] then ['y'] else b

theorem rewrite_eq (b : Str) : rewrite b = lastSteps (stripLsst (trim b)) := rfl

theorem lower_of {x : Char} (h : x.toLower ∈ letters) : x ∈ "ugrizy".toList ∨ x ∈ "UGRIZY".toList := by
  by_cases hr : 65 ≤ x.toNat ∧ x.toNat ≤ 90
  · have hx : x = Char.ofNat x.toNat := (Char.ofNat_toNat x).symm
    obtain ⟨h1, h2⟩ := hr
    generalize x.toNat = n at hx h1 h2
    subst hx
    revert h
    interval_cases n <;> decide
  · left
    have hl : x.toLower = x := by
      unfold Char.toLower
      rw [dif_neg]
      rintro ⟨h1, h2⟩
      exact hr ⟨UInt32.le_iff_toNat_le.mp h1, UInt32.le_iff_toNat_le.mp h2⟩
    rw [hl] at h
    exact h

theorem lower_in {x : Char} (h : x ∈ "ugrizy".toList) : x.toLower = x ∧ x ∈ letters := by
  have : ∀ y ∈ "ugrizy".toList, y.toLower = y ∧ y ∈ letters := by decide
  exact this x h

theorem upper_in {x : Char} (h : x ∈ "UGRIZY".toList) : x.toLower ∈ letters ∧ x ∉ "ugrizy".toList := by
  have : ∀ y ∈ "UGRIZY".toList, y.toLower ∈ letters ∧ y ∉ "ugrizy".toList := by decide
  exact this x h

theorem isL_pair (l : List Char) (x : Char) : isL l ['L', x] = l.contains x := rfl

theorem isL_iff {l : List Char} {b : Str} : isL l b = true ↔ ∃ x ∈ l, b = ['L', x] := by
  unfold isL
  split
  · rename_i x
    constructor
    · intro h
      exact ⟨x, by simpa using h, rfl⟩
    · rintro ⟨y, hy, h⟩
      cases h
      simpa using hy
  · rename_i hb
    constructor
    · intro h; cases h
    · rintro ⟨x, _, rfl⟩
      exact absurd rfl (hb x)

theorem spelling_steps {d n : Str} (h : Spelling d n) : lastSteps d = n := by
  cases h with
  | letter x hx =>
    rcases lower_of hx with h1 | h1
    · obtain ⟨h2, h3⟩ := lower_in h1
      unfold lastSteps
      have ha : isL "ugrizy".toList ['L', x] = true := isL_iff.mpr ⟨x, h1, rfl⟩
      rw [h2]
      simp only [ha, if_true]
      have hb : isL "UGRIZY".toList (List.drop 1 ['L', x]) = false := by
        rw [Bool.eq_false_iff]
        intro h
        obtain ⟨y, _, e⟩ := isL_iff.mp h
        cases e
      simp only [hb]
      have : x ≠ 'Y' := by rintro rfl; revert h1; decide
      simp [this]
    · obtain ⟨h2, h3⟩ := upper_in h1
      unfold lastSteps
      have ha : isL "ugrizy".toList ['L', x] = false := by
        rw [Bool.eq_false_iff]
        intro h
        obtain ⟨y, hy, e⟩ := isL_iff.mp h
        cases e
        exact h3 hy
      have hb : isL "UGRIZY".toList ['L', x] = true := isL_iff.mpr ⟨x, h1, rfl⟩
      simp only [ha, hb, Bool.false_eq_true, if_false, if_true]
      have : x.toLower ≠ 'Y' := by intro h; rw [h] at hx; revert hx; decide
      simp [this]
  | upperY => rfl
  | plain c h1 h2 =>
    have ha : isL "ugrizy".toList d = false := by
      rw [Bool.eq_false_iff]
      intro h
      obtain ⟨y, hy, e⟩ := isL_iff.mp h
      obtain ⟨h3, h4⟩ := lower_in hy
      exact h2 y e (by rw [h3]; exact h4)
    have hb : isL "UGRIZY".toList d = false := by
      rw [Bool.eq_false_iff]
      intro h
      obtain ⟨y, hy, e⟩ := isL_iff.mp h
      exact h2 y e (upper_in hy).1
    unfold lastSteps
    simp only [ha, hb, Bool.false_eq_true, if_false, if_neg h1]

theorem steps_spelling (d : Str) : Spelling d (lastSteps d) := by
  by_cases h1 : d = ['Y']
  · subst h1; exact .upperY
  · by_cases h2 : ∃ x, d = ['L', x] ∧ x.toLower ∈ letters
    · obtain ⟨x, rfl, hx⟩ := h2
      have := Spelling.letter x hx
      rw [spelling_steps this]
      exact this
    · have := Spelling.plain d h1 fun x hx hm => h2 ⟨x, hx, hm⟩
      rw [spelling_steps this]
      exact this

/-- The band looked up for station X05 is the one named by its spelling, for every reported string. -/
theorem C68_station (b n : Str) : Station b n ↔ rewrite b = n := by
  constructor
  · rintro ⟨c, d, h1, h2, h3⟩
    rw [rewrite_eq, trim_of h1, strip_of h2, spelling_steps h3]
  · rintro rfl
    exact ⟨_, _, trimmed_trim b, stripped_strip _, steps_spelling _⟩

/-! ### rows -/

theorem normalize_length {codes bands : List (Option Str)} (h : codes.length = bands.length) :
    (normalize codes bands).length = bands.length := by
  unfold normalize
  split
  · rw [List.length_zipWith, h, Nat.min_self]
  · rfl

theorem normalize_at {codes bands : List (Option Str)} {i : Nat} {c b : Option Str} (hc : codes[i]? = some c)
    (hb : bands[i]? = some b) :
    ∃ m, (normalize codes bands)[i]? = some m ∧ ∀ c', c = some c' → m = if c' = x05 then b.map rewrite else b := by
  unfold normalize
  split
  · rw [List.getElem?_zipWith, hc, hb]
    refine ⟨_, rfl, ?_⟩
    rintro c' rfl
    rfl
  · rename_i h
    refine ⟨b, hb, ?_⟩
    rintro c' rfl
    rw [if_neg]
    rintro rfl
    refine h ?_
    rw [List.any_eq_true]
    exact ⟨some x05, List.mem_of_getElem? hc, by simp⟩

theorem reported_iff (c b n : Str) : Reported c b n ↔ n = if c = x05 then rewrite b else b := by
  unfold Reported
  have : x05 = ['X', '0', '5'] := rfl
  rw [this]
  by_cases h : c = ['X', '0', '5']
  · rw [if_pos h, C68_station]
    simp [h, eq_comm]
  · simp [h]

theorem lookup_letter {x : Char} (h : x.toLower ∈ letters) :
    fallbackMap.lookup [x.toLower] = some (if x.toLower = 'y' then "PS1_y".toList else "SDSS_".toList ++ [x.toLower]) := by
  have : ∀ y ∈ letters, fallbackMap.lookup [y] = some (if y = 'y' then "PS1_y".toList else "SDSS_".toList ++ [y]) := by
    decide
  exact this _ h

theorem lookup_some {k f : Str} (h : fallbackMap.lookup k = some f) :
    ∃ y ∈ letters, k = [y] ∧ f = if y = 'y' then "PS1_y".toList else "SDSS_".toList ++ [y] := by
  have key : ∀ (m : List (Str × Str)) (k f : Str), m.lookup k = some f → (k, f) ∈ m := by
    intro m
    induction m with
    | nil => intro k f h; cases h
    | cons a l ih =>
      intro k f h
      rw [List.lookup_cons] at h
      split at h
      · rename_i hk
        have : k = a.1 := by simpa using hk
        cases h
        rw [this]
        exact List.mem_cons_self
      · exact List.mem_cons_of_mem _ (ih k f h)
  have hm := key _ _ _ h
  have : ∀ p ∈ fallbackMap, ∃ y ∈ letters, p.1 = [y] ∧ p.2 = if y = 'y' then "PS1_y".toList else "SDSS_".toList ++ [y] := by
    decide
  exact this _ hm

theorem map_lower_single {b : Str} {y : Char} (h : b.map Char.toLower = [y]) : ∃ x, b = [x] ∧ x.toLower = y := by
  match b, h with
  | [x], h => exact ⟨x, rfl, by simpa using h⟩

/-- What `resolveRow` computes, with the band of the key. -/
theorem resolve_iff (t : Tables) {c b m : Option Str} (hm : ∀ c', c = some c' → m = if c' = x05 then b.map rewrite else b)
    (f : Str) (u : Bool) : Resolves t c b f u ↔ resolveRow t c b m = (some f, u) := by
  cases b with
  | none =>
    have h1 : keyOf c m = none := by
      cases c with
      | none => rfl
      | some c' => rw [hm c' rfl]; split <;> rfl
    have h2 : resolveRow t c none m = (none, false) := by
      unfold resolveRow
      rw [h1]
      rfl
    rw [h2]
    constructor
    · intro h; cases h
    · intro h; cases h
  | some b =>
    by_cases hk : b ∈ t.curves
    · have h1 : resolveRow t c (some b) m = (some b, false) := by
        unfold resolveRow
        simp [hk]
      rw [h1]
      constructor
      · intro h
        cases h with
        | known _ _ _ => rfl
        | mapped _ _ _ _ hn _ _ => exact absurd hk hn
        | fallback _ _ _ hn _ _ _ => exact absurd hk hn
      · intro h
        cases h
        exact .known c _ hk
    · have hkey : ∀ name c', c = some c' → (Reported c' b name ↔ keyOf c m = some (c' ++ ['|'] ++ name)) := by
        rintro name c' rfl
        rw [reported_iff, hm c' rfl]
        have : (if c' = x05 then (some b).map rewrite else some b) = some (if c' = x05 then rewrite b else b) := by
          split <;> rfl
        rw [this]
        unfold keyOf
        simp [eq_comm]
      cases hmap : (keyOf c m).bind fun k => t.mapping.lookup k with
      | some g =>
        have h1 : resolveRow t c (some b) m = (some g, false) := by
          unfold resolveRow
          simp [hk, hmap]
        obtain ⟨k, hk1, hk2⟩ := Option.bind_eq_some_iff.mp hmap
        have : ∃ c' name, c = some c' ∧ k = c' ++ ['|'] ++ name ∧ Reported c' b name := by
          cases c with
          | none => cases hk1
          | some c' =>
            refine ⟨c', if c' = x05 then rewrite b else b, rfl, ?_, (reported_iff _ _ _).mpr rfl⟩
            have := (hkey (if c' = x05 then rewrite b else b) c' rfl).mp ((reported_iff _ _ _).mpr rfl)
            rw [this] at hk1
            exact (Option.some.inj hk1).symm
        obtain ⟨c', name, rfl, rfl, hrep⟩ := this
        rw [h1]
        constructor
        · intro h
          cases h with
          | known _ _ hn => exact absurd hn hk
          | mapped _ _ name' _ _ hr hl =>
            have e := (hkey name' c' rfl).mp hr
            rw [hk1] at e
            rw [← Option.some.inj e, hk2] at hl
            cases hl
            rfl
          | fallback _ _ _ _ hn _ _ =>
            have := hn c' name rfl hrep
            rw [hk2] at this
            cases this
        · intro h
          cases h
          exact .mapped c' b name _ hk hrep hk2
      | none =>
        have hno : ∀ c' name, c = some c' → Reported c' b name → t.mapping.lookup (c' ++ ['|'] ++ name) = none := by
          rintro c' name hc hr
          have e := (hkey name c' hc).mp hr
          rw [e] at hmap
          exact hmap
        have h1 : resolveRow t c (some b) m = (fallbackOf (some b), (fallbackOf (some b)).isSome) := by
          unfold resolveRow
          simp only [Option.bind_some, if_neg hk, hmap]
          cases fallbackOf (some b) <;> rfl
        rw [h1]
        constructor
        · intro h
          cases h with
          | known _ _ hn => exact absurd hn hk
          | mapped c' _ name' _ _ hr hl => rw [hno c' name' rfl hr] at hl; cases hl
          | fallback _ x _ _ _ hx hf =>
            have : fallbackOf (some [x]) = some f := by
              unfold fallbackOf
              rw [hf]
              exact lookup_letter hx
            rw [this]
            rfl
        · intro h
          cases hf : fallbackOf (some b) with
          | none => rw [hf] at h; cases h
          | some g =>
            rw [hf] at h
            cases h
            unfold fallbackOf at hf
            obtain ⟨y, hy, e1, e2⟩ := lookup_some hf
            obtain ⟨x, rfl, rfl⟩ := map_lower_single e1
            exact .fallback c x _ hk hno hy e2

/-- A row has at most one filter. -/
theorem C68_unique {t : Tables} {c b : Option Str} {f g : Str} {u v : Bool} (h1 : Resolves t c b f u)
    (h2 : Resolves t c b g v) : f = g ∧ u = v := by
  have hm : ∀ c', c = some c' → (c.bind fun c' => if c' = x05 then b.map rewrite else b)
      = if c' = x05 then b.map rewrite else b := by
    rintro c' rfl
    rfl
  have e1 := (resolve_iff t hm f u).mp h1
  have e2 := (resolve_iff t hm g v).mp h2
  rw [e1] at e2
  cases e2
  exact ⟨rfl, rfl⟩

/-! ### the whole column -/

/-- The columns `out` and `used_fallback`. -/
def rowsOf (t : Tables) (codes bands : List (Option Str)) : List (Option Str × Bool) :=
  List.zipWith (fun c p => resolveRow t c p.1 p.2) codes (bands.zip (normalize codes bands))

theorem rowsOf_length (t : Tables) {codes bands : List (Option Str)} (h : codes.length = bands.length) :
    (rowsOf t codes bands).length = bands.length := by
  unfold rowsOf
  rw [List.length_zipWith, List.length_zip, normalize_length h, h, Nat.min_self, Nat.min_self]

theorem rowsOf_at (t : Tables) {codes bands : List (Option Str)} {i : Nat} {c b : Option Str} (hc : codes[i]? = some c)
    (hb : bands[i]? = some b) :
    ∃ r, (rowsOf t codes bands)[i]? = some r ∧ ∀ f u, Resolves t c b f u ↔ r = (some f, u) := by
  obtain ⟨m, hm1, hm2⟩ := normalize_at hc hb
  refine ⟨resolveRow t c b m, ?_, fun f u => resolve_iff t hm2 f u⟩
  unfold rowsOf
  rw [List.getElem?_zipWith, hc, List.zip, List.getElem?_zipWith, hb, hm1]

/-- The answer of a row. -/
def answerOf (allow : Bool) (r : Option Str × Bool) : Option Str := if !allow && r.2 then none else r.1

theorem answer_iff {t : Tables} {c b : Option Str} {r : Option Str × Bool}
    (hr : ∀ f u, Resolves t c b f u ↔ r = (some f, u)) (allow : Bool) (f : Str) :
    answerOf allow r = some f ↔ Answer t allow c b f := by
  unfold answerOf Answer
  constructor
  · intro h
    obtain ⟨o, u⟩ := r
    cases u with
    | false =>
      simp only [Bool.and_false, Bool.false_eq_true, if_false] at h
      cases h
      exact ⟨false, (hr f false).mpr rfl, fun h => by cases h⟩
    | true =>
      cases allow with
      | false => simp at h
      | true =>
        simp only [Bool.not_true, Bool.false_and, Bool.false_eq_true, if_false] at h
        cases h
        exact ⟨true, (hr f true).mpr rfl, fun _ => rfl⟩
  · rintro ⟨u, h, hu⟩
    rw [(hr f u).mp h]
    cases u with
    | false => simp
    | true => rw [hu rfl]; simp

/-- The outcome in terms of the columns. -/
theorem mapBands_eq (t : Tables) (codes bands : List (Option Str)) (allow : Bool) (mode : OnUnknown) :
    mapBands t codes bands allow mode =
      if codes.length = bands.length ∧ mode ≠ .other ∧
          (mode = .raise → ∀ r ∈ rowsOf t codes bands, answerOf allow r ≠ none) ∧
          (∀ r ∈ rowsOf t codes bands, noCurve t (answerOf allow r) = false)
      then .ok ((rowsOf t codes bands).map (answerOf allow)) else .error .valueError := by
  unfold mapBands
  by_cases h1 : codes.length = bands.length
  swap
  · simp [h1]
  rw [if_neg (by simpa using h1)]
  simp only
  rw [← rowsOf]
  by_cases h2 : mode = .other
  · simp [h2]
  rw [if_neg h2]
  by_cases h3 : (decide (mode = .raise) && (rowsOf t codes bands).any fun r => r.1.isNone) = true
  · rw [if_pos h3, if_neg]
    rintro ⟨-, -, h, -⟩
    simp only [Bool.and_eq_true, decide_eq_true_eq, List.any_eq_true, Option.isNone_iff_eq_none] at h3
    obtain ⟨hm, r, hr, hn⟩ := h3
    refine h hm r hr ?_
    unfold answerOf
    rw [hn]
    split <;> rfl
  rw [if_neg h3]
  by_cases h4 : (!allow && (rowsOf t codes bands).any (fun r => r.2) && decide (mode ≠ .skip)) = true
  · rw [if_pos h4, if_neg]
    rintro ⟨-, -, h, -⟩
    simp only [Bool.and_eq_true, decide_eq_true_eq, List.any_eq_true, Bool.not_eq_true'] at h4
    obtain ⟨⟨ha, r, hr, hu⟩, hm⟩ := h4
    have hm' : mode = .raise := by cases mode <;> simp_all
    refine h hm' r hr ?_
    unfold answerOf
    rw [ha, hu]
    rfl
  rw [if_neg h4]
  have hmap : ((rowsOf t codes bands).map fun r => if (!allow && r.2) = true then none else r.1)
      = (rowsOf t codes bands).map (answerOf allow) := rfl
  rw [hmap]
  by_cases h5 : ((rowsOf t codes bands).map (answerOf allow)).any (noCurve t) = true
  · rw [if_pos h5, if_neg]
    rintro ⟨-, -, -, h⟩
    rw [List.any_map, List.any_eq_true] at h5
    obtain ⟨r, hr, hn⟩ := h5
    have := h r hr
    rw [Function.comp] at hn
    rw [this] at hn
    cases hn
  · rw [if_neg h5, if_pos]
    refine ⟨h1, h2, ?_, ?_⟩
    · intro hm r hr hn
      simp only [hm, decide_true, Bool.true_and, List.any_eq_true, not_exists, not_and, Option.isNone_iff_eq_none] at h3
      simp only [hm, ne_eq, reduceCtorEq, not_false_eq_true, decide_true, Bool.and_true, Bool.and_eq_true,
        Bool.not_eq_true', List.any_eq_true, not_and, not_exists] at h4
      unfold answerOf at hn
      split at hn
      · rename_i hc
        simp only [Bool.and_eq_true, Bool.not_eq_true'] at hc
        exact h4 hc.1 r hr hc.2
      · exact h3 r hr hn
    · intro r hr
      rw [List.any_map, List.any_eq_true] at h5
      rw [Bool.eq_false_iff]
      exact fun h => h5 ⟨r, hr, h⟩

theorem index_of {codes bands : List (Option Str)} {t : Tables} (h : codes.length = bands.length)
    {r : Option Str × Bool} (hr : r ∈ rowsOf t codes bands) :
    ∃ (i : Nat) (c b : Option Str), codes[i]? = some c ∧ bands[i]? = some b ∧ (rowsOf t codes bands)[i]? = some r := by
  obtain ⟨i, hi⟩ := List.mem_iff_getElem?.mp hr
  have h1 : i < (rowsOf t codes bands).length := by
    by_contra hn
    rw [List.getElem?_eq_none (by omega)] at hi
    cases hi
  rw [rowsOf_length t h] at h1
  exact ⟨i, _, _, List.getElem?_eq_getElem (h ▸ h1), List.getElem?_eq_getElem h1, hi⟩

/-- Every returned row is the answer of its own code and band, whatever the other rows are; it has a curve; with
`on_unknown="raise"` no row is left empty. -/
theorem C68_rows {t : Tables} {codes bands : List (Option Str)} {allow : Bool} {mode : OnUnknown}
    {out : List (Option Str)} (h : mapBands t codes bands allow mode = .ok out) :
    out.length = bands.length ∧ ∀ (i : Nat) (c b : Option Str), codes[i]? = some c → bands[i]? = some b →
      ∃ o, out[i]? = some o ∧ (∀ f, o = some f ↔ Answer t allow c b f) ∧ (∀ f, o = some f → f ∈ t.curves) ∧
        (mode = .raise → o ≠ none) := by
  rw [mapBands_eq] at h
  split at h
  swap
  · cases h
  rename_i hc
  obtain ⟨h1, h2, h3, h4⟩ := hc
  cases h
  refine ⟨by rw [List.length_map, rowsOf_length t h1], ?_⟩
  intro i c b hc hb
  obtain ⟨r, hr1, hr2⟩ := rowsOf_at t hc hb
  have hmem : r ∈ rowsOf t codes bands := List.mem_of_getElem? hr1
  refine ⟨answerOf allow r, by rw [List.getElem?_map, hr1]; rfl, answer_iff hr2 allow, ?_, fun hm => h3 hm r hmem⟩
  intro f hf
  have := h4 r hmem
  rw [hf] at this
  simpa [noCurve] using this

/-- The call succeeds exactly when the columns have one length, `on_unknown` is known, every filter found has a curve and,
with `on_unknown="raise"`, every row has an answer; otherwise it raises ValueError. -/
theorem C68_accepts (t : Tables) (codes bands : List (Option Str)) (allow : Bool) (mode : OnUnknown) :
    ((∃ out, mapBands t codes bands allow mode = .ok out) ↔
      codes.length = bands.length ∧ mode ≠ .other ∧
      (∀ (i : Nat) (c b : Option Str) (f : Str), codes[i]? = some c → bands[i]? = some b → Answer t allow c b f → f ∈ t.curves) ∧
      (mode = .raise → ∀ (i : Nat) (c b : Option Str), codes[i]? = some c → bands[i]? = some b → ∃ f, Answer t allow c b f)) ∧
    ∀ e, mapBands t codes bands allow mode = .error e → e = .valueError := by
  constructor
  · constructor
    · rintro ⟨out, h⟩
      have hr := (C68_rows h).2
      rw [mapBands_eq] at h
      split at h
      swap
      · cases h
      rename_i hc
      refine ⟨hc.1, hc.2.1, ?_, ?_⟩
      · intro i c b f h1 h2 h3
        obtain ⟨o, _, h5, h6, _⟩ := hr i c b h1 h2
        exact h6 f ((h5 f).mpr h3)
      · intro hm i c b h1 h2
        obtain ⟨o, _, h5, _, h7⟩ := hr i c b h1 h2
        cases o with
        | none => exact absurd rfl (h7 hm)
        | some f => exact ⟨f, (h5 f).mp rfl⟩
    · rintro ⟨h1, h2, h3, h4⟩
      rw [mapBands_eq, if_pos]
      · exact ⟨_, rfl⟩
      · refine ⟨h1, h2, ?_, ?_⟩
        · intro hm r hr
          obtain ⟨i, c, b, hc, hb, hi⟩ := index_of h1 hr
          obtain ⟨r', hr1, hr2⟩ := rowsOf_at t hc hb
          rw [hi] at hr1
          cases hr1
          obtain ⟨f, hf⟩ := h4 hm i c b hc hb
          rw [(answer_iff hr2 allow f).mpr hf]
          simp
        · intro r hr
          obtain ⟨i, c, b, hc, hb, hi⟩ := index_of h1 hr
          obtain ⟨r', hr1, hr2⟩ := rowsOf_at t hc hb
          rw [hi] at hr1
          cases hr1
          cases ha : answerOf allow r with
          | none => rfl
          | some f =>
            have := h3 i c b f hc hb ((answer_iff hr2 allow f).mp ha)
            simp [noCurve, this]
  · intro e h
    rw [mapBands_eq] at h
    split at h
    · cases h
    · cases h; rfl

/-- The documented fallbacks are for `u g r i z y`; a capital letter (`R` and `I` are bands of another photometric system)
is answered with the filter of the small letter. -/
theorem C68_capitals (t : Tables) (code : Option Str) (x : Char) (hx : x ∈ ['U', 'G', 'R', 'I', 'Z', 'Y'])
    (hk : [x] ∉ t.curves)
    (hm : ∀ c name, code = some c → Reported c [x] name → t.mapping.lookup (c ++ ['|'] ++ name) = none) :
    Answer t true code (some [x]) (if x.toLower = 'y' then "PS1_y".toList else "SDSS_".toList ++ [x.toLower]) :=
  ⟨true, .fallback code x _ hk hm (upper_in hx).1 rfl, fun _ => rfl⟩

/-- A concrete table: one known filter, one mapped band of X05, one fallback. -/
def tablesExample : Tables :=
  ⟨["V".toList, "LSST_g".toList, "SDSS_r".toList], [("X05|g".toList, "LSST_g".toList)]⟩

example : mapBands tablesExample [some "X05".toList, some "500".toList, none, some "500".toList]
    [some " Lg".toList, some "V".toList, some "R".toList, some "clear".toList] true .skip
    = .ok [some "LSST_g".toList, some "V".toList, some "SDSS_r".toList, none] := by decide +kernel

example : mapBands tablesExample [some "X05".toList, some "500".toList] [some "LSST_g".toList, some "r".toList] false .raise
    = .error .valueError := by decide +kernel

example : mapBands tablesExample [some "X05".toList, some "500".toList] [some "LG".toList, some "r".toList] true .raise
    = .ok [some "LSST_g".toList, some "SDSS_r".toList] := by decide +kernel

end Verif.Band.ResolveProps
