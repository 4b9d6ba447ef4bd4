import Verif.Porkchop.Colors
import Mathlib.Tactic.Linarith
import Mathlib.Tactic.NormNum
import Mathlib.Tactic.Positivity
import Mathlib.Tactic.FieldSimp
import Mathlib.Tactic.IntervalCases

/-! # C186: colour scales -/

namespace Verif.Porkchop.ColorProps

open Verif Porkchop

/-! ## Specification -/

/-- The value of a hexadecimal digit, small or capital. -/
def HexValue (c : Char) (v : ℤ) : Prop :=
  ∃ k : ℕ, v = k ∧ (("0123456789abcdef".toList)[k]? = some c ∨ ("0123456789ABCDEF".toList)[k]? = some c)

/-! ## Lemmas -/

theorem hexDigit_value {c : Char} {v : ℤ} (h : HexValue c v) : hexDigit c = some v := by
  obtain ⟨k, rfl, h⟩ := h
  have hk : k < 16 := by
    rcases h with h | h <;> exact (List.getElem?_eq_some_iff.mp h).1
  interval_cases k <;> rcases h with h | h <;> cases h <;> decide +kernel

theorem toInt_mono {a b : ℝ} (h : a ≤ b) : toInt a ≤ toInt b := by
  unfold toInt
  split <;> split
  · exact Int.floor_le_floor h
  · rename_i h1 h2
    exact absurd (h1.trans h) h2
  · rename_i h1 h2
    exact (Int.ceil_le.mpr (by push_cast; exact (not_le.mp h1).le)).trans (Int.floor_nonneg.mpr h2)
  · exact Int.ceil_le_ceil h

theorem toInt_intCast (a : ℤ) : toInt (a : ℝ) = a := by
  unfold toInt
  split <;> simp

theorem toInt_lt {a : ℝ} {n : ℤ} (h0 : 0 ≤ a) (h : a < n) : toInt a < n := by
  unfold toInt
  rw [if_pos h0]
  exact Int.floor_lt.mpr h

theorem clamp_mono {a b : ℤ} (h : a ≤ b) : clamp a ≤ clamp b := by unfold clamp; omega

theorem clamp_range (a : ℤ) : 0 ≤ clamp a ∧ clamp a ≤ 255 := by unfold clamp; omega

theorem clamp_id {a : ℤ} (h : 0 ≤ a ∧ a ≤ 255) : clamp a = a := by unfold clamp; omega

theorem scale_ok {n : ℤ} {f : ℝ → Colour} {cs : List Colour} (h : scale n f = .ok cs) :
    n ≠ 1 ∧ cs.length = n.toNat ∧ ∀ (i : ℕ) (c : Colour), cs[i]? = some c → (i : ℤ) < n ∧ c = f ((i : ℝ) / ((n : ℝ) - 1)) := by
  unfold scale at h
  split at h
  · cases h
  · rename_i hn
    simp only [Except.ok.injEq] at h
    subst h
    refine ⟨hn, by simp, fun i c hc => ?_⟩
    rw [List.getElem?_map] at hc
    obtain ⟨k, hk, rfl⟩ := Option.map_eq_some_iff.mp hc
    obtain ⟨hl, rfl⟩ := List.getElem?_eq_some_iff.mp hk
    simp only [List.length_range] at hl
    refine ⟨by omega, ?_⟩
    simp

theorem pos_eq {i : Nat} {n : ℤ} (h : (i : ℤ) < n) (hn : n ≠ 1) : 0 ≤ (i : ℝ) / ((n : ℝ) - 1) ∧ (i : ℝ) / ((n : ℝ) - 1) ≤ 1 ∧
    ((i : ℝ) / ((n : ℝ) - 1) = 0 ↔ i = 0) ∧ ((i : ℝ) / ((n : ℝ) - 1) = 1 ↔ (i : ℤ) = n - 1) := by
  have h1 : (1 : ℝ) ≤ (n : ℝ) - 1 := by
    have : (2 : ℝ) ≤ n := by exact_mod_cast (by omega : (2 : ℤ) ≤ n)
    linarith
  have h2 : (i : ℝ) ≤ (n : ℝ) - 1 := by
    have : ((i : ℤ) : ℝ) + 1 ≤ n := by exact_mod_cast h
    push_cast at this
    linarith
  refine ⟨by positivity, (div_le_one (by linarith)).mpr h2, ?_, ?_⟩
  · rw [div_eq_zero_iff]
    constructor
    · rintro (h | h)
      · exact_mod_cast h
      · linarith
    · rintro rfl
      left
      simp
  · rw [div_eq_one_iff_eq (by linarith)]
    constructor
    · intro h
      have : ((i : ℤ) : ℝ) = ((n - 1 : ℤ) : ℝ) := by push_cast; exact h
      exact_mod_cast this
    · intro h
      have : ((i : ℤ) : ℝ) = ((n - 1 : ℤ) : ℝ) := by rw [h]
      push_cast at this
      exact this

theorem saturated_ok {color : List Char} {n : ℤ} {hi lo : ℝ} {cs : List Colour} (h : saturated color n hi lo = .ok cs) :
    ∃ r g b, baseRgb color = .ok (r, g, b) ∧ scale n (fun p => ⟨p, saturatedChannel r p, saturatedChannel g p, saturatedChannel b p,
      lo + (hi - lo) * p⟩) = .ok cs := by
  unfold saturated at h
  cases hb : baseRgb color with
  | error e => rw [hb] at h; cases h
  | ok rgb =>
    obtain ⟨r, g, b⟩ := rgb
    rw [hb] at h
    exact ⟨r, g, b, rfl, h⟩

theorem perceptual_ok {color : List Char} {n : ℤ} {minL maxL hi lo : ℝ} {cs : List Colour}
    (h : perceptual color n minL maxL hi lo = .ok cs) :
    ∃ r g b, baseRgb color = .ok (r, g, b) ∧ scale n (fun p => ⟨p, perceptualChannel ((r : ℝ) / 255) (r / 255) (g / 255) (b / 255) minL maxL p,
      perceptualChannel ((g : ℝ) / 255) (r / 255) (g / 255) (b / 255) minL maxL p,
      perceptualChannel ((b : ℝ) / 255) (r / 255) (g / 255) (b / 255) minL maxL p, lo + (hi - lo) * p⟩) = .ok cs := by
  unfold perceptual at h
  cases hb : baseRgb color with
  | error e => rw [hb] at h; cases h
  | ok rgb =>
    obtain ⟨r, g, b⟩ := rgb
    rw [hb] at h
    exact ⟨r, g, b, rfl, h⟩

/-! ## Specification -/

/-- A colour scale of `n` levels: evenly spaced positions from 0 to 1, opacity from `lo` to `hi`, channels from 0 to 255. -/
def Scale (n : ℤ) (hi lo : ℝ) (cs : List Colour) : Prop :=
  cs.length = n.toNat ∧ ∀ (i : ℕ) (c : Colour), cs[i]? = some c →
    c.position * (n - 1) = i ∧ 0 ≤ c.position ∧ c.position ≤ 1 ∧ (c.position = 0 ↔ i = 0) ∧ (c.position = 1 ↔ (i : ℤ) = n - 1) ∧
    c.alpha = (1 - c.position) * lo + c.position * hi ∧
    (0 ≤ c.r ∧ c.r ≤ 255) ∧ (0 ≤ c.g ∧ c.g ≤ 255) ∧ (0 ≤ c.b ∧ c.b ≤ 255)

theorem scale_spec {n : ℤ} {hi lo : ℝ} {r g b : ℝ → ℤ} {cs : List Colour}
    (h : scale n (fun p => ⟨p, clamp (r p), clamp (g p), clamp (b p), lo + (hi - lo) * p⟩) = .ok cs) : Scale n hi lo cs := by
  obtain ⟨h1, h2, h3⟩ := scale_ok h
  refine ⟨h2, fun i c hc => ?_⟩
  obtain ⟨h4, rfl⟩ := h3 i c hc
  obtain ⟨k1, k2, k3, k4⟩ := pos_eq h4 h1
  have hne : (n : ℝ) - 1 ≠ 0 := by
    intro h0
    exact h1 (by exact_mod_cast (sub_eq_zero.mp h0))
  exact ⟨div_mul_cancel₀ _ hne, k1, k2, k3, k4, by ring, clamp_range _, clamp_range _, clamp_range _⟩

/-! ## Theorems -/

/-- C186. Both colour scales have evenly spaced positions from 0 to 1, an opacity that goes evenly from the smallest to the largest, and
channels in the range of a byte, for any colour and any limits of lightness. -/
theorem C186_scale {color : List Char} {n : ℤ} {minL maxL hi lo : ℝ} {cs : List Colour}
    (h : saturated color n hi lo = .ok cs ∨ perceptual color n minL maxL hi lo = .ok cs) : Scale n hi lo cs := by
  rcases h with h | h
  · obtain ⟨r, g, b, -, h⟩ := saturated_ok h
    exact scale_spec h
  · obtain ⟨r, g, b, -, h⟩ := perceptual_ok h
    exact scale_spec h

/-- C186. When they fail: a hex code whose three pairs are not numbers, or a single level. -/
theorem C186_errors (color : List Char) (n : ℤ) (minL maxL hi lo : ℝ) :
    ((∃ cs, saturated color n hi lo = .ok cs) ↔ (∃ rgb, baseRgb color = .ok rgb) ∧ n ≠ 1) ∧
    ((∃ cs, perceptual color n minL maxL hi lo = .ok cs) ↔ (∃ rgb, baseRgb color = .ok rgb) ∧ n ≠ 1) ∧
    (color.head? ≠ some '#' → ∃ rgb, baseRgb color = .ok rgb) ∧
    (∀ rgb, baseRgb color = .ok rgb → saturated color 1 hi lo = .error .zeroDivision ∧
      perceptual color 1 minL maxL hi lo = .error .zeroDivision) ∧
    (∀ e, baseRgb color = .error e → e = .valueError ∧ saturated color n hi lo = .error .valueError ∧
      perceptual color n minL maxL hi lo = .error .valueError) := by
  have hs : ∀ f, (∃ cs, scale n f = .ok cs) ↔ n ≠ 1 := by
    intro f
    unfold scale
    split <;> simp_all
  refine ⟨?_, ?_, ?_, ?_, ?_⟩
  · unfold saturated
    cases hb : baseRgb color with
    | error e => simp [bind, Except.bind]
    | ok rgb =>
      obtain ⟨r, g, b⟩ := rgb
      simp only [bind, Except.bind, hs]
      simp
  · unfold perceptual
    cases hb : baseRgb color with
    | error e => simp [bind, Except.bind]
    | ok rgb =>
      obtain ⟨r, g, b⟩ := rgb
      simp only [bind, Except.bind, hs]
      simp
  · intro h
    unfold baseRgb
    rw [if_neg h]
    exact ⟨_, rfl⟩
  · rintro ⟨r, g, b⟩ hb
    unfold saturated perceptual
    rw [hb]
    exact ⟨rfl, rfl⟩
  · intro e he
    have : e = .valueError := by
      unfold baseRgb at he
      split at he
      · dsimp only at he
        split at he
        · cases he
        · simp only [Except.error.injEq] at he
          exact he.symm
      · cases he
    subst this
    unfold saturated perceptual
    rw [he]
    exact ⟨rfl, rfl, rfl⟩

/-- C186. The three primary colours and their mixtures of two, by name in any case: full channels and no others. -/
theorem C186_primary (color : List Char) :
    (color.map Char.toLower = "red".toList → baseRgb color = .ok (255, 0, 0)) ∧
    (color.map Char.toLower = "green".toList → baseRgb color = .ok (0, 255, 0)) ∧
    (color.map Char.toLower = "blue".toList → baseRgb color = .ok (0, 0, 255)) ∧
    (color.map Char.toLower = "yellow".toList → baseRgb color = .ok (255, 255, 0)) ∧
    (color.map Char.toLower = "cyan".toList → baseRgb color = .ok (0, 255, 255)) ∧
    (color.map Char.toLower = "magenta".toList → baseRgb color = .ok (255, 0, 255)) := by
  have key : ∀ name : List Char, name.head? ≠ some '#' → color.map Char.toLower = name →
      baseRgb color = .ok ((colorMap.lookup name).getD (255, 0, 0)) := by
    intro name hn h
    unfold baseRgb
    rw [if_neg, h]
    intro hc
    cases color with
    | nil => cases hc
    | cons x t =>
      simp only [List.head?_cons, Option.some.injEq] at hc
      subst hc
      subst h
      exact hn (by simp)
  refine ⟨fun h => ?_, fun h => ?_, fun h => ?_, fun h => ?_, fun h => ?_, fun h => ?_⟩ <;> rw [key _ (by decide) h] <;> rfl

/-- C186. A name stands for its colour in any case; a hex code of six digits for its three bytes; any other text without `#` for red. -/
theorem C186_names :
    (∀ color : List Char, color.map Char.toLower = "purple".toList → baseRgb color = .ok (128, 0, 128)) ∧
    (∀ color : List Char, color.map Char.toLower = "orange".toList → baseRgb color = .ok (255, 165, 0)) ∧
    (∀ (a b c d e f : Char) (A B C D E F : ℤ), HexValue a A → HexValue b B → HexValue c C → HexValue d D → HexValue e E → HexValue f F →
      baseRgb ['#', a, b, c, d, e, f] = .ok (16 * A + B, 16 * C + D, 16 * E + F)) ∧
    (∀ color : List Char, color.head? ≠ some '#' → (∀ x ∈ colorMap, x.1 ≠ color.map Char.toLower) → baseRgb color = .ok (255, 0, 0)) := by
  have nohash : ∀ (color name : List Char), color.map Char.toLower = name → name.head? ≠ some '#' → color.head? ≠ some '#' := by
    intro color name h hn hc
    cases color with
    | nil => cases hc
    | cons x t =>
      simp only [List.head?_cons, Option.some.injEq] at hc
      subst hc
      subst h
      exact hn (by simp)
  refine ⟨fun color h => ?_, fun color h => ?_, ?_, fun color h hn => ?_⟩
  · unfold baseRgb
    rw [if_neg (nohash color _ h (by decide)), h]
    rfl
  · unfold baseRgb
    rw [if_neg (nohash color _ h (by decide)), h]
    rfl
  · intro a b c d e f A B C D E F ha hb hc hd he hf
    replace ha := hexDigit_value ha
    replace hb := hexDigit_value hb
    replace hc := hexDigit_value hc
    replace hd := hexDigit_value hd
    replace he := hexDigit_value he
    replace hf := hexDigit_value hf
    have notBlank : ∀ (x : Char) (X : ℤ), hexDigit x = some X → isBlank x = false ∧ x ≠ '#' ∧ x ≠ '+' ∧ x ≠ '-' := by
      intro x X hx
      refine ⟨?_, ?_, ?_, ?_⟩
      · by_contra hh
        simp only [Bool.not_eq_false, isBlank, Bool.or_eq_true, decide_eq_true_eq] at hh
        rcases hh with ((((rfl | rfl) | rfl) | rfl) | rfl) | rfl <;> revert hx <;> exact fun hx => by cases (show (none : Option ℤ) = some X from hx)
      all_goals
        rintro rfl
        cases (show (none : Option ℤ) = some X from hx)
    have pair : ∀ (x y : Char) (X Y : ℤ), hexDigit x = some X → hexDigit y = some Y → hexInt [x, y] = some (16 * X + Y) := by
      intro x y X Y hx hy
      obtain ⟨b1, -, p1, m1⟩ := notBlank x X hx
      obtain ⟨b2, -⟩ := notBlank y Y hy
      unfold hexInt
      simp [b1, b2, p1, m1, hx, hy]
    unfold baseRgb
    rw [if_pos (show ['#', a, b, c, d, e, f].head? = some '#' from rfl)]
    have hd' : List.dropWhile (fun x => decide (x = '#')) ['#', a, b, c, d, e, f] = [a, b, c, d, e, f] := by
      simp [(notBlank a A ha).2.1]
    simp only [hd']
    simp [pair a b A B ha hb, pair c d C D hc hd, pair e f E F he hf]
  · unfold baseRgb
    rw [if_neg h]
    have : colorMap.lookup (color.map Char.toLower) = none := by
      rw [List.lookup_eq_none_iff]
      intro p hp
      have := hn p hp
      simp [Ne.symm this]
    rw [this]
    rfl

theorem saturatedChannel_mono {base : ℤ} (hb : 0 ≤ base) {p q : ℝ} (hp : 0 < p) (hpq : p ≤ q) :
    saturatedChannel base p ≤ saturatedChannel base q := by
  unfold saturatedChannel
  rw [if_neg hp.ne', if_neg (hp.trans_le hpq).ne']
  apply clamp_mono
  apply toInt_mono
  have h1 : p ^ (0.8 : ℝ) ≤ q ^ (0.8 : ℝ) := Real.rpow_le_rpow hp.le hpq (by norm_num)
  have h2 : (0 : ℝ) ≤ base := by exact_mod_cast hb
  exact mul_le_mul_of_nonneg_left (by linarith) h2

theorem saturatedChannel_last {base : ℤ} : saturatedChannel base 1 = clamp base := by
  unfold saturatedChannel
  rw [if_neg one_ne_zero, Real.one_rpow]
  norm_num
  rw [toInt_intCast]

theorem saturatedChannel_lt {base : ℤ} (hb : 0 < base ∧ base ≤ 255) {p : ℝ} (hp : 0 < p) (h1 : p < 1) : saturatedChannel base p < base := by
  have h2 : (0 : ℝ) < base := by exact_mod_cast hb.1
  have h3 : p ^ (0.8 : ℝ) < 1 := Real.rpow_lt_one hp.le h1 (by norm_num)
  have h4 : 0 ≤ p ^ (0.8 : ℝ) := Real.rpow_nonneg hp.le _
  have h5 : toInt (base * (0.3 + 0.7 * p ^ (0.8 : ℝ))) < base := by
    apply toInt_lt
    · positivity
    · have : (0.3 + 0.7 * p ^ (0.8 : ℝ)) < 1 := by linarith
      calc (base : ℝ) * (0.3 + 0.7 * p ^ (0.8 : ℝ)) < base * 1 := mul_lt_mul_of_pos_left this h2
        _ = base := mul_one _
  unfold saturatedChannel
  rw [if_neg hp.ne']
  unfold clamp
  omega

/-- C186. The saturated scale ends with the base colour, and no channel falls from the second level on. -/
theorem C186_saturated {color : List Char} {n : ℤ} {hi lo : ℝ} {cs : List Colour} (h : saturated color n hi lo = .ok cs) {r g b : ℤ}
    (hb : baseRgb color = .ok (r, g, b)) (hr : 0 ≤ r ∧ r ≤ 255) (hg : 0 ≤ g ∧ g ≤ 255) (hbl : 0 ≤ b ∧ b ≤ 255) :
    (∀ c, cs.getLast? = some c → c.r = r ∧ c.g = g ∧ c.b = b) ∧
    ∀ (i j : ℕ) (c d : Colour), 1 ≤ i → i ≤ j → cs[i]? = some c → cs[j]? = some d → c.r ≤ d.r ∧ c.g ≤ d.g ∧ c.b ≤ d.b := by
  obtain ⟨r', g', b', hb', hs⟩ := saturated_ok h
  rw [hb, Except.ok.injEq, Prod.mk.injEq, Prod.mk.injEq] at hb'
  obtain ⟨rfl, rfl, rfl⟩ := hb'
  obtain ⟨k1, k2, k3⟩ := scale_ok hs
  refine ⟨fun c hc => ?_, fun i j c d hi1 hij hc hd => ?_⟩
  · rw [List.getLast?_eq_getElem?] at hc
    obtain ⟨hl, rfl⟩ := k3 _ c hc
    rw [k2] at hl ⊢
    have hn : ((n.toNat - 1 : ℕ) : ℤ) = n - 1 := by omega
    have hp := (pos_eq hl k1).2.2.2.mpr hn
    simp only [hp, saturatedChannel_last, clamp_id hr, clamp_id hg, clamp_id hbl, and_self]
  · obtain ⟨hl, rfl⟩ := k3 i c hc
    obtain ⟨hl', rfl⟩ := k3 j d hd
    obtain ⟨a1, -, a3, -⟩ := pos_eq hl k1
    have hp : 0 < (i : ℝ) / ((n : ℝ) - 1) := lt_of_le_of_ne a1 fun e => by have := a3.mp e.symm; omega
    have hpq : (i : ℝ) / ((n : ℝ) - 1) ≤ (j : ℝ) / ((n : ℝ) - 1) := by
      have h2 : (0 : ℝ) ≤ (n : ℝ) - 1 := by
        have : (2 : ℝ) ≤ n := by exact_mod_cast (by omega : (2 : ℤ) ≤ n)
        linarith
      have h3 : (i : ℝ) ≤ j := by exact_mod_cast hij
      exact div_le_div_of_nonneg_right h3 h2
    exact ⟨saturatedChannel_mono hr.1 hp hpq, saturatedChannel_mono hg.1 hp hpq, saturatedChannel_mono hbl.1 hp hpq⟩

/-- C186. Not true that the saturated scale goes from light to dark: with three or more levels, every channel that the base colour has is
darker at every level between the first and the last than at the last. -/
theorem C186_dark_false {color : List Char} {n : ℤ} {hi lo : ℝ} {cs : List Colour} (h : saturated color n hi lo = .ok cs) {r g b : ℤ}
    (hb : baseRgb color = .ok (r, g, b)) (hr : 0 < r ∧ r ≤ 255) {i : Nat} {c d : Colour} (hi1 : 1 ≤ i) (hil : (i : ℤ) < n - 1)
    (hc : cs[i]? = some c) (hd : cs.getLast? = some d) : c.r < d.r := by
  obtain ⟨r', g', b', hb', hs⟩ := saturated_ok h
  rw [hb, Except.ok.injEq, Prod.mk.injEq, Prod.mk.injEq] at hb'
  obtain ⟨rfl, rfl, rfl⟩ := hb'
  obtain ⟨k1, k2, k3⟩ := scale_ok hs
  obtain ⟨hl, rfl⟩ := k3 i c hc
  rw [List.getLast?_eq_getElem?] at hd
  obtain ⟨hl', rfl⟩ := k3 _ d hd
  rw [k2] at hl' ⊢
  have hn : ((n.toNat - 1 : ℕ) : ℤ) = n - 1 := by omega
  have hp := (pos_eq hl' k1).2.2.2.mpr hn
  simp only [hp, saturatedChannel_last, clamp_id ⟨hr.1.le, hr.2⟩]
  obtain ⟨a1, a2, a3, a4⟩ := pos_eq hl k1
  exact saturatedChannel_lt hr (lt_of_le_of_ne a1 fun e => by have := a3.mp e.symm; omega)
    (lt_of_le_of_ne a2 fun e => by have := a4.mp e; omega)

theorem perceptualChannel_anti {base r g b minL maxL : ℝ} (hb : 0 ≤ base) (hl : minL ≤ maxL) {p q : ℝ} (hp : 0 < p) (hpq : p ≤ q) :
    perceptualChannel base r g b minL maxL q ≤ perceptualChannel base r g b minL maxL p := by
  unfold perceptualChannel
  dsimp only
  rw [if_neg hp.ne', if_neg (hp.trans_le hpq).ne']
  apply clamp_mono
  apply toInt_mono
  have h1 : maxL - q * (maxL - minL) ≤ maxL - p * (maxL - minL) := by
    have := mul_le_mul_of_nonneg_right hpq (sub_nonneg.mpr hl)
    linarith
  split
  · rename_i hm
    have h2 := div_le_div_of_nonneg_right h1 hm.le
    have h3 := mul_le_mul_of_nonneg_left h2 hb
    linarith
  · linarith

/-- C186. In the perceptual scale no channel rises from the second level on. -/
theorem C186_perceptual {color : List Char} {n : ℤ} {minL maxL hi lo : ℝ} {cs : List Colour}
    (h : perceptual color n minL maxL hi lo = .ok cs) (hl : minL ≤ maxL) {r g b : ℤ} (hb : baseRgb color = .ok (r, g, b)) (hr : 0 ≤ r)
    (hg : 0 ≤ g) (hbl : 0 ≤ b) {i j : Nat} {c d : Colour} (hi1 : 1 ≤ i) (hij : i ≤ j) (hc : cs[i]? = some c) (hd : cs[j]? = some d) :
    d.r ≤ c.r ∧ d.g ≤ c.g ∧ d.b ≤ c.b := by
  obtain ⟨r', g', b', hb', hs⟩ := perceptual_ok h
  rw [hb, Except.ok.injEq, Prod.mk.injEq, Prod.mk.injEq] at hb'
  obtain ⟨rfl, rfl, rfl⟩ := hb'
  obtain ⟨k1, k2, k3⟩ := scale_ok hs
  obtain ⟨hl1, rfl⟩ := k3 i c hc
  obtain ⟨hl', rfl⟩ := k3 j d hd
  obtain ⟨a1, -, a3, -⟩ := pos_eq hl1 k1
  have hp : 0 < (i : ℝ) / ((n : ℝ) - 1) := lt_of_le_of_ne a1 fun e => by have := a3.mp e.symm; omega
  have hpq : (i : ℝ) / ((n : ℝ) - 1) ≤ (j : ℝ) / ((n : ℝ) - 1) := by
    have h2 : (0 : ℝ) ≤ (n : ℝ) - 1 := by
      have : (2 : ℝ) ≤ n := by exact_mod_cast (by omega : (2 : ℤ) ≤ n)
      linarith
    have h3 : (i : ℝ) ≤ j := by exact_mod_cast hij
    exact div_le_div_of_nonneg_right h3 h2
  have cast : ∀ x : ℤ, 0 ≤ x → (0 : ℝ) ≤ (x : ℝ) / 255 := fun x hx => by
    have : (0 : ℝ) ≤ x := by exact_mod_cast hx
    positivity
  exact ⟨perceptualChannel_anti (cast r hr) hl hp hpq, perceptualChannel_anti (cast g hg) hl hp hpq,
    perceptualChannel_anti (cast b hbl) hl hp hpq⟩

/-- The channel with the largest base value is the lightness, rounded down to a byte. -/
theorem perceptualChannel_strongest {base r g b minL maxL p : ℝ} (hm : max (max r g) b = base) (h0 : 0 ≤ minL)
    (hl : minL ≤ maxL) (h1 : maxL ≤ 1) (a1 : 0 ≤ p) (a2 : p ≤ 1) (hp : ¬ p = 0) :
    (perceptualChannel base r g b minL maxL p : ℝ) ≤ 255 * (maxL - p * (maxL - minL)) ∧
      255 * (maxL - p * (maxL - minL)) < perceptualChannel base r g b minL maxL p + 1 := by
  have hd : 0 ≤ p * (maxL - minL) := mul_nonneg a1 (sub_nonneg.mpr hl)
  have hd' : p * (maxL - minL) ≤ maxL - minL := by
    have := mul_le_mul_of_nonneg_right a2 (sub_nonneg.mpr hl)
    linarith
  have hv : (if 0 < base then base * ((maxL - p * (maxL - minL)) / base) else maxL - p * (maxL - minL)) = maxL - p * (maxL - minL) := by
    split
    · exact mul_div_cancel₀ _ (by assumption : 0 < base).ne'
    · rfl
  simp only [perceptualChannel, if_neg hp, hm, hv]
  have hx0 : 0 ≤ (maxL - p * (maxL - minL)) * 255 := by linarith
  have e : toInt ((maxL - p * (maxL - minL)) * 255) = ⌊(maxL - p * (maxL - minL)) * 255⌋ := by
    unfold toInt
    rw [if_pos hx0]
  have hf0 : 0 ≤ ⌊(maxL - p * (maxL - minL)) * 255⌋ := Int.floor_nonneg.mpr hx0
  have hf1 : ⌊(maxL - p * (maxL - minL)) * 255⌋ ≤ 255 := by
    have : ⌊(maxL - p * (maxL - minL)) * 255⌋ < 256 := Int.floor_lt.mpr (by push_cast; linarith)
    omega
  rw [e, clamp_id ⟨hf0, hf1⟩]
  have f1 := Int.floor_le ((maxL - p * (maxL - minL)) * 255)
  have f2 := Int.lt_floor_add_one ((maxL - p * (maxL - minL)) * 255)
  constructor <;> linarith

/-- C186. At every level of the perceptual scale but the first, the strongest channel, whichever it is, is the lightness of the level,
from the largest to the smallest in even steps, to within a byte. -/
theorem C186_lightness {color : List Char} {n : ℤ} {minL maxL hi lo : ℝ} {cs : List Colour}
    (h : perceptual color n minL maxL hi lo = .ok cs) (h0 : 0 ≤ minL) (hl : minL ≤ maxL) (h1 : maxL ≤ 1) {r g b : ℤ}
    (hb : baseRgb color = .ok (r, g, b)) {i : Nat} {c : Colour} (hi1 : 1 ≤ i) (hc : cs[i]? = some c) {base channel : ℤ}
    (hs : base = r ∧ channel = c.r ∨ base = g ∧ channel = c.g ∨ base = b ∧ channel = c.b) (hr : r ≤ base) (hg : g ≤ base) (hbl : b ≤ base) :
    (channel : ℝ) ≤ 255 * (maxL - i / ((n : ℝ) - 1) * (maxL - minL)) ∧
      255 * (maxL - i / ((n : ℝ) - 1) * (maxL - minL)) < channel + 1 := by
  obtain ⟨r', g', b', hb', hsc⟩ := perceptual_ok h
  rw [hb, Except.ok.injEq, Prod.mk.injEq, Prod.mk.injEq] at hb'
  obtain ⟨rfl, rfl, rfl⟩ := hb'
  obtain ⟨k1, k2, k3⟩ := scale_ok hsc
  obtain ⟨hl1, rfl⟩ := k3 i c hc
  obtain ⟨a1, a2, a3, -⟩ := pos_eq hl1 k1
  have hp : ¬ (i : ℝ) / ((n : ℝ) - 1) = 0 := fun e => by have := a3.mp e; omega
  have cast : ∀ x : ℤ, x ≤ base → (x : ℝ) / 255 ≤ (base : ℝ) / 255 := fun x hx => by
    have : (x : ℝ) ≤ base := by exact_mod_cast hx
    linarith
  have hm : max (max ((r : ℝ) / 255) ((g : ℝ) / 255)) ((b : ℝ) / 255) = (base : ℝ) / 255 := by
    apply le_antisymm (max_le (max_le (cast r hr) (cast g hg)) (cast b hbl))
    rcases hs with ⟨rfl, -⟩ | ⟨rfl, -⟩ | ⟨rfl, -⟩
    · exact le_max_of_le_left (le_max_left _ _)
    · exact le_max_of_le_left (le_max_right _ _)
    · exact le_max_right _ _
  rcases hs with ⟨rfl, rfl⟩ | ⟨rfl, rfl⟩ | ⟨rfl, rfl⟩ <;> exact perceptualChannel_strongest hm h0 hl h1 a1 a2 hp

/-- C186. Not true that the perceptual scale starts with its lightest colour: the default scale of eight levels of purple starts with
(140, 25, 140), and its second level is (207, 0, 207). -/
theorem C186_first_false (hi lo : ℝ) : ∃ cs c d, perceptual "purple".toList 8 0.3 0.9 hi lo = .ok cs ∧ cs[0]? = some c ∧
    cs[1]? = some d ∧ (c.r, c.g, c.b) = (140, 25, 140) ∧ (d.r, d.g, d.b) = (207, 0, 207) := by
  have hb : baseRgb "purple".toList = .ok (128, 0, 128) := C186_names.1 _ (by decide)
  have t : ∀ (x : ℝ) (k : ℤ), 0 ≤ x → (k : ℝ) ≤ x → x < k + 1 → toInt x = k := fun x k h0 h1 h2 => by
    unfold toInt
    rw [if_pos h0]
    exact Int.floor_eq_iff.mpr ⟨h1, h2⟩
  have e : perceptual "purple".toList 8 0.3 0.9 hi lo = .ok ((List.range 8).map fun i : ℕ =>
      (⟨(i : ℝ) / (((8 : ℤ) : ℝ) - 1), perceptualChannel (((128 : ℤ) : ℝ) / 255) (((128 : ℤ) : ℝ) / 255) (((0 : ℤ) : ℝ) / 255) (((128 : ℤ) : ℝ) / 255) 0.3 0.9 ((i : ℝ) / (((8 : ℤ) : ℝ) - 1)),
        perceptualChannel (((0 : ℤ) : ℝ) / 255) (((128 : ℤ) : ℝ) / 255) (((0 : ℤ) : ℝ) / 255) (((128 : ℤ) : ℝ) / 255) 0.3 0.9 ((i : ℝ) / (((8 : ℤ) : ℝ) - 1)),
        perceptualChannel (((128 : ℤ) : ℝ) / 255) (((128 : ℤ) : ℝ) / 255) (((0 : ℤ) : ℝ) / 255) (((128 : ℤ) : ℝ) / 255) 0.3 0.9 ((i : ℝ) / (((8 : ℤ) : ℝ) - 1)),
        lo + (hi - lo) * ((i : ℝ) / (((8 : ℤ) : ℝ) - 1))⟩ : Colour)) := by
    unfold perceptual
    rw [hb]
    rfl
  refine ⟨_, _, _, e, rfl, rfl, ?_, ?_⟩
  · simp only [perceptualChannel]
    norm_num
    rw [t _ 140 (by norm_num) (by norm_num) (by norm_num), t _ 25 (by norm_num) (by norm_num) (by norm_num)]
    exact ⟨rfl, rfl, rfl⟩
  · simp only [perceptualChannel]
    norm_num
    rw [t _ 207 (by norm_num) (by norm_num) (by norm_num), t _ 0 (by norm_num) (by norm_num) (by norm_num)]
    exact ⟨rfl, rfl, rfl⟩

/-- The hypotheses of C186_saturated and C186_dark_false are met by the default scale of red. -/
example : ∃ cs c d, saturated "Red".toList 8 (4 / 5) (1 / 10) = .ok cs ∧ baseRgb "Red".toList = .ok (255, 0, 0) ∧ cs[1]? = some c ∧
    cs.getLast? = some d ∧ c.r < d.r := by
  have hb : baseRgb "Red".toList = .ok (255, 0, 0) := by decide
  obtain ⟨cs, hcs⟩ := (C186_errors "Red".toList 8 0 0 (4 / 5) (1 / 10)).1.mpr ⟨⟨_, hb⟩, by norm_num⟩
  have hlen := (C186_scale (minL := 0) (maxL := 0) (Or.inl hcs)).1
  have h8 : cs.length = 8 := hlen
  have hc : cs[1]? = some (cs[1]'(by omega)) := List.getElem?_eq_getElem _
  have hd : cs.getLast? = some (cs.getLast (by rw [← List.length_pos_iff]; omega)) := List.getLast?_eq_some_getLast _
  exact ⟨cs, _, _, hcs, hb, hc, hd, C186_dark_false hcs hb (by norm_num) (le_refl 1) (by norm_num) hc hd⟩

/-- C186_lightness: the green channel of the third level of spring green. -/
example : ∃ cs c, perceptual "#00FF7F".toList 8 (3 / 10) (9 / 10) (4 / 5) (1 / 10) = .ok cs ∧ cs[2]? = some c ∧ c.g = 185 := by
  have hb : baseRgb "#00FF7F".toList = .ok (0, 255, 127) := by decide +kernel
  obtain ⟨cs, hcs⟩ := (C186_errors "#00FF7F".toList 8 (3 / 10) (9 / 10) (4 / 5) (1 / 10)).2.1.mpr ⟨⟨_, hb⟩, by norm_num⟩
  have h8 : cs.length = 8 := (C186_scale (Or.inr hcs)).1
  have hc : cs[2]? = some (cs[2]'(by omega)) := List.getElem?_eq_getElem _
  obtain ⟨h1, h2⟩ := C186_lightness hcs (by norm_num) (by norm_num) (by norm_num) hb (by norm_num) hc (Or.inr (Or.inl ⟨rfl, rfl⟩))
    (by norm_num) (by norm_num) (by norm_num)
  refine ⟨cs, _, hcs, hc, ?_⟩
  push_cast at h1 h2
  have e1 : ((cs[2]'(by omega)).g : ℝ) < (186 : ℤ) := by push_cast; linarith
  have e2 : ((184 : ℤ) : ℝ) < (cs[2]'(by omega)).g := by push_cast; linarith
  have e1' := Int.cast_lt.mp e1
  have e2' := Int.cast_lt.mp e2
  omega

/-- C186_names and C186_errors: a short hex code is refused, a long one is cut. -/
example : baseRgb "#F00".toList = .error .valueError ∧ baseRgb "#FF8000AA".toList = .ok (255, 128, 0) ∧
    baseRgb "#-1-1-1".toList = .ok (-1, -1, -1) := by decide +kernel

end Verif.Porkchop.ColorProps
