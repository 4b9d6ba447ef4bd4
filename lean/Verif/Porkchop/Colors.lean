import Verif.Basic
import Mathlib.Analysis.SpecialFunctions.Pow.Real

/-! # Colour scales (missions/porkchop.py)

A colour keeps its position, its three channels and its opacity before it is printed with two decimals. Numbers are exact reals instead of
float64. -/

namespace Verif.Porkchop

open Verif

/-- An entry `[position, "rgba(r, g, b, alpha)"]`. porkchop.py:105, 203. -/
structure Colour where
  position : ℝ
  r : ℤ
  g : ℤ
  b : ℤ
  alpha : ℝ

/-- `color_map`. porkchop.py:53-62, 143-152. -/
def colorMap : List (List Char × (ℤ × ℤ × ℤ)) :=
  [("red".toList, (255, 0, 0)), ("blue".toList, (0, 0, 255)), ("green".toList, (0, 255, 0)), ("orange".toList, (255, 165, 0)),
   ("purple".toList, (128, 0, 128)), ("yellow".toList, (255, 255, 0)), ("cyan".toList, (0, 255, 255)),
   ("magenta".toList, (255, 0, 255))]

/-- The value of a hexadecimal digit. Used for porkchop.py:68, 157. -/
def hexDigit (c : Char) : Option ℤ :=
  if '0' ≤ c ∧ c ≤ '9' then some (c.toNat - 48)
  else if 'a' ≤ c ∧ c ≤ 'f' then some (c.toNat - 87)
  else if 'A' ≤ c ∧ c ≤ 'F' then some (c.toNat - 55)
  else none

/-- White space that `int` strips; only ASCII. Used for porkchop.py:68, 157. -/
def isBlank (c : Char) : Bool := c = ' ' || c = '\t' || c = '\n' || c = '\r' || c = '\x0b' || c = '\x0c'

/-- `int(s, 16)` of at most two characters; only ASCII. Used for porkchop.py:68, 157. -/
def hexInt (s : List Char) : Option ℤ :=
  match ((s.dropWhile isBlank).reverse.dropWhile isBlank).reverse with
  | [d] => hexDigit d
  | [a, d] =>
    if a = '+' then hexDigit d
    else if a = '-' then (hexDigit d).map (- ·)
    else do return 16 * (← hexDigit a) + (← hexDigit d)
  | _ => none

/-- The base colour: a hex code, a known name in any case, or else red. porkchop.py:64-74, 154-161. -/
def baseRgb (color : List Char) : Except PyErr (ℤ × ℤ × ℤ) :=
  if color.head? = some '#' then
    let h := color.dropWhile (· = '#')
    match hexInt (h.take 2), hexInt ((h.drop 2).take 2), hexInt ((h.drop 4).take 2) with
    | some r, some g, some b => .ok (r, g, b)
    | _, _, _ => .error .valueError
  else .ok ((colorMap.lookup (color.map Char.toLower)).getD (255, 0, 0))

/-- `int(x)`: toward zero. Used for porkchop.py:85-95, 196-198. -/
noncomputable def toInt (x : ℝ) : ℤ := if 0 ≤ x then ⌊x⌋ else ⌈x⌉

/-- `max(0, min(255, x))`. porkchop.py:98-100, 196-198. -/
def clamp (x : ℤ) : ℤ := max 0 (min 255 x)

/-- The loop over the levels: a single level divides by zero. porkchop.py:76-77, 167-168. -/
noncomputable def scale (n : ℤ) (f : ℝ → Colour) : Except PyErr (List Colour) :=
  if n = 1 then .error .zeroDivision else .ok ((List.range n.toNat).map fun i : ℕ => f ((i : ℝ) / ((n : ℝ) - 1)))

/-- A channel of the saturated scale. porkchop.py:82-100. -/
noncomputable def saturatedChannel (base : ℤ) (position : ℝ) : ℤ :=
  clamp (if position = 0 then toInt (base * 0.9 + 255 * (1 - 0.9)) else toInt (base * (0.3 + 0.7 * position ^ (0.8 : ℝ))))

/-- `generate_saturated_colorscale`. porkchop.py:29-107. -/
noncomputable def saturated (color : List Char) (n : ℤ) (maxAlpha minAlpha : ℝ) : Except PyErr (List Colour) := do
  let (r, g, b) ← baseRgb color
  scale n fun p => ⟨p, saturatedChannel r p, saturatedChannel g p, saturatedChannel b p, minAlpha + (maxAlpha - minAlpha) * p⟩

/-- A channel of the perceptual scale, from the channels of the base colour in the range 0 to 1. porkchop.py:170-198. -/
noncomputable def perceptualChannel (base r g b minL maxL : ℝ) (position : ℝ) : ℤ :=
  let lightness := maxL - position * (maxL - minL)
  let m := max (max r g) b
  clamp (toInt ((if position = 0 then base * lightness + (1 - lightness) else if 0 < m then base * (lightness / m) else lightness) * 255))

/-- `generate_perceptual_colorscale`. porkchop.py:110-205. -/
noncomputable def perceptual (color : List Char) (n : ℤ) (minL maxL maxAlpha minAlpha : ℝ) : Except PyErr (List Colour) := do
  let (r, g, b) ← baseRgb color
  let channel (x : ℤ) (p : ℝ) := perceptualChannel ((x : ℝ) / 255) (r / 255) (g / 255) (b / 255) minL maxL p
  scale n fun p => ⟨p, channel r p, channel g p, channel b p, minAlpha + (maxAlpha - minAlpha) * p⟩

end Verif.Porkchop
