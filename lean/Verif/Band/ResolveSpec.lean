import Verif.Band.Resolve

/-! # What resolving a band means -/

namespace Verif.Band.Spec

open Verif.Band (Str Tables)

/-- The bands with a survey fallback. -/
def letters : List Char := ['u', 'g', 'r', 'i', 'z', 'y']

/-- `c` is `b` without the white space around it. -/
def Trimmed (b c : Str) : Prop :=
  ∃ pre post : Str, b = pre ++ c ++ post ∧ (∀ x ∈ pre, x.isWhitespace) ∧ (∀ x ∈ post, x.isWhitespace) ∧
    (∀ x, c.head? = some x → ¬ x.isWhitespace) ∧ (∀ x, c.getLast? = some x → ¬ x.isWhitespace) ∧ (c = [] → post = [])

/-- `d` is `c` without a leading `LSST_`. -/
def Stripped (c d : Str) : Prop :=
  c = 'L' :: 'S' :: 'S' :: 'T' :: '_' :: d ∨ (c = d ∧ ∀ e, c ≠ 'L' :: 'S' :: 'S' :: 'T' :: '_' :: e)

/-- `Lg` and `LG` mean `g`, `Y` means `y`, other names mean themselves. -/
inductive Spelling : Str → Str → Prop
  | letter (x : Char) : x.toLower ∈ letters → Spelling ['L', x] [x.toLower]
  | upperY : Spelling ['Y'] ['y']
  | plain (c : Str) : c ≠ ['Y'] → (∀ x, c = ['L', x] → x.toLower ∉ letters) → Spelling c c

/-- The name of a band reported by station X05. -/
def Station (b n : Str) : Prop := ∃ c d, Trimmed b c ∧ Stripped c d ∧ Spelling d n

/-- The band looked up for a station. -/
def Reported (code band name : Str) : Prop :=
  (code = ['X', '0', '5'] ∧ Station band name) ∨ (code ≠ ['X', '0', '5'] ∧ name = band)

/-- The filter a row resolves to, and whether it is a fallback. -/
inductive Resolves (t : Tables) : Option Str → Option Str → Str → Bool → Prop
  | known (code : Option Str) (b : Str) : b ∈ t.curves → Resolves t code (some b) b false
  | mapped (code b name f : Str) : b ∉ t.curves → Reported code b name → t.mapping.lookup (code ++ ['|'] ++ name) = some f →
      Resolves t (some code) (some b) f false
  | fallback (code : Option Str) (x : Char) (f : Str) : [x] ∉ t.curves →
      (∀ c name, code = some c → Reported c [x] name → t.mapping.lookup (c ++ ['|'] ++ name) = none) →
      x.toLower ∈ letters →
      f = (if x.toLower = 'y' then "PS1_y".toList else "SDSS_".toList ++ [x.toLower]) → Resolves t code (some [x]) f true

/-- The filter of a row, when fallbacks may or may not be used. -/
def Answer (t : Tables) (allowFallback : Bool) (code band : Option Str) (f : Str) : Prop :=
  ∃ used, Resolves t code band f used ∧ (used = true → allowFallback = true)

end Verif.Band.Spec
