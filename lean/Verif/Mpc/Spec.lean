import Verif.Mpc.Model

/-!
# Specification vocabulary for designations

Designations are described by their parts (number, year, letters, cycle, survey), and their texts are built with
Lean's own decimal printer, not with the model's formatting helpers.
-/

namespace Verif.Mpc.Spec

/-- Decimal text of a number. -/
def text (n : Nat) : List Char := (toString n).toList

/-- Value of an alphanumeric character: digits 0-9, then A-Z, then a-z. -/
def value62 (c : Char) : Option Nat :=
  if '0' ≤ c ∧ c ≤ '9' then some (c.toNat - '0'.toNat)
  else if 'A' ≤ c ∧ c ≤ 'Z' then some (c.toNat - 'A'.toNat + 10)
  else if 'a' ≤ c ∧ c ≤ 'z' then some (c.toNat - 'a'.toNat + 36)
  else none

/-- An upper-case ASCII letter. -/
def Upper (c : Char) : Prop := 'A' ≤ c ∧ c ≤ 'Z'

instance (c : Char) : Decidable (Upper c) := inferInstanceAs (Decidable (_ ∧ _))

/-- A provisional designation: year, half-month letter, second letter, cycle count. -/
structure Prov where
  year : Nat
  letter1 : Char
  letter2 : Char
  cycle : Nat

/-- Well-formed: four digit year up to 6199, letters A-Z, half-month letter neither I nor Z, cycle below 620. -/
def Prov.Valid (p : Prov) : Prop :=
  1000 ≤ p.year ∧ p.year ≤ 6199 ∧ Upper p.letter1 ∧ p.letter1 ≠ 'I' ∧ p.letter1 ≠ 'Z' ∧ Upper p.letter2 ∧ p.cycle < 620

/-- `1998 SS162`; the cycle count is omitted when it is zero. -/
def Prov.text (p : Prov) : List Char :=
  Spec.text p.year ++ [' ', p.letter1, p.letter2] ++ (if p.cycle = 0 then [] else Spec.text p.cycle)

/-- The four surveys. -/
inductive Survey where
  | PL | T1 | T2 | T3

def Survey.text : Survey → List Char
  | .PL => ['P', '-', 'L']
  | .T1 => ['T', '-', '1']
  | .T2 => ['T', '-', '2']
  | .T3 => ['T', '-', '3']

/-- `2040 P-L` with the four digits of the number. -/
def surveyText (digits : List Char) (s : Survey) : List Char := digits ++ [' '] ++ s.text

/-- Four decimal digits. -/
def FourDigits (digits : List Char) : Prop := digits.length = 4 ∧ ∀ c ∈ digits, '0' ≤ c ∧ c ≤ '9'

/-- A valid designation of one of the three families. -/
inductive Valid : List Char → Prop
  | numbered (n : Nat) (h : n ≤ 15396335) : Valid (text n)
  | provisional (p : Prov) (h : p.Valid) : Valid p.text
  | survey (ds : List Char) (s : Survey) (h : FourDigits ds) (h0 : ds.head? ≠ some '0') : Valid (surveyText ds s)

end Verif.Mpc.Spec
