import Verif.Obs80.Model

/-! # Specification vocabulary for 80-column observations -/

namespace Verif.Obs80.Spec

open Verif.Mpc (Str)

/-- Nanoseconds in a day. -/
def DAY : Int := 86400 * 10 ^ 9

/-- Gregorian leap year rule, in words: every fourth year, but of the century years only every fourth. -/
def Leap (y : Int) : Prop := (4 ∣ y ∧ ¬ 100 ∣ y) ∨ 400 ∣ y

/-- Length of month `m` of year `y`. -/
def MonthLength (y m n : Int) : Prop :=
  (m ∈ [1, 3, 5, 7, 8, 10, 12] ∧ n = 31) ∨ (m ∈ [4, 6, 9, 11] ∧ n = 30) ∨
  (m = 2 ∧ Leap y ∧ n = 29) ∨ (m = 2 ∧ ¬ Leap y ∧ n = 28)

/-- A date of the calendar. -/
def ValidDate (y m d : Int) : Prop := 1 ≤ m ∧ m ≤ 12 ∧ 1 ≤ d ∧ ∃ n, MonthLength y m n ∧ d ≤ n

/-- `b` is the day after `a`. -/
def Next (a b : Int × Int × Int) : Prop :=
  let (y, m, d) := a
  (∃ n, MonthLength y m n ∧ d < n ∧ b = (y, m, d + 1)) ∨
  (∃ n, MonthLength y m n ∧ d = n ∧ m < 12 ∧ b = (y, m + 1, 1)) ∨
  (MonthLength y m d ∧ m = 12 ∧ b = (y + 1, 1, 1))

/-- The Modified Julian Day number of a date: 1858-11-17 is day 0, and the count moves by one from day to day. -/
inductive DayNumber : Int × Int × Int → Int → Prop
  | base : DayNumber (1858, 11, 17) 0
  | succ {a b : Int × Int × Int} {n : Int} : DayNumber a n → ValidDate a.1 a.2.1 a.2.2 → Next a b → DayNumber b (n + 1)
  | pred {a b : Int × Int × Int} {n : Int} : DayNumber b n → ValidDate a.1 a.2.1 a.2.2 → Next a b → DayNumber a (n - 1)

/-- A list of decimal digits. -/
def Digits (s : Str) : Prop := ∀ c ∈ s, '0' ≤ c ∧ c ≤ '9'

/-- Value of a digit string, most significant first. -/
def digitsValue (s : Str) : Nat := s.foldl (fun n c => 10 * n + (c.toNat - 48)) 0

/-- The lines a reader has to look at, with their numbers counted from `n`. -/
def nonBlank (n : Nat) : List Str → List (Nat × Str)
  | [] => []
  | l :: ls => if l.all Mpc.isSpace then nonBlank (n + 1) ls else (n, l) :: nonBlank (n + 1) ls

end Verif.Obs80.Spec
