import Verif.Obs80.Model
import Verif.F64

/-! # Angles of 80-column records with float64 rounding

`_parse_ra` and `_parse_dec` of `src/adam_core/observations/obs80.py`, with every float64 operation rounded (`F64.fl`). `float` of a text is the
float64 nearest to the number written. -/

namespace Verif.Obs80

open Verif.Mpc (Str strip)
open Verif.F64

/-- `x + minutes / 60.0 + seconds / 3600.0`. obs80.py:114, 130. -/
def sexagesimal64 (x m s : ℚ) : ℚ := fl (fl (x + fl (m / 60)) + fl (s / 3600))

/-- `_parse_ra`. obs80.py:104-114. -/
def parseRa64 (raw : Str) : Except Err ℚ :=
  match tokens (strip raw) with
  | [a, b, c] =>
    match number a, number b, number c with
    | some (.fin h), some (.fin m), some (.fin s) =>
      if 0 ≤ fl h ∧ fl h < 24 ∧ 0 ≤ fl m ∧ fl m < 60 ∧ 0 ≤ fl s ∧ fl s < 60 then .ok (fl (15 * sexagesimal64 (fl h) (fl m) (fl s)))
      else .error .obs80
    | _, _, _ => .error .obs80
  | _ => .error .obs80

/-- `_parse_dec`. obs80.py:117-133. The product with the sign is exact. -/
def parseDec64 (raw : Str) : Except Err ℚ :=
  match tokens (strip raw) with
  | [c0 :: a, b, c] =>
    if c0 = '+' ∨ c0 = '-' then
      let sign : ℚ := if c0 = '-' then -1 else 1
      match number a, number b, number c with
      | some (.fin d), some (.fin m), some (.fin s) =>
        if 0 ≤ fl d ∧ fl d ≤ 90 ∧ 0 ≤ fl m ∧ fl m < 60 ∧ 0 ≤ fl s ∧ fl s < 60 then
          let value := sign * sexagesimal64 (fl d) (fl m) (fl s)
          if -90 ≤ value ∧ value ≤ 90 then .ok value else .error .obs80
        else .error .obs80
      | _, _, _ => .error .obs80
    else .error .obs80
  | _ => .error .obs80

end Verif.Obs80
