import Mathlib.Data.Rat.Floor
import Verif.Model.Dump

/-
Exact numbers as text with six decimals: what `std::to_string(double)` writes (the C library's `%f`, which
rounds the exact value, ties to even) and what reading it gives.  Numbers are rationals: rounding the value
read to the nearest double is not modelled.
-/

namespace Verif.Dump

open Verif.Text

/-- The absolute value in millionths, rounded to the nearest whole number, ties to even. -/
def millionths (x : ℚ) : Nat :=
  let y := |x| * 1000000
  let n := ⌊y⌋.toNat
  let r := y - n
  if r < 1 / 2 then n else if 1 / 2 < r then n + 1 else if n % 2 = 0 then n else n + 1

/-- `stream >> double` on a text of a sign, digits, a point and digits (exponents are not modelled). -/
def readDecimal (s : List Char) : ℚ :=
  let s := s.dropWhile isSpace
  let u := match s with
    | c :: r => if c == '-' || c == '+' then r else s
    | [] => []
  let whole := u.takeWhile isDigit
  let frac := match u.dropWhile isDigit with
    | '.' :: r => r.takeWhile isDigit
    | _ => []
  (if s.head? = some '-' then -1 else 1) * ((decimal whole : ℚ) + (decimal frac : ℚ) / 10 ^ frac.length)

/-- Writing with `%f` and reading back, /repo/source/parser/json.hpp:539-541 and
/repo/source/parser/type_checker.hpp:69-74 and 120-123. -/
def sixDecimals : NumText ℚ := ⟨fun x => floatText (decide (x < 0)) (millionths x), readDecimal⟩

end Verif.Dump
