import Verif.Model.Csv
import Verif.Model.Encoding
import Mathlib.Algebra.Order.Field.Rat

/-
Model of the conversion of text to numbers: `convert<T>(s, ref)` of /repo/source/parser/type_checker.hpp for
`T = NumType`, and the conversions of /repo/source/parser/csv.hpp that use it.

The extraction `ss >> ref` is the one of libstdc++ in the "C" locale: `num_get` gathers characters, then `strtod`
converts what was gathered.  Numbers are rational; rounding to the nearest `double` and overflow are not modelled.
-/

namespace Verif.Num

open Verif.Text Verif.Csv

/-- `isspace` in the "C" locale. -/
def isSpace (c : Char) : Bool :=
  c == ' ' || c == '\t' || c == '\n' || c == '\x0b' || c == '\x0c' || c == '\r'

/-- A decimal digit. -/
def isDigit (c : Char) : Bool := decide ('0' ≤ c) && decide (c ≤ '9')

/-- The number spelled by decimal digits. -/
def digitsVal (ds : List Char) : Nat := ds.foldl (fun n c => 10 * n + (c.toNat - 48)) 0

/-- An optional sign: the sign as written, whether it is a minus, and what follows. -/
def takeSign : List Char → List Char × Bool × List Char
  | '+' :: s => (['+'], false, s)
  | '-' :: s => (['-'], true, s)
  | s => ([], false, s)

/-- `num_get`, the loop that gathers the characters of a number: what was gathered and what is left.  The flags say
whether a digit, the decimal point and the exponent were found. -/
def gather : Bool → Bool → Bool → List Char → List Char × List Char
  | _, _, _, [] => ([], [])
  | mant, dec, sci, c :: s =>
    if isDigit c then
      let r := gather true dec sci s
      (c :: r.1, r.2)
    else if c == '.' && !dec && !sci then
      let r := gather mant true sci s
      (c :: r.1, r.2)
    else if (c == 'e' || c == 'E') && !sci && mant then
      match s with
      | '+' :: s =>
        let r := gather mant dec true s
        ('e' :: '+' :: r.1, r.2)
      | '-' :: s =>
        let r := gather mant dec true s
        ('e' :: '-' :: r.1, r.2)
      | s =>
        let r := gather mant dec true s
        ('e' :: r.1, r.2)
    else ([], c :: s)

/-- `num_get`: the sign, the leading zeros, of which one is kept, and the rest of the number. -/
def numGet (s : List Char) : List Char × List Char :=
  let sg := takeSign s
  let zs := sg.2.2.takeWhile (· == '0')
  let r := gather (!zs.isEmpty) false false (sg.2.2.dropWhile (· == '0'))
  (sg.1 ++ (if zs.isEmpty then [] else ['0']) ++ r.1, r.2)

/-- The digits after an optional decimal point, and what follows. -/
def takeFraction : List Char → List Char × List Char
  | '.' :: s => (s.takeWhile isDigit, s.dropWhile isDigit)
  | s => ([], s)

/-- An optional exponent, and what follows.  Without digits it is not an exponent. -/
def takeExponent : List Char → ℤ × List Char
  | [] => (0, [])
  | c :: s =>
    if c == 'e' || c == 'E' then
      let sg := takeSign s
      let ds := sg.2.2.takeWhile isDigit
      if ds.isEmpty then (0, c :: s)
      else ((if sg.2.1 then -1 else 1) * (digitsVal ds : ℤ), sg.2.2.dropWhile isDigit)
    else (0, c :: s)

/-- `strtod` on gathered text: the number and what follows it, or nothing if there is no number.  Blanks,
hexadecimal numbers, infinities and NaN are not gathered by `num_get`. -/
def strtod (s : List Char) : Option (ℚ × List Char) :=
  let sg := takeSign s
  let ip := sg.2.2.takeWhile isDigit
  let fr := takeFraction (sg.2.2.dropWhile isDigit)
  if (ip ++ fr.1).isEmpty then none
  else
    let ex := takeExponent fr.2
    some ((if sg.2.1 then -1 else 1) * (digitsVal (ip ++ fr.1) : ℚ) * 10 ^ (ex.1 - fr.1.length), ex.2)

/-- `convert<NumType>(s, ref)`, /repo/source/parser/type_checker.hpp:68-74: the result and the value stored, or
nothing if `ref` is left as it was. -/
def convertNum (s : List Char) : Bool × Option ℚ :=
  let t := s.dropWhile isSpace
  if t.isEmpty then (false, none)
  else
    let g := numGet t
    match strtod g.1 with
    | some (q, []) => (g.2.isEmpty, some q)
    | _ => (false, some 0)

/-- `field.as<NumType>()`, /repo/source/parser/csv.hpp:107-126: the result of the conversion is ignored, and the
variable it leaves as it was has no value. -/
def asNum (s : List Char) : Exec ℚ :=
  match (convertNum s).2 with
  | some q => .ok q
  | none => .ub

/-- `std::vector<NumType>(row)` and `row.to_vec<NumType>()`, /repo/source/parser/csv.hpp:374-400. -/
def Row.nums (r : Row) : Exec (List ℚ) := Data.collect asNum r.strings

/-- `entry(i)`, /repo/source/parser/csv.hpp:885-888. -/
def Csv.entryNums (c : Csv) (i : Nat) : Exec (Csv × List ℚ) := do
  let r ← c.get (i + 1)
  let v ← Row.nums r.2
  .ok (r.1, v)

/-- The calls `entry(i)`, `entry(i + 1)`, ... made by `data_to_encoding`, /repo/source/parser/parser.hpp:288-290. -/
def Csv.entriesNums (c : Csv) : Nat → Nat → Exec (Csv × List (List ℚ))
  | _, 0 => .ok (c, [])
  | i, n + 1 => do
    let r ← Csv.entryNums c i
    let q ← Csv.entriesNums r.1 (i + 1) n
    .ok (q.1, r.2 :: q.2)

/-- `Dataset<NumType>::parse(csv, DEFAULT_ENCODING, sequence_size)` for a CSV object made with the label columns
`labels`, /repo/source/data/dataset.hpp:679-690 and /repo/source/parser/csv.hpp:885-903. -/
def Csv.dataset (c : Csv) (labels : Finset Nat) (ss : Nat) : Exec (Data.Dataset ℚ) := do
  let r ← Csv.entriesNums c 0 c.entries
  Data.parseDefault ⟨r.2, c.cols, labels⟩ ss

/-- `std::vector<std::vector<NumType>>(csv)` and `csv.to_mat<NumType>()`, /repo/source/parser/csv.hpp:819-835 and
880-883, for a file with as many lines as the object counted. -/
def Csv.matNums (c : Csv) : Exec (List (List ℚ)) := Data.collect (Data.collect asNum) c.table

end Verif.Num
