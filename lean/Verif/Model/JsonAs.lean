import Verif.Model.Decimal
import Verif.Model.Number

/-
Model of the typed access to JSON values and CSV fields: `as<T>()`, `as_vec<T>()` and `as_map<T>()` of
/repo/source/parser/json.hpp for `T` an integer type, `double`, `bool` and `std::string`, with `convert<T>` of
/repo/source/parser/type_checker.hpp, and `as<T>()` and `to_vec<T>()` of /repo/source/parser/csv.hpp.

The extraction `ss >> ref` of an integer is the one of libstdc++ in the "C" locale.  Numbers of type `double` are
rational, see Model/Number.lean and Model/Decimal.lean.
-/

namespace Verif.Num

open Verif.Text

/-- An integer type of C++: `int` is `⟨true, 32⟩`, `unsigned long` is `⟨false, 64⟩`. -/
structure IntType where
  signed : Bool
  bits : Nat

/-- `std::numeric_limits<T>::min()`. -/
def IntType.lo (t : IntType) : ℤ := if t.signed then -2 ^ (t.bits - 1) else 0

/-- `std::numeric_limits<T>::max()`. -/
def IntType.hi (t : IntType) : ℤ := if t.signed then 2 ^ (t.bits - 1) - 1 else 2 ^ t.bits - 1

/-- `convert<T>(s, ref)` for an integer type, /repo/source/parser/type_checker.hpp:68-74: the result and the value
stored, or nothing if `ref` is left as it was.  Blanks are skipped; if nothing follows, the extraction fails before it
stores anything.  Then the longest run of digits after an optional sign is read.  Without digits 0 is stored; a number
outside the range is replaced by the nearest one in the range; a negative number for an unsigned type is taken modulo
`2 ^ bits`. -/
def convertInt (t : IntType) (s : List Char) : Bool × Option ℤ :=
  let u := s.dropWhile isSpace
  if u.isEmpty then (false, none)
  else
    let sg := takeSign u
    let ds := sg.2.2.takeWhile isDigit
    let rest := sg.2.2.dropWhile isDigit
    if ds.isEmpty then (false, some 0)
    else
      let n : ℤ := digitsVal ds
      if sg.2.1 && t.signed then
        if -n < t.lo then (false, some t.lo) else (rest.isEmpty, some (-n))
      else if t.hi < n then (false, some t.hi)
      else (rest.isEmpty, some (if sg.2.1 then (-n) % 2 ^ t.bits else n))

end Verif.Num

namespace Verif.Js

open Verif.Text Verif.Num

/-- The type `T` of `as<T>()`. -/
inductive ValType where
  | int (t : IntType)
  | num
  | bool
  | text

/-- A value of one of these types. -/
inductive Val where
  | int (i : ℤ)
  | num (q : ℚ)
  | bool (b : Bool)
  | text (s : List Char)

/-- `leaf.as<T>()`, /repo/source/parser/json.hpp:579-596, and `field.as<T>()`, /repo/source/parser/csv.hpp:107-126: the
variable is not initialised and the result of `convert` is ignored.  `convert<bool>` and `convert<std::string>`:
/repo/source/parser/type_checker.hpp:84-113. -/
def asText : ValType → List Char → Exec Val
  | .int t, s =>
    match (convertInt t s).2 with
    | some i => .ok (.int i)
    | none => .ub
  | .num, s => do
    let q ← asNum s
    .ok (.num q)
  | .bool, s => .ok (.bool (toBool s))
  | .text, s => .ok (.text s)

/-- `item.as<T>()`, `static_cast<T>(item)` for numbers and booleans: /repo/source/parser/json.hpp:1399-1402, 1418-1422 and
1810-1835. -/
def asItem (k : ValType) : Json → Exec Val
  | .none => .throw "Try to convert an empty JsonItem"
  | .leaf v _ => asText k v
  | .list _ => .throw "Try to convert a non-leaf json object"
  | .dict _ => .throw "Try to convert a non-leaf json object"

/-- `static_cast<std::string>(item)`, /repo/source/parser/json.hpp:1755-1783 and 1736-1753. -/
def textOf : Json → List Char
  | .none => []
  | .leaf v _ => v
  | t => print t

/-- `static_cast<T>(item)`, /repo/source/parser/json.hpp:420-463. -/
def castItem (k : ValType) (t : Json) : Exec Val :=
  match k with
  | .text => .ok (.text (textOf t))
  | k => asItem k t

/-- `item.as_vec<T>()`, /repo/source/parser/json.hpp:1404-1409, 1424-1429, 1837-1861 and 867-881. -/
def asVec (k : ValType) : Json → Exec (List Val)
  | .none => .throw "Try to convert an empty JsonItem"
  | .list ts => Data.collect (castItem k) ts
  | _ => .throw "Try to convert a non-list json object in a vector"

/-- `item.as_map<T>()`, /repo/source/parser/json.hpp:1411-1416, 1431-1436, 1863-1888 and 1097-1106: the keys of the
dictionary, in their order, with the converted values. -/
def asMap (k : ValType) : Json → Exec (List (Key × Val))
  | .none => .throw "Try to convert an empty JsonItem"
  | .dict m => Data.collect (fun p => do
      let v ← castItem k p.2
      .ok (p.1, v)) m
  | _ => .throw "Try to convert a non-dict json object in a map"

/-- The constructors `JsonItem(int)`, ..., `JsonItem(double)`, `JsonItem(bool)` and `JsonItem(std::string)`:
/repo/source/parser/json.hpp:1141-1172. -/
def itemOf : Val → Json
  | .int i => ofInt i
  | .num q => ofFloat (decide (q < 0)) (Dump.millionths q)
  | .bool b => ofBool b
  | .text s => ofString s

/-- The constructors of `JsonList` from vectors, /repo/source/parser/json.hpp:698-748 and 1785-1796. -/
def listOfVals (vs : List Val) : Json := .list (vs.map itemOf)

/-- The constructors of `JsonDict` from maps, /repo/source/parser/json.hpp:931-984 and 1798-1808, for a map given by
its entries in the order of their keys. -/
def dictOfVals (m : List (Key × Val)) : Json := .dict (m.map fun p => (p.1, itemOf p.2))

end Verif.Js

namespace Verif.Num

/-- `row.to_vec<T>()` and `std::vector<T>(row)`, /repo/source/parser/csv.hpp:374-400. -/
def Row.vals (k : Js.ValType) (r : Csv.Row) : Exec (List Js.Val) := Data.collect (Js.asText k) r.strings

end Verif.Num
