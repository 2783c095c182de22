import Verif.Exec
import Verif.Model.TypeChecker

/-
Model of /repo/source/parser/json.hpp, first part: values, writing, reading and comparing.

A value is a tree.  That the pointers of the program always form independent trees is the subject of
Model/JsonHeap.lean.  Text is a list of characters; an input stream is a buffer with a position and
the `eof` and `fail` flags.
-/

namespace Verif.Js

open Verif.Text

abbrev Key := List Char

/-- A `JsonItem` with all it contains, /repo/source/parser/json.hpp:163-465 (item), 470-668 (leaf),
673-900 (list), 905-1129 (dictionary).  `none` is an item without content. -/
inductive Json where
  | none
  | leaf (val : List Char) (type : Ty)
  | list (items : List Json)
  | dict (fields : List (Key × Json))

/-! ### `std::map` -/

/-- `std::string::operator<`, the order of the keys of a `std::map`. -/
def keyLt : Key → Key → Bool
  | _, [] => false
  | [], _ :: _ => true
  | a :: as, b :: bs => if a.toNat < b.toNat then true else if b.toNat < a.toNat then false else keyLt as bs

/-- `std::map::find`. -/
def mapFind {α : Type} : List (Key × α) → Key → Option α
  | [], _ => .none
  | (k', v) :: m, k => if k' = k then some v else mapFind m k

/-- `map[k] = v`: the entries are kept in the order of their keys. -/
def mapPut {α : Type} : List (Key × α) → Key → α → List (Key × α)
  | [], k, v => [(k, v)]
  | (k', v') :: m, k, v =>
    if k' = k then (k, v) :: m
    else if keyLt k k' then (k, v) :: (k', v') :: m
    else (k', v') :: mapPut m k v

/-- Writing through a reference to the value of a present key. -/
def mapSet {α : Type} : List (Key × α) → Key → α → List (Key × α)
  | [], _, _ => []
  | (k', v') :: m, k, v => if k' = k then (k', v) :: m else (k', v') :: mapSet m k v

/-! ### Writing -/

/-- The texts separated by commas. -/
def commas : List (List Char) → List Char
  | [] => []
  | [t] => t
  | t :: ts => t ++ ',' :: commas ts

/-- `operator<<` of leaf (/repo/source/parser/json.hpp:1476-1487), list (1522-1536), dictionary
(1570-1584) and item (1624-1628). -/
def print : Json → List Char
  | .none => []
  | .leaf v t => if t = .string then '"' :: (v ++ ['"']) else v
  | .list ts => '[' :: (commas (ts.map fun t => print t) ++ [']'])
  | .dict m => '{' :: (commas (m.attach.map fun ⟨p, _⟩ => '"' :: (p.1 ++ '"' :: ':' :: print p.2)) ++ ['}'])
termination_by t => sizeOf t
decreasing_by
  · rename_i h
    have := List.sizeOf_lt_of_mem h
    simp only [Json.list.sizeOf_spec]
    omega
  · rename_i h
    have := List.sizeOf_lt_of_mem h
    have : sizeOf p.2 < sizeOf p := by cases p; simp only [Prod.mk.sizeOf_spec]; omega
    simp only [Json.dict.sizeOf_spec]
    omega

/-! ### Input streams -/

/-- A `std::stringstream` that is being read. -/
structure In where
  buf : List Char
  pos : Nat
  eof : Bool
  fail : Bool
  deriving DecidableEq

/-- A stream on a text. -/
def In.on (text : List Char) : In := ⟨text, 0, false, false⟩

def In.good (s : In) : Bool := !s.eof && !s.fail

/-- `os.read(&c, 1)`: the new value of `c`, or nothing when `c` is left as it was. -/
def In.read (s : In) : In × Option Char :=
  if s.good then
    match s.buf[s.pos]? with
    | some c => ({ s with pos := s.pos + 1 }, some c)
    | .none => ({ s with eof := true, fail := true }, .none)
  else ({ s with fail := true }, .none)

/-- `os.seekg(-n, os.cur)`: clears `eof`, then moves unless the stream has failed. -/
def In.back (s : In) (n : Nat) : In :=
  let s := { s with eof := false }
  if s.fail then s else if n ≤ s.pos then { s with pos := s.pos - n } else { s with fail := true }

/-- `std::getline(os, str, delim)`: the new value of `str`, or nothing when it is left as it was. -/
def In.line (s : In) (delim : Char) : In × Option (List Char) :=
  if s.good then
    let rest := s.buf.drop s.pos
    let t := rest.takeWhile (· ≠ delim)
    if t.length < rest.length then ({ s with pos := s.pos + t.length + 1 }, some t)
    else ({ s with pos := s.pos + t.length, eof := true, fail := t.isEmpty }, some t)
  else ({ s with fail := true }, .none)

/-- Use of a character variable: reading it before it was set is undefined. -/
def useChar : Option Char → Exec Char
  | some c => .ok c
  | .none => .ub

/-! ### Reading -/

/-- Position of the first `]` or `}`, /repo/source/parser/json.hpp:1508-1510. -/
def closing (v : List Char) : Option Nat := v.findIdx? fun c => c == ']' || c == '}'

/-- `if (!os.eof()) { os.read(&c, 1); if (c != ',') os.seekg(-1, os.cur); }`,
/repo/source/parser/json.hpp:1497-1501, 1562-1566 and 1616-1620. -/
def skipComma (s : In) (c : Option Char) : Exec In :=
  if s.eof then .ok s
  else do
    let r := s.read
    let c ← useChar (r.2.or c)
    if c ≠ ',' then .ok (r.1.back 1) else .ok r.1

/-- `operator>>` of a leaf that does not start with a quote, /repo/source/parser/json.hpp:1505-1517. -/
def parseScalar (s : In) : In × Json :=
  let l := s.line ','
  let v := l.2.getD []
  match closing v with
  | some pos =>
    let s := if l.1.eof then l.1 else l.1.back 1
    let s := s.back (v.length - pos)
    (s, .leaf (v.take pos) (parseType (v.take pos)))
  | .none => (l.1, .leaf v (parseType v))

/-- `operator>>` of a leaf, /repo/source/parser/json.hpp:1489-1520. -/
def parseLeaf (s : In) : Exec (In × Json) := do
  let r := s.read
  let c ← useChar r.2
  if c = '"' then
    let l := r.1.line '"'
    let s ← skipComma l.1 (some c)
    .ok (s, .leaf (l.2.getD []) .string)
  else .ok (parseScalar (r.1.back 1))

/-- The loop of `operator>>` of a list, /repo/source/parser/json.hpp:1543-1560.  The number bounds the
iterations; `item` reads an item. -/
def listLoop (item : In → Exec (In × Json)) : Nat → In → Option Char → List Char → List Json →
    Exec (In × Option Char × List Json)
  | 0, _, _, _, _ => .ub
  | n + 1, s, c, more, acc => do
    let l := s.line ']'
    let more := l.2.getD more
    let s := l.1.back (more.length + 1)
    let p ← item s
    let acc := acc ++ [p.2]
    let r := p.1.read
    let c := r.2.or c
    let ch ← useChar c
    if ch = ']' then .ok (r.1, c, acc)
    else listLoop item n (r.1.back 1) c more acc

/-- The loop of `operator>>` of a dictionary, /repo/source/parser/json.hpp:1591-1614. -/
def dictLoop (item : In → Exec (In × Json)) : Nat → In → Option Char → List Char → List (Key × Json) →
    Exec (In × Option Char × List (Key × Json))
  | 0, _, _, _, _ => .ub
  | n + 1, s, c, more, acc => do
    let l := s.line '}'
    let more := l.2.getD more
    let s := l.1.back (more.length + 1)
    let r := s.read
    let c := r.2.or c
    let k := r.1.line '"'
    let r := k.1.read
    let c := r.2.or c
    let p ← item r.1
    let acc := mapPut acc (k.2.getD []) p.2
    let r := p.1.read
    let c := r.2.or c
    let ch ← useChar c
    if ch = '}' then .ok (r.1, c, acc)
    else dictLoop item n (r.1.back 1) c more acc

/-- `operator>>` of an item, /repo/source/parser/json.hpp:1630-1663, of a list, 1538-1568, and of a
dictionary, 1586-1622.  The number bounds the depth of the recursion and the length of the loops. -/
def parseItem : Nat → In → Exec (In × Json)
  | 0, _ => .ub
  | n + 1, s => do
    let r := s.read
    let c ← useChar r.2
    let s := r.1.back 1
    if c = '[' then
      let r := s.read
      let q ← listLoop (parseItem n) n r.1 r.2 [] []
      let s ← skipComma q.1 q.2.1
      .ok (s, .list q.2.2)
    else if c = '{' then
      let r := s.read
      let q ← dictLoop (parseItem n) n r.1 r.2 [] []
      let s ← skipComma q.1 q.2.1
      .ok (s, .dict q.2.2)
    else parseLeaf s

/-- `stream >> item` on a fresh stream with the text: the value read. -/
def parse (n : Nat) (text : List Char) : Exec Json := do
  let r ← parseItem n (In.on text)
  .ok r.2

/-! ### Construction of leaves -/

/-- `JsonLeaf(val, type)`, /repo/source/parser/json.hpp:489-498. -/
def leafOf (val : List Char) (type : Ty) : Json :=
  .leaf val (if type = .auto then parseType val else type)

/-- `JsonItem(std::string)` and `JsonItem(const char*)`, /repo/source/parser/json.hpp:1141-1146. -/
def ofString (val : List Char) : Json := leafOf val .auto

/-- `JsonItem(int)`, ..., `JsonItem(unsigned long long)`, /repo/source/parser/json.hpp:1148-1165 and
516-533. -/
def ofInt (i : Int) : Json := leafOf (intText i) .int

/-- `JsonItem(double)` for a finite number, /repo/source/parser/json.hpp:1167-1169 and 539-541; the number
is given by its sign and its absolute value rounded to millionths. -/
def ofFloat (neg : Bool) (millionths : Nat) : Json := leafOf (floatText neg millionths) .float

/-- `JsonItem(bool)`, /repo/source/parser/json.hpp:1170-1172 and 547-549. -/
def ofBool (b : Bool) : Json := leafOf (boolText b) .bool

/-! ### Comparing -/

/-- The loop of `JsonList::operator==`, /repo/source/parser/json.hpp:1707-1711, given the comparison with
each element of the left list. -/
def eqAll : List (Json → Exec Bool) → List Json → Exec Bool
  | f :: fs, u :: us => do
    let b ← f u
    if b then eqAll fs us else .ok false
  | [], _ => .ok true
  | _ :: _, [] => .ub

/-- The last loop of `JsonDict::operator==`, /repo/source/parser/json.hpp:1724-1728, given the comparison
with each field of the left dictionary; `std::map::at` throws when the key is missing. -/
def eqFields : List (Key × (Json → Exec Bool)) → List (Key × Json) → Exec Bool
  | [], _ => .ok true
  | (k, f) :: fs, m =>
    match mapFind m k with
    | .none => .throw "map::at"
    | some u => do
      let b ← f u
      if b then eqFields fs m else .ok false

/-- `JsonItem::operator==`, /repo/source/parser/json.hpp:1731-1734 (an empty item is a null pointer), with
`JsonObject` 1665-1697, `JsonLeaf` 1699-1702, `JsonList` 1704-1712 and `JsonDict` 1714-1729. -/
def eqItem : Json → Json → Exec Bool
  | .none, _ => .ub
  | .leaf _ _, .none => .ub
  | .list _, .none => .ub
  | .dict _, .none => .ub
  | .leaf v _, .leaf w _ => .ok (v == w)
  | .list ts, .list us =>
    if ts.length ≠ us.length then .ok false else eqAll (ts.attach.map fun ⟨t, ht⟩ => eqItem t) us
  | .dict m, .dict m' =>
    if m.length ≠ m'.length then .ok false
    else if m'.any fun q => !(m.map Prod.fst).contains q.1 then .ok false
    else eqFields (m.attach.map fun ⟨p, hp⟩ => (p.1, eqItem p.2)) m'
  | .leaf _ _, .list _ => .ok false
  | .leaf _ _, .dict _ => .ok false
  | .list _, .leaf _ _ => .ok false
  | .list _, .dict _ => .ok false
  | .dict _, .leaf _ _ => .ok false
  | .dict _, .list _ => .ok false
termination_by t => sizeOf t
decreasing_by
  · have := List.sizeOf_lt_of_mem ht
    simp only [Json.list.sizeOf_spec]
    omega
  · have := List.sizeOf_lt_of_mem hp
    have : sizeOf p.2 < sizeOf p := by cases p; simp only [Prod.mk.sizeOf_spec]; omega
    simp only [Json.dict.sizeOf_spec]
    omega

end Verif.Js
