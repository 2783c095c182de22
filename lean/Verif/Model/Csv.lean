import Verif.Model.Json

/-
Model of /repo/source/parser/csv.hpp: rows, the random access of a CSV object and its iterators.

A file is its sequence of characters and does not change while it is used.  Types of fields are those of the
type checker; the conversion of a field to a C++ value is not modelled here.
-/

namespace Verif.Csv

open Verif.Js Verif.Text

/-! ### Streams on files -/

/-- `stream.ignore(max, '\n')`. -/
def ignoreLine (s : In) : In :=
  if s.good then
    let rest := s.buf.drop s.pos
    let t := rest.takeWhile (· ≠ '\n')
    if t.length < rest.length then { s with pos := s.pos + t.length + 1 }
    else { s with pos := s.pos + t.length, eof := true }
  else { s with fail := true }

/-- `stream.seekg(0)`. -/
def rewind (s : In) : In := if s.fail then { s with eof := false } else { s with eof := false, pos := 0 }

/-! ### Rows -/

/-- `CSVRow`, /repo/source/parser/csv.hpp:434-440, without the reference to the types. -/
structure Row where
  line : List Char
  idx : Nat
  cols : Nat
  sep : Char
  deriving DecidableEq

/-- The pieces read by `cols` calls of `std::getline` into fresh strings,
/repo/source/parser/csv.hpp:184-190, 331-337 and 349-354. -/
def pieces (sep : Char) : Nat → In → List (List Char)
  | 0, _ => []
  | n + 1, s =>
    let r := s.line sep
    r.2.getD [] :: pieces sep n r.1

/-- Constructor of `CSVRow`, /repo/source/parser/csv.hpp:169-191: also gives the new value of the types. -/
def Row.make (line : List Char) (idx cols : Nat) (types : List Ty) (sep : Char) : Row × List Ty :=
  let types' :=
    if Ty.auto ∈ types ∨ types.length = 0 ∨ types.length ≠ cols then (pieces sep cols (In.on line)).map parseType
    else types
  (⟨line, idx, cols, sep⟩, types')

/-- Constructor that counts the separators, /repo/source/parser/csv.hpp:201-209. -/
def Row.counted (line : List Char) (idx : Nat) (types : List Ty) (sep : Char) : Row × List Ty :=
  Row.make line idx (line.count sep + 1) types sep

/-- The loop of `operator[]`, /repo/source/parser/csv.hpp:283-291, with `n` pieces still to skip. -/
def scan (sep : Char) : Nat → In → Exec (List Char)
  | 0, s =>
    let r := s.line sep
    if r.1.fail then .throw "CSV bad format: fields missing" else .ok (r.2.getD [])
  | n + 1, s =>
    let r := s.line sep
    if r.1.fail then .throw "CSV bad format: fields missing" else scan sep n r.1

/-- `row[idx]`, /repo/source/parser/csv.hpp:272-294, and the constructor of `CSVField`, 63-73: the text and
the type of the field. -/
def Row.get (r : Row) (types : List Ty) (idx : Nat) : Exec (List Char × Ty) :=
  if idx ≥ r.cols then .throw "operator[] failed: idx >= this->_cols_amount"
  else do
    let f ← scan r.sep idx (In.on r.line)
    match types[idx]? with
    | .none => .throw "vector::at"
    | some t => .ok (f, if t = .auto then parseType f else t)

/-- `std::vector<std::string>(row)`, /repo/source/parser/csv.hpp:327-339. -/
def Row.strings (r : Row) : List (List Char) := pieces r.sep r.cols (In.on r.line)

/-! ### CSV objects -/

/-- `CSV`, /repo/source/parser/csv.hpp:906-914; `file` is the content of the file named by `_fn`. -/
structure Csv where
  file : List Char
  types : List Ty
  header : Row
  cache : Row
  cols : Nat
  rows : Nat
  sep : Char
  deriving DecidableEq

/-- Constructor of `CSV`, /repo/source/parser/csv.hpp:642-695; no content means that the file cannot be opened.
The rows built first (647-648) only empty the vector of types. -/
def Csv.make (file : Option (List Char)) (types : List Ty) (sep : Char) : Exec Csv :=
  match file with
  | .none => .throw "Could not open file"
  | some file =>
    let rows := file.count '\n'
    let h := (In.on file).line '\n'
    let f := h.1.line '\n'
    let header := h.2.getD []
    let first := f.2.getD []
    let cols := header.count sep + 1
    let types' :=
      if Ty.auto ∈ types ∨ types.length = 0 ∨ types.length ≠ cols then (pieces sep cols (In.on first)).map parseType
      else types
    let r0 := Row.make header 0 cols types' sep
    let r1 := Row.make first 1 cols r0.2 sep
    .ok ⟨file, r1.2, r0.1, r1.1, cols, rows, sep⟩

/-- Skips lines, /repo/source/parser/csv.hpp:740-743. -/
def skipLines : Nat → In → In
  | 0, s => s
  | n + 1, s => skipLines n (ignoreLine s)

/-- `csv[idx]`, /repo/source/parser/csv.hpp:731-750. -/
def Csv.get (c : Csv) (idx : Nat) : Exec (Csv × Row) :=
  if c.cache.idx = idx then .ok (c, c.cache)
  else if c.rows = 0 then .ub
  else
    let i := idx % c.rows
    let s := skipLines i (In.on c.file)
    let line := (s.line '\n').2.getD []
    let r := Row.make line i c.cols c.types c.sep
    .ok ({ c with cache := r.1, types := r.2 }, r.1)

/-- A sequence of accesses: the object afterwards and the rows returned. -/
def Csv.gets (c : Csv) : List Nat → Exec (Csv × List Row)
  | [] => .ok (c, [])
  | i :: is => do
    let r ← c.get i
    let q ← r.1.gets is
    .ok (q.1, r.2 :: q.2)

/-- `entry(i)` before the conversion to numbers, /repo/source/parser/csv.hpp:885-888. -/
def Csv.entry (c : Csv) (i : Nat) : Exec (Csv × List (List Char)) := do
  let r ← c.get (i + 1)
  .ok (r.1, r.2.strings)

/-- `entries_amount()`, /repo/source/parser/csv.hpp:890-893; sizes wrap around. -/
def Csv.entries (c : Csv) : Nat := if c.rows = 0 then 2 ^ 64 - 1 else c.rows - 1

/-! ### Whole-file conversions -/

/-- The loop over the lines of the file, /repo/source/parser/csv.hpp:783-787, 803-807, 827-831 and 850-855: stops
early when a line cannot be read. -/
def readLines : Nat → In → List (List Char)
  | 0, _ => []
  | n + 1, s =>
    let r := s.line '\n'
    if r.1.fail then [] else r.2.getD [] :: readLines n r.1

/-- `std::vector<std::string>(csv)`, /repo/source/parser/csv.hpp:776-791: resized first. -/
def Csv.lines (c : Csv) : List (List Char) :=
  let l := readLines c.rows (In.on c.file)
  l ++ List.replicate (c.rows - l.length) []

/-- `std::vector<std::vector<T>>(csv)` before the conversion of the fields, /repo/source/parser/csv.hpp:819-835. -/
def Csv.table (c : Csv) : List (List (List Char)) :=
  let l := (readLines c.rows (In.on c.file)).map fun line => pieces c.sep c.cols (In.on line)
  l ++ List.replicate (c.rows - l.length) []

/-! ### Iterators -/

/-- `CSVIterator`, /repo/source/parser/csv.hpp:607-625, with the line and index of its row. -/
structure Iter where
  line : List Char
  idx : Nat
  req : Nat
  stream : In
  deriving DecidableEq

/-- Constructor of `CSVIterator`, /repo/source/parser/csv.hpp:462-470. -/
def Iter.make (file : List Char) (req : Nat) : Iter :=
  let r := (In.on file).line '\n'
  ⟨r.2.getD [], 0, req, r.1⟩

/-- `begin()`, /repo/source/parser/csv.hpp:757-760. -/
def Csv.begin (c : Csv) : Iter := Iter.make c.file 1

/-- `end()`, /repo/source/parser/csv.hpp:766-770; sizes wrap around. -/
def Csv.finish (c : Csv) : Iter := Iter.make c.file (if c.rows = 0 then 2 ^ 64 - 1 else c.rows - 1)

/-- First part of `update_row()`: going back to the first line, /repo/source/parser/csv.hpp:587-592. -/
def Iter.restart (it : Iter) : Iter :=
  if it.req < it.idx then
    let r := (rewind it.stream).line '\n'
    { it with idx := 0, stream := r.1, line := r.2.getD it.line }
  else it

/-- Second part of `update_row()`: going forward to the requested line, /repo/source/parser/csv.hpp:594-604. -/
def Iter.advance (it : Iter) : Iter :=
  let s := skipLines (it.req - (it.idx + 1)) it.stream
  if it.idx ≠ it.req then
    let r := s.line '\n'
    { it with stream := r.1, line := r.2.getD it.line, idx := it.req }
  else { it with stream := s }

/-- `update_row()`, /repo/source/parser/csv.hpp:585-605. -/
def Iter.update (it : Iter) : Iter := it.restart.advance

/-- `++it`, /repo/source/parser/csv.hpp:543-547; sizes wrap around. -/
def Iter.next (it : Iter) : Iter := { it with req := (it.req + 1) % 2 ^ 64 }

/-- `--it`, /repo/source/parser/csv.hpp:564-568; sizes wrap around. -/
def Iter.prev (it : Iter) : Iter := { it with req := if it.req = 0 then 2 ^ 64 - 1 else it.req - 1 }

/-- What is done with an iterator: `++it`, `--it` and `*it`. -/
inductive Move where
  | forth
  | back
  | look

/-- A sequence of moves and dereferences, /repo/source/parser/csv.hpp:499-503, 543-547 and 564-568: the lines
seen. -/
def Iter.moves (it : Iter) : List Move → List (List Char)
  | [] => []
  | .forth :: ms => it.next.moves ms
  | .back :: ms => it.prev.moves ms
  | .look :: ms => it.update.line :: it.update.moves ms

/-- `for (; it != last; ++it) use(*it);`: the lines used, or nothing if the loop has not ended after `n`
iterations. -/
def visit (last : Iter) : Nat → Iter → Option (List (List Char))
  | 0, it => if it.req = last.req then some [] else .none
  | n + 1, it =>
    if it.req = last.req then some []
    else
      let it := it.update
      (visit last n it.next).map (it.line :: ·)

end Verif.Csv
