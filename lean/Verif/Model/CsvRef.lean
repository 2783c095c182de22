import Verif.Model.Csv

/-
Model of the references in /repo/source/parser/csv.hpp: a row refers to the types of the CSV object it was read
from, a field to one of these types, and assignments write through these references.

A program is a list of statements on numbered variables; every statement that makes an object puts it into a
new variable.  CSV objects live until they are destroyed, rows and fields are never destroyed (they own nothing
that others refer to).  References are numbers of CSV variables.  Simplification: a reference to a type stays
valid when the vector of types is given another length, as long as the position exists.
-/

namespace Verif.Csv

open Verif.Text

/-- A CSV object with the vectors its header row and its cached row refer to (members `_row_header` and
`_row_cache`, /repo/source/parser/csv.hpp:906-914).  The types it owns are those of `csv`. -/
structure Handle where
  csv : Csv
  headRef : Nat
  cacheRef : Nat
  deriving DecidableEq

/-- `CSVRow` with its reference to a vector of types, /repo/source/parser/csv.hpp:434-440. -/
structure RowObj where
  row : Row
  ref : Nat
  deriving DecidableEq

/-- `CSVField` with its reference to the type at position `pos` of a vector, /repo/source/parser/csv.hpp:139-143. -/
structure FieldObj where
  text : List Char
  ref : Nat
  pos : Nat
  idx : Nat
  deriving DecidableEq

/-- The variables of a program; a destroyed CSV object is `none`. -/
structure World where
  csvs : List (Option Handle) := []
  rows : List RowObj := []
  fields : List FieldObj := []

/-- The statements of a program. -/
inductive Op where
  /-- `CSV c{file, types, sep};` -/
  | make (file : List Char) (types : List Ty) (sep : Char)
  /-- `CSVRow r = c[i];` -/
  | row (c i : Nat)
  /-- `CSVRow r = c.header();` -/
  | head (c : Nat)
  /-- `CSVField f = r[j];` -/
  | field (r j : Nat)
  /-- `CSV d = c;` -/
  | copyCsv (c : Nat)
  /-- `CSVRow s = r;` -/
  | copyRow (r : Nat)
  /-- `CSVField g = f;` -/
  | copyField (f : Nat)
  /-- `c = d;` -/
  | setCsv (c d : Nat)
  /-- `r = s;` -/
  | setRow (r s : Nat)
  /-- `f = g;` -/
  | setField (f g : Nat)
  /-- The end of the life of `c`. -/
  | drop (c : Nat)
  /-- `c.types()`, `c.cols_size()`, `c.rows_size()`. -/
  | seeCsv (c : Nat)
  /-- `r.line()`, `r.idx()`, `r.size()`, `r.types()`. -/
  | seeRow (r : Nat)
  /-- `f.as<std::string>()`, `f.type()`, `f.idx()`. -/
  | seeField (f : Nat)

/-- What the getters report. -/
inductive Obs where
  | csv (types : List Ty) (cols rows : Nat)
  | row (line : List Char) (idx cols : Nat) (types : List Ty)
  | field (text : List Char) (type : Ty) (idx : Nat)
  deriving DecidableEq

/-- The CSV object in a variable, if it exists and is alive. -/
def World.handle (w : World) (c : Nat) : Exec Handle :=
  match w.csvs[c]? with
  | some (some h) => .ok h
  | _ => .ub

/-- Reading the vector of types that a reference points to. -/
def World.types (w : World) (ref : Nat) : Exec (List Ty) := do
  let h ← w.handle ref
  .ok h.csv.types

/-- Writing the vector of types that a reference points to. -/
def World.setTypes (w : World) (ref : Nat) (ts : List Ty) : Exec World := do
  let h ← w.handle ref
  .ok { w with csvs := w.csvs.set ref (some { h with csv := { h.csv with types := ts } }) }

/-- `CSV c{file, types, sep};`, /repo/source/parser/csv.hpp:642-695: the header row and the cached row refer to
the types of the new object. -/
def World.make (w : World) (file : List Char) (types : List Ty) (sep : Char) : Exec World := do
  let c ← Csv.make (some file) types sep
  .ok { w with csvs := w.csvs ++ [some ⟨c, w.csvs.length, w.csvs.length⟩] }

/-- `CSVRow r = c[i];`, /repo/source/parser/csv.hpp:731-750: the new row is made with the types of `c` (746) and
assigned to the cached row, whose reference is used for writing (301-309) and handed on by the copy (225-233). -/
def World.row (w : World) (c i : Nat) : Exec World := do
  let h ← w.handle c
  if h.csv.cache.idx = i then .ok { w with rows := w.rows ++ [⟨h.csv.cache, h.cacheRef⟩] }
  else if h.csv.rows = 0 then .ub
  else do
    let i := i % h.csv.rows
    let s := skipLines i (Js.In.on h.csv.file)
    let line := (s.line '\n').2.getD []
    let r := Row.make line i h.csv.cols h.csv.types h.csv.sep
    let w ← w.setTypes c r.2
    let h ← w.handle c
    let w := { w with csvs := w.csvs.set c (some { h with csv := { h.csv with cache := r.1 } }) }
    let w ← w.setTypes h.cacheRef r.2
    .ok { w with rows := w.rows ++ [⟨r.1, h.cacheRef⟩] }

/-- `CSVRow r = c.header();`, /repo/source/parser/csv.hpp:718 and 225-233. -/
def World.head (w : World) (c : Nat) : Exec World := do
  let h ← w.handle c
  .ok { w with rows := w.rows ++ [⟨h.csv.header, h.headRef⟩] }

/-- `CSVField f = r[j];`, /repo/source/parser/csv.hpp:272-294 and 63-73: an unknown type is detected and written
through the reference. -/
def World.field (w : World) (r j : Nat) : Exec World := do
  let o ← rd w.rows r
  if j ≥ o.row.cols then .throw "operator[] failed: idx >= this->_cols_amount"
  else do
    let f ← scan o.row.sep j (Js.In.on o.row.line)
    let ts ← w.types o.ref
    match ts[j]? with
    | .none => .throw "vector::at"
    | some t => do
      let w ← if t = .auto then w.setTypes o.ref (ts.set j (parseType f)) else .ok w
      .ok { w with fields := w.fields ++ [⟨f, o.ref, j, j⟩] }

/-- `CSV d = c;`: the implicit copy constructor copies the types, and the rows by 225-233, so that they go on
referring to what they referred to in `c`, /repo/source/parser/csv.hpp:906-914. -/
def World.copyCsv (w : World) (c : Nat) : Exec World := do
  let h ← w.handle c
  .ok { w with csvs := w.csvs ++ [some h] }

/-- `CSVRow s = r;`, /repo/source/parser/csv.hpp:225-233: the copy refers to the same types. -/
def World.copyRow (w : World) (r : Nat) : Exec World := do
  let o ← rd w.rows r
  .ok { w with rows := w.rows ++ [o] }

/-- `CSVField g = f;`, /repo/source/parser/csv.hpp:79-84: the copy refers to the same type. -/
def World.copyField (w : World) (f : Nat) : Exec World := do
  let o ← rd w.fields f
  .ok { w with fields := w.fields ++ [o] }

/-- `c = d;`: the implicit assignment assigns the members in order, the rows by 301-309, which write through the
references of `c`, /repo/source/parser/csv.hpp:906-914. -/
def World.setCsv (w : World) (c d : Nat) : Exec World := do
  let h ← w.handle c
  let k ← w.handle d
  let w := { w with csvs := w.csvs.set c (some { h with csv := k.csv }) }
  let ts ← w.types k.headRef
  let w ← w.setTypes h.headRef ts
  let ts ← w.types k.cacheRef
  w.setTypes h.cacheRef ts

/-- `r = s;`, /repo/source/parser/csv.hpp:301-309: the types are copied through the references. -/
def World.setRow (w : World) (r s : Nat) : Exec World := do
  let o ← rd w.rows r
  let p ← rd w.rows s
  let ts ← w.types p.ref
  let w ← w.setTypes o.ref ts
  .ok { w with rows := w.rows.set r ⟨p.row, o.ref⟩ }

/-- `f = g;`, /repo/source/parser/csv.hpp:91-97: the type is copied through the references. -/
def World.setField (w : World) (f g : Nat) : Exec World := do
  let o ← rd w.fields f
  let p ← rd w.fields g
  let ts ← w.types p.ref
  let t ← rd ts p.pos
  let us ← w.types o.ref
  let us ← wr us o.pos t
  let w ← w.setTypes o.ref us
  .ok { w with fields := w.fields.set f ⟨p.text, o.ref, o.pos, p.idx⟩ }

/-- The destructor of `CSV`, /repo/source/parser/csv.hpp:700: the types go away. -/
def World.drop (w : World) (c : Nat) : Exec World := do
  let _ ← w.handle c
  .ok { w with csvs := w.csvs.set c none }

/-- The getters of `CSV`, /repo/source/parser/csv.hpp:706-724. -/
def World.seeCsv (w : World) (c : Nat) : Exec Obs := do
  let h ← w.handle c
  .ok (.csv h.csv.types h.csv.cols h.csv.rows)

/-- The getters of `CSVRow`, /repo/source/parser/csv.hpp:405-431. -/
def World.seeRow (w : World) (r : Nat) : Exec Obs := do
  let o ← rd w.rows r
  let ts ← w.types o.ref
  .ok (.row o.row.line o.row.idx o.row.cols ts)

/-- The getters of `CSVField`, /repo/source/parser/csv.hpp:109-137. -/
def World.seeField (w : World) (f : Nat) : Exec Obs := do
  let o ← rd w.fields f
  let ts ← w.types o.ref
  let t ← rd ts o.pos
  .ok (.field o.text t o.idx)

/-- One statement: the variables afterwards and what was reported. -/
def World.step (w : World) : Op → Exec (World × List Obs)
  | .make file types sep => do .ok (← w.make file types sep, [])
  | .row c i => do .ok (← w.row c i, [])
  | .head c => do .ok (← w.head c, [])
  | .field r j => do .ok (← w.field r j, [])
  | .copyCsv c => do .ok (← w.copyCsv c, [])
  | .copyRow r => do .ok (← w.copyRow r, [])
  | .copyField f => do .ok (← w.copyField f, [])
  | .setCsv c d => do .ok (← w.setCsv c d, [])
  | .setRow r s => do .ok (← w.setRow r s, [])
  | .setField f g => do .ok (← w.setField f g, [])
  | .drop c => do .ok (← w.drop c, [])
  | .seeCsv c => do .ok (w, [← w.seeCsv c])
  | .seeRow r => do .ok (w, [← w.seeRow r])
  | .seeField f => do .ok (w, [← w.seeField f])

/-- A program: everything that was reported, in order. -/
def World.run (w : World) : List Op → Exec (List Obs)
  | [] => .ok []
  | o :: os => do
    let r ← w.step o
    let q ← r.1.run os
    .ok (r.2 ++ q)

/-! ### Several iterators -/

/-- The copy constructor of `CSVIterator`, /repo/source/parser/csv.hpp:476-484: reads the file from its start. -/
def Iter.copy (file : List Char) (it : Iter) : Iter := Iter.make file it.req

/-- The statements of a program on iterators of one CSV object. -/
inductive IOp where
  /-- `auto jt = it;` -/
  | copy (it : Nat)
  /-- `++it;` -/
  | next (it : Nat)
  /-- `--it;` -/
  | prev (it : Nat)
  /-- `auto jt = it++;` -/
  | postNext (it : Nat)
  /-- `auto jt = it--;` -/
  | postPrev (it : Nat)
  /-- `it->line()`, `it->idx()` -/
  | look (it : Nat)
  /-- `it == jt` -/
  | same (it jt : Nat)

/-- What is seen: a line with its index, or the result of a comparison. -/
inductive Saw where
  | line (l : List Char) (idx : Nat)
  | same (b : Bool)
  deriving DecidableEq

/-- One statement, /repo/source/parser/csv.hpp:476-484, 508-512, 521-524, 543-547, 553-558, 564-568 and 574-579. -/
def stepIters (file : List Char) (its : List Iter) : IOp → Exec (List Iter × List Saw)
  | .copy k => do .ok (its ++ [(← rd its k).copy file], [])
  | .next k => do .ok (its.set k (← rd its k).next, [])
  | .prev k => do .ok (its.set k (← rd its k).prev, [])
  | .postNext k => do
    let it ← rd its k
    .ok (its.set k it.next ++ [it.copy file], [])
  | .postPrev k => do
    let it ← rd its k
    .ok (its.set k it.prev ++ [it.copy file], [])
  | .look k => do
    let it := (← rd its k).update
    .ok (its.set k it, [.line it.line it.idx])
  | .same j k => do .ok (its, [.same (decide ((← rd its j).req = (← rd its k).req))])

/-- A program on iterators: all that is seen. -/
def runIters (file : List Char) (its : List Iter) : List IOp → Exec (List Saw)
  | [] => .ok []
  | o :: os => do
    let r ← stepIters file its o
    let q ← runIters file r.1 os
    .ok (r.2 ++ q)

end Verif.Csv
