import Verif.Model.Json

/-
Model of /repo/source/parser/json.hpp, second part: items as objects in memory.

A `JsonItem` holds its kind and a shared pointer to a leaf, a list or a dictionary; lists and dictionaries
hold further items.  Memory is a list of objects, an address is a position, nothing is freed (releasing an
object that no item points to cannot be observed).  An item is denoted by a reference: a variable, an
element of a list object or a field of a dictionary object.  Not modelled: the constructor from a plain
`JsonObject` (lines 178-181, which slices the object), and references kept across an `append` that makes
the vector grow.
-/

namespace Verif.Js

open Verif.Text

/-- `JsonObject::JsonType`, /repo/source/parser/json.hpp:68-74. -/
inductive Kind where
  | leaf
  | list
  | dict
  | none
  deriving DecidableEq, Repr

/-- `JsonItem`, /repo/source/parser/json.hpp:142 and 464: `_json_type` and `_value`. -/
structure Item where
  kind : Kind
  val : Option Nat
  deriving DecidableEq, Repr

/-- `JsonItem()`, /repo/source/parser/json.hpp:169-172. -/
def Item.empty : Item := ⟨.none, .none⟩

/-- `JsonLeaf`, `JsonList` and `JsonDict` objects, /repo/source/parser/json.hpp:666-667, 899 and 1128. -/
inductive Obj where
  | leaf (val : List Char) (type : Ty)
  | list (items : List Item)
  | dict (fields : List (Key × Item))
  deriving DecidableEq, Repr

abbrev Heap := List Obj

/-- A `JsonItem&`: a variable, an element of a list, a field of a dictionary. -/
inductive Ref where
  | var (x : Nat)
  | elem (a i : Nat)
  | field (a : Nat) (k : Key)
  deriving DecidableEq, Repr

/-- The variables of the program and the memory. -/
structure Store where
  vars : List Item
  heap : Heap
  deriving DecidableEq, Repr

/-- The item a reference denotes. -/
def Store.get (s : Store) : Ref → Exec Item
  | .var x => rd s.vars x
  | .elem a i =>
    match s.heap[a]? with
    | some (.list is) => rd is i
    | _ => .ub
  | .field a k =>
    match s.heap[a]? with
    | some (.dict m) =>
      match mapFind m k with
      | some it => .ok it
      | .none => .ub
    | _ => .ub

/-- Overwrites the item a (valid) reference denotes. -/
def Store.set (s : Store) (r : Ref) (it : Item) : Store :=
  match r with
  | .var x => { s with vars := s.vars.set x it }
  | .elem a i =>
    match s.heap[a]? with
    | some (.list is) => { s with heap := s.heap.set a (.list (is.set i it)) }
    | _ => s
  | .field a k =>
    match s.heap[a]? with
    | some (.dict m) => { s with heap := s.heap.set a (.dict (mapSet m k it)) }
    | _ => s

/-- `std::make_shared`: a new object. -/
def Store.alloc (s : Store) (o : Obj) : Store := { s with heap := s.heap ++ [o] }

/-! ### Copies -/

/-- Copies items one after the other, as the copy constructor of `std::vector` does. -/
def copyAll (f : Heap → Item → Exec (Heap × Item)) : Heap → List Item → Exec (Heap × List Item)
  | h, [] => .ok (h, [])
  | h, it :: is => do
    let r ← f h it
    let q ← copyAll f r.1 is
    .ok (q.1, r.2 :: q.2)

/-- Copy constructor of `JsonItem`, /repo/source/parser/json.hpp:1192-1223.  The number bounds the depth of
the recursion. -/
def copyItem : Nat → Heap → Item → Exec (Heap × Item)
  | 0, _, _ => .ub
  | n + 1, h, it =>
    match it.val with
    | .none => .ok (h, ⟨it.kind, .none⟩)
    | some a =>
      match h[a]? with
      | .none => .ub
      | some (.leaf v t) => .ok (h ++ [.leaf v t], ⟨it.kind, some h.length⟩)
      | some (.list is) => do
        let q ← copyAll (copyItem n) h is
        .ok (q.1 ++ [.list q.2], ⟨it.kind, some q.1.length⟩)
      | some (.dict m) => do
        let q ← copyAll (copyItem n) h (m.map Prod.snd)
        .ok (q.1 ++ [.dict ((m.map Prod.fst).zip q.2)], ⟨it.kind, some q.1.length⟩)

/-! ### Access -/

/-- `operator[](std::size_t)`, /repo/source/parser/json.hpp:1233-1258 and 761-769. -/
def subIdx (s : Store) (r : Ref) (i : Nat) : Exec Ref := do
  let it ← s.get r
  match it.val with
  | .none => .throw "empty"
  | some a =>
    match s.heap[a]? with
    | .none => .ub
    | some (.list is) => if i ≥ is.length then .throw "idx >= list size" else .ok (.elem a i)
    | some _ => .throw "non-list"

/-- `operator[](std::string)`, /repo/source/parser/json.hpp:1260-1285 and 1010-1013: may create a
dictionary, then may create the field. -/
def subKey (s : Store) (r : Ref) (k : Key) : Store × Exec Ref :=
  match s.get r with
  | .ok it =>
    let s1 := if it.val = .none ∨ it.kind = .none then (s.alloc (.dict [])).set r ⟨.dict, some s.heap.length⟩ else s
    match s1.get r with
    | .ok it1 =>
      match it1.val with
      | .none => (s1, .ub)
      | some a =>
        match s1.heap[a]? with
        | .none => (s1, .ub)
        | some (.dict m) =>
          match mapFind m k with
          | some _ => (s1, .ok (.field a k))
          | .none => ({ s1 with heap := s1.heap.set a (.dict (mapPut m k .empty)) }, .ok (.field a k))
        | some _ => (s1, .throw "non-dict")
    | .throw e => (s1, .throw e)
    | .ub => (s1, .ub)
  | .throw e => (s, .throw e)
  | .ub => (s, .ub)

/-- `at(std::size_t)`, /repo/source/parser/json.hpp:1287-1312 and 777-785. -/
def atIdx (s : Store) (r : Ref) (i : Nat) : Exec Ref := do
  let it ← s.get r
  match it.val with
  | .none => .throw "empty"
  | some a =>
    match s.heap[a]? with
    | .none => .ub
    | some (.list is) => if i ≥ is.length then .throw "idx >= list size" else .ok (.elem a i)
    | some _ => .throw "non-list"

/-- `at(std::string)`, /repo/source/parser/json.hpp:1314-1339 and 994-1002. -/
def atKey (s : Store) (r : Ref) (k : Key) : Exec Ref := do
  let it ← s.get r
  match it.val with
  | .none => .throw "empty"
  | some a =>
    match s.heap[a]? with
    | .none => .ub
    | some (.dict m) => if mapFind m k = .none then .throw "idx not contained in dict" else .ok (.field a k)
    | some _ => .throw "non-dict"

/-- `size()`, /repo/source/parser/json.hpp:1368-1396. -/
def sizeOf' (s : Store) (r : Ref) : Exec Nat := do
  let it ← s.get r
  match it.val with
  | .none => .ok 0
  | some a =>
    match s.heap[a]? with
    | .none => .ub
    | some (.list is) => .ok is.length
    | some (.dict m) => .ok m.length
    | some (.leaf _ _) => .ok 0

/-- One step of an access path. -/
inductive Step where
  | key (k : Key)
  | idx (i : Nat)
  deriving DecidableEq, Repr

/-- `item.at(...).at(...)...`. -/
def evalAt (s : Store) : Ref → List Step → Exec Ref
  | r, [] => .ok r
  | r, .idx i :: p => do
    let r' ← atIdx s r i
    evalAt s r' p
  | r, .key k :: p => do
    let r' ← atKey s r k
    evalAt s r' p

/-- `item[...][...]...`. -/
def evalSub : Store → Ref → List Step → Store × Exec Ref
  | s, r, [] => (s, .ok r)
  | s, r, .idx i :: p =>
    match subIdx s r i with
    | .ok r' => evalSub s r' p
    | .throw e => (s, .throw e)
    | .ub => (s, .ub)
  | s, r, .key k :: p =>
    match subKey s r k with
    | (s', .ok r') => evalSub s' r' p
    | (s', .throw e) => (s', .throw e)
    | (s', .ub) => (s', .ub)

/-! ### Changes -/

/-- `dst = src`, /repo/source/parser/json.hpp:1225-1231. -/
def assign (n : Nat) (s : Store) (dst src : Ref) : Store × Exec Unit :=
  match s.get src with
  | .ok it =>
    match copyItem n s.heap it with
    | .ok (h, tmp) => (({ s with heap := h } : Store).set dst tmp, .ok ())
    | .throw e => (s, .throw e)
    | .ub => (s, .ub)
  | .throw e => (s, .throw e)
  | .ub => (s, .ub)

/-- `item.append(ji)`, /repo/source/parser/json.hpp:1341-1366 and 791-794, with `ji` the argument already
copied: may create a list, then appends one more copy. -/
def append (n : Nat) (s : Store) (r : Ref) (ji : Item) : Store × Exec Unit :=
  match s.get r with
  | .ok it =>
    let s1 := if it.val = .none ∨ it.kind = .none then (s.alloc (.list [])).set r ⟨.list, some s.heap.length⟩ else s
    match s1.get r with
    | .ok it1 =>
      match it1.val with
      | .none => (s1, .ub)
      | some a =>
        match s1.heap[a]? with
        | .none => (s1, .ub)
        | some (.list is) =>
          match copyItem n s1.heap ji with
          | .ok (h, tmp) => ({ s1 with heap := h.set a (.list (is ++ [tmp])) }, .ok ())
          | .throw e => (s1, .throw e)
          | .ub => (s1, .ub)
        | some _ => (s1, .throw "non-list")
    | .throw e => (s1, .throw e)
    | .ub => (s1, .ub)
  | .throw e => (s, .throw e)
  | .ub => (s, .ub)

/-! ### Programs -/

/-- A statement of a program that uses the class.  Variables are numbered in the order of their creation. -/
inductive Cmd where
  /-- `JsonItem v;` -/
  | empty
  /-- `JsonItem v(JsonLeaf(val, type));` -/
  | leaf (val : List Char) (type : Ty)
  /-- `JsonItem v(std::vector<JsonItem>{x, y, ...});` -/
  | list (xs : List Nat)
  /-- `JsonItem v(std::map<std::string, JsonItem>{{k, x}, ...});`, the keys in increasing order -/
  | dict (kxs : List (Key × Nat))
  /-- `JsonItem v(x.at(...)...);` -/
  | copy (x : Nat) (p : List Step)
  /-- `x[...]...;` -/
  | touch (x : Nat) (p : List Step)
  /-- `x[...]... = y.at(...)...;` -/
  | assign (x : Nat) (p : List Step) (y : Nat) (q : List Step)
  /-- `x[...]... .append(y.at(...)...);` -/
  | append (x : Nat) (p : List Step) (y : Nat) (q : List Step)

/-- Reads several variables. -/
def getAll (s : Store) : List Nat → Exec (List Item)
  | [] => .ok []
  | x :: xs => do
    let it ← s.get (.var x)
    let its ← getAll s xs
    .ok (it :: its)

/-- A new variable with the given item. -/
def Store.push (s : Store) (it : Item) : Store := { s with vars := s.vars ++ [it] }

/-- `JsonItem v(src);` -/
def construct (n : Nat) (s : Store) (src : Ref) : Store × Exec Unit :=
  match s.get src with
  | .ok it =>
    match copyItem n s.heap it with
    | .ok (h, tmp) => (({ s with heap := h } : Store).push tmp, .ok ())
    | .throw e => (s, .throw e)
    | .ub => (s, .ub)
  | .throw e => (s, .throw e)
  | .ub => (s, .ub)

/-- Runs one statement; the numbers of copies of temporaries that the constructors from vectors and maps
make (/repo/source/parser/json.hpp:1174-1190) are reduced to one. -/
def exec (n : Nat) (s : Store) : Cmd → Store × Exec Unit
  | .empty => (s.push .empty, .ok ())
  | .leaf v t =>
    ((s.alloc (.leaf v (if t = .auto then parseType v else t))).push ⟨.leaf, some s.heap.length⟩, .ok ())
  | .list xs =>
    match getAll s xs with
    | .ok its =>
      match copyAll (copyItem n) s.heap its with
      | .ok (h, its) => (({ s with heap := h ++ [.list its] } : Store).push ⟨.list, some h.length⟩, .ok ())
      | .throw e => (s, .throw e)
      | .ub => (s, .ub)
    | .throw e => (s, .throw e)
    | .ub => (s, .ub)
  | .dict kxs =>
    match getAll s (kxs.map Prod.snd) with
    | .ok its =>
      match copyAll (copyItem n) s.heap its with
      | .ok (h, its) =>
        (({ s with heap := h ++ [.dict ((kxs.map Prod.fst).zip its)] } : Store).push ⟨.dict, some h.length⟩, .ok ())
      | .throw e => (s, .throw e)
      | .ub => (s, .ub)
    | .throw e => (s, .throw e)
    | .ub => (s, .ub)
  | .copy x p =>
    match evalAt s (.var x) p with
    | .ok r => construct n s r
    | .throw e => (s, .throw e)
    | .ub => (s, .ub)
  | .touch x p =>
    match evalSub s (.var x) p with
    | (s', .ok _) => (s', .ok ())
    | (s', .throw e) => (s', .throw e)
    | (s', .ub) => (s', .ub)
  | .assign x p y q =>
    match evalAt s (.var y) q with
    | .ok src =>
      match evalSub s (.var x) p with
      | (s', .ok dst) => assign n s' dst src
      | (s', .throw e) => (s', .throw e)
      | (s', .ub) => (s', .ub)
    | .throw e => (s, .throw e)
    | .ub => (s, .ub)
  | .append x p y q =>
    match evalSub s (.var x) p with
    | (s', .ok dst) =>
      match evalAt s' (.var y) q with
      | .ok src =>
        match s'.get src with
        | .ok it =>
          match copyItem n s'.heap it with
          | .ok (h, ji) => append n { s' with heap := h } dst ji
          | .throw e => (s', .throw e)
          | .ub => (s', .ub)
        | .throw e => (s', .throw e)
        | .ub => (s', .ub)
      | .throw e => (s', .throw e)
      | .ub => (s', .ub)
    | (s', .throw e) => (s', .throw e)
    | (s', .ub) => (s', .ub)

/-- Runs a program; a thrown exception is caught and the program goes on. -/
def execAll (n : Nat) (s : Store) : List Cmd → Store × List (Exec Unit)
  | [] => (s, [])
  | c :: cs =>
    let r := exec n s c
    let q := execAll n r.1 cs
    (q.1, r.2 :: q.2)

end Verif.Js
