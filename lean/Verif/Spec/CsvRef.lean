import Verif.Model.CsvRef

/-
Specification of CSV objects, rows and fields as independent values: every row carries its own types and every
field its own type, copies share nothing and an assignment changes nothing but its left side.
-/

namespace Verif.Spec

open Verif.Csv Verif.Text

/-- The variables of a program; a destroyed CSV object is `none`. -/
structure Values where
  csvs : List (Option Csv) := []
  rows : List (Row × List Ty) := []
  fields : List (List Char × Ty × Nat) := []

/-- The CSV object in a variable, if it exists and is alive. -/
def Values.csv (v : Values) (c : Nat) : Exec Csv :=
  match v.csvs[c]? with
  | some (some d) => .ok d
  | _ => .ub

/-- One statement on values: the variables afterwards and what is reported. -/
def Values.step (v : Values) : Op → Exec (Values × List Obs)
  | .make file types sep => do
    let c ← Csv.make (some file) types sep
    .ok ({ v with csvs := v.csvs ++ [some c] }, [])
  | .row c i => do
    let q ← (← v.csv c).get i
    .ok ({ v with csvs := v.csvs.set c (some q.1), rows := v.rows ++ [(q.2, q.1.types)] }, [])
  | .head c => do
    let d ← v.csv c
    .ok ({ v with rows := v.rows ++ [(d.header, d.types)] }, [])
  | .field r j => do
    let o ← rd v.rows r
    let f ← o.1.get o.2 j
    .ok ({ v with fields := v.fields ++ [(f.1, f.2, j)] }, [])
  | .copyCsv c => do
    let d ← v.csv c
    .ok ({ v with csvs := v.csvs ++ [some d] }, [])
  | .copyRow r => do
    let o ← rd v.rows r
    .ok ({ v with rows := v.rows ++ [o] }, [])
  | .copyField f => do
    let o ← rd v.fields f
    .ok ({ v with fields := v.fields ++ [o] }, [])
  | .setCsv c d => do
    let _ ← v.csv c
    let k ← v.csv d
    .ok ({ v with csvs := v.csvs.set c (some k) }, [])
  | .setRow r s => do
    let _ ← rd v.rows r
    let p ← rd v.rows s
    .ok ({ v with rows := v.rows.set r p }, [])
  | .setField f g => do
    let _ ← rd v.fields f
    let p ← rd v.fields g
    .ok ({ v with fields := v.fields.set f p }, [])
  | .drop c => do
    let _ ← v.csv c
    .ok ({ v with csvs := v.csvs.set c none }, [])
  | .seeCsv c => do
    let d ← v.csv c
    .ok (v, [.csv d.types d.cols d.rows])
  | .seeRow r => do
    let o ← rd v.rows r
    .ok (v, [.row o.1.line o.1.idx o.1.cols o.2])
  | .seeField f => do
    let o ← rd v.fields f
    .ok (v, [.field o.1 o.2.1 o.2.2])

/-- A program on values: everything that is reported, in order. -/
def Values.run (v : Values) : List Op → Exec (List Obs)
  | [] => .ok []
  | o :: os => do
    let r ← v.step o
    let q ← r.1.run os
    .ok (r.2 ++ q)

/-- The statement is no assignment, or one between objects of the same types. -/
def Values.Alike (v : Values) : Op → Prop
  | .setCsv c d => ∀ k l, v.csv c = .ok k → v.csv d = .ok l → k.types = l.types
  | .setRow r s => ∀ o p, v.rows[r]? = some o → v.rows[s]? = some p → o.2 = p.2
  | .setField f g => ∀ o p, v.fields[f]? = some o → v.fields[g]? = some p → o.2.1 = p.2.1
  | _ => True

/-- All assignments of the program are between objects of the same types. -/
def Values.AssignsAlike (v : Values) : List Op → Prop
  | [] => True
  | o :: os => v.Alike o ∧ ∀ r, v.step o = .ok r → r.1.AssignsAlike os

/-- The program destroys no CSV object. -/
def KeepsAll (os : List Op) : Prop := ∀ c, Op.drop c ∉ os

/-- The positions of some iterators in a sequence of lines after a statement and what is seen, if no iterator
leaves the positions `0 .. ls.length`, of which the last one is not looked at. -/
def stepPositions (ls : List (List Char)) (ps : List Nat) : IOp → Option (List Nat × List Saw)
  | .copy k => do some (ps ++ [← ps[k]?], [])
  | .next k => do
    let p ← ps[k]?
    if p < ls.length then some (ps.set k (p + 1), []) else none
  | .prev k => do
    let p ← ps[k]?
    if 0 < p then some (ps.set k (p - 1), []) else none
  | .postNext k => do
    let p ← ps[k]?
    if p < ls.length then some (ps.set k (p + 1) ++ [p], []) else none
  | .postPrev k => do
    let p ← ps[k]?
    if 0 < p then some (ps.set k (p - 1) ++ [p], []) else none
  | .look k => do
    let p ← ps[k]?
    some (ps, [.line (← ls[p]?) p])
  | .same j k => do some (ps, [.same (decide ((← ps[j]?) = (← ps[k]?)))])

/-- All that a program on iterators at these positions is to see. -/
def runPositions (ls : List (List Char)) (ps : List Nat) : List IOp → Option (List Saw)
  | [] => some []
  | o :: os => do
    let r ← stepPositions ls ps o
    let q ← runPositions ls r.1 os
    some (r.2 ++ q)

end Verif.Spec
