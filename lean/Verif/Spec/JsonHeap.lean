import Verif.Model.JsonHeap
import Verif.Spec.Json

/-
Specification of JSON items: every variable holds a tree of its own.
-/

namespace Verif.Spec

open Verif.Js Verif.Text

/-- Following the pointers from the item one sees the tree. -/
inductive Shows (h : Heap) : Item → Json → Prop where
  | none : Shows h ⟨.none, .none⟩ .none
  | leaf {a : Nat} {v : List Char} {t : Ty} : h[a]? = some (.leaf v t) → Shows h ⟨.leaf, some a⟩ (.leaf v t)
  | list {a : Nat} {is : List Item} {ts : List Json} : h[a]? = some (.list is) → is.length = ts.length →
      (∀ (i : Nat) (it : Item) (t : Json), is[i]? = some it → ts[i]? = some t → Shows h it t) →
      Shows h ⟨.list, some a⟩ (.list ts)
  | dict {a : Nat} {m : List (Key × Item)} {ts : List (Key × Json)} : h[a]? = some (.dict m) →
      m.map Prod.fst = ts.map Prod.fst →
      (∀ (i : Nat) (k k' : Key) (it : Item) (t : Json), m[i]? = some (k, it) → ts[i]? = some (k', t) → Shows h it t) →
      Shows h ⟨.dict, some a⟩ (.dict ts)

/-- The part of a tree at one step. -/
def child : Json → Step → Option Json
  | .list ts, .idx i => ts[i]?
  | .dict m, .key k => mapFind m k
  | _, _ => .none

/-- The part of a tree at a path. -/
def lookup : Json → List Step → Option Json
  | t, [] => some t
  | t, st :: p => (child t st).bind fun c => lookup c p

/-- Walking a path with `[]`: keys are created in dictionaries and in empty items, lists must have the
index.  Also tells whether the end of the path was reached. -/
def walk : Json → List Step → Json × Bool
  | t, [] => (t, true)
  | .none, .key k :: p => (.dict [(k, (walk .none p).1)], (walk .none p).2)
  | .dict m, .key k :: p =>
    match mapFind m k with
    | some c => (.dict (mapSet m k (walk c p).1), (walk c p).2)
    | .none => (.dict (mapPut m k (walk .none p).1), (walk .none p).2)
  | .list ts, .idx i :: p =>
    match ts[i]? with
    | some c => (.list (ts.set i (walk c p).1), (walk c p).2)
    | .none => (.list ts, false)
  | t, _ => (t, false)

/-- The tree with the part at an existing path replaced. -/
def replaced : Json → List Step → Json → Json
  | _, [], u => u
  | .dict m, .key k :: p, u =>
    match mapFind m k with
    | some c => .dict (mapSet m k (replaced c p u))
    | .none => .dict m
  | .list ts, .idx i :: p, u =>
    match ts[i]? with
    | some c => .list (ts.set i (replaced c p u))
    | .none => .list ts
  | t, _, _ => t

/-- The tree with an item appended; only an empty item or a list can take it. -/
def appended : Json → Json → Option Json
  | .none, u => some (.list [u])
  | .list ts, u => some (.list (ts ++ [u]))
  | _, _ => .none

/-- Number of items. -/
def count : Json → Nat
  | .list ts => ts.length
  | .dict m => m.length
  | _ => 0

/-- The dictionaries of the tree have their keys in increasing order. -/
inductive Ordered : Json → Prop where
  | none : Ordered .none
  | leaf {v : List Char} {t : Ty} : Ordered (.leaf v t)
  | list {ts : List Json} : (∀ t ∈ ts, Ordered t) → Ordered (.list ts)
  | dict {m : List (Key × Json)} : KeysSorted m → (∀ p ∈ m, Ordered p.2) → Ordered (.dict m)

/-- The paths part at some step: neither goes through the end of the other. -/
def Apart (p q : List Step) : Prop := ¬ p <+: q ∧ ¬ q <+: p

/-- The variable whose tree a statement may change. -/
def target : Cmd → Option Nat
  | .touch x _ => some x
  | .assign x _ _ _ => some x
  | .append x _ _ _ => some x
  | _ => .none

/-- The variables that a statement names exist, and the keys given to a dictionary are in order. -/
def Sound (n : Nat) : Cmd → Prop
  | .empty => True
  | .leaf _ _ => True
  | .list xs => ∀ x ∈ xs, x < n
  | .dict kxs => KeysSorted kxs ∧ ∀ p ∈ kxs, p.2 < n
  | .copy x _ => x < n
  | .touch x _ => x < n
  | .assign x _ y _ => x < n ∧ y < n
  | .append x _ y _ => x < n ∧ y < n

/-- How a statement ends. -/
inductive Reply where
  | done
  | threw
  | undefined
  deriving DecidableEq, Repr

/-- How a call of the program ended. -/
def replyOf {α : Type} : Exec α → Reply
  | .ok _ => .done
  | .throw _ => .threw
  | .ub => .undefined

/-- Several variables. -/
def chosen (ts : List Json) : List Nat → Option (List Json)
  | [] => some []
  | x :: xs => (ts[x]?).bind fun t => (chosen ts xs).map (t :: ·)

instance {α : Type} (m : List (Key × α)) : Decidable (KeysSorted m) :=
  inferInstanceAs (Decidable (m.Pairwise fun p q => keyLt p.1 q.1 = true))

/-- A statement, on variables that hold independent trees. -/
def treeExec (ts : List Json) : Cmd → List Json × Reply
  | .empty => (ts ++ [.none], .done)
  | .leaf v t => (ts ++ [.leaf v (if t = .auto then parseType v else t)], .done)
  | .list xs =>
    match chosen ts xs with
    | some us => (ts ++ [.list us], .done)
    | .none => (ts, .undefined)
  | .dict kxs =>
    if ¬ KeysSorted kxs then (ts, .undefined) else
    match chosen ts (kxs.map Prod.snd) with
    | some us => (ts ++ [.dict ((kxs.map Prod.fst).zip us)], .done)
    | .none => (ts, .undefined)
  | .copy x p =>
    match ts[x]? with
    | some t =>
      match lookup t p with
      | some u => (ts ++ [u], .done)
      | .none => (ts, .threw)
    | .none => (ts, .undefined)
  | .touch x p =>
    match ts[x]? with
    | some t => (ts.set x (walk t p).1, if (walk t p).2 then .done else .threw)
    | .none => (ts, .undefined)
  | .assign x p y q =>
    match ts[x]?, ts[y]? with
    | some tx, some ty =>
      if lookup ty q = .none then (ts, .threw)
      else
        let ts' := ts.set x (walk tx p).1
        if (walk tx p).2 then
          match (ts'[y]?).bind fun t => lookup t q with
          | some u => (ts.set x (replaced (walk tx p).1 p u), .done)
          | .none => (ts', .undefined)
        else (ts', .threw)
    | _, _ => (ts, .undefined)
  | .append x p y q =>
    match ts[x]?, ts[y]? with
    | some tx, some _ =>
      let ts' := ts.set x (walk tx p).1
      if (walk tx p).2 then
        match (ts'[y]?).bind fun t => lookup t q with
        | .none => (ts', .threw)
        | some u =>
          match (lookup (walk tx p).1 p).bind fun c => appended c u with
          | some c => (ts.set x (replaced (walk tx p).1 p c), .done)
          | .none => (ts', .threw)
      else (ts', .threw)
    | _, _ => (ts, .undefined)

/-- A program, on variables that hold independent trees. -/
def treeExecAll (ts : List Json) : List Cmd → List Json × List Reply
  | [] => (ts, [])
  | c :: cs =>
    let r := treeExec ts c
    let q := treeExecAll r.1 cs
    (q.1, r.2 :: q.2)

/-- Every statement of the program is sound when it is reached. -/
def SoundAll (ts : List Json) : List Cmd → Prop
  | [] => True
  | c :: cs => Sound ts.length c ∧ SoundAll (treeExec ts c).1 cs

end Verif.Spec
