import Verif.Model.Calls

/-
Specification of direct calls of layers: the same programs with layers that keep a copy of the input of their
last training pass, and the histories in which nobody changes a vector that is still needed.
-/

namespace Verif.Spec

open Verif.Net Verif.Training Verif.Calls

noncomputable section

/-- A layer with its own copy of its last training input.  Clones share their parameters (`addr`). -/
structure Layer where
  own : AnyLayer
  addr : List Nat
  inSize : Nat
  seen : Option (List ℝ)

/-- Parameters, vectors of the caller and layers. -/
structure Copies where
  heap : Heap
  vecs : List (Option (List ℝ))
  layers : List (Option Spec.Layer)

/-- Layers as constructed. -/
def Copies.start (ls : List (AnyLayer × Nat)) : Copies :=
  let r := alloc [] (ls.map Prod.fst)
  ⟨r.1, [], List.zipWith (fun o l => some ⟨l.1, o.addr, l.2, none⟩) r.2 ls⟩

/-- The vector that a call is given. -/
def Copies.value (w : Copies) : Ref → Exec (List ℝ)
  | .vec i => live w.vecs i
  | .out k => do (← live w.layers k).own.lastOutput
  | .grad k => do .ok (← live w.layers k).own.lastInputGradient

/-- The layer with its parameters. -/
def Copies.layer (w : Copies) (l : Spec.Layer) : AnyLayer := l.own.setParams (l.addr.map w.heap.block)

/-- The layer `k` becomes `a`, with the remembered input `seen`. -/
def Copies.put (w : Copies) (k : Nat) (l : Spec.Layer) (a : AnyLayer) (seen : Option (List ℝ)) : Copies :=
  { w with
    heap := w.heap.put l.addr a.params
    layers := w.layers.set k (some ⟨a, l.addr, l.inSize, seen⟩) }

/-- A call when layers remember values: `backward` differentiates at the vector that the last
`training_forward` was given, and `last_input` returns it. -/
def Copies.step (w : Copies) : Op → Exec (Copies × List (List ℝ))
  | .create v => .ok ({ w with vecs := w.vecs ++ [some v] }, [])
  | .write i j x => do
    let v ← wr (← live w.vecs i) j x
    .ok ({ w with vecs := w.vecs.set i (some v) }, [])
  | .destroy i => do
    let _ ← live w.vecs i
    .ok ({ w with vecs := w.vecs.set i none }, [])
  | .clone k => do
    let l ← live w.layers k
    .ok ({ w with layers := w.layers ++ [some l] }, [])
  | .drop k => do
    let _ ← live w.layers k
    .ok ({ w with layers := w.layers.set k none }, [])
  | .target k i => do
    let l ← live w.layers k
    let v ← live w.vecs i
    match w.layer l with
    | .loss f a => .ok (w.put k l (.loss f (a.setTarget v)) l.seen, [])
    | a => .ok (w.put k l a l.seen, [])
  | .forward k p => do
    let l ← live w.layers k
    let v ← w.value p
    let a ← returned (← (w.layer l).forward v)
    match a with
    | .dropout _ _ _ => .ok (w.put k l a (some v), [v])
    | .loss _ _ => .ok (w.put k l a l.seen, [v])
    | _ => .ok (w.put k l a l.seen, [← a.lastOutput])
  | .trainingForward k p => do
    let l ← live w.layers k
    let v ← w.value p
    let a ← returned (← (w.layer l).trainingForward v)
    match a with
    | .loss _ _ => .ok (w.put k l a (some v), [v])
    | _ => .ok (w.put k l a (some v), [← a.lastOutput])
  | .backward k p => do
    let l ← live w.layers k
    let g ← w.value p
    let a ← returned (← ((w.layer l).setLastInput (l.seen.getD [])).backward g)
    .ok (w.put k l a l.seen, [a.lastInputGradient])
  | .lastInput k => do
    let l ← live w.layers k
    match l.seen with
    | none => .ok (w, [[]])
    | some v => if l.inSize ≤ v.length then .ok (w, [v.take l.inSize]) else .ub
  | .train k eta => do
    let l ← live w.layers k
    let r := (w.layer l).train (Opt.gdStep eta) ()
    r.2
    .ok (w.put k l r.1.2 l.seen, [])
  | .gradients k => do .ok (w, (← live w.layers k).own.paramGrads)
  | .params k => do .ok (w, (← live w.layers k).addr.map w.heap.block)

/-- All that a program sees. -/
def Copies.run : Copies → List Op → Exec (List (List ℝ))
  | _, [] => .ok []
  | w, c :: cs => do
    let r ← w.step c
    let seen ← r.1.run cs
    .ok (r.2 ++ seen)

/-! ### Histories that leave the inputs alone -/

/-- What a call may change. -/
def writes : Op → List Ref
  | .write i _ _ => [.vec i]
  | .destroy i => [.vec i]
  | .drop k => [.out k, .grad k]
  | .forward k _ => [.out k]
  | .trainingForward k _ => [.out k]
  | .backward k _ => [.grad k]
  | _ => []

/-- Bookkeeping for a layer: is it a dropout layer (whose `forward` counts as a training pass), the vector of its
last training pass, and whether that vector may have changed since. -/
structure Mark where
  dropout : Bool
  source : Option Ref
  changed : Bool
  deriving DecidableEq

/-- The bookkeeping when `ps` may have changed. -/
def Mark.touch (ps : List Ref) (m : Mark) : Mark :=
  match m.source with
  | some p => { m with changed := m.changed || ps.contains p }
  | none => m

/-- The bookkeeping of all layers after a call. -/
def marks (t : List Mark) (c : Op) : List Mark :=
  let t := t.map (Mark.touch (writes c))
  match c with
  | .clone k => t ++ [t.getD k ⟨false, none, false⟩]
  | .forward k p => t.modify k fun m => if m.dropout then ⟨true, some p, false⟩ else m
  | .trainingForward k p => t.modify k fun m => ⟨m.dropout, some p, false⟩
  | _ => t

/-- A call that uses no changed input and passes no buffer to the function that overwrites it. -/
def Allowed (t : List Mark) : Op → Prop
  | .forward k p => p ≠ .out k
  | .trainingForward k p => p ≠ .out k ∧ p ≠ .grad k
  | .backward k p => p ≠ .grad k ∧ ∀ m, t[k]? = some m → m.changed = false
  | .lastInput k => ∀ m, t[k]? = some m → m.changed = false
  | _ => True

/-- The history leaves every vector alone that a layer still has to read: at each `backward` and `last_input` the
vector of the layer's last training pass has been neither written nor destroyed. -/
def LeavesInputs : List Mark → List Op → Prop
  | _, [] => True
  | t, c :: cs => Allowed t c ∧ LeavesInputs (marks t c) cs

/-- The bookkeeping at the start. -/
def unmarked (ls : List (AnyLayer × Nat)) : List Mark :=
  ls.map fun l => ⟨match l.1 with | .dropout _ _ _ => true | _ => false, none, false⟩

/-- A training pass through the layers `0`, ..., `n - 1`, each fed with the output of the one before, and back:
what `Model::step` does on a path.  The first layer gets the vector `x`, the last one the gradients `g`. -/
def pass (n x g : Nat) : List Op :=
  ((List.range n).map fun k => .trainingForward k (if k = 0 then .vec x else .out (k - 1))) ++
    ((List.range n).reverse.map fun k => .backward k (if k + 1 = n then .vec g else .grad (k + 1)))

/-- Calls that need no remembered input and pass no buffer to the function that overwrites it. -/
def Free (c : Op) : Prop :=
  match c with
  | .forward k p => p ≠ .out k
  | .trainingForward k p => p ≠ .out k ∧ p ≠ .grad k
  | .backward _ _ => False
  | .lastInput _ => False
  | _ => True

end

end Verif.Spec
