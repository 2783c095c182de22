import Verif.Model.Training

/-
Model of programs that call the member functions of layers directly, with the vectors they pass by
reference.  A layer keeps the address of the vector of its last `training_forward`
(/repo/source/dnn/layer.hpp:351-355) and reads through it in `backward` and `last_input`.

A program is a list of calls on numbered layers and numbered vectors; a call that makes an object gives it
the next number.  An exception ends the program.  Simplification: a vector of the caller changes by
writing elements and by its destruction; giving it another buffer counts as its destruction.
-/

namespace Verif.Calls

open Verif.Net Verif.Training

noncomputable section

/-- What can be passed to a layer: a vector of the caller, `last_output()` of a layer or
`last_input_gradient()` of a layer. -/
inductive Ref where
  | vec (i : Nat)
  | out (k : Nat)
  | grad (k : Nat)
  deriving DecidableEq

/-- The calls of a program. -/
inductive Op where
  /-- `std::vector<NumType> v = values;` -/
  | create (values : List ℝ)
  /-- `v_i[j] = x;` -/
  | write (i j : Nat) (x : ℝ)
  /-- End of the lifetime of `v_i`. -/
  | destroy (i : Nat)
  /-- `auto m = l_k->clone();` -/
  | clone (k : Nat)
  /-- End of the lifetime of `l_k`. -/
  | drop (k : Nat)
  /-- `l_k->set_target(v_i);` for a loss layer -/
  | target (k i : Nat)
  /-- `see(l_k->forward(p));` -/
  | forward (k : Nat) (p : Ref)
  /-- `see(l_k->training_forward(p));` -/
  | trainingForward (k : Nat) (p : Ref)
  /-- `see(l_k->backward(p));` -/
  | backward (k : Nat) (p : Ref)
  /-- `see(l_k->last_input());` -/
  | lastInput (k : Nat)
  /-- `optimizer.train(*l_k);` with gradient descent of the learning rate `eta` -/
  | train (k : Nat) (eta : ℝ)
  /-- `see(l_k->gradient(i));` for all `i` -/
  | gradients (k : Nat)
  /-- `see(l_k->param(i));` for all `i` -/
  | params (k : Nat)

/-- A layer object: its members, the addresses of its shared parameters, the input size of its shared fields
and its `_last_input`.  The members `lastInput` and the parameters inside `obj` are not used. -/
structure Object where
  obj : Obj
  inSize : Nat
  last : Option Ref

/-- The memory of a program: parameters, vectors of the caller and layers; `none`: destroyed. -/
structure World where
  heap : Heap
  vecs : List (Option (List ℝ))
  layers : List (Option Object)

/-- A program starts with layers as constructed (/repo/source/dnn/layer.cpp:99-109: `_last_input{}`). -/
def World.start (ls : List (AnyLayer × Nat)) : World :=
  let r := alloc [] (ls.map Prod.fst)
  ⟨r.1, [], List.zipWith (fun o l => some ⟨o, l.2, none⟩) r.2 ls⟩

/-- An object that must exist. -/
def live {α : Type} (xs : List (Option α)) (i : Nat) : Exec α :=
  match xs[i]? with
  | some (some a) => .ok a
  | _ => .ub

/-- The vector that a reference names. -/
def World.value (w : World) : Ref → Exec (List ℝ)
  | .vec i => live w.vecs i
  | .out k => do
    let o ← live w.layers k
    o.obj.own.lastOutput
  | .grad k => do
    let o ← live w.layers k
    .ok o.obj.own.lastInputGradient

/-- What is found behind `_last_input`.  Behind a null pointer or a pointer to a destroyed vector there is
nothing that may be read: the empty list, where every access is undefined behaviour. -/
def World.behind (w : World) (o : Object) : List ℝ :=
  match o.last with
  | none => []
  | some p =>
    match w.value p with
    | .ok v => v
    | _ => []

/-- The layer `k` after a member function has turned it into `a`, with its parameters in the memory. -/
def World.put (w : World) (k : Nat) (o : Object) (a : AnyLayer) (last : Option Ref) : World :=
  { w with
    heap := w.heap.put o.obj.addr a.params
    layers := w.layers.set k (some ⟨⟨a, o.obj.addr⟩, o.inSize, last⟩) }

/-- The result of a member function that may have thrown. -/
def returned {α : Type} (r : α × Option String) : Exec α :=
  match r.2 with
  | none => .ok r.1
  | some m => .throw m

/-- What `forward` of the layer `a` returns for the input `v`: the dropout layer (dropout.hpp:68-73) and the
loss layers (mse_loss.cpp:64, cce_loss.cpp:78) return their argument. -/
def shown (a : AnyLayer) (v : List ℝ) : Exec (List ℝ) :=
  match a with
  | .dropout _ _ _ => .ok v
  | .loss _ _ => .ok v
  | a => a.lastOutput

/-- What `training_forward` returns: only the loss layers return their argument. -/
def shownTraining (a : AnyLayer) (v : List ℝ) : Exec (List ℝ) :=
  match a with
  | .loss _ _ => .ok v
  | a => a.lastOutput

/-- `_last_input` after `forward(p)`: only the dropout layer sets it, /repo/source/dnn/dropout.hpp:68-73. -/
def lastAfter (a : AnyLayer) (last : Option Ref) (p : Ref) : Option Ref :=
  match a with
  | .dropout _ _ _ => some p
  | _ => last

/-- A call: the memory afterwards and what is seen.

`training_forward`: /repo/source/dnn/layer.cpp:117-122 (dropout.cpp:47-70 for the dropout layer);
`last_input`: layer.cpp:130-136; `clone`: for example dense.hpp:109-112; `train`: optimizer.cpp:36-39;
`set_target`: loss.cpp. -/
def World.step (w : World) : Op → Exec (World × List (List ℝ))
  | .create v => .ok ({ w with vecs := w.vecs ++ [some v] }, [])
  | .write i j x => do
    let v ← live w.vecs i
    let v ← wr v j x
    .ok ({ w with vecs := w.vecs.set i (some v) }, [])
  | .destroy i => do
    let _ ← live w.vecs i
    .ok ({ w with vecs := w.vecs.set i none }, [])
  | .clone k => do
    let o ← live w.layers k
    .ok ({ w with layers := w.layers ++ [some ⟨o.obj.clone, o.inSize, o.last⟩] }, [])
  | .drop k => do
    let _ ← live w.layers k
    .ok ({ w with layers := w.layers.set k none }, [])
  | .target k i => do
    let o ← live w.layers k
    let v ← live w.vecs i
    let r ← targetAt v [o.obj.view w.heap] 0
    let a ← rd r.1 0
    .ok (w.put k o a o.last, [])
  | .forward k p => do
    let o ← live w.layers k
    let v ← w.value p
    let a ← returned (← (o.obj.view w.heap).forward v)
    .ok (w.put k o a (lastAfter a o.last p), [← shown a v])
  | .trainingForward k p => do
    let o ← live w.layers k
    let v ← w.value p
    let a ← returned (← (o.obj.view w.heap).trainingForward v)
    .ok (w.put k o a (some p), [← shownTraining a v])
  | .backward k p => do
    let o ← live w.layers k
    let g ← w.value p
    let a ← returned (← ((o.obj.view w.heap).setLastInput (w.behind o)).backward g)
    .ok (w.put k o a o.last, [a.lastInputGradient])
  | .lastInput k => do
    let o ← live w.layers k
    match o.last with
    | none => .ok (w, [[]])
    | some _ =>
      let v := w.behind o
      if o.inSize ≤ v.length then .ok (w, [v.take o.inSize]) else .ub
  | .train k eta => do
    let o ← live w.layers k
    let r := (o.obj.view w.heap).train (Opt.gdStep eta) ()
    r.2
    .ok (w.put k o r.1.2 o.last, [])
  | .gradients k => do
    let o ← live w.layers k
    .ok (w, o.obj.own.paramGrads)
  | .params k => do
    let o ← live w.layers k
    .ok (w, o.obj.addr.map w.heap.block)

/-- All that a program sees. -/
def World.run : World → List Op → Exec (List (List ℝ))
  | _, [] => .ok []
  | w, c :: cs => do
    let r ← w.step c
    let seen ← r.1.run cs
    .ok (r.2 ++ seen)

end

end Verif.Calls
