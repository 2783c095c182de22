import Verif.Model.Concat

/-
Model of `ConcatenateLayer`, /repo/source/dnn/concatenate.cpp.

Sizes are `Nat`.  The base class gets the maximum and the sum of the declared shapes, and stores them as its
one input shape and one output shape (/repo/source/dnn/feedforward.cpp:30-40, layer.cpp:39-41 and 99-109).
-/

namespace Verif.ConcatLayer

variable {α : Type}

/-- `concatenate_check_shape`, /repo/source/dnn/concatenate.cpp:36-59; the loops are those of the functions on
cubes. -/
def check (shapes : List Shape3) (axis : Nat) : Exec Unit :=
  if shapes = [] then .throw "concatenate layer error: empty shapes"
  else if axis ≥ 3 then .throw "concatenate layer error: axis overload"
  else Concat.checkAllShapes "concatenate layer error: shapes invalid." shapes axis

/-- `concatenate_input_shape`, /repo/source/dnn/concatenate.cpp:61-74. -/
def inputShape (shapes : List Shape3) (axis : Nat) : Exec Shape3 := do
  check shapes axis
  let s ← rd shapes 0
  forFrom 1 (shapes.length - 1) s fun k r => do
    let s ← rd shapes k
    .ok (if r.get axis < s.get axis then r.set axis (s.get axis) else r)

/-- `concatenate_output_shape`, /repo/source/dnn/concatenate.cpp:76-86. -/
def outputShape (shapes : List Shape3) (axis : Nat) : Exec Shape3 := do
  check shapes axis
  let s ← rd shapes 0
  forFrom 1 (shapes.length - 1) s fun k r => do
    let s ← rd shapes k
    .ok (r.set axis (r.get axis + s.get axis))

/-- State of a `ConcatenateLayer`, /repo/source/dnn/concatenate.hpp, feedforward.hpp and layer.hpp. -/
structure Layer (α : Type) where
  inShapes : List Shape3
  outShapes : List Shape3
  axis : Nat
  /-- `_current_input_layer` -/
  current : Nat
  /-- `_current_output_shape` -/
  currentShape : Shape3
  /-- `_output_activations` -/
  out : List α

/-- `ConcatenateLayer(name, shapes, axis)`, /repo/source/dnn/concatenate.cpp:88-99; the name is left out.
Fresh outputs are zero. -/
def new [Zero α] (shapes : List Shape3) (axis : Nat) : Exec (Layer α) := do
  let i ← inputShape shapes axis
  let o ← outputShape shapes axis
  .ok ⟨[i], [o], axis, 0, ⟨0, 0, 0⟩, List.replicate o.size 0⟩

/-- `std::vector::at` and `LayerShape::shape`, /repo/source/dnn/layer.cpp:57-60. -/
def shapeAt (ss : List Shape3) (i : Nat) : Exec Shape3 :=
  match ss[i]? with
  | some s => .ok s
  | .none => .throw "vector::_M_range_check"

/-- `DLMath::Shape3d::at`, /repo/source/dnn/dlmath.hpp:100-101. -/
def dimAt (s : Shape3) (axis : Nat) : Exec Nat :=
  match s.get? axis with
  | some n => .ok n
  | .none => .throw "vector::_M_range_check"

/-- `ConcatenateLayer::forward`, /repo/source/dnn/concatenate.cpp:101-127.  (`FeedforwardLayer::forward` is
`Layer::forward`, /repo/source/dnn/layer.cpp:111-115, which returns its argument.)  The returned vector is
`out` of the new state. -/
def forward (l : Layer α) (x : List α) : Exec (Layer α) := do
  let first ← rd l.inShapes 0
  let cs := if l.current = 0 then first else l.currentShape
  let os ← shapeAt l.outShapes 0
  let is ← shapeAt l.inShapes l.current
  let n ← dimAt is l.axis
  let out ← Concat.append l.out os.dims x 0 n l.axis (cs.get l.axis)
  let cs := if l.current > 0 then cs.set l.axis (cs.get l.axis + n) else cs
  .ok { l with
    out := out
    currentShape := cs
    current := if l.current < l.inShapes.length then l.current + 1 else 0 }

/-- `ConcatenateLayer::backward`, /repo/source/dnn/concatenate.cpp:129-135: the gradients are not looked at;
the result is `_input_gradients`, which nothing has written since they were made. -/
def backward [Zero α] (l : Layer α) (_gradients : List α) : Exec (List α) := do
  let i ← shapeAt l.inShapes 0
  .ok (List.replicate i.size 0)

/-- Feeding inputs one after the other, as a model does for the layers in front. -/
def feed : Layer α → List (List α) → Exec (Layer α)
  | l, [] => .ok l
  | l, x :: xs => do
    let l ← forward l x
    feed l xs

/-- `Layer::input_shape(shape)`, /repo/source/dnn/layer.cpp:143-146, which calls the virtual
`_set_input_shape`, which for this class is `FeedforwardLayer::input_shape`, inherited from `Layer`
(/repo/source/dnn/concatenate.cpp:154-157).  The number is the number of calls allowed; `none` says that
they were not enough. -/
def setInputShape : Nat → Layer α → List Shape3 → Option (Layer α)
  | 0, _, _ => .none
  | n + 1, l, s => setInputShape n l s

end Verif.ConcatLayer
