import Verif.Exec
import Mathlib.Data.Real.Basic

/-
Model of /repo/source/dnn/dropout.{hpp,cpp}.

The random generator is an arbitrary stream `raw` of integers between 0 and `maxRand`
(`RneType::max()`); the layer remembers how many it has drawn.  Numbers are reals.
-/

namespace Verif.Drop

/-- Fields of a `DropoutLayer`. -/
structure Layer where
  size : Nat
  p : ℝ
  scale : ℝ
  /-- numbers drawn so far from `_random_generator` -/
  drawn : Nat
  /-- `_zero_mask_idxs` -/
  mask : List Nat
  output : List ℝ
  inputGrad : List ℝ

/-- `_scale` as set by the constructor and by `load`:
/repo/source/dnn/dropout.cpp:40 and 109. -/
noncomputable def scaleOf (p : ℝ) : ℝ := if p = 1 then 1 else 1 / (1 - p)

/-- Constructor, /repo/source/dnn/dropout.cpp:36-45 and feedforward.cpp:30-40. -/
noncomputable def Layer.new (size : Nat) (p : ℝ) : Layer :=
  { size := size, p := p, scale := scaleOf p, drawn := 0, mask := [],
    output := List.replicate size 0, inputGrad := List.replicate size 0 }

/-- `uniform_pdf<NumType>(center, delta)` applied to the generator:
/repo/source/dnn/dlmath.hpp:216-230. -/
noncomputable def uniform (maxRand : Nat) (center delta : ℝ) (x : Nat) : ℝ :=
  let rand := ((x : ℝ) / (maxRand : ℝ)) * 2 - 1
  rand * (delta / 2) + center

/-- Loop of `training_forward`: output buffer and mask. -/
noncomputable def dropLoop (maxRand : Nat) (raw : Nat → Nat) (l : Layer) (inputs : List ℝ) :
    Exec (List ℝ × List Nat) :=
  forUp l.size (l.output, []) fun i s => do
    let r := uniform maxRand (1 / 2) 1 (raw (l.drawn + i))
    if r > l.p then do
      let x ← rd inputs i
      let out ← wr s.1 i (x * l.scale)
      .ok (out, s.2)
    else do
      let out ← wr s.1 i 0
      .ok (out, s.2 ++ [i])

/-- `training_forward`, /repo/source/dnn/dropout.cpp:47-70: the layer afterwards and the returned
activations. -/
noncomputable def Layer.trainingForward (maxRand : Nat) (raw : Nat → Nat) (l : Layer)
    (inputs : List ℝ) : Exec (Layer × List ℝ) := do
  let s ← dropLoop maxRand raw l inputs
  .ok ({ l with output := s.1, mask := s.2, drawn := l.drawn + l.size }, s.1)

/-- `forward`, /repo/source/dnn/dropout.hpp:69-74: returns its argument. -/
def Layer.forward (l : Layer) (inputs : List ℝ) : Exec (Layer × List ℝ) := .ok (l, inputs)

/-- `DLMath::arr_mul(dst, src, val, length)`, /repo/source/dnn/dlmath.hpp:446-454. -/
def arrScale (dst src : List ℝ) (val : ℝ) (n : Nat) : Exec (List ℝ) :=
  forUp n dst fun i dst => do
    let x ← rd src i
    wr dst i (x * val)

/-- `for (i : _zero_mask_idxs) _input_gradients[i] = 0`, /repo/source/dnn/dropout.cpp:78-81. -/
def clearAt : List Nat → List ℝ → Exec (List ℝ)
  | [], g => .ok g
  | i :: is, g => do
    let g ← wr g i 0
    clearAt is g

/-- `backward`, /repo/source/dnn/dropout.cpp:72-84. -/
def Layer.backward (l : Layer) (gradients : List ℝ) : Exec (Layer × List ℝ) := do
  let g ← arrScale l.inputGrad gradients l.scale l.size
  let g ← clearAt l.mask g
  .ok ({ l with inputGrad := g }, g)

/-- `std::vector::resize`. -/
def resize (v : List ℝ) (n : Nat) : List ℝ := v.take n ++ List.replicate (n - v.length) 0

/-- `_set_input_shape`, /repo/source/dnn/dropout.cpp:112-117 and feedforward.cpp:54-58. -/
def Layer.setSize (l : Layer) (n : Nat) : Layer :=
  { l with size := n, inputGrad := resize l.inputGrad n, output := resize l.output n }

/-- A call on the layer. -/
inductive Op where
  | forward (inputs : List ℝ)
  | trainingForward (inputs : List ℝ)
  | backward (gradients : List ℝ)

/-- Effect of a call and the vector it returns. -/
noncomputable def Layer.apply (maxRand : Nat) (raw : Nat → Nat) (l : Layer) :
    Op → Exec (Layer × List ℝ)
  | .forward x => l.forward x
  | .trainingForward x => l.trainingForward maxRand raw x
  | .backward g => l.backward g

/-- A history of calls: the layer afterwards. -/
noncomputable def Layer.run (maxRand : Nat) (raw : Nat → Nat) (l : Layer) : List Op → Exec Layer
  | [] => .ok l
  | op :: ops => do
    let r ← l.apply maxRand raw op
    r.1.run maxRand raw ops

end Verif.Drop
