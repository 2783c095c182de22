import Verif.Model.Net

/-
Model of `print` of layers and models: what is written to `std::cout`, as a list of items.  Numbers are written as
items (their decimal text, six significant digits, is not modelled); a line `title (a x b x ...)` is one item.
-/

namespace Verif.Print

open Verif.Net

noncomputable section

/-- What is written. -/
inductive Item where
  | text (s : String)
  | head (title : String) (dims : List Nat)
  | nat (n : Nat)
  | num (x : ℝ)

/-- A loop over `0 .. n - 1`. -/
def upTo : Nat → (Nat → Exec (List Item)) → Exec (List Item)
  | 0, _ => .ok []
  | n + 1, f => do
    let a ← upTo n f
    let b ← f n
    .ok (a ++ b)

/-- The nested loops that write a matrix with the index before each number, /repo/source/dnn/dense.cpp:148-157
(`close` is what follows each number), recurrent.cpp:434-443, 446-455, 458-467. -/
def matrix (rows cols : Nat) (close : List Item) (w : List ℝ) : Exec (List Item) :=
  upTo rows fun i => do
    let r ← upTo cols fun j => do
      let x ← rd w (i * cols + j)
      .ok ([.text "\t[", .nat (i * cols + j), .text "]", .num x] ++ close)
    .ok (r ++ [.text "\n"])

/-- The loops that write the biases, /repo/source/dnn/dense.cpp:159-162, convolutional.cpp:254-257,
recurrent.cpp:469-472, 474-477. -/
def column (n : Nat) (b : List ℝ) : Exec (List Item) :=
  upTo n fun i => do
    let x ← rd b i
    .ok [.text "\t", .num x, .text "\n"]

/-- `DenseLayer::print`, /repo/source/dnn/dense.cpp:143-164. -/
def dense (name : String) (l : Dense.Layer ℝ) : Exec (List Item) := do
  let w ← matrix l.outputSize l.inputSize [.text "\n"] l.weights
  let b ← column l.outputSize l.biases
  .ok ([.text name, .head "Weights" [l.outputSize, l.inputSize]] ++ w
    ++ [.head "Biases" [l.outputSize, 1]] ++ b ++ [.text "\n"])

/-- `_n_filters - 1` in 64 bits. -/
def pred64 (n : Nat) : Nat := (n + 2 ^ 64 - 1) % 2 ^ 64

/-- `ConvolutionalLayer::print`, /repo/source/dnn/convolutional.cpp:218-259.  The last number of a line is read at
`offset + _n_filters - 1`, in 64 bits. -/
def conv (name : String) (l : Slide.ConvLayer ℝ) : Exec (List Item) := do
  let w ← upTo l.kernel.h fun r => upTo l.kernel.w fun c => upTo l.input.c fun ch => do
    let offset := r * l.kernel.w * l.input.c * l.nFilters + c * l.input.c * l.nFilters + ch * l.nFilters
    let row ← upTo (pred64 l.nFilters) fun f => do
      let x ← rd l.weights (offset + f)
      .ok [.num x, .text ", "]
    let x ← rd l.weights (pred64 (offset + l.nFilters))
    .ok ([.text "\t[", .nat r, .text ",", .nat c, .text ",", .nat ch, .text ",0:", .nat l.nFilters, .text "]\n"]
      ++ row ++ [.num x, .text "\n"])
  let b ← column l.nFilters l.biases
  .ok ([.text name, .head "Weights" [l.kernel.h, l.kernel.w, l.input.c, l.nFilters]] ++ w
    ++ [.head "Biases" [1, 1, l.nFilters]] ++ b ++ [.text "\n"])

/-- `RecurrentLayer::print`, /repo/source/dnn/recurrent.cpp:429-479. -/
def recurrent (name : String) (l : Rnn.Layer ℝ) : Exec (List Item) := do
  let ih ← matrix l.hiddenSize l.inputSize [] l.wih
  let hh ← matrix l.hiddenSize l.hiddenSize [] l.whh
  let ho ← matrix l.outputSize l.hiddenSize [] l.who
  let bh ← column l.hiddenSize l.bh
  let bo ← column l.outputSize l.bo
  .ok ([.text name, .head "Weights input to hidden" [l.hiddenSize, l.inputSize]] ++ ih
    ++ [.head "Weights hidden to hidden" [l.hiddenSize, l.inputSize]] ++ hh
    ++ [.head "Weights hidden to output" [l.outputSize, l.inputSize]] ++ ho
    ++ [.head "Biases to hidden" [l.hiddenSize, 1]] ++ bh
    ++ [.head "Biases to output" [l.outputSize, 1]] ++ bo ++ [.text "\n"])

/-- `print` of layers without parameters, /repo/source/dnn/activation.cpp:40-45, pooling.cpp:63-68,
dropout.cpp:86-91, concatenate.cpp:137-142. -/
def noParams (name : String) : List Item := [.text name, .text "No learnable parameters", .text "\n"]

/-- `LossLayer::print`, /repo/source/dnn/loss.cpp:75-79. -/
def loss (l : Loss.Layer) : List Item :=
  [.text "Avg Loss: ", .num l.avgLoss, .text "\t", .num (l.accuracy * 100), .text "%% correct", .text "\n"]

/-- The virtual `print`. -/
def layer (name : String) : AnyLayer → Exec (List Item)
  | .dense l => dense name l
  | .conv l => conv name l
  | .rnn _ _ l => recurrent name l
  | .loss _ l => .ok (loss l)
  | .maxPool _ | .avgPool _ | .act _ _ | .dropout _ _ _ => .ok (noParams name)

/-- `Model::print`, /repo/source/dnn/model.cpp:289-295; layers with their names. -/
def model : List (String × AnyLayer) → Exec (List Item)
  | [] => .ok []
  | (name, a) :: ls => do
    let x ← layer name a
    let y ← model ls
    .ok (x ++ y)

end

end Verif.Print
