import Verif.Model.Print

/-! What a reader sees in the output of `print`. -/

namespace Verif.Spec

open Verif.Net Verif.Print

noncomputable section

/-- The numbers, in the order in which they appear. -/
def numbers : List Item → List ℝ
  | [] => []
  | .num x :: is => x :: numbers is
  | _ :: is => numbers is

/-- The numbers that stand behind an index in brackets, with their index. -/
def indexed : List Item → List (Nat × ℝ)
  | [] => []
  | .nat n :: .text "]" :: .num x :: is => (n, x) :: indexed is
  | _ :: is => indexed is

/-- Is the item anything but a line `title (dimensions)`? -/
def notHead : Item → Bool
  | .head _ _ => false
  | _ => true

/-- The lines `title (dimensions)`: title, dimensions and the numbers up to the next such line. -/
def sections : List Item → List (String × List Nat × List ℝ)
  | [] => []
  | .head t d :: is => (t, d, numbers (is.takeWhile notHead)) :: sections is
  | _ :: is => sections is

/-- The vectors of parameters have the sizes that belong to the dimensions of the layer. -/
def ParamsSized : AnyLayer → Prop
  | .dense l => l.weights.length = l.outputSize * l.inputSize ∧ l.biases.length = l.outputSize
  | .conv l => l.weights.length = l.kernel.h * l.kernel.w * l.input.c * l.nFilters ∧ l.biases.length = l.nFilters ∧
      0 < l.nFilters ∧ l.weights.length < 2 ^ 64
  | .rnn _ _ l => l.wih.length = l.hiddenSize * l.inputSize ∧ l.whh.length = l.hiddenSize * l.hiddenSize ∧
      l.who.length = l.outputSize * l.hiddenSize ∧ l.bh.length = l.hiddenSize ∧ l.bo.length = l.outputSize
  | _ => True

/-- What a layer shows: its parameters, matrices before biases; a loss layer its average loss and its accuracy in
percent. -/
def shown : AnyLayer → List ℝ
  | .dense l => l.weights ++ l.biases
  | .conv l => l.weights ++ l.biases
  | .rnn _ _ l => l.wih ++ l.whh ++ l.who ++ l.bh ++ l.bo
  | .loss _ l => [l.avgLoss, 100 * l.accuracy]
  | _ => []

end

end Verif.Spec
