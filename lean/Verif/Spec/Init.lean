import Verif.Model.Init

/-! Vocabulary for statements about the initialisation of parameters. -/

namespace Verif.Spec

open Verif.Net Verif.Graph Verif.Init

noncomputable section

/-- The values got by drawing again and again. -/
def nth {σ : Type} (d : σ → ℝ × σ) : σ → Nat → ℝ
  | s, 0 => (d s).1
  | s, k + 1 => nth d (d s).2 k

/-- The state after a number of draws. -/
def after {σ : Type} (d : σ → ℝ × σ) : σ → Nat → σ
  | s, 0 => s
  | s, k + 1 => after d (d s).2 k

/-- The outputs of the engine, in order. -/
def raw (rg : Random) : rg.Engine → Nat → Nat
  | e, 0 => (rg.next e).1
  | e, k + 1 => raw rg (rg.next e).2 k

/-- Some layer that follows layer `i` is a ReLU layer. -/
def FollowedByRelu (g : DLGraph) (ls : List AnyLayer) (i : Nat) : Prop :=
  ∃ j ∈ successors g.forward i, ∃ l, ls[j]? = some (.act .relu l)

/-- The initialisation of layer `i` uses the Kaiming rule. -/
def UsesKaiming (g : DLGraph) (ls : List AnyLayer) (init : ModelInit) (i : Nat) : Prop :=
  init = .kaiming ∨ init = .auto ∧ FollowedByRelu g ls i

open Classical in
/-- Standard deviation (normal) or width (uniform) for the weights of layer `i` that see `n` inputs. -/
def spread (g : DLGraph) (ls : List AnyLayer) (init : ModelInit) (i n : Nat) : ℝ :=
  Real.sqrt ((if UsesKaiming g ls init i then 2 else 1) / n)

/-- The two layers are of the same class with the same sizes; parameters, gradients and buffers may differ. -/
def Alike : AnyLayer → AnyLayer → Prop
  | .dense a, .dense b => a.inputSize = b.inputSize ∧ a.weights.length = b.weights.length ∧
      a.biases.length = b.biases.length
  | .conv a, .conv b => a.input = b.input ∧ a.weights.length = b.weights.length ∧ a.biases.length = b.biases.length
  | .rnn _ _ a, .rnn _ _ b => a.inputSize = b.inputSize ∧ a.hiddenSize = b.hiddenSize ∧
      a.wih.length = b.wih.length ∧ a.whh.length = b.whh.length ∧ a.who.length = b.who.length ∧
      a.bh.length = b.bh.length ∧ a.bo.length = b.bo.length
  | .act .relu _, .act .relu _ => True
  | .act f _, .act f' _ => f ≠ .relu ∧ f' ≠ .relu
  | .maxPool _, .maxPool _ => True
  | .avgPool _, .avgPool _ => True
  | .dropout _ _ _, .dropout _ _ _ => True
  | .loss _ _, .loss _ _ => True
  | _, _ => False

end

end Verif.Spec
