import Verif.Spec.Spare
import Verif.Model.Net

/-! Specification for C114: models that differ only in layers that no loss depends on. -/

namespace Verif.Spec

open Verif.Net

/-- The same model with other parameters in layers that no loss depends on. -/
structure SameButSpare (n n' : Net) : Prop where
  graph : n'.graph = n.graph
  length : n'.layers.length = n.layers.length
  needed : ∀ i, ¬ NoLossNeeds n.graph i → n'.layers[i]? = n.layers[i]?
  spare : ∀ (i : Nat) (a a' : AnyLayer), n.layers[i]? = some a → n'.layers[i]? = some a' → ∃ ps, a' = a.setParams ps

/-- What an optimizer remembers depends on the gradients only, not on the values of the parameters. -/
def RemembersGradients {σ : Type} (opt : σ → ℝ → ℝ → σ × ℝ) : Prop :=
  ∀ s p p' g, (opt s p g).1 = (opt s p' g).1

end Verif.Spec
