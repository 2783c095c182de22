import Verif.Props.Graph

/-! Specification for C113: layers that no loss depends on. -/

namespace Verif.Spec

open Verif.Props

/-- No loss layer can be reached from the layer `i` along the training connections. -/
def NoLossNeeds (g : Graph.DLGraph) (i : Nat) : Prop :=
  ∀ q ∈ g.loss, ¬ Relation.ReflTransGen (trainArc g) i q

end Verif.Spec
