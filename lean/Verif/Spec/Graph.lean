import Mathlib.Logic.Relation

/-! Vocabulary for statements about layer graphs. -/

namespace Verif.Spec

/-- `x` can be reached from one of the layers in `start` by following arcs. -/
def Reachable (arc : Nat → Nat → Prop) (start : List Nat) (x : Nat) : Prop :=
  ∃ s ∈ start, Relation.ReflTransGen arc s x

/-- A list of arcs that contains each arc leaving a reachable layer exactly once, and nothing else. -/
def ListsArcsOnce (arc : Nat → Nat → Prop) (start : List Nat) (r : List (Nat × Nat)) : Prop :=
  r.Nodup ∧ ∀ x y, (x, y) ∈ r ↔ Reachable arc start x ∧ arc x y

/-- In the list `r` every arc into a layer comes before every arc out of it. -/
def ArcsInOrder (r : List (Nat × Nat)) : Prop :=
  ∀ (i j : Nat) (a b : Nat × Nat), r[i]? = some a → r[j]? = some b → a.2 = b.1 → i < j

/-- The graph has no cycle. -/
def Acyclic (arc : Nat → Nat → Prop) : Prop := ∀ x, ¬ Relation.TransGen arc x x

end Verif.Spec
