import Verif.Spec.Backprop

/-! Models whose input layer feeds several branches, each with a loss layer of its own. -/

namespace Verif.Spec

open Verif.Net Verif.Graph Finset

noncomputable section

/-- A branch: the positions of the layers between the input layer and a loss layer, the position of the
loss layer, its class and the factor of its gradients. -/
structure Branch where
  path : List Nat
  loss : Nat
  f : LossFn
  inv : ℝ

/-- The whole way from the input layer `a` to the loss layer. -/
def Branch.way (a : Nat) (b : Branch) : List Nat := a :: (b.path ++ [b.loss])

/-- The connections of the training graph are those of the ways from `a` to the loss layers, and the
gradients take the same ways back. -/
structure IsRouted (g : DLGraph) (a : Nat) (bs : List Branch) : Prop where
  inputs : g.inputs = [a]
  loss : g.loss.Perm (bs.map Branch.loss)
  ways : ∀ b ∈ bs, (b.way a).Nodup
  training : ∀ x y, y ∈ successors g.training x ↔ ∃ b ∈ bs, (x, y) ∈ (b.way a).zip (b.way a).tail
  backward : ∀ x y, y ∈ successors g.backward x ↔ ∃ b ∈ bs, (y, x) ∈ (b.way a).zip (b.way a).tail

/-- The layers at the positions `p`. -/
def along (ls : List AnyLayer) (p : List Nat) : List AnyLayer := p.filterMap fun i => ls[i]?

/-- The branches have no layer in common. -/
def OnlyInputShared (bs : List Branch) : Prop := (bs.map fun b => b.path ++ [b.loss]).flatten.Nodup

/-- The layers exist, map `n` values to `k` (the input layer) and on to `m` (every branch), and have
gradient buffers; the loss layers have buffers for `m` values. -/
structure RoutedReady (ls : List AnyLayer) (a : Nat) (bs : List Branch) (n k m : Nat) : Prop where
  root : ∃ l, ls[a]? = some l ∧ Maps n k l ∧ HasGrads n k l
  exist : ∀ b ∈ bs, ∀ i ∈ b.path, ∃ l, ls[i]? = some l
  sizes : ∀ b ∈ bs, Trainable k m (along ls b.path)
  loss : ∀ b ∈ bs, ∃ l, ls[b.loss]? = some (.loss b.f l) ∧ l.inputSize = m ∧ l.gradients.length = m ∧
    l.invBatch = b.inv

/-- The sum of the objectives of all loss layers over the samples, as a function of the layers. -/
def totalCost (m : Nat) (samples : List (List ℝ × List ℝ)) (a : Nat) (bs : List Branch)
    (ls : List AnyLayer) : ℝ :=
  (bs.map fun b => cost b.f m b.inv samples (along ls (a :: b.path))).sum

end

end Verif.Spec
