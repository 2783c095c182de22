import Verif.Model.Net
import Verif.Spec.Slide

/-! Vocabulary for statements about models as functions. -/

namespace Verif.Spec

open Verif.Net Verif.Graph

/-- `y` is `layer_n(… layer_1(x) …)`: each layer, as given, is called once with `forward` and its
output buffer is passed on. -/
inductive Composition : List AnyLayer → List ℝ → List ℝ → Prop
  | nil (x : List ℝ) : Composition [] x x
  | cons {l l' : AnyLayer} {ls : List AnyLayer} {x z y : List ℝ} :
      l.forward x = .ok (l', none) → l'.lastOutput = .ok z → Composition ls z y →
      Composition (l :: ls) x y

/-- The forward connections of the graph are exactly the path `p`, which visits every layer that is
not a loss layer once. -/
structure IsPath (g : DLGraph) (p : List Nat) : Prop where
  nodup : p.Nodup
  layers : ∀ i, i ∈ p ↔ i < g.layers.length ∧ i ∉ g.loss
  arcs : ∀ x y, y ∈ successors g.forward x ↔ (x, y) ∈ p.zip p.tail

/-- A layer of a class whose prediction depends on its input and parameters only, with buffers as the
constructor makes them, mapping vectors of length `n` to vectors of length `m`. -/
def Maps (n m : Nat) : AnyLayer → Prop
  | .dense l => l.inputSize = n ∧ l.outputSize = m ∧ l.output.length = m ∧
      l.weights.length = m * n ∧ l.biases.length = m
  | .conv l => ∃ g : Geom, g.Fits ∧ l.input = g.src ∧ l.kernel = ⟨g.kh, g.kw⟩ ∧
      l.stride = ⟨g.sh, g.sw⟩ ∧ l.padding = ⟨g.ph, g.pw⟩ ∧
      l.weights.length = g.kh * g.kw * g.src.c * l.nFilters ∧
      l.out.length = m ∧ m = g.rows * g.cols * l.nFilters ∧ n = g.src.h * g.src.w * g.src.c
  | .maxPool l => ∃ g : Geom, g.Fits ∧ g.Pool ∧ l.input = g.src ∧ l.kernel = ⟨g.kh, g.kw⟩ ∧
      l.stride = ⟨g.sh, g.sw⟩ ∧
      l.out.length = m ∧ m = g.rows * g.cols * g.src.c ∧ n = g.src.h * g.src.w * g.src.c
  | .avgPool l => ∃ g : Geom, g.Fits ∧ g.Pool ∧ l.input = g.src ∧ l.kernel = ⟨g.kh, g.kw⟩ ∧
      l.stride = ⟨g.sh, g.sw⟩ ∧
      l.out.length = m ∧ m = g.rows * g.cols * g.src.c ∧ n = g.src.h * g.src.w * g.src.c
  | .act .linear _ => m = n
  | .act .softmax l => m = n ∧ l.output.length = n ∧ 0 < n
  | .act _ l => m = n ∧ l.output.length = n
  | _ => False

/-- A list of layers whose consecutive sizes agree, from length `n` to length `m`. -/
inductive MapsAll : Nat → Nat → List AnyLayer → Prop
  | nil (n : Nat) : MapsAll n n []
  | cons {n k m : Nat} {l : AnyLayer} {ls : List AnyLayer} :
      Maps n k l → MapsAll k m ls → MapsAll n m (l :: ls)

end Verif.Spec
