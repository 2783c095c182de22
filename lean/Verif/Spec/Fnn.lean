import Verif.Model.Fnn
import Verif.Spec.Net

/-! Vocabulary for the construction of feedforward networks. -/

namespace Verif.Spec

open Verif.Net Verif.Graph

/-- Is the descriptor an `Input`? -/
def isInput (d : Descriptor) : Bool :=
  match d.kind with
  | .input _ => true
  | _ => false

/-- The descriptors, other than `Input`, whose `add` did not throw. -/
def accepted (ds : List Descriptor) (outcomes : List (Option String)) : List Descriptor :=
  ((ds.zip outcomes).filter fun p => !isInput p.1 && p.2.isNone).map Prod.fst

/-- The layer is a new object of the described class: its constructor, called with the settings of the
descriptor and some input shape, returned it. -/
def Implements (k : Kind) (a : AnyLayer) : Prop :=
  match k with
  | .input _ => False
  | .dense units => ∃ n m, units.size = .ok m ∧ a = .dense (denseNew n m)
  | .conv nf kernel stride padding => ∃ s l,
      Slide.ConvLayer.mk' s kernel nf stride padding = .ok l ∧ a = .conv l
  | .maxPool kernel stride => ∃ s l, Slide.PoolLayer.mk' s kernel stride = .ok l ∧ a = .maxPool l
  | .avgPool kernel stride => ∃ s l, Slide.PoolLayer.mk' s kernel stride = .ok l ∧ a = .avgPool l
  | .dropout p mx raw => ∃ n, a = .dropout mx raw (Drop.Layer.new n p)

/-- The layer is an activation layer of the given function; no activation means the identity, and
ELU has `alpha` 1. -/
def IsActivation (t : ActivationType) (a : AnyLayer) : Prop :=
  match t with
  | .relu => ∃ l, a = .act .relu l
  | .elu => ∃ l, a = .act (.elu 1) l
  | .softmax => ∃ l, a = .act .softmax l
  | .tanh => ∃ l, a = .act .tanh l
  | .sigmoid => ∃ l, a = .act .sigmoid l
  | .linear | .none => ∃ l, a = .act .linear l

/-- A layer that C35 covers: not a dropout layer; the window of a convolution or pooling layer fits
into its input; softmax has at least one input. -/
def Regular : AnyLayer → Prop
  | .conv l => (⟨l.input, l.kernel.h, l.kernel.w, l.stride.h, l.stride.w, l.padding.h,
      l.padding.w⟩ : Geom).Fits
  | .maxPool l => (⟨l.input, l.kernel.h, l.kernel.w, l.stride.h, l.stride.w, 0, 0⟩ : Geom).Fits
  | .avgPool l => (⟨l.input, l.kernel.h, l.kernel.w, l.stride.h, l.stride.w, 0, 0⟩ : Geom).Fits
  | .act .softmax l => 0 < l.output.length
  | .dropout _ _ _ => False
  | _ => True

/-- The size an `Input` descriptor in first position declares. -/
def declaredInput (ds : List Descriptor) : Nat :=
  match ds with
  | ⟨.input (s :: _), _⟩ :: _ => s.size
  | _ => 0

end Verif.Spec
