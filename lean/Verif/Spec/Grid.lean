import Verif.Spec.Fnn
import Verif.Spec.Slide
import Verif.Model.Mlpack

/-! Rows, columns and channels along a feedforward network. -/

namespace Verif.Spec

open Verif.Net

/-- Rows, columns and channels of what a described layer gives for an input with those of `g`: a convolution has
one channel per filter and, like pooling, one row and column per placement of its window; a dense layer has its
declared units; a dropout layer changes nothing. -/
def gridAfter (g : Shape3) : Kind → Shape3
  | .input _ => g
  | .dense units => units.headD g
  | .conv nf k s p => ⟨placements g.h k.h s.h p.h, placements g.w k.w s.w p.w, nf⟩
  | .maxPool k s => ⟨placements g.h k.h s.h 0, placements g.w k.w s.w 0, g.c⟩
  | .avgPool k s => ⟨placements g.h k.h s.h 0, placements g.w k.w s.w 0, g.c⟩
  | .dropout _ _ _ => g

/-- Rows, columns and channels after a list of descriptors. -/
def gridOf (g : Shape3) (ds : List Descriptor) : Shape3 := ds.foldl (fun g d => gridAfter g d.kind) g

/-- The descriptor can be added where the grid is `g`: it is no `Input`, its window fits, its dense units are one
shape. -/
def Placeable (g : Shape3) : Kind → Prop
  | .input _ => False
  | .dense units => units.length = 1
  | .conv _ k s p => (⟨g, k.h, k.w, s.h, s.w, p.h, p.w⟩ : Geom).Fits
  | .maxPool k s => (⟨g, k.h, k.w, s.h, s.w, 0, 0⟩ : Geom).Fits
  | .avgPool k s => (⟨g, k.h, k.w, s.h, s.w, 0, 0⟩ : Geom).Fits
  | .dropout _ _ _ => True

/-- All descriptors can be added one after the other. -/
def PlaceableAll (g : Shape3) (ds : List Descriptor) : Prop :=
  ∀ i d, ds[i]? = some d → Placeable (gridOf g (ds.take i)) d.kind

/-- Does the layer slide a window over its input? -/
def Windowed : Kind → Prop
  | .conv _ _ _ _ => True
  | .maxPool _ _ => True
  | .avgPool _ _ => True
  | _ => False

/-- One column and one channel. -/
def Flat (g : Shape3) : Prop := g.w = 1 ∧ g.c = 1

/-- The layer takes inputs with the rows, columns and channels of `g`. -/
def WorksOn (g : Shape3) : AnyLayer → Prop
  | .conv l => l.input = g
  | .maxPool l => l.input = g
  | .avgPool l => l.input = g
  | a => a.inputSize = g.size

/-- Between a dropout layer that gets more than one column or channel, and a later layer with a window, there is a
dense layer; dense layers have one column and one channel. -/
def Undisturbed (g : Shape3) (ds : List Descriptor) : Prop :=
  (∀ (i j : Nat) (d e : Descriptor), i < j → ds[i]? = some d → ds[j]? = some e → (∃ p mx raw, d.kind = .dropout p mx raw) →
    Windowed e.kind → Flat (gridOf g (ds.take i)) ∨ ∃ k u c, i < k ∧ k < j ∧ ds[k]? = some c ∧ c.kind = .dense u) ∧
  ∀ (d : Descriptor) (u : LayerShape) (s : Shape3), d ∈ ds → d.kind = .dense u → s ∈ u → Flat s

/-- The layer of mlpack that a descriptor stands for where the grid is `g`.  (The library names columns before
rows.) -/
def MlImplements (g : Shape3) (k : Kind) (l : Mlpack.Layer) : Prop :=
  match k with
  | .input _ => False
  | .dense units => ∃ s, units = [s] ∧ l = .linear g.size s.size
  | .conv nf k s p => l = .convolution g.c nf k.w k.h s.w s.h p.w p.h g.w g.h
  | .maxPool k s => l = .maxPooling k.w k.h s.w s.h
  | .avgPool k s => l = .meanPooling k.w k.h s.w s.h
  | .dropout p _ _ => l = .dropout p

/-- The activation layer of mlpack for a choice of activation; no activation means the identity. -/
def MlActivates (t : ActivationType) (l : Mlpack.Layer) : Prop :=
  match t with
  | .relu => l = .relu
  | .elu => l = .elu
  | .softmax => l = .softmax
  | .tanh => l = .tanh
  | .sigmoid => l = .sigmoid
  | .linear | .none => l = .identity

end Verif.Spec
