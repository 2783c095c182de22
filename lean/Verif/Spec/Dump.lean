import Verif.Model.Dump

/-
Specification of saving and loading layers: what a well-sized layer is and what it means that a layer has
been restored from another one.
-/

namespace Verif.Spec

open Verif.Dump Verif.Slide

variable {N : Type}

/-- A number after it has been written as text and read back. -/
def trip (io : NumText N) (x : N) : N := io.value (io.text x)

/-- The lists of weights and biases of a layer. -/
def parameters : Own N → List (List N)
  | .dense w b => [w, b]
  | .conv _ w b => [w, b]
  | .rnn r => [r.wih, r.whh, r.who, r.bh, r.bo]
  | _ => []

/-- The whole numbers that configure a layer and are saved. -/
def configuration : Own N → List Int
  | .conv g _ _ => [g.kernel.h, g.kernel.w, g.filters, g.stride.h, g.stride.w, g.padding.h, g.padding.w]
  | .maxPool g => [g.kernel.h, g.kernel.w, g.stride.h, g.stride.w]
  | .avgPool g => [g.kernel.h, g.kernel.w, g.stride.h, g.stride.w]
  | .rnn r => [r.act, r.hidden, r.steps]
  | _ => []

/-- The numbers that configure a layer and are saved. -/
def rates : Own N → List N
  | .dropout p _ => [p]
  | .mse t => [t]
  | _ => []

/-- Layer `l` has the type, name, shapes, configuration, weights and biases of layer `s`, numbers as their
text says. -/
structure Restored (io : NumText N) (s l : Layer N) : Prop where
  type : typeName l.own = typeName s.own
  name : l.fields.name = s.fields.name
  inputs : l.fields.inShapes = s.fields.inShapes
  outputs : l.fields.outShapes = s.fields.outShapes
  config : configuration l.own = configuration s.own
  rates : rates l.own = (rates s.own).map (trip io)
  params : parameters l.own = (parameters s.own).map (List.map (trip io))

/-- A number that fits a `SizeType`. -/
def Word (n : Nat) : Prop := n < 2 ^ 64

/-- A shape of `SizeType` dimensions. -/
def WordShape (s : Shape3) : Prop := Word s.h ∧ Word s.w ∧ Word s.c

/-- The number of elements of the first shape. -/
def firstSize (ss : List Shape3) : Nat := (ss.head?.map Shape3.size).getD 0

/-- The lengths of the lists of weights and biases agree with the shapes and the configuration, which are
machine numbers. -/
def OwnFits (f : Fields) : Own N → Prop
  | .dense w b => w.length = firstSize f.outShapes * firstSize f.inShapes ∧ b.length = firstSize f.outShapes
  | .conv g w b =>
    (∀ s ∈ f.inShapes.head?, w.length = g.kernel.h * g.kernel.w * s.c * g.filters) ∧ b.length = g.filters ∧
      Word g.kernel.h ∧ Word g.kernel.w ∧ Word g.filters ∧ Word g.stride.h ∧ Word g.stride.w ∧
      Word g.padding.h ∧ Word g.padding.w
  | .maxPool g => Word g.kernel.h ∧ Word g.kernel.w ∧ Word g.stride.h ∧ Word g.stride.w
  | .avgPool g => Word g.kernel.h ∧ Word g.kernel.w ∧ Word g.stride.h ∧ Word g.stride.w
  | .rnn r =>
    f.outSize = firstSize f.outShapes ∧ r.wih.length = f.inSize * r.hidden ∧
      r.whh.length = r.hidden * r.hidden ∧ r.who.length = r.hidden * f.outSize ∧ r.bh.length = r.hidden ∧
      r.bo.length = f.outSize ∧ -2 ^ 31 ≤ r.act ∧ r.act < 2 ^ 31 ∧ Word r.hidden ∧ Word r.steps ∧
      r.state.length = r.hidden * max r.steps 1
  | _ => True

/-- A layer whose parts have the sizes that its shapes ask for. -/
structure Fits (l : Layer N) : Prop where
  inputs : l.fields.inShapes ≠ []
  outputs : l.fields.outShapes ≠ []
  inSize : l.fields.inSize = firstSize l.fields.inShapes
  words : ∀ s ∈ l.fields.inShapes ++ l.fields.outShapes, WordShape s
  own : OwnFits l.fields l.own

/-- The buffers have the lengths that the shapes ask for: one output for every element of the output shape and one
gradient for every element of the input shape (for every time step of a recurrent layer), and one gradient for every
parameter.  A loss layer has no outputs. -/
def Buffers (l : Layer N) : Prop :=
  match l.own with
  | .cce | .mse _ => l.outLen = 0 ∧ l.inLen = firstSize l.fields.inShapes ∧ l.gradLens = []
  | .rnn r => l.outLen = firstSize l.fields.outShapes * r.steps ∧ l.inLen = firstSize l.fields.inShapes * r.steps ∧
      l.gradLens = (parameters l.own).map List.length
  | _ => l.outLen = firstSize l.fields.outShapes ∧ l.inLen = firstSize l.fields.inShapes ∧
      l.gradLens = (parameters l.own).map List.length

/-- The same class and configuration, with other values of the same number of weights, biases and hidden
states: what initialisation and training change. -/
inductive Retrained : Own N → Own N → Prop where
  | dense {w b w' b' : List N} : w'.length = w.length → b'.length = b.length → Retrained (.dense w b) (.dense w' b')
  | conv {g : ConvGeo} {w b w' b' : List N} : w'.length = w.length → b'.length = b.length →
      Retrained (.conv g w b) (.conv g w' b')
  | rnn {a : Int} {h t : Nat} {p q r x y z p' q' r' x' y' z' : List N} : p'.length = p.length →
      q'.length = q.length → r'.length = r.length → x'.length = x.length → y'.length = y.length →
      z'.length = z.length → Retrained (.rnn ⟨a, h, t, p, q, r, x, y, z⟩) (.rnn ⟨a, h, t, p', q', r', x', y', z'⟩)

/-- Layers that a program can have: made by a constructor with machine sizes, then trained, given other
input shapes, or loaded from any JSON. -/
inductive Built [Zero N] [One N] [Sub N] [Div N] [DecidableEq N] (io : NumText N) : Layer N → Prop where
  | activation {own : Own N} {name : List Char} {n : Nat} :
      (own = .relu ∨ (∃ a, own = .elu a) ∨ own = .softmax ∨ own = .tanh ∨ own = .sigmoid ∨ own = .linear ∨
        ∃ p, own = .dropout p (scaleOf p)) → Word n → Built io (newFlat own name n)
  | loss {own : Own N} {name : List Char} {n : Nat} : (own = .cce ∨ ∃ t, own = .mse t) → Word n →
      Built io (newLoss own name n)
  | dense {name : List Char} {i o : Nat} : Word i → Word o → Built io (newDense name i o)
  | conv {name : List Char} {i : Shape3} {g : ConvGeo} {l : Layer N} : newConv name i g = .ok l → WordShape i →
      WordShape ⟨g.kernel.h, g.kernel.w, g.filters⟩ → WordShape ⟨g.stride.h, g.stride.w, 0⟩ →
      WordShape ⟨g.padding.h, g.padding.w, 0⟩ → (∀ s ∈ l.fields.outShapes, WordShape s) → Built io l
  | pool {own : PoolGeo → Own N} {name : List Char} {i : Shape3} {g : PoolGeo} {l : Layer N} :
      own = .maxPool ∨ own = .avgPool → newPool own name i g = .ok l → WordShape i →
      WordShape ⟨g.kernel.h, g.kernel.w, 0⟩ → WordShape ⟨g.stride.h, g.stride.w, 0⟩ →
      (∀ s ∈ l.fields.outShapes, WordShape s) → Built io l
  | concat {name : List Char} {shapes : List Shape3} {axis : Nat} {l : Layer N} :
      newConcat name shapes axis = .ok l → (∀ s ∈ l.fields.inShapes ++ l.fields.outShapes, WordShape s) → Built io l
  | rnn {name : List Char} {i o h t : Nat} {act : Int} : Word i → Word o → Word h → Word t → -2 ^ 31 ≤ act →
      act < 2 ^ 31 → Built io (newRnn name i o h t act)
  | train {l : Layer N} {own : Own N} : Built io l → Retrained l.own own → Built io { l with own := own }
  | reshape {l l' : Layer N} {s : Shape3} : Built io l → setInput l s = .ok l' → WordShape s → Word s.size →
      (∀ s ∈ l'.fields.outShapes, WordShape s) → Built io l'
  | load {l l' : Layer N} {j : Js.Json} : Built io l → load io l j = .ok l' → Built io l'

/-- The sizes that a layer's lists of weights are made of. -/
def PositiveSizes (f : Fields) : Own N → Prop
  | .dense _ _ => 0 < firstSize f.inShapes ∧ 0 < firstSize f.outShapes
  | .conv g _ _ => 0 < g.kernel.h ∧ 0 < g.kernel.w ∧ 0 < g.filters ∧ ∀ s ∈ f.inShapes.head?, 0 < s.c
  | .rnn r => 0 < firstSize f.inShapes ∧ 0 < firstSize f.outShapes ∧ 0 < r.hidden
  | _ => True

/-- A layer that can be written to a file: no quotes in its name, no empty list of weights, and every number
is written as a finite number. -/
structure Writable (io : NumText N) (l : Layer N) : Prop where
  name : '"' ∉ l.fields.name
  positive : PositiveSizes l.fields l.own
  numbers : ∀ x ∈ Spec.rates l.own ++ (parameters l.own).flatten, ∃ neg m, io.text x = Text.floatText neg m

end Verif.Spec
