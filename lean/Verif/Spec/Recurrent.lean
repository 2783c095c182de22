import Verif.Spec.Vec
import Mathlib.Algebra.BigOperators.Group.Finset.Basic
import Mathlib.Algebra.Ring.Defs

/-
Specification of an Elman recurrent network.
-/

namespace Verif.Spec
open Finset

variable {α : Type _} [CommSemiring α]

/-- Sizes and parameters of a recurrent cell: `n` inputs, `h` hidden units, `o` outputs. -/
structure Cell (α : Type _) where
  n : Nat
  h : Nat
  o : Nat
  wih : Nat → Nat → α
  whh : Nat → Nat → α
  who : Nat → Nat → α
  bh : Nat → α
  bo : Nat → α

/-- Argument of the activation when input `x` arrives in state `s`. -/
def Cell.pre (c : Cell α) (x s : Nat → α) (i : Nat) : α :=
  ∑ j ∈ range c.n, c.wih i j * x j + ∑ j ∈ range c.h, c.whh i j * s j + c.bh i

/-- State after `t` steps: `h_0 = s0`, `h_{t+1} = act (W_ih x_t + W_hh h_t + b_h)`. -/
def Cell.state (c : Cell α) (act : α → α) (x : Nat → Nat → α) (s0 : Nat → α) : Nat → Nat → α
  | 0 => s0
  | t + 1 => fun i => act (c.pre (x t) (Cell.state c act x s0 t) i)

/-- Output of step `t`: `W_ho h_{t+1} + b_o`. -/
def Cell.out (c : Cell α) (act : α → α) (x : Nat → Nat → α) (s0 : Nat → α) (t i : Nat) : α :=
  ∑ j ∈ range c.h, c.who i j * c.state act x s0 (t + 1) j + c.bo i

/-- Backpropagation through time with local factors `d t i` (the derivative of the activation at
step `t`, unit `i`) for incoming output gradients `g` over `T` steps: after `k` steps taken from the
end, the gradient with respect to the state before step `T - k`. -/
def Cell.carry (c : Cell α) (d g : Nat → Nat → α) (T : Nat) : Nat → Nat → α
  | 0 => fun _ => 0
  | k + 1 => fun j => ∑ i ∈ range c.h, c.whh i j *
      (d (T - 1 - k) i * (∑ o ∈ range c.o, c.who o i * g (T - 1 - k) o + Cell.carry c d g T k i))

/-- The gradient with respect to the argument of the activation of step `t`. -/
def Cell.delta (c : Cell α) (d g : Nat → Nat → α) (T t i : Nat) : α :=
  d t i * (∑ o ∈ range c.o, c.who o i * g t o + c.carry d g T (T - 1 - t) i)

/-- The scalar `∑ t i, g t i * y_t i` whose derivatives `backward` has to return when the incoming
gradients are `g`. -/
def Cell.objective (c : Cell α) (act : α → α) (x : Nat → Nat → α) (s0 : Nat → α)
    (g : Nat → Nat → α) (T : Nat) : α :=
  ∑ t ∈ range T, ∑ i ∈ range c.o, g t i * c.out act x s0 t i

end Verif.Spec
