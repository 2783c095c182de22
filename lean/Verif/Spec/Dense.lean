import Verif.Spec.Vec
import Mathlib.Algebra.BigOperators.Group.Finset.Basic
import Mathlib.Algebra.Ring.Defs

/-
Specification of a fully connected layer: the affine map and a scalar objective.
-/

namespace Verif.Spec
open Finset

variable {α : Type _} [CommSemiring α]

/-- Component `i` of `W x + b` with `n` inputs. -/
def affine (W : Nat → Nat → α) (b x : Nat → α) (n i : Nat) : α :=
  b i + ∑ j ∈ range n, W i j * x j

/-- The scalar `∑ i, g i * (W x + b) i` whose partial derivatives `backward` has to
return when the incoming gradient is `g`. -/
def denseObjective (g : Nat → α) (W : Nat → Nat → α) (b x : Nat → α) (n m : Nat) : α :=
  ∑ i ∈ range m, g i * affine W b x n i

/-- `f` with the value at `i` replaced. -/
def replace (f : Nat → α) (i : Nat) (t : α) : Nat → α := fun k => if k = i then t else f k

/-- `W` with the entry `(i,j)` replaced. -/
def replace2 (W : Nat → Nat → α) (i j : Nat) (t : α) : Nat → Nat → α :=
  fun k l => if k = i ∧ l = j then t else W k l

end Verif.Spec
