/-
Specification of arrays with any number of dimensions, stored with the last coordinate innermost.
-/

namespace Verif.Spec

/-- Where the element with the coordinates is stored in an array of the shape. -/
def position : (shape coords : List Nat) → Nat
  | _ :: ds, i :: is => i * ds.prod + position ds is
  | _, _ => 0

/-- There is one coordinate for every dimension, and it is smaller than the dimension. -/
def Inside : (shape coords : List Nat) → Prop
  | d :: ds, i :: is => i < d ∧ Inside ds is
  | [], [] => True
  | _, _ => False

/-- The coordinates moved along the axis. -/
def moved (axis by_ : Nat) (coords : List Nat) : List Nat := coords.modify axis (· + by_)

end Verif.Spec
