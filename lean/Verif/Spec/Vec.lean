/-
Reading of flat buffers as vectors and matrices, and ordered sums.  Shared by the
specifications of the numeric kernels.
-/

namespace Verif.Spec

/-- Component `i` of a vector stored in a buffer (0 outside). -/
def vec {α : Type _} [Zero α] (l : List α) (i : Nat) : α := l.getD i 0

/-- Component `(i,j)` of a matrix with `cols` columns stored row by row. -/
def mat {α : Type _} [Zero α] (l : List α) (cols i j : Nat) : α := l.getD (i * cols + j) 0

/-- `((b + f 0) + f 1) + … + f (n-1)`: the sum in program order, so that the statement
also describes a floating-point computation. -/
def ordSum {α : Type _} [Add α] (b : α) : Nat → (Nat → α) → α
  | 0, _ => b
  | n + 1, f => ordSum b n f + f n

/-- The buffer `[f 0, f 1, …, f (n-1)]`. -/
def tab {α : Type _} (n : Nat) (f : Nat → α) : List α := (List.range n).map f

end Verif.Spec
