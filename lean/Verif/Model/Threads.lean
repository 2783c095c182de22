import Verif.Model.Dense
import Verif.Spec.Vec

/-
Interleaving model of the tasks started by `DLMath::dense_thread_opt` and
`DLMath::dense_1_thread_opt` (/repo/source/dnn/dlmath.hpp:1800-1822, 1873-1899).

A task is the list of its operations on the shared buffers that some task writes.
Buffers that nobody writes (weights, bias, src, gradients, last_input) are read as
constants.  `x += v` on a non-atomic double is two memory accesses: the read and the
write; another task may run in between.  A schedule is any list of task numbers.
Simplification: sequentially consistent interleaving (in C++ a data race is already
undefined behaviour; the interleavings are a subset of what may happen).
-/

namespace Verif.Threads
open Verif.Spec

/-- One operation of a task on a shared cell. -/
inductive Op (Cell α : Type _) where
  /-- `c = v` -/
  | set (c : Cell) (v : α)
  /-- `c += v` (read, then write) -/
  | add (c : Cell) (v : α)
  deriving Repr, DecidableEq

/-- The cell an operation works on. -/
def Op.cell {Cell α : Type _} : Op Cell α → Cell
  | set c _ => c
  | add c _ => c

/-- State of a task: remaining operations and, between the read and the write of a
`+=`, the value read. -/
structure Task (Cell α : Type _) where
  ops : List (Op Cell α)
  pending : Option α := none
  deriving Repr, DecidableEq

/-- One memory access of a task. -/
def stepTask {Cell α : Type _} [DecidableEq Cell] [Add α] (mem : Cell → α) (t : Task Cell α) :
    (Cell → α) × Task Cell α :=
  match t with
  | ⟨[], p⟩ => (mem, ⟨[], p⟩)
  | ⟨.set c v :: r, _⟩ => (fun x => if x = c then v else mem x, ⟨r, none⟩)
  | ⟨.add c v :: r, none⟩ => (mem, ⟨.add c v :: r, some (mem c)⟩)
  | ⟨.add c v :: r, some y⟩ => (fun x => if x = c then y + v else mem x, ⟨r, none⟩)

/-- Run the tasks under a schedule; a number that is not a task (or a finished task) does
nothing. -/
def run {Cell α : Type _} [DecidableEq Cell] [Add α] :
    List Nat → (Cell → α) → List (Task Cell α) → (Cell → α) × List (Task Cell α)
  | [], mem, ts => (mem, ts)
  | i :: sched, mem, ts =>
    match ts[i]? with
    | none => run sched mem ts
    | some t => run sched (stepTask mem t).1 (ts.set i (stepTask mem t).2)

/-- All tasks have finished (`for (auto& f: futures) f.get();`). -/
def Finished {Cell α : Type _} (ts : List (Task Cell α)) : Prop := ∀ t ∈ ts, t.ops = []

variable {α : Type _} [Zero α] [Add α] [Mul α]

/-- Task `i` of `dense_thread_opt`, /repo/source/dnn/dlmath.hpp:1811-1818.  The cell is the
index into `dst`. -/
def denseTask (src weights bias : List α) (n i : Nat) : Task Nat α :=
  ⟨.set i (vec bias i) :: tab n fun j => .add i (mat weights n i j * vec src j), none⟩

/-- All tasks of `dense_thread_opt`, /repo/source/dnn/dlmath.hpp:1808-1819. -/
def denseTasks (src weights bias : List α) (n m : Nat) : List (Task Nat α) :=
  tab m (denseTask src weights bias n)

/-- Cells written by `dense_1_thread_opt`: input, weight and bias gradients. -/
inductive GCell where
  | input (j : Nat)
  | weight (q : Nat)
  | bias (i : Nat)
  deriving Repr, DecidableEq

/-- Task `i` of `dense_1_thread_opt`, /repo/source/dnn/dlmath.hpp:1886-1895. -/
def dense1Task (g x weights : List α) (n i : Nat) : Task GCell α :=
  ⟨.add (.bias i) (vec g i) :: (List.range n).flatMap fun j =>
    [.add (.weight (i * n + j)) (vec g i * vec x j),
     .add (.input j) (vec g i * mat weights n i j)], none⟩

/-- All tasks of `dense_1_thread_opt`, /repo/source/dnn/dlmath.hpp:1883-1896. -/
def dense1Tasks (g x weights : List α) (n m : Nat) : List (Task GCell α) :=
  tab m (dense1Task g x weights n)

/-- Memory before the tasks of `dense_1_thread_opt` start: `std::fill` has zeroed the
input gradients, /repo/source/dnn/dlmath.hpp:1879. -/
def dense1Mem (s : Dense.Grads α) : GCell → α
  | .input _ => 0
  | .weight q => vec s.weight q
  | .bias i => vec s.bias i

end Verif.Threads

namespace Verif.Threads

/-- The schedule never lets another task run between the read and the write of a `+=`
(what a lock or an atomic update would enforce). -/
def NoOverlap {Cell α : Type _} [DecidableEq Cell] [Add α] :
    List Nat → (Cell → α) → List (Task Cell α) → Prop
  | [], _, _ => True
  | i :: sched, mem, ts =>
    (∀ k t, ts[k]? = some t → t.pending ≠ none → i = k) ∧
    match ts[i]? with
    | none => NoOverlap sched mem ts
    | some t => NoOverlap sched (stepTask mem t).1 (ts.set i (stepTask mem t).2)

end Verif.Threads
