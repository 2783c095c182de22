import Verif.Spec.Concat
import Verif.Spec.Vec
import Mathlib.Algebra.BigOperators.Group.Finset.Basic
import Mathlib.Algebra.Ring.Defs

/-
Specification of sliding-window operations in terms of coordinates.
-/

namespace Verif.Spec
open Finset

/-- Number of positions `0, stride, 2*stride, …` at which a kernel of side `k` fits into a
side of length `input + 2 * padding`. -/
def placements (input k stride padding : Nat) : Nat :=
  ((range (input + 2 * padding + 1)).filter fun r => r * stride + k ≤ input + 2 * padding).card

/-- Geometry of a sliding window: source cube, kernel, stride and padding. -/
structure Geom where
  src : Shape3
  kh : Nat
  kw : Nat
  sh : Nat
  sw : Nat
  ph : Nat
  pw : Nat
  deriving Repr, DecidableEq

/-- Number of output rows. -/
def Geom.rows (g : Geom) : Nat := placements g.src.h g.kh g.sh g.ph
/-- Number of output columns. -/
def Geom.cols (g : Geom) : Nat := placements g.src.w g.kw g.sw g.pw

/-- The geometries the kernels are meant for: non-empty source, stride at least one, kernel
not larger than the padded source, sizes representable in 64 bits. -/
structure Geom.Fits (g : Geom) : Prop where
  h_pos : 0 < g.src.h
  w_pos : 0 < g.src.w
  sh_pos : 0 < g.sh
  sw_pos : 0 < g.sw
  kh_pos : 0 < g.kh
  kw_pos : 0 < g.kw
  kh_le : g.kh ≤ g.src.h + 2 * g.ph
  kw_le : g.kw ≤ g.src.w + 2 * g.pw
  h_lt : g.src.h + 2 * g.ph < 2 ^ 64
  w_lt : g.src.w + 2 * g.pw < 2 ^ 64

/-- The no-padding geometries of pooling. -/
def Geom.Pool (g : Geom) : Prop := g.ph = 0 ∧ g.pw = 0

variable {α : Type _}

/-- Cell `(i, j, c)` of the zero-padded source; `i` and `j` may lie outside. -/
def padded [Zero α] (x : Nat → α) (s : Shape3) (i j : Int) (c : Nat) : α :=
  if 0 ≤ i ∧ i < s.h ∧ 0 ≤ j ∧ j < s.w then x (cellIdx s i.toNat j.toNat c) else 0

/-- The sliding dot product at output `(r, c)` for filter `f`; the kernels are stored as
`k[kernel row][kernel column][channel][filter]`. -/
def corr [CommSemiring α] (g : Geom) (nf : Nat) (x k : Nat → α) (r c f : Nat) : α :=
  ∑ a ∈ range g.kh, ∑ b ∈ range g.kw, ∑ ch ∈ range g.src.c,
    padded x g.src ((r * g.sh + a : Nat) - (g.ph : Int)) ((c * g.sw + b : Nat) - (g.pw : Int)) ch
      * k (((a * g.kw + b) * g.src.c + ch) * nf + f)

/-- Scalar objective whose derivatives convolution backward has to return. -/
def convObjective [CommSemiring α] (g : Geom) (nf : Nat) (grad x k : Nat → α) : α :=
  ∑ r ∈ range g.rows, ∑ c ∈ range g.cols, ∑ f ∈ range nf,
    grad ((r * g.cols + c) * nf + f) * corr g nf x k r c f

/-- Index in the source of cell `(a, b)` of the pooling window at output `(r, c)`, channel
`ch`. -/
def windowCell (g : Geom) (r c a b ch : Nat) : Nat :=
  cellIdx g.src (r * g.sh + a) (c * g.sw + b) ch

end Verif.Spec
