import Verif.Model.Float
import Verif.Spec.Slide
import Verif.Spec.Dense
import Mathlib.Algebra.BigOperators.Group.Finset.Basic

/-
Error bounds for sums computed in floating point, and the magnitudes they refer to.
-/

namespace Verif.Spec
open Verif.Float Finset

/-- A bound for the error of a sum of `n` products and a start value, each operation rounded, if the absolute
values of the start value and of the products add up to `M`: a relative part, growing with the number of
operations, and a part for underflow. -/
noncomputable def sumErr (A : Arith) (n : Nat) (M : ℝ) : ℝ :=
  ((1 + A.u) ^ (n + 1) - 1) * M + 2 * n * (1 + A.u) ^ n * A.e

/-- A bound for the error of the average of `n` numbers whose absolute values add up to `M`. -/
noncomputable def avgErr (A : Arith) (n : Nat) (M : ℝ) : ℝ :=
  ((1 + A.u) ^ (n + 2) - 1) * (M / n) + (2 * (1 + A.u) ^ (n + 1) + 1) * A.e

/-- A bound for the error of one operation with the exact result `x` on exact operands. -/
noncomputable def opErr (A : Arith) (x : ℝ) : ℝ := A.u * |x| + A.e

/-- The finite numbers of a buffer. -/
def fins (A : Arith) (l : List ℝ) : List (Fl A) := l.map .fin

/-- Output `i` of a dense layer. -/
def denseOut (w b x : List ℝ) (n i : Nat) : ℝ := vec b i + ∑ j ∈ range n, mat w n i j * vec x j

/-- The sum of the absolute values of what output `i` of a dense layer adds up. -/
def denseMag (w b x : List ℝ) (n i : Nat) : ℝ := |vec b i| + ∑ j ∈ range n, |mat w n i j * vec x j|

/-- The sum of the absolute values of what an output of a convolution adds up. -/
def corrMag (g : Geom) (nf : Nat) (x k : Nat → ℝ) (r c f : Nat) : ℝ :=
  ∑ a ∈ range g.kh, ∑ b ∈ range g.kw, ∑ ch ∈ range g.src.c,
    |padded x g.src ((r * g.sh + a : Nat) - (g.ph : Int)) ((c * g.sw + b : Nat) - (g.pw : Int)) ch
      * k (((a * g.kw + b) * g.src.c + ch) * nf + f)|

/-- The stage accepts vectors of length `n` and returns vectors of length `m`: the buffers have the sizes the
layers allocate, the window of a pooling or convolution fits. -/
def StageFits : Stage → Nat → Nat → Prop
  | .dense n m w b => fun i o => i = n ∧ o = m ∧ w.length = m * n ∧ b.length = m
  | .conv s k nf st pd size w => fun i o => ∃ g : Geom, g.Fits ∧ s = g.src ∧ k = ⟨g.kh, g.kw⟩ ∧
      st = ⟨g.sh, g.sw⟩ ∧ pd = ⟨g.ph, g.pw⟩ ∧ i = s.h * s.w * s.c ∧ o = size ∧
      size = g.rows * g.cols * nf ∧ w.length = k.h * k.w * s.c * nf
  | .maxPool s k st size => fun i o => ∃ g : Geom, g.Fits ∧ g.Pool ∧ s = g.src ∧ k = ⟨g.kh, g.kw⟩ ∧
      st = ⟨g.sh, g.sw⟩ ∧ i = s.h * s.w * s.c ∧ o = size ∧ size = g.rows * g.cols * s.c
  | .avgPool s k st size => fun i o => ∃ g : Geom, g.Fits ∧ g.Pool ∧ s = g.src ∧ k = ⟨g.kh, g.kw⟩ ∧
      st = ⟨g.sh, g.sw⟩ ∧ i = s.h * s.w * s.c ∧ o = size ∧ size = g.rows * g.cols * s.c
  | .relu n => fun i o => i = n ∧ o = n
  | .elu _ n => fun i o => i = n ∧ o = n
  | .tanh n => fun i o => i = n ∧ o = n
  | .sigmoid n => fun i o => i = n ∧ o = n
  | .softmax n => fun i o => i = n ∧ o = n ∧ 0 < n
  | .linear => fun i o => i = o

/-- The stages fit together, from vectors of length `n` to vectors of length `m`. -/
def ChainFits : List Stage → Nat → Nat → Prop
  | [], i, o => i = o
  | s :: ss, i, o => ∃ k, StageFits s i k ∧ ChainFits ss k o

/-- A format and a library with all errors at most `δ` and no overflow below `1 / δ`. -/
structure Precise (A : Arith) (L : Lib A) (δ : ℝ) : Prop where
  u : A.u ≤ δ
  e : A.e ≤ δ
  v : L.v ≤ δ
  big : 1 / δ ≤ A.big

end Verif.Spec
