import Verif.Model.Memory
import Verif.Model.Concat

/-
Concatenation and separation of cubes and the backward pass of dense layers
(/repo/source/dnn/dlmath.hpp) on one memory: sources and destinations are given by their positions
in it, so that they may overlap (see Memory.lean; the versions on separate lists are in Concat.lean
and Dense.lean).  An access is checked against the whole memory only.  Numbers are reals.
-/

namespace Verif.Mem

noncomputable section

/-- `DLMath::append`, /repo/source/dnn/dlmath.hpp:1470-1503. -/
def append (dst : Nat) (dstShape : List Nat) (src srcShapeAxis axis dstAxisOffset : Nat) (m : List ℝ) :
    Exec (List ℝ) := do
  let (iter, tmp) ← Concat.offsets dstShape axis
  let d ← rd dstShape axis
  let dstOffset := tmp * d
  let srcOffset := tmp * srcShapeAxis
  let offset := tmp * dstAxisOffset
  forUp iter m fun i m =>
    forUp srcOffset m fun srcIdx m => do
      let v ← rd m (src + (i * srcOffset + srcIdx))
      wr m (dst + (i * dstOffset + offset + srcIdx)) v

/-- `DLMath::extract`, /repo/source/dnn/dlmath.hpp:1519-1552. -/
def extract (dst : Nat) (dstShape : List Nat) (src srcShapeAxis axis srcAxisOffset : Nat) (m : List ℝ) :
    Exec (List ℝ) := do
  let (iter, tmp) ← Concat.offsets dstShape axis
  let d ← rd dstShape axis
  let dstOffset := tmp * d
  let srcOffset := tmp * srcShapeAxis
  let offset := tmp * srcAxisOffset
  forUp iter m fun i m =>
    forUp dstOffset m fun dstIdx m => do
      let v ← rd m (src + (i * srcOffset + offset + dstIdx))
      wr m (dst + (i * dstOffset + dstIdx)) v

/-- `DLMath::concatenate` of two cubes, /repo/source/dnn/dlmath.hpp:1622-1644. -/
def concatenate2 (dst src1 : Nat) (s1 : Shape3) (src2 : Nat) (s2 : Shape3) (axis : Nat) (m : List ℝ) :
    Exec (List ℝ) := do
  if axis ≥ 3 then .throw "concatenate error: axis param overload."
  else
    Concat.checkShapes "concatenate error: shape invalid." s1 s2 axis
    let dstShape := s1.set axis (s1.get axis + s2.get axis)
    let m ← append dst dstShape.dims src1 (s1.get axis) axis 0 m
    append dst dstShape.dims src2 (s2.get axis) axis (s1.get axis) m

/-- `DLMath::separate` into two cubes, /repo/source/dnn/dlmath.hpp:1657-1679. -/
def separate2 (dst1 : Nat) (s1 : Shape3) (dst2 : Nat) (s2 : Shape3) (src axis : Nat) (m : List ℝ) :
    Exec (List ℝ) := do
  if axis ≥ 3 then .throw "separate error: axis param overload."
  else
    Concat.checkShapes "separate error: shape invalid." s1 s2 axis
    let srcAxis := s1.get axis + s2.get axis
    let m ← extract dst1 s1.dims src srcAxis axis 0 m
    extract dst2 s2.dims src srcAxis axis (s1.get axis) m

/-- `DLMath::concatenate` of N cubes, /repo/source/dnn/dlmath.hpp:1690-1730. -/
def concatenateN (dst src : Nat) (shapes : List Shape3) (axis : Nat) (m : List ℝ) : Exec (List ℝ) := do
  if axis ≥ 3 then .throw "separate error: axis param overload."
  else
    Concat.checkAllShapes "separate layer error: shapes invalid." shapes axis
    let s0 ← rd shapes 0
    let dstShape ← forFrom 1 (shapes.length - 1) s0 fun i d => do
      let s ← rd shapes i
      pure (d.set axis (d.get axis + s.get axis))
    let (m, _, _) ← forUp shapes.length (m, 0, 0) fun i (st : List ℝ × Nat × Nat) => do
      let s ← rd shapes i
      let m ← append dst dstShape.dims (src + st.2.2) (s.get axis) axis st.2.1 st.1
      pure (m, st.2.1 + s.get axis, st.2.2 + s.size)
    pure m

/-- `DLMath::separate` into N cubes, /repo/source/dnn/dlmath.hpp:1742-1782. -/
def separateN (dst : Nat) (shapes : List Shape3) (src axis : Nat) (m : List ℝ) : Exec (List ℝ) := do
  if axis ≥ 3 then .throw "separate error: axis param overload."
  else
    Concat.checkAllShapes "separate layer error: shapes invalid." shapes axis
    let srcAxis ← forUp shapes.length 0 fun i t => do
      let s ← rd shapes i
      pure (t + s.get axis)
    let (m, _, _) ← forUp shapes.length (m, 0, 0) fun i (st : List ℝ × Nat × Nat) => do
      let s ← rd shapes i
      let m ← extract (dst + st.2.2) s.dims src srcAxis axis st.2.1 st.1
      pure (m, st.2.1 + s.get axis, st.2.2 + s.size)
    pure m

/-- `DLMath::dense_1`, /repo/source/dnn/dlmath.hpp:1852-1871: input, weight and bias gradients at
`ig`, `wg` and `bg`, gradients at `gr`, the last input at `x` and the weights at `w`. -/
def dense1 (ig wg bg gr x w n k : Nat) (m : List ℝ) : Exec (List ℝ) := do
  let m ← forUp n m fun j m => wr m (ig + j) 0
  forUp k m fun i m => do
    let b ← rd m (bg + i)
    let g ← rd m (gr + i)
    let m ← wr m (bg + i) (b + g)
    forUp n m fun j m => do
      let d ← rd m (wg + (i * n + j))
      let g ← rd m (gr + i)
      let v ← rd m (x + j)
      let m ← wr m (wg + (i * n + j)) (d + g * v)
      let d ← rd m (ig + j)
      let g ← rd m (gr + i)
      let u ← rd m (w + (i * n + j))
      wr m (ig + j) (d + g * u)

end

end Verif.Mem
