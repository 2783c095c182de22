import Verif.Exec

/-
Model of the cube concatenation / separation primitives of
/repo/source/dnn/dlmath.hpp.

Simplifications: `SizeType` is `Nat` (no wrap-around of products of dimensions); the
buffers `dst` and `src` are separate lists (the C++ callers never pass overlapping
buffers); a pointer `src + src_offset` is a base index into the list.
-/

namespace Verif

/-- `DLMath::Shape3d`, /repo/source/dnn/dlmath.hpp:131-164 (height, width, channels,
indexed 0, 1, 2). -/
structure Shape3 where
  h : Nat
  w : Nat
  c : Nat
  deriving Repr, DecidableEq

namespace Shape3

/-- The shape as the vector of its dimensions (conversion operator of
`DLMath::Shape`), /repo/source/dnn/dlmath.hpp:96. -/
def dims (s : Shape3) : List Nat := [s.h, s.w, s.c]

/-- `Shape::size()`: product of the dimensions, /repo/source/dnn/dlmath.hpp:89-94. -/
def size (s : Shape3) : Nat := s.h * s.w * s.c

/-- `Shape::operator[]`, /repo/source/dnn/dlmath.hpp:98.  Out of range is `none`. -/
def get? (s : Shape3) (axis : Nat) : Option Nat := s.dims[axis]?

/-- `shape[axis]` where the caller has already checked `axis < 3`. -/
def get (s : Shape3) (axis : Nat) : Nat :=
  match axis with
  | 0 => s.h
  | 1 => s.w
  | _ => s.c

/-- `shape[axis] = v` (caller has checked `axis < 3`). -/
def set (s : Shape3) (axis : Nat) (v : Nat) : Shape3 :=
  match axis with
  | 0 => { s with h := v }
  | 1 => { s with w := v }
  | _ => { s with c := v }

end Shape3

namespace Concat

variable {α : Type _}

/-- The loop computing `iteration_amount` and `tmp_offset`,
/repo/source/dnn/dlmath.hpp:1474-1487 (and 1523-1536). -/
def offsets (shape : List Nat) (axis : Nat) : Exec (Nat × Nat) :=
  forUp shape.length (1, 1) fun i s => do
    let d ← rd shape i
    if i < axis then pure (s.1 * d, s.2)
    else if i > axis then pure (s.1, s.2 * d)
    else pure s

/-- `DLMath::append`, /repo/source/dnn/dlmath.hpp:1470-1503. -/
def append (dst : List α) (dstShape : List Nat) (src : List α) (srcBase : Nat)
    (srcShapeAxis axis dstAxisOffset : Nat) : Exec (List α) := do
  let (iter, tmp) ← offsets dstShape axis
  let d ← rd dstShape axis
  let dstOffset := tmp * d
  let srcOffset := tmp * srcShapeAxis
  let offset := tmp * dstAxisOffset
  forUp iter dst fun i dst =>
    forUp srcOffset dst fun srcIdx dst => do
      let v ← rd src (srcBase + (i * srcOffset + srcIdx))
      wr dst (i * dstOffset + offset + srcIdx) v

/-- `DLMath::extract`, /repo/source/dnn/dlmath.hpp:1519-1552. -/
def extract (dst : List α) (dstBase : Nat) (dstShape : List Nat) (src : List α)
    (srcShapeAxis axis srcAxisOffset : Nat) : Exec (List α) := do
  let (iter, tmp) ← offsets dstShape axis
  let d ← rd dstShape axis
  let dstOffset := tmp * d
  let srcOffset := tmp * srcShapeAxis
  let offset := tmp * srcAxisOffset
  forUp iter dst fun i dst =>
    forUp dstOffset dst fun dstIdx dst => do
      let v ← rd src (i * srcOffset + offset + dstIdx)
      wr dst (dstBase + (i * dstOffset + dstIdx)) v

/-- `DLMath::append_check`, /repo/source/dnn/dlmath.hpp:1569-1580. -/
def appendCheck (dst : List α) (dstShape : List Nat) (src : List α)
    (srcShapeAxis axis dstAxisOffset : Nat) : Exec (List α) :=
  if axis ≥ dstShape.length then .throw "concatenate error: axis param overload."
  else append dst dstShape src 0 srcShapeAxis axis dstAxisOffset

/-- `DLMath::extract_check`, /repo/source/dnn/dlmath.hpp:1597-1608. -/
def extractCheck (dst : List α) (dstShape : List Nat) (src : List α)
    (srcShapeAxis axis srcAxisOffset : Nat) : Exec (List α) :=
  if axis ≥ dstShape.length then .throw "extract error: axis param overload."
  else extract dst 0 dstShape src srcShapeAxis axis srcAxisOffset

/-- The check loop over the three dimensions in `concatenate`/`separate`,
/repo/source/dnn/dlmath.hpp:1632-1638 (and 1667-1673, 1699-1710, 1751-1762). -/
def checkShapes (msg : String) (s1 s2 : Shape3) (axis : Nat) : Exec Unit :=
  forUp 3 () fun i _ =>
    if i ≠ axis ∧ s1.get i ≠ s2.get i then .throw msg else .ok ()

/-- `DLMath::concatenate` of two cubes, /repo/source/dnn/dlmath.hpp:1622-1644. -/
def concatenate2 (dst src1 : List α) (s1 : Shape3) (src2 : List α) (s2 : Shape3)
    (axis : Nat) : Exec (List α) := do
  if axis ≥ 3 then .throw "concatenate error: axis param overload."
  else
    checkShapes "concatenate error: shape invalid." s1 s2 axis
    let dstShape := s1.set axis (s1.get axis + s2.get axis)
    let dst ← append dst dstShape.dims src1 0 (s1.get axis) axis 0
    append dst dstShape.dims src2 0 (s2.get axis) axis (s1.get axis)

/-- `DLMath::separate` into two cubes, /repo/source/dnn/dlmath.hpp:1657-1679. -/
def separate2 (dst1 : List α) (s1 : Shape3) (dst2 : List α) (s2 : Shape3)
    (src : List α) (axis : Nat) : Exec (List α × List α) := do
  if axis ≥ 3 then .throw "separate error: axis param overload."
  else
    checkShapes "separate error: shape invalid." s1 s2 axis
    let srcAxis := s1.get axis + s2.get axis
    let dst1 ← extract dst1 0 s1.dims src srcAxis axis 0
    let dst2 ← extract dst2 0 s2.dims src srcAxis axis (s1.get axis)
    pure (dst1, dst2)

/-- The nested check loops over adjacent shapes of the N-cube overloads,
/repo/source/dnn/dlmath.hpp:1699-1710 and 1751-1762. -/
def checkAllShapes (msg : String) (shapes : List Shape3) (axis : Nat) : Exec Unit :=
  forFrom 1 (shapes.length - 1) () fun idx _ => do
    let a ← rd shapes (idx - 1)
    let b ← rd shapes idx
    checkShapes msg a b axis

/-- `DLMath::concatenate` of N cubes, /repo/source/dnn/dlmath.hpp:1690-1730.
`src_shapes[0]` of an empty vector is undefined behaviour. -/
def concatenateN (dst src : List α) (shapes : List Shape3) (axis : Nat) :
    Exec (List α) := do
  if axis ≥ 3 then .throw "separate error: axis param overload."
  else
    checkAllShapes "separate layer error: shapes invalid." shapes axis
    let s0 ← rd shapes 0
    let dstShape ← forFrom 1 (shapes.length - 1) s0 fun i d => do
      let s ← rd shapes i
      pure (d.set axis (d.get axis + s.get axis))
    let (dst, _, _) ← forUp shapes.length (dst, 0, 0) fun i (st : List α × Nat × Nat) => do
      let s ← rd shapes i
      let dst ← append st.1 dstShape.dims src st.2.2 (s.get axis) axis st.2.1
      pure (dst, st.2.1 + s.get axis, st.2.2 + s.size)
    pure dst

/-- `DLMath::separate` into N cubes, /repo/source/dnn/dlmath.hpp:1742-1782. -/
def separateN (dst : List α) (shapes : List Shape3) (src : List α) (axis : Nat) :
    Exec (List α) := do
  if axis ≥ 3 then .throw "separate error: axis param overload."
  else
    checkAllShapes "separate layer error: shapes invalid." shapes axis
    let srcAxis ← forUp shapes.length 0 fun i t => do
      let s ← rd shapes i
      pure (t + s.get axis)
    let (dst, _, _) ← forUp shapes.length (dst, 0, 0) fun i (st : List α × Nat × Nat) => do
      let s ← rd shapes i
      let dst ← extract st.1 st.2.2 s.dims src srcAxis axis st.2.1
      pure (dst, st.2.1 + s.get axis, st.2.2 + s.size)
    pure dst

end Concat
end Verif
