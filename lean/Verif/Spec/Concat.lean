import Verif.Model.Concat

/-
Specification of joining cubes: what a reader expects, in terms of coordinates.
`Shape3` (the triple height, width, channels) is the only thing taken from the model.
-/

namespace Verif.Spec

/-- Position of the cell in row `i`, column `j`, channel `k` of a cube stored row by
row, channels innermost. -/
def cellIdx (s : Shape3) (i j k : Nat) : Nat := (i * s.w + j) * s.c + k

/-- The coordinate lies in the cube. -/
def InCube (s : Shape3) (i j k : Nat) : Prop := i < s.h ∧ j < s.w ∧ k < s.c

/-- The dimension of a cube along axis 0 (height), 1 (width), 2 (channels). -/
def dim (s : Shape3) (axis : Nat) : Nat :=
  if axis = 0 then s.h else if axis = 1 then s.w else s.c

/-- The two cubes can be joined along `axis`: the axis exists and the cubes agree on the
other two dimensions. -/
def Joinable (s1 s2 : Shape3) (axis : Nat) : Prop :=
  axis < 3 ∧ (axis ≠ 0 → s1.h = s2.h) ∧ (axis ≠ 1 → s1.w = s2.w) ∧ (axis ≠ 2 → s1.c = s2.c)

instance (s1 s2 : Shape3) (axis : Nat) : Decidable (Joinable s1 s2 axis) := by
  unfold Joinable; infer_instance

/-- Shape of the joined cube. -/
def joined (s1 s2 : Shape3) (axis : Nat) : Shape3 :=
  { h := if axis = 0 then s1.h + s2.h else s1.h
    w := if axis = 1 then s1.w + s2.w else s1.w
    c := if axis = 2 then s1.c + s2.c else s1.c }

/-- What cell (i,j,k) of the joined cube has to hold: the cell of the first cube with
the same coordinates if the axis coordinate is inside the first cube, otherwise the cell
of the second cube whose axis coordinate is reduced by the extent of the first. -/
def joinedCell {α : Type _} (src1 : List α) (s1 : Shape3) (src2 : List α) (s2 : Shape3)
    (axis i j k : Nat) : Option α :=
  if axis = 0 then
    if i < s1.h then src1[cellIdx s1 i j k]? else src2[cellIdx s2 (i - s1.h) j k]?
  else if axis = 1 then
    if j < s1.w then src1[cellIdx s1 i j k]? else src2[cellIdx s2 i (j - s1.w) k]?
  else
    if k < s1.c then src1[cellIdx s1 i j k]? else src2[cellIdx s2 i j (k - s1.c)]?

/-- Any two cubes of the list can be joined along `axis`. -/
def AllJoinable (shapes : List Shape3) (axis : Nat) : Prop :=
  axis < 3 ∧ ∀ s ∈ shapes, ∀ t ∈ shapes, Joinable s t axis

/-- Total extent of the cubes along `axis`. -/
def extent (shapes : List Shape3) (axis : Nat) : Nat := (shapes.map (dim · axis)).sum

/-- Total number of elements of the cubes. -/
def volume (shapes : List Shape3) : Nat := (shapes.map fun s => s.h * s.w * s.c).sum

/-- Shape with the extent along `axis` replaced. -/
def withDim (s : Shape3) (axis v : Nat) : Shape3 :=
  { h := if axis = 0 then v else s.h
    w := if axis = 1 then v else s.w
    c := if axis = 2 then v else s.c }

/-- Row-major position, in a cube of shape `s`, of the cell (i,j,k) moved by `o` along
`axis`. -/
def shiftedIdx (s : Shape3) (axis o i j k : Nat) : Nat :=
  cellIdx s (if axis = 0 then o + i else i) (if axis = 1 then o + j else j)
    (if axis = 2 then o + k else k)

end Verif.Spec
