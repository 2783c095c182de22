import Verif.Spec.Net
import Verif.Spec.Slide

/-! Specification for C110: the part of an image that a part of a feature map is computed from. -/

namespace Verif.Spec

open Verif.Net

/-- A rectangle of an image: its first row and column, its height and its width. -/
structure Window where
  row : Nat
  col : Nat
  height : Nat
  width : Nat

/-- The rectangle `p` of the image `x` and the rectangle `p'` of the image `x'`, which have the same size, lie inside
the images, of shape `s`, and show the same. -/
def SamePatch (s : Shape3) (x : List ℝ) (p : Window) (x' : List ℝ) (p' : Window) : Prop :=
  ∀ a b ch, a < p.height → b < p.width → ch < s.c →
    (p.row + a < s.h ∧ p.col + b < s.w ∧ p'.row + a < s.h ∧ p'.col + b < s.w) ∧
    vec x (cellIdx s (p.row + a) (p.col + b) ch) = vec x' (cellIdx s (p'.row + a) (p'.col + b) ch)

/-- Side by side placements of a kernel of side `k` at distances `stride` cover that many cells. -/
def covered (n k stride : Nat) : Nat := (n - 1) * stride + k

/-- The layers compute the rectangle `p` of their output from the rectangle `q` of their input: the kernels of
convolution and pooling layers start at multiples of the stride, less the padding of a convolution; activations other
than softmax work on every value for itself. -/
inductive Sees : List AnyLayer → Window → Window → Prop
  | nil (p : Window) : Sees [] p p
  | conv {l : Slide.ConvLayer ℝ} {ls : List AnyLayer} {row col : Nat} {q p : Window} :
      row + l.padding.h = q.row * l.stride.h → col + l.padding.w = q.col * l.stride.w → Sees ls q p →
      Sees (.conv l :: ls) ⟨row, col, covered q.height l.kernel.h l.stride.h, covered q.width l.kernel.w l.stride.w⟩ p
  | maxPool {l : Slide.PoolLayer ℝ} {ls : List AnyLayer} {q p : Window} : Sees ls q p →
      Sees (.maxPool l :: ls) ⟨q.row * l.stride.h, q.col * l.stride.w, covered q.height l.kernel.h l.stride.h,
        covered q.width l.kernel.w l.stride.w⟩ p
  | avgPool {l : Slide.PoolLayer ℝ} {ls : List AnyLayer} {q p : Window} : Sees ls q p →
      Sees (.avgPool l :: ls) ⟨q.row * l.stride.h, q.col * l.stride.w, covered q.height l.kernel.h l.stride.h,
        covered q.width l.kernel.w l.stride.w⟩ p
  | act {f : ActFn} {l : Act.Layer} {ls : List AnyLayer} {q p : Window} : f ≠ .softmax → Sees ls q p →
      Sees (.act f l :: ls) q p

/-- A layer makes images of shape `t` from images of shape `s`, with at least one channel. -/
def OnImages (s t : Shape3) (a : AnyLayer) : Prop :=
  0 < s.c ∧ Maps s.size t.size a ∧
  match a with
  | .conv l => l.input = s ∧ t = ⟨placements s.h l.kernel.h l.stride.h l.padding.h,
      placements s.w l.kernel.w l.stride.w l.padding.w, l.nFilters⟩
  | .maxPool l | .avgPool l => l.input = s ∧ t = ⟨placements s.h l.kernel.h l.stride.h 0,
      placements s.w l.kernel.w l.stride.w 0, s.c⟩
  | .act _ _ => t = s
  | _ => False

/-- A list of layers that makes images of shape `t` from images of shape `s`. -/
inductive AllOnImages : Shape3 → Shape3 → List AnyLayer → Prop
  | nil (s : Shape3) : AllOnImages s s []
  | cons {s k t : Shape3} {l : AnyLayer} {ls : List AnyLayer} :
      OnImages s k l → AllOnImages k t ls → AllOnImages s t (l :: ls)

/-- The rectangle moved down and to the right. -/
def Window.moved (p : Window) (down right : Nat) : Window := ⟨p.row + down, p.col + right, p.height, p.width⟩

/-- The stride of a layer: one for layers without kernels. -/
def rowStride : AnyLayer → Nat
  | .conv l => l.stride.h
  | .maxPool l | .avgPool l => l.stride.h
  | _ => 1

/-- The stride of a layer: one for layers without kernels. -/
def colStride : AnyLayer → Nat
  | .conv l => l.stride.w
  | .maxPool l | .avgPool l => l.stride.w
  | _ => 1

end Verif.Spec
