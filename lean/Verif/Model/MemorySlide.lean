import Verif.Model.Memory
import Verif.Model.Slide

/-
The sliding-window functions of /repo/source/dnn/dlmath.hpp on one memory: source, kernel and
destination are given by their positions in it, so that they may overlap (see Memory.lean; the
versions on separate lists are in Slide.lean).  An access is checked against the whole memory only.
Numbers are reals.
-/

namespace Verif.Mem

open Slide

noncomputable section

/-- `DLMath::_conv4d_op`, /repo/source/dnn/dlmath.hpp:1920-1951. -/
def conv4dOp (dst src : Nat) (ss : Shape3) (k : Nat) (ks : Shape2) (nFilters : Nat)
    (_hDst wDst rowDst colDst : Nat) (row col : Int) (m : List ℝ) : Exec (List ℝ) :=
  let kSize := ks.h * ks.w * ss.c
  let kStep := ks.w * ss.c
  let srcStep := ss.w * ss.c
  forUp nFilters m fun f m => do
    let sum ← forUp kSize (0 : ℝ) fun ki sum =>
      let rowSrc : Int := row + ((ki / kStep : Nat) : Int)
      let colSrc : Int := col + ((ki % kStep : Nat) : Int)
      if colSrc < 0 ∨ rowSrc < 0 ∨ colSrc ≥ (srcStep : Int) ∨ rowSrc ≥ (ss.h : Int) then
        pure sum
      else do
        let x ← rdI m ((src : Int) + (rowSrc * (srcStep : Int) + colSrc))
        let w ← rd m (k + (ki * nFilters + f))
        pure (sum + x * w)
    wr m (dst + (rowDst * wDst * nFilters + colDst * nFilters + f)) sum

/-- `DLMath::cross_correlation`, /repo/source/dnn/dlmath.hpp:1329-1337. -/
def crossCorrelation (dst src : Nat) (ss : Shape3) (k : Nat) (ks : Shape2) (nFilters : Nat) (s p : Shape2)
    (m : List ℝ) : Exec (List ℝ) :=
  kernelSlide (conv4dOp dst src ss k ks nFilters) ss ks s p m

/-- `DLMath::_max_pool_op`, /repo/source/dnn/dlmath.hpp:1970-2001. -/
def maxPoolOp (dst src : Nat) (ss : Shape3) (ks : Shape2)
    (_hDst wDst rowDst colDst : Nat) (row col : Int) (m : List ℝ) : Exec (List ℝ) :=
  let srcStep := ss.w * ss.c
  let dstStep := wDst * ss.c
  forUp ss.c m fun c m => do
    let m0 ← rdI m ((src : Int) + (row * (srcStep : Int) + col + (c : Int)))
    let mx ← forFrom 1 (ks.h * ks.w - 1) m0 fun ki mx => do
      let rowSrc : Int := (row + ((ki / ks.w : Nat) : Int)) * (srcStep : Int)
      let colSrc : Int := col + ((ki % ks.w * ss.c : Nat) : Int) + (c : Int)
      let v ← rdI m ((src : Int) + (rowSrc + colSrc))
      pure (if mx < v then v else mx)
    wr m (dst + (rowDst * dstStep + colDst * ss.c + c)) mx

/-- `DLMath::max_pool`, /repo/source/dnn/dlmath.hpp:1358-1364. -/
def maxPool (dst src : Nat) (ss : Shape3) (ks s : Shape2) (m : List ℝ) : Exec (List ℝ) :=
  kernelSlide (maxPoolOp dst src ss ks) ss ks s ⟨0, 0⟩ m

/-- `DLMath::_avg_pool_op`, /repo/source/dnn/dlmath.hpp:2021-2049. -/
def avgPoolOp (dst src : Nat) (ss : Shape3) (ks : Shape2)
    (_hDst wDst rowDst colDst : Nat) (row col : Int) (m : List ℝ) : Exec (List ℝ) :=
  let srcStep := ss.w * ss.c
  let dstStep := wDst * ss.c
  forUp ss.c m fun c m => do
    let sum ← forUp (ks.h * ks.w) (0 : ℝ) fun ki sum => do
      let rowSrc : Int := (row + ((ki / ks.w : Nat) : Int)) * (srcStep : Int)
      let colSrc : Int := col + ((ki % ks.w * ss.c : Nat) : Int) + (c : Int)
      let v ← rdI m ((src : Int) + (rowSrc + colSrc))
      pure (sum + v)
    wr m (dst + (rowDst * dstStep + colDst * ss.c + c)) (sum / ((ks.h * ks.w : Nat) : ℝ))

/-- `DLMath::avg_pool`, /repo/source/dnn/dlmath.hpp:1386-1392. -/
def avgPool (dst src : Nat) (ss : Shape3) (ks s : Shape2) (m : List ℝ) : Exec (List ℝ) :=
  kernelSlide (avgPoolOp dst src ss ks) ss ks s ⟨0, 0⟩ m

end

end Verif.Mem
