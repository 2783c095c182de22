import Verif.Model.Activation
import Verif.Model.Loss

/-
The array functions of /repo/source/dnn/dlmath.hpp on one memory: the arrays are given by their
positions in it, so that they may overlap, as pointers may.  (The other models of these functions
take the arrays as separate lists.)  An access is checked against the whole memory only, not
against the array it was meant for.  Numbers are reals.
-/

namespace Verif.Mem

noncomputable section

/-- The array overloads `for (i = 0; i < length; ++i) dst[i] = f(src[i]);` of
/repo/source/dnn/dlmath.hpp: relu 561-569, relu_1 593-601, elu 627-635, elu_1_opt 662-670,
elu_1 695-703, tanh 725-733, tanh_1_opt 757-765, tanh_1 788-796, sigmoid 818-826,
sigmoid_1_opt 850-858, sigmoid_1 881-889. -/
def map1 (f : ℝ → ℝ) (dst src n : Nat) (m : List ℝ) : Exec (List ℝ) :=
  forUp n m fun i m => do
    let x ← rd m (src + i)
    wr m (dst + i) (f x)

/-- `for (i = 0; i < length; ++i) dst[i] = f(src1[i], src2[i]);`, the body of the functions
below. -/
def map2 (f : ℝ → ℝ → ℝ) (dst src1 src2 n : Nat) (m : List ℝ) : Exec (List ℝ) :=
  forUp n m fun i m => do
    let x ← rd m (src1 + i)
    let y ← rd m (src2 + i)
    wr m (dst + i) (f x y)

/-- `DLMath::arr_mul` of two arrays, /repo/source/dnn/dlmath.hpp:427-435. -/
def arrMul (dst src1 src2 n : Nat) (m : List ℝ) : Exec (List ℝ) :=
  map2 (fun x y => x * y) dst src1 src2 n m

/-- `DLMath::arr_mul` with a number, /repo/source/dnn/dlmath.hpp:446-454. -/
def arrMulVal (dst src : Nat) (val : ℝ) (n : Nat) (m : List ℝ) : Exec (List ℝ) :=
  map1 (fun x => x * val) dst src n m

/-- `DLMath::arr_sum` of two arrays, /repo/source/dnn/dlmath.hpp:471-479. -/
def arrSum (dst src1 src2 n : Nat) (m : List ℝ) : Exec (List ℝ) :=
  map2 (fun x y => x + y) dst src1 src2 n m

/-- `DLMath::arr_sum` with a number, /repo/source/dnn/dlmath.hpp:490-498. -/
def arrSumVal (dst src : Nat) (val : ℝ) (n : Nat) (m : List ℝ) : Exec (List ℝ) :=
  map1 (fun x => x + val) dst src n m

/-- `DLMath::cross_entropy_1`, /repo/source/dnn/dlmath.hpp:1117-1126. -/
def crossEntropy1 (dst y yh : Nat) (norm : ℝ) (n : Nat) (m : List ℝ) : Exec (List ℝ) :=
  map2 (fun a b => Loss.crossEntropyS1 a b norm) dst y yh n m

/-- `DLMath::mean_squared_error_1`, /repo/source/dnn/dlmath.hpp:1189-1198. -/
def meanSquaredError1 (dst y yh : Nat) (norm : ℝ) (n : Nat) (m : List ℝ) : Exec (List ℝ) :=
  map2 (fun a b => Loss.squaredError1 a b norm) dst y yh n m

/-- `DLMath::matarr_mul_no_check`, /repo/source/dnn/dlmath.hpp:511-525. -/
def matarrMulNoCheck (dst mat src rows cols : Nat) (m : List ℝ) : Exec (List ℝ) :=
  forUp rows m fun i m => do
    let m ← wr m (dst + i) 0
    forUp cols m fun j m => do
      let d ← rd m (dst + i)
      let w ← rd m (mat + (i * cols + j))
      let x ← rd m (src + j)
      wr m (dst + i) (d + w * x)

/-- `DLMath::matarr_mul`, /repo/source/dnn/dlmath.hpp:527-537. -/
def matarrMul (dst mat src rows cols : Nat) (m : List ℝ) : Exec (List ℝ) :=
  if src = dst then .throw "arr_src, arr_dst have to be different in order to perform matarr_mul"
  else matarrMulNoCheck dst mat src rows cols m

/-- `DLMath::dense`, /repo/source/dnn/dlmath.hpp:1784-1798.  `dense_simd_opt` (1824-1850) calls it. -/
def dense (dst src weights bias n k : Nat) (m : List ℝ) : Exec (List ℝ) :=
  forUp k m fun i m => do
    let b ← rd m (bias + i)
    let m ← wr m (dst + i) b
    forUp n m fun j m => do
      let d ← rd m (dst + i)
      let w ← rd m (weights + (i * n + j))
      let x ← rd m (src + j)
      wr m (dst + i) (d + w * x)

/-- The two loops of `softmax` (905-918) and `stable_softmax_no_check` (937-951), where the
exponentials are of `src[i] - d`; in the first of them `d` is 0. -/
def softmaxLoops (dst src n : Nat) (d : ℝ) (m : List ℝ) : Exec (List ℝ) := do
  let s ← forUp n (m, (0 : ℝ)) fun i s => do
    let x ← rd s.1 (src + i)
    let m ← wr s.1 (dst + i) (Real.exp (x - d))
    let v ← rd m (dst + i)
    .ok (m, s.2 + v)
  let inv := 1 / s.2
  forUp n s.1 fun i m => do
    let v ← rd m (dst + i)
    wr m (dst + i) (v * inv)

/-- `DLMath::softmax`, /repo/source/dnn/dlmath.hpp:900-920. -/
def softmax (dst src n : Nat) (m : List ℝ) : Exec (List ℝ) := softmaxLoops dst src n 0 m

/-- `DLMath::stable_softmax_no_check`, /repo/source/dnn/dlmath.hpp:931-953. -/
def stableSoftmaxNoCheck (dst src n : Nat) (m : List ℝ) : Exec (List ℝ) := do
  let d ← Act.max (m.drop src) n
  softmaxLoops dst src n d m

/-- `DLMath::stable_softmax`, /repo/source/dnn/dlmath.hpp:955-963; `none` is a null `src`. -/
def stableSoftmax (dst : Nat) (src : Option Nat) (n : Nat) (m : List ℝ) : Exec (List ℝ) :=
  match src with
  | none => .throw "stable softmax error: src null"
  | some src => stableSoftmaxNoCheck dst src n m

/-- `DLMath::softmax_1_opt_no_check`, /repo/source/dnn/dlmath.hpp:1013-1027. -/
def softmax1OptNoCheck (dst src gradients n : Nat) (m : List ℝ) : Exec (List ℝ) :=
  forUp n m fun i m => do
    let m ← wr m (dst + i) 0
    forUp n m fun j m => do
      let d ← rd m (dst + i)
      let si ← rd m (src + i)
      let sj ← rd m (src + j)
      let g ← rd m (gradients + j)
      wr m (dst + i) (d + si * ((if i = j then 1 else 0) - sj) * g)

/-- `DLMath::softmax_1_opt`, /repo/source/dnn/dlmath.hpp:983-993. -/
def softmax1Opt (dst src gradients n : Nat) (m : List ℝ) : Exec (List ℝ) :=
  if src = dst then .throw "src, dst have to be different in order to perform softmax_1_opt"
  else softmax1OptNoCheck dst src gradients n m

/-- `DLMath::softmax_1`, /repo/source/dnn/dlmath.hpp:1044-1054.  The array `tmp` it allocates is
a list of its own (uninitialised in C++; `softmax` overwrites all of it before it is read), so the
call of `softmax_1_opt_no_check` is written out with `tmp` as its source. -/
def softmax1 (dst src gradients n : Nat) (m : List ℝ) : Exec (List ℝ) := do
  let tmp ← Act.softmax (List.replicate n 0) (m.drop src) n
  forUp n m fun i m => do
    let m ← wr m (dst + i) 0
    forUp n m fun j m => do
      let d ← rd m (dst + i)
      let si ← rd tmp i
      let sj ← rd tmp j
      let g ← rd m (gradients + j)
      wr m (dst + i) (d + si * ((if i = j then 1 else 0) - sj) * g)

end

end Verif.Mem
