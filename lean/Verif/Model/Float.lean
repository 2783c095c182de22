import Verif.Exec
import Verif.Model.Activation
import Verif.Model.Loss
import Verif.Model.Dense
import Verif.Model.Slide
import Mathlib.Algebra.Order.Floor.Ring
import Mathlib.Data.Int.Log
import Mathlib.Data.Real.Archimedean
import Mathlib.Tactic.NormNum

/-
Model of the number type of the library, `using NumType = double;` (/repo/source/type.hpp:40), and of
the functions of /repo/source/dnn/dlmath.hpp that call `std::exp` or compare and divide, on that type.

The kernels of `Verif.Model.Dense`, `Verif.Model.Slide` and `Verif.Model.Optimizer` are polymorphic in
the number type and perform the operations in the order of the C++ code, so they run on this type too.

Simplifications: every `+ - * /` is one correctly rounded operation (no fused multiply-add, no excess
precision, no flush to zero, default rounding mode); zero has no sign, so a division by zero, whose
result is an infinity of unknown sign or NaN, yields `nan`; NaN has no payload.
-/

namespace Verif.Float

noncomputable section

/-- A floating-point format: how an exact result is rounded to the format with unlimited exponents, the
relative error `u` and the absolute error `e` (underflow) of that rounding, and the bound `big` which
finite numbers do not reach.  /repo/source/type.hpp:40. -/
structure Arith where
  rnd : ℝ → ℝ
  u : ℝ
  e : ℝ
  big : ℝ
  u_nonneg : 0 ≤ u
  e_nonneg : 0 ≤ e
  err : ∀ x, |rnd x - x| ≤ u * |x| + e
  mono : ∀ x y, x ≤ y → rnd x ≤ rnd y
  neg : ∀ x, rnd (-x) = -rnd x
  one : rnd 1 = 1
  one_lt_big : 1 < big

/-- A number of the format `A`: finite, infinite (with its sign) or not a number.
/repo/source/type.hpp:40. -/
inductive Fl (A : Arith) where
  | fin (x : ℝ)
  | inf (neg : Bool)
  | nan

namespace Fl

variable {A : Arith}

/-- The number an operation with the exact result `x` returns: the rounded value, or an infinity if the
rounded value is too large.  /repo/source/type.hpp:40. -/
def round (A : Arith) (x : ℝ) : Fl A :=
  if |A.rnd x| < A.big then .fin (A.rnd x) else .inf (decide (x < 0))

/-- The literals `0`, `T{0}`. -/
instance : Zero (Fl A) := ⟨.fin 0⟩

/-- The literals `1`, `T{1}`. -/
instance : One (Fl A) := ⟨.fin 1⟩

/-- `a + b` on `double`. -/
def add : Fl A → Fl A → Fl A
  | .fin a, .fin b => round A (a + b)
  | .inf s, .inf t => if s = t then .inf s else .nan
  | .inf s, .fin _ => .inf s
  | .fin _, .inf t => .inf t
  | _, _ => .nan

/-- `-a` on `double`. -/
def neg : Fl A → Fl A
  | .fin a => .fin (-a)
  | .inf s => .inf (!s)
  | .nan => .nan

/-- `a * b` on `double`. -/
def mul : Fl A → Fl A → Fl A
  | .fin a, .fin b => round A (a * b)
  | .inf s, .inf t => .inf (s != t)
  | .inf s, .fin b => if b = 0 then .nan else .inf (s != decide (b < 0))
  | .fin a, .inf t => if a = 0 then .nan else .inf (decide (a < 0) != t)
  | _, _ => .nan

/-- `a / b` on `double`; `nan` for a zero divisor, see the head of this file. -/
def div : Fl A → Fl A → Fl A
  | .fin a, .fin b => if b = 0 then .nan else round A (a / b)
  | .fin _, .inf _ => .fin 0
  | .inf s, .fin b => if b = 0 then .nan else .inf (s != decide (b < 0))
  | _, _ => .nan

/-- `a < b` on `double`: false if one of them is NaN. -/
def lt : Fl A → Fl A → Prop
  | .fin a, .fin b => a < b
  | .inf s, .fin _ => s = true
  | .fin _, .inf t => t = false
  | .inf s, .inf t => s = true ∧ t = false
  | _, _ => False

instance : Add (Fl A) := ⟨add⟩
instance : Neg (Fl A) := ⟨neg⟩
instance : Sub (Fl A) := ⟨fun a b => add a (neg b)⟩
instance : Mul (Fl A) := ⟨mul⟩
instance : Div (Fl A) := ⟨div⟩
instance : LT (Fl A) := ⟨lt⟩
instance : DecidableLT (Fl A) := fun _ _ => Classical.propDecidable _
/-- The conversion of a size to `double`. -/
instance : NatCast (Fl A) := ⟨fun n => round A n⟩

end Fl

/-! ### The format `double` -/

/-- Nearest integer, ties to even: the default rounding of IEEE 754 at scale one.
/repo/source/type.hpp:40. -/
def nearest (q : ℝ) : ℤ :=
  if q - ⌊q⌋ < 1 / 2 then ⌊q⌋
  else if 1 / 2 < q - ⌊q⌋ then ⌊q⌋ + 1
  else if Even ⌊q⌋ then ⌊q⌋ else ⌊q⌋ + 1

/-- A binary format: `prec` significant bits, the exponent of the smallest last place, and the exponent of
the power of two which finite numbers do not reach. -/
structure Bin where
  prec : ℕ
  low : ℤ
  high : ℕ
  prec_pos : 1 ≤ prec
  low_le : low ≤ 0
  high_pos : 1 ≤ high

/-- The format of `double`.  /repo/source/type.hpp:40. -/
def binary64 : Bin := ⟨53, -1074, 1024, by norm_num, by norm_num, by norm_num⟩

/-- Exponent of the last place of a number of the magnitude of `x`.  /repo/source/type.hpp:40. -/
def Bin.place (B : Bin) (x : ℝ) : ℤ := max (Int.log 2 |x| + 1 - B.prec) B.low

/-- Rounding to the nearest number of the format, as if the exponent had no upper limit.
/repo/source/type.hpp:40. -/
def Bin.round (B : Bin) (x : ℝ) : ℝ := nearest (x / 2 ^ B.place x) * 2 ^ B.place x

/-! ### Functions of dlmath.hpp on floating-point numbers -/

/-- The C library's `exp`, `tanh` and `log` on finite numbers, before overflow is taken into account, with the
relative accuracy `v` it provides.  A logarithm of zero or of a negative number is not covered.
/repo/source/dnn/dlmath.hpp:614, 714, 807, 907, 940, 1067. -/
structure Lib (A : Arith) where
  exp : ℝ → ℝ
  tanh : ℝ → ℝ
  log : ℝ → ℝ
  v : ℝ
  v_nonneg : 0 ≤ v
  exp_err : ∀ x, |exp x - Real.exp x| ≤ v * Real.exp x + A.e
  exp_nonneg : ∀ x, 0 ≤ exp x
  exp_le_one : ∀ x, x ≤ 0 → exp x ≤ 1
  exp_zero : exp 0 = 1
  tanh_err : ∀ x, |tanh x - Real.tanh x| ≤ v * |Real.tanh x| + A.e
  tanh_range : ∀ x, |tanh x| ≤ 1
  log_err : ∀ x, 0 < x → |log x - Real.log x| ≤ v * |Real.log x| + A.e

variable {A : Arith}

/-- `std::exp` on `double`, /repo/source/dnn/dlmath.hpp:614, 807, 907, 940. -/
def Lib.expF (L : Lib A) : Fl A → Fl A
  | .fin x => if |L.exp x| < A.big then .fin (L.exp x) else .inf false
  | .inf true => .fin 0
  | .inf false => .inf false
  | .nan => .nan

/-- `std::tanh` on `double`, /repo/source/dnn/dlmath.hpp:714. -/
def Lib.tanhF (L : Lib A) : Fl A → Fl A
  | .fin x => .fin (L.tanh x)
  | .inf s => .fin (if s then -1 else 1)
  | .nan => .nan

/-- `DLMath::relu`, /repo/source/dnn/dlmath.hpp:546-550. -/
def reluF (x : Fl A) : Fl A := if x < 0 then 0 else x

/-- `DLMath::elu`, /repo/source/dnn/dlmath.hpp:611-615. -/
def eluF (L : Lib A) (alpha x : Fl A) : Fl A := if 0 < x then x else alpha * (L.expF x - 1)

/-- `DLMath::sigmoid`, /repo/source/dnn/dlmath.hpp:804-808. -/
def sigmoidF (L : Lib A) (x : Fl A) : Fl A := 1 / (1 + L.expF (-x))

/-- The array overloads, see `Verif.Act.mapArr`: /repo/source/dnn/dlmath.hpp:561-569, 627-635, 725-733,
818-826. -/
def mapArrF (f : Fl A → Fl A) (dst src : List (Fl A)) (length : Nat) : Exec (List (Fl A)) :=
  forUp length dst fun i dst => do
    let x ← rd src i
    wr dst i (f x)

/-- `DLMath::softmax`, /repo/source/dnn/dlmath.hpp:900-920. -/
def softmaxF (L : Lib A) (dst src : List (Fl A)) (length : Nat) : Exec (List (Fl A)) := do
  let s ← forUp length (dst, (0 : Fl A)) fun i s => do
    let x ← rd src i
    let dst ← wr s.1 i (L.expF x)
    let v ← rd dst i
    pure (dst, s.2 + v)
  let inv := 1 / s.2
  forUp length s.1 fun i dst => do
    let v ← rd dst i
    wr dst i (v * inv)

/-- `DLMath::stable_softmax_no_check`, /repo/source/dnn/dlmath.hpp:931-953. -/
def stableSoftmaxF (L : Lib A) (dst src : List (Fl A)) (length : Nat) : Exec (List (Fl A)) := do
  let d ← Act.max src length
  let s ← forUp length (dst, (0 : Fl A)) fun i s => do
    let x ← rd src i
    let dst ← wr s.1 i (L.expF (x - d))
    let v ← rd dst i
    pure (dst, s.2 + v)
  let inv := 1 / s.2
  forUp length s.1 fun i dst => do
    let v ← rd dst i
    wr dst i (v * inv)

/-- `std::log` on `double`, /repo/source/dnn/dlmath.hpp:1067.  Simplified: NaN at zero, where C returns
`-inf`; the library takes no logarithm below `epsilon`. -/
def Lib.logF (L : Lib A) : Fl A → Fl A
  | .fin x => if 0 < x then (if |L.log x| < A.big then .fin (L.log x) else .inf (decide (x < 1))) else .nan
  | .inf true => .nan
  | .inf false => .inf false
  | .nan => .nan

/-- `std::max(a, b)`, used in /repo/source/dnn/dlmath.hpp:1067, 1103. -/
def stdMaxF (a b : Fl A) : Fl A := if a < b then b else a

/-- `DLMath::cross_entropy` of two numbers, /repo/source/dnn/dlmath.hpp:1064-1069. -/
def crossEntropySF (L : Lib A) (y yh : Fl A) : Fl A := -y * L.logF (stdMaxF yh (.fin Loss.epsilon))

/-- `DLMath::cross_entropy` of two arrays, /repo/source/dnn/dlmath.hpp:1080-1089. -/
def crossEntropyF (L : Lib A) (y yh : List (Fl A)) (length : Nat) : Exec (Fl A) :=
  forUp length 0 fun i ret => do
    let a ← rd y i
    let b ← rd yh i
    pure (ret + crossEntropySF L a b)

/-- `DLMath::cross_entropy_1` of two numbers, /repo/source/dnn/dlmath.hpp:1100-1104. -/
def crossEntropyS1F (y yh norm : Fl A) : Fl A := norm * (-y / stdMaxF yh (.fin Loss.numMin))

/-- `DLMath::cross_entropy_1` of two arrays, /repo/source/dnn/dlmath.hpp:1117-1126. -/
def crossEntropy1F (dst y yh : List (Fl A)) (norm : Fl A) (length : Nat) : Exec (List (Fl A)) :=
  forUp length dst fun i dst => do
    let a ← rd y i
    let b ← rd yh i
    wr dst i (crossEntropyS1F a b norm)

/-- `DLMath::softmax_1_opt_no_check`, /repo/source/dnn/dlmath.hpp:1013-1027. -/
def softmax1OptF (dst src gradients : List (Fl A)) (length : Nat) : Exec (List (Fl A)) :=
  forUp length dst fun i dst => do
    let dst ← wr dst i 0
    forUp length dst fun j dst => do
      let si ← rd src i
      let sj ← rd src j
      let g ← rd gradients j
      let d ← rd dst i
      wr dst i (d + si * ((if i = j then 1 else 0) - sj) * g)

/-- `DLMath::softmax_1`, /repo/source/dnn/dlmath.hpp:1044-1054. -/
def softmax1F (L : Lib A) (dst src gradients : List (Fl A)) (length : Nat) : Exec (List (Fl A)) := do
  let tmp ← softmaxF L (List.replicate length 0) src length
  softmax1OptF dst tmp gradients length

/-! ### A chain of layers -/

/-- A layer with its parameters: dense with `m` outputs of `n` inputs, convolution, pooling, and the
activations of a vector of length `n`. -/
inductive Stage where
  | dense (n m : Nat) (w b : List ℝ)
  | conv (src : Shape3) (kernel : Shape2) (nf : Nat) (stride padding : Shape2) (outSize : Nat) (k : List ℝ)
  | maxPool (src : Shape3) (kernel stride : Shape2) (outSize : Nat)
  | avgPool (src : Shape3) (kernel stride : Shape2) (outSize : Nat)
  | relu (n : Nat)
  | elu (alpha : ℝ) (n : Nat)
  | tanh (n : Nat)
  | sigmoid (n : Nat)
  | softmax (n : Nat)
  | linear

/-- The `forward` of a layer in exact arithmetic: the kernels which dense.cpp:83-100, convolutional.cpp:97-110,
max_pooling.cpp:40-48, avg_pooling.cpp:41-49 and activation.cpp:64-71, 103-110, 142-149, 175-182, 206-213,
237-242 in /repo/source/dnn call, on an output buffer of zeros. -/
def Stage.run : Stage → List ℝ → Exec (List ℝ)
  | .dense n m w b => fun x => Dense.dense (List.replicate m 0) x w b n m
  | .conv s k nf st pd o w => fun x => Slide.crossCorrelation (List.replicate o 0) x s w k nf st pd
  | .maxPool s k st o => fun x => Slide.maxPool (List.replicate o 0) x s k st
  | .avgPool s k st o => fun x => Slide.avgPool (List.replicate o 0) x s k st
  | .relu n => fun x => Act.mapArr Act.relu (List.replicate n 0) x n
  | .elu a n => fun x => Act.mapArr (Act.elu a) (List.replicate n 0) x n
  | .tanh n => fun x => Act.mapArr Act.tanh (List.replicate n 0) x n
  | .sigmoid n => fun x => Act.mapArr Act.sigmoid (List.replicate n 0) x n
  | .softmax n => fun x => Act.stableSoftmaxNoCheck (List.replicate n 0) x n
  | .linear => fun x => .ok x

/-- The same calls in floating point, see `Stage.run`. -/
def Stage.runF (L : Lib A) : Stage → List (Fl A) → Exec (List (Fl A))
  | .dense n m w b => fun x => Dense.dense (List.replicate m 0) x (w.map .fin) (b.map .fin) n m
  | .conv s k nf st pd o w => fun x =>
    Slide.crossCorrelation (List.replicate o 0) x s (w.map .fin) k nf st pd
  | .maxPool s k st o => fun x => Slide.maxPool (List.replicate o 0) x s k st
  | .avgPool s k st o => fun x => Slide.avgPool (List.replicate o 0) x s k st
  | .relu n => fun x => mapArrF reluF (List.replicate n 0) x n
  | .elu a n => fun x => mapArrF (eluF L (.fin a)) (List.replicate n 0) x n
  | .tanh n => fun x => mapArrF L.tanhF (List.replicate n 0) x n
  | .sigmoid n => fun x => mapArrF (sigmoidF L) (List.replicate n 0) x n
  | .softmax n => fun x => stableSoftmaxF L (List.replicate n 0) x n
  | .linear => fun x => .ok x

/-- Layers one after the other, in exact arithmetic, /repo/source/dnn/model.cpp:226-243. -/
def runAll : List Stage → List ℝ → Exec (List ℝ)
  | [], x => .ok x
  | s :: ss, x => do runAll ss (← s.run x)

/-- Layers one after the other, in floating point, /repo/source/dnn/model.cpp:226-243. -/
def runAllF (L : Lib A) : List Stage → List (Fl A) → Exec (List (Fl A))
  | [], x => .ok x
  | s :: ss, x => do runAllF L ss (← s.runF L x)

end

end Verif.Float
