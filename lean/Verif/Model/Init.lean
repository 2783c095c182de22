import Verif.Model.Net

/-
Model of parameter initialisation: `Model::init`, /repo/source/dnn/model.cpp:104-159, the `init` methods of
the layers, and the distributions of /repo/source/dnn/dlmath.hpp:204-231 and 268-420.

Numbers are reals: `static_cast<double>` of a generator output and the square root do not round.  The random
engine (`std::mt19937_64`) and the normal distribution (`std::normal_distribution`, an object that may keep a
spare value between draws) are parameters.
-/

namespace Verif.Init

open Verif.Net Verif.Graph

noncomputable section

/-- The random engine and the normal distribution of the standard library.  `Engine` is the state of an
engine, `seeded` the constructor with a seed, `next` a call of the engine; `Spare` is the state of a
distribution object, `noSpare` a new one, `normal mean dev` a draw. -/
structure Random where
  Engine : Type
  seeded : Nat → Engine
  next : Engine → Nat × Engine
  maxRand : Nat
  Spare : Type
  noSpare : Spare
  normal : ℝ → ℝ → Spare × Engine → ℝ × (Spare × Engine)

/-- `DLMath::ProbabilityDensityFunction`, /repo/source/dnn/dlmath.hpp:165-169. -/
inductive Pdf where
  | normal
  | uniform
  deriving DecidableEq

/-- `DLMath::InitializationFunction`, /repo/source/dnn/dlmath.hpp:174-178. -/
inductive InitFn where
  | xavier
  | kaiming
  deriving DecidableEq

/-- `Model::InitializationFunction`, /repo/source/dnn/model.hpp:56-61. -/
inductive ModelInit where
  | xavier
  | kaiming
  | auto
  deriving DecidableEq

/-- `kaiming_initialization_variance` and `xavier_initialization_variance`,
/repo/source/dnn/dlmath.hpp:293-297 and 339-343.  (A size of zero gives infinity in C++.) -/
def variance : InitFn → Nat → ℝ
  | .kaiming, n => Real.sqrt (2 / n)
  | .xavier, n => Real.sqrt (1 / n)

/-- `uniform_pdf`, /repo/source/dnn/dlmath.hpp:216-231. -/
def uniformDraw (rg : Random) (center delta : ℝ) (s : rg.Spare × rg.Engine) : ℝ × (rg.Spare × rg.Engine) :=
  let delta := delta / 2
  let r := rg.next s.2
  let rand : ℝ := ((r.1 : ℝ) / rg.maxRand) * 2 - 1
  (rand * delta + center, (s.1, r.2))

/-- `DLMath::initialization_pdf`, /repo/source/dnn/dlmath.hpp:408-419 with 271-284 and 383-396. -/
def draw (rg : Random) (f : InitFn) (pdf : Pdf) (n : Nat) : rg.Spare × rg.Engine → ℝ × (rg.Spare × rg.Engine) :=
  match pdf with
  | .uniform => uniformDraw rg 0 (variance f n)
  | .normal => rg.normal 0 (variance f n)

/-- `for (NumType& w: weights) w = dist(rne)` -/
def fill {σ : Type} (d : σ → ℝ × σ) : List ℝ → σ → List ℝ × σ
  | [], s => ([], s)
  | _ :: ws, s =>
    let r := d s
    let rest := fill d ws r.2
    (r.1 :: rest.1, rest.2)

/-- `for (NumType& b: biases) b = v` -/
def setAll (v : ℝ) (bs : List ℝ) : List ℝ := bs.map fun _ => v

/-- The virtual `init` with a generator passed by value: dense.cpp:54-81, convolutional.cpp:80-95,
recurrent.cpp:81-116; nothing for the other classes (activation.hpp:53-62, dropout.hpp:58-67,
pooling.hpp:68-77, loss.hpp:71-80). -/
def initLayer (rg : Random) (f : InitFn) (pdf : Pdf) (rne : rg.Engine) : AnyLayer → AnyLayer
  | .dense l =>
    let w := fill (draw rg f pdf l.inputSize) l.weights (rg.noSpare, rne)
    .dense { l with weights := w.1, biases := setAll 0.01 l.biases }
  | .conv l =>
    let w := fill (draw rg f pdf l.input.size) l.weights (rg.noSpare, rne)
    .conv { l with weights := w.1, biases := setAll 0.01 l.biases }
  | .rnn a a1 l =>
    let wih := fill (draw rg f pdf l.inputSize) l.wih (rg.noSpare, rne)
    let whh := fill (draw rg f pdf l.hiddenSize) l.whh (rg.noSpare, wih.2.2)
    let who := fill (draw rg f pdf l.hiddenSize) l.who whh.2
    .rnn a a1 { l with
      wih := wih.1
      whh := whh.1
      who := who.1
      bh := setAll 0.01 l.bh
      bo := setAll 0.01 l.bo
      hidden := setAll 0 l.hidden }
  | a => a

/-- `is_type<ReluLayer>()` -/
def isRelu : AnyLayer → Bool
  | .act .relu _ => true
  | _ => false

/-- The loop over the following layers, /repo/source/dnn/model.cpp:136-146: is there a ReLU layer? -/
def anyRelu (ls : List AnyLayer) : List Nat → Exec Bool
  | [] => .ok false
  | i :: is => do
    let l ← rd ls i
    if isRelu l then .ok true else anyRelu ls is

/-- The `switch` in the loop of `Model::init`, /repo/source/dnn/model.cpp:120-155. -/
def choose (g : DLGraph) (ls : List AnyLayer) (init : ModelInit) (i : Nat) : Exec InitFn :=
  match init with
  | .kaiming => .ok .kaiming
  | .xavier => .ok .xavier
  | .auto => do
    let r ← anyRelu ls (successors g.forward i)
    .ok (if r then .kaiming else .xavier)

/-- `for (layer_idx : forward_layers_idx())`, /repo/source/dnn/model.cpp:117-156. -/
def initEach (rg : Random) (g : DLGraph) (init : ModelInit) (pdf : Pdf) (rne : rg.Engine) :
    List Nat → List AnyLayer → Exec (List AnyLayer)
  | [], ls => .ok ls
  | i :: is, ls => do
    let l ← rd ls i
    let f ← choose g ls init i
    initEach rg g init pdf rne is (ls.set i (initLayer rg f pdf rne l))

/-- `Model::init`, /repo/source/dnn/model.cpp:104-159; `device` is what the random device gives. -/
def init (rg : Random) (init : ModelInit) (pdf : Pdf) (device seed : Nat) (n : Net) : Exec (Net × Nat) := do
  let seed := if seed = 0 then device else seed
  let ls ← initEach rg n.graph init pdf (rg.seeded seed) n.graph.forwardLayersIdx n.layers
  .ok ({ n with layers := ls }, seed)

end

end Verif.Init
