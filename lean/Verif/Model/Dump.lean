import Verif.Model.ConcatLayer
import Verif.Model.Json
import Verif.Model.Slide

/-
Model of saving and loading layers and models: `dump` and `load` of /repo/source/dnn/*.cpp, with the
constructors and `input_shape` setters that decide the sizes of what is saved.

JSON items are trees (Model/JsonHeap.lean justifies that).  The text of a number and the number of a text
(`std::to_string(double)` and `stream >> double`) are parameters.  Sizes are `Nat`; products of dimensions
do not wrap.  A load that throws half-way is only reported as throwing: what it had already stored is not
modelled.  Layer fields and parameters that C++ shares between copies of a layer are fields of the layer
here: copies are not modelled in this file.
-/

namespace Verif.Dump

open Verif.Js Verif.Text Verif.Slide

variable {N : Type}

/-- How numbers are written (`std::to_string(double)`, /repo/source/parser/json.hpp:539-541) and read
(`convert<double>`, /repo/source/parser/type_checker.hpp:69-74). -/
structure NumText (N : Type) where
  text : N → List Char
  value : List Char → N

/-! ### Access to JSON items -/

/-- `item[key] = value`, /repo/source/parser/json.hpp:1257-1283 and 1233-1239. -/
def put : Json → Key → Json → Exec Json
  | .none, k, v => .ok (.dict [(k, v)])
  | .dict m, k, v => .ok (.dict (mapPut m k v))
  | _, _, _ => .throw "Try to subscript key operator in a non-dict json object"

/-- `item.append(value)`, /repo/source/parser/json.hpp:1341-1367. -/
def append : Json → Json → Exec Json
  | .none, v => .ok (.list [v])
  | .list ts, v => .ok (.list (ts ++ [v]))
  | _, _ => .throw "Try to call method append() in a non-list json object"

/-- `item.at(key)`, /repo/source/parser/json.hpp:1313-1339 and 976-984. -/
def atKey : Json → Key → Exec Json
  | .none, _ => .throw "Try to call method at() in empty JsonItem"
  | .dict m, k =>
    match mapFind m k with
    | some v => .ok v
    | .none => .throw "operator[] failed: idx not contained in dict"
  | _, _ => .throw "Try to call method at() in a non-dict json object"

/-- `item.at(i)` and `item[i]`, /repo/source/parser/json.hpp:1285-1311, 1241-1255 and 760-784. -/
def atIdx : Json → Nat → Exec Json
  | .none, _ => .throw "Try to call method at() in empty JsonItem"
  | .list ts, i =>
    match ts[i]? with
    | some v => .ok v
    | .none => .throw "method at() failed: idx >= list size"
  | _, _ => .throw "Try to call method at() in a non-list json object"

/-- `item.at(i1).at(i2)...` -/
def atPath : Json → List Nat → Exec Json
  | j, [] => .ok j
  | j, i :: is => do
    let c ← atIdx j i
    atPath c is

/-- `item.size()`, /repo/source/parser/json.hpp:1369-1396. -/
def sizeOf : Json → Nat
  | .list ts => ts.length
  | .dict m => m.length
  | _ => 0

/-- `convert_json_object` for values that are read from the text of a leaf,
/repo/source/parser/json.hpp:1810-1834. -/
def leafText : Json → Exec (List Char)
  | .leaf v _ => .ok v
  | .none => .throw "Try to convert an empty JsonItem"
  | _ => .throw "Try to convert a non-leaf json object"

/-- `std::string(item)`, /repo/source/parser/json.hpp:1755-1785. -/
def asString : Json → List Char
  | .leaf v _ => v
  | j => print j

/-- Value of a text of decimal digits. -/
def decimal (ds : List Char) : Nat := ds.foldl (fun n c => n * 10 + (c.toNat - '0'.toNat)) 0

def isDigit (c : Char) : Bool := decide ('0' ≤ c) && decide (c ≤ '9')

/-- `std::isspace` in the default locale. -/
def isSpace (c : Char) : Bool := c == ' ' || c == '\t' || c == '\n' || c == '\r' || c.toNat == 11 || c.toNat == 12

/-- The sign, if any, and the digits at the front of a text after its blanks. -/
def numberPart (s : List Char) : Option Char × List Char :=
  match s.dropWhile isSpace with
  | c :: r => if c == '-' || c == '+' then (some c, r.takeWhile isDigit) else (.none, (c :: r).takeWhile isDigit)
  | [] => (.none, [])

/-- `stream >> size_t`: too large values give the largest one, a minus sign wraps around, nothing to read
gives zero. -/
def readSize (s : List Char) : Nat :=
  let p := numberPart s
  let n := decimal p.2
  if n ≥ 2 ^ 64 then 2 ^ 64 - 1
  else if p.1 = some '-' then (2 ^ 64 - n) % 2 ^ 64 else n

/-- `stream >> int`: values out of range give the nearest one. -/
def readInt (s : List Char) : Int :=
  let p := numberPart s
  let n := decimal p.2
  if p.1 = some '-' then (if n > 2 ^ 31 then -(2 ^ 31 : Int) else -(n : Int))
  else if n ≥ 2 ^ 31 then 2 ^ 31 - 1 else n

/-- `item.as<std::size_t>()` -/
def asSize (j : Json) : Exec Nat := do
  let t ← leafText j
  .ok (readSize t)

/-- `item.as<int>()` -/
def asInt (j : Json) : Exec Int := do
  let t ← leafText j
  .ok (readInt t)

/-- `item.as<double>()` -/
def asNum (io : NumText N) (j : Json) : Exec N := do
  let t ← leafText j
  .ok (io.value t)

/-- `item.as_vec<std::size_t>()`, /repo/source/parser/json.hpp:1424-1429, 1836-1861 and 871-881. -/
def asSizes : Json → Exec (List Nat)
  | .list ts => forUp ts.length [] fun i acc => do
      let t ← rd ts i
      let n ← asSize t
      .ok (acc ++ [n])
  | .none => .throw "Try to convert an empty JsonItem"
  | _ => .throw "Try to convert a non-list json object in a vector"

/-- `vector.at(i)` -/
def vecAt (l : List Nat) (i : Nat) : Exec Nat :=
  match l[i]? with
  | some n => .ok n
  | .none => .throw "vector::_M_range_check"

/-- `JsonItem(double)`, /repo/source/parser/json.hpp:1167-1169. -/
def num (io : NumText N) (x : N) : Json := leafOf (io.text x) .float

/-- `Json(std::vector<SizeType>)`, /repo/source/parser/json.hpp:1787-1796. -/
def sizesJson (ns : List Nat) : Json := .list (ns.map fun (n : Nat) => ofInt n)

/-! ### Layers -/

/-- `Layer::Fields`, /repo/source/dnn/layer.hpp:95-132. -/
structure Fields where
  name : List Char
  inShapes : List Shape3
  outShapes : List Shape3
  inSize : Nat
  outSize : Nat
  deriving DecidableEq

/-- `LayerShape::shape(0)`, /repo/source/dnn/layer.cpp:57-60. -/
def shape0 (ss : List Shape3) : Exec Shape3 :=
  match ss with
  | s :: _ => .ok s
  | [] => .throw "vector::_M_range_check"

/-- `LayerShape::size(0)`, /repo/source/dnn/layer.cpp:62-65. -/
def size0 (ss : List Shape3) : Exec Nat := do
  let s ← shape0 ss
  .ok s.size

/-- Geometry of a `ConvolutionalLayer`, /repo/source/dnn/convolutional.hpp. -/
structure ConvGeo where
  kernel : Shape2
  filters : Nat
  stride : Shape2
  padding : Shape2
  deriving DecidableEq

/-- Geometry of a `PoolingLayer`, /repo/source/dnn/pooling.hpp. -/
structure PoolGeo where
  kernel : Shape2
  stride : Shape2
  deriving DecidableEq

/-- Own fields of a `RecurrentLayer`, /repo/source/dnn/recurrent.hpp.  `act` is the number of the
hidden activation. -/
structure RnnOwn (N : Type) where
  act : Int
  hidden : Nat
  steps : Nat
  wih : List N
  whh : List N
  who : List N
  bh : List N
  bo : List N
  state : List N

/-- What a layer class adds to `Layer`. -/
inductive Own (N : Type) where
  | relu
  | elu (alpha : N)
  | softmax
  | tanh
  | sigmoid
  | linear
  | concat (axis : Nat)
  | cce
  | mse (tolerance : N)
  | maxPool (g : PoolGeo)
  | avgPool (g : PoolGeo)
  | dropout (p scale : N)
  | dense (weights biases : List N)
  | conv (g : ConvGeo) (weights biases : List N)
  | rnn (r : RnnOwn N)

/-- `type()`: the `TYPE` constants of /repo/source/dnn/activation.cpp:58, 96, 136, 169, 200, 231,
concatenate.cpp:34, cce_loss.cpp:36, mse_loss.cpp:31, max_pooling.cpp:31, avg_pooling.cpp:31, dropout.cpp:34,
dense.cpp:34, convolutional.cpp:55, recurrent.cpp:34. -/
def typeName : Own N → List Char
  | .relu => ['R', 'e', 'l', 'u']
  | .elu _ => ['E', 'l', 'u']
  | .softmax => ['S', 'o', 'f', 't', 'm', 'a', 'x']
  | .tanh => ['T', 'a', 'n', 'h']
  | .sigmoid => ['S', 'i', 'g', 'm', 'o', 'i', 'd']
  | .linear => ['L', 'i', 'n', 'e', 'a', 'r']
  | .concat _ => ['C', 'o', 'n', 'c', 'a', 't', 'e', 'n', 'a', 't', 'e']
  | .cce => ['C', 'C', 'E', 'L', 'o', 's', 's']
  | .mse _ => ['M', 'S', 'E', 'L', 'o', 's', 's']
  | .maxPool _ => ['M', 'a', 'x', 'P', 'o', 'o', 'l']
  | .avgPool _ => ['A', 'v', 'e', 'r', 'a', 'g', 'e', 'P', 'o', 'o', 'l']
  | .dropout _ _ => ['D', 'r', 'o', 'p', 'o', 'u', 't']
  | .dense _ _ => ['D', 'e', 'n', 's', 'e']
  | .conv _ _ _ => ['C', 'o', 'n', 'v']
  | .rnn _ => ['R', 'e', 'c', 'u', 'r', 'r', 'e', 'n', 't']

/-- A layer object: its fields, what its class adds, and the lengths of its buffers: outputs
(`_output_activations`), gradients for the layer before (`_input_gradients`, or `_gradients` of a loss
layer), and parameter gradients. -/
structure Layer (N : Type) where
  fields : Fields
  own : Own N
  outLen : Nat
  inLen : Nat
  gradLens : List Nat

/-! ### Keys: `Layer::dump_fields`, /repo/source/dnn/layer.cpp:87-97 -/

def kType : Key := ['t', 'y', 'p', 'e']
def kName : Key := ['n', 'a', 'm', 'e']
def kInput : Key := ['i', 'n', 'p', 'u', 't', '_', 's', 'h', 'a', 'p', 'e']
def kOutput : Key := ['o', 'u', 't', 'p', 'u', 't', '_', 's', 'h', 'a', 'p', 'e']
def kWeights : Key := ['w', 'e', 'i', 'g', 'h', 't', 's']
def kBiases : Key := ['b', 'i', 'a', 's', 'e', 's']
def kOthers : Key := ['o', 't', 'h', 'e', 'r', 's']
def kKernel : Key := ['k', 'e', 'r', 'n', 'e', 'l', '_', 's', 'i', 'z', 'e']
def kFilters : Key := ['n', '_', 'f', 'i', 'l', 't', 'e', 'r', 's']
def kStride : Key := ['s', 't', 'r', 'i', 'd', 'e']
def kPadding : Key := ['p', 'a', 'd', 'd', 'i', 'n', 'g']
def kDrop : Key := ['d', 'r', 'o', 'p', '_', 'p', 'r', 'o', 'b', 'a', 'b', 'i', 'l', 'i', 't', 'y']
def kTolerance : Key := ['l', 'o', 's', 's', '_', 't', 'o', 'l', 'e', 'r', 'a', 'n', 'c', 'e']
def kAct : Key := ['h', 'i', 'd', 'd', 'e', 'n', '_', 'a', 'c', 't', 'i', 'v', 'a', 't', 'i', 'o', 'n']
def kHidden : Key := ['h', 'i', 'd', 'd', 'e', 'n', '_', 's', 'i', 'z', 'e']
def kSteps : Key := ['t', 'i', 'm', 'e', '_', 's', 't', 'e', 'p', 's']
def kLayers : Key := ['l', 'a', 'y', 'e', 'r', 's']

/-! ### Saving -/

/-- The loops over the shapes, /repo/source/dnn/layer.cpp:189-196 and 199-206. -/
def shapesJson (ss : List Shape3) : Exec Json :=
  forUp ss.length .none fun i acc => do
    let s ← rd ss i
    append acc (sizesJson [s.h, s.w, s.c])

/-- `Layer::dump`, /repo/source/dnn/layer.cpp:183-209 (also feedforward.cpp:42-45, loss.cpp:81-84,
concatenate.cpp:144-147). -/
def dumpBase (type : List Char) (f : Fields) : Exec Json := do
  let out ← put .none kType (ofString type)
  let out ← put out kName (ofString f.name)
  let i ← shapesJson f.inShapes
  let out ← put out kInput i
  let o ← shapesJson f.outShapes
  put out kOutput o

/-- The nested loops that save parameters: one loop per dimension, the innermost appends numbers, every
loop appends what it has collected to the list of the loop around it.  The position of an element is
the sum of index times the product of the inner dimensions.  Used with the dimensions of
/repo/source/dnn/dense.cpp:170-187, convolutional.cpp:265-301 and recurrent.cpp:485-536. -/
def nestJson (io : NumText N) (w : List N) : List Nat → Nat → Exec Json
  | [], off => do
    let x ← rd w off
    .ok (num io x)
  | d :: ds, off => forUp d .none fun i acc => do
    let v ← nestJson io w ds (off + i * ds.prod)
    append acc v

/-- `PoolingLayer::dump`, /repo/source/dnn/pooling.cpp:70-84. -/
def dumpPool (out : Json) (g : PoolGeo) : Exec Json := do
  let others ← put .none kKernel (sizesJson [g.kernel.h, g.kernel.w])
  let others ← put others kStride (sizesJson [g.stride.h, g.stride.w])
  put out kOthers others

/-- `ConvolutionalLayer::dump`, /repo/source/dnn/convolutional.cpp:261-316. -/
def dumpConv (io : NumText N) (out : Json) (f : Fields) (g : ConvGeo) (w b : List N) : Exec Json := do
  let s ← shape0 f.inShapes
  let weights ← nestJson io w [g.kernel.h, g.kernel.w, s.c, g.filters] 0
  let biases ← nestJson io b [g.filters] 0
  let others ← put .none kKernel (sizesJson [g.kernel.h, g.kernel.w])
  let others ← put others kFilters (ofInt g.filters)
  let others ← put others kStride (sizesJson [g.stride.h, g.stride.w])
  let others ← put others kPadding (sizesJson [g.padding.h, g.padding.w])
  let out ← put out kWeights weights
  let out ← put out kBiases biases
  put out kOthers others

/-- `DenseLayer::dump`, /repo/source/dnn/dense.cpp:166-192. -/
def dumpDense (io : NumText N) (out : Json) (f : Fields) (w b : List N) : Exec Json := do
  let o ← size0 f.outShapes
  let i ← size0 f.inShapes
  let weights ← nestJson io w [o, i] 0
  let biases ← nestJson io b [o] 0
  let out ← put out kWeights weights
  put out kBiases biases

/-- `RecurrentLayer::dump`, /repo/source/dnn/recurrent.cpp:481-550. -/
def dumpRnn (io : NumText N) (out : Json) (f : Fields) (r : RnnOwn N) : Exec Json := do
  let wih ← nestJson io r.wih [r.hidden, f.inSize] 0
  let whh ← nestJson io r.whh [r.hidden, r.hidden] 0
  let who ← nestJson io r.who [f.outSize, r.hidden] 0
  let weights ← append .none wih
  let weights ← append weights whh
  let weights ← append weights who
  let bh ← nestJson io r.bh [r.hidden] 0
  let bo ← nestJson io r.bo [f.outSize] 0
  let biases ← append .none bh
  let biases ← append biases bo
  let others ← put .none kAct (ofInt r.act)
  let others ← put others kHidden (ofInt r.hidden)
  let others ← put others kSteps (ofInt r.steps)
  let out ← put out kWeights weights
  let out ← put out kBiases biases
  put out kOthers others

/-- `dump()` of every layer class; dropout.cpp:93-101, mse_loss.cpp:79-87. -/
def dump (io : NumText N) (l : Layer N) : Exec Json := do
  let out ← dumpBase (typeName l.own) l.fields
  match l.own with
  | .dense w b => dumpDense io out l.fields w b
  | .conv g w b => dumpConv io out l.fields g w b
  | .maxPool g => dumpPool out g
  | .avgPool g => dumpPool out g
  | .dropout p _ => do
    let others ← put .none kDrop (num io p)
    put out kOthers others
  | .mse t => do
    let others ← put .none kTolerance (num io t)
    put out kOthers others
  | .rnn r => dumpRnn io out l.fields r
  | _ => .ok out

/-! ### Loading -/

/-- The loops that read the shapes, /repo/source/dnn/layer.cpp:228-234 and 238-244. -/
def loadShapes (j : Json) : Exec (List Shape3) :=
  forUp (sizeOf j) [] fun i acc => do
    let s ← atIdx j i
    let h ← atIdx s 0
    let h ← asSize h
    let w ← atIdx s 1
    let w ← asSize w
    let c ← atIdx s 2
    let c ← asSize c
    .ok (acc ++ [⟨h, w, c⟩])

/-- `Layer::load` after the check that there is an item, /repo/source/dnn/layer.cpp:218-246. -/
def loadFields (type : List Char) (j : Json) : Exec Fields := do
  let t ← atKey j kType
  let t ← leafText t
  if t ≠ type then .throw "The current layer do not correspond with loaded type"
  else do
    let name ← atKey j kName
    let ij ← atKey j kInput
    let is ← loadShapes ij
    let isz ← size0 is
    let oj ← atKey j kOutput
    let os ← loadShapes oj
    let osz ← size0 os
    .ok ⟨asString name, is, os, isz, osz⟩

/-- `Layer::load`, /repo/source/dnn/layer.cpp:211-247. -/
def loadBase (type : List Char) (j : Json) : Exec Fields :=
  match j with
  | .none => .throw "No well-formed JSON"
  | j => loadFields type j

/-- `std::vector::resize`: new elements are zero. -/
def resize [Zero N] (l : List N) (n : Nat) : List N := l.take n ++ List.replicate (n - l.length) 0

/-- The nested loops that read parameters; `path` holds the indices of the loops around.  See `nestJson`;
/repo/source/dnn/dense.cpp:203-215, convolutional.cpp:345-370 and recurrent.cpp:583-619. -/
def nestLoad (io : NumText N) (j : Json) : List Nat → List Nat → Nat → List N → Exec (List N)
  | [], path, off, w => do
    let v ← atPath j path
    let x ← asNum io v
    wr w off x
  | d :: ds, path, off, w => forUp d w fun i w => nestLoad io j ds (path ++ [i]) (off + i * ds.prod) w

/-- A pair of sizes under `others`, such as /repo/source/dnn/pooling.cpp:90-92. -/
def loadPair (j : Json) (k : Key) : Exec Shape2 := do
  let o ← atKey j kOthers
  let v ← atKey o k
  let l ← asSizes v
  let a ← vecAt l 0
  let b ← vecAt l 1
  .ok ⟨a, b⟩

/-- `PoolingLayer::load` after the base class, /repo/source/dnn/pooling.cpp:90-95. -/
def loadPool (j : Json) : Exec PoolGeo := do
  let k ← loadPair j kKernel
  let s ← loadPair j kStride
  .ok ⟨k, s⟩

/-- `in.at("others").at(key)` -/
def other (j : Json) (k : Key) : Exec Json := do
  let o ← atKey j kOthers
  atKey o k

/-- Reading parameters saved under a key: `in.at(key)` is evaluated for every number, so a key without
numbers is not looked at. -/
def loadParams (io : NumText N) (j : Json) (k : Key) (pre : List Nat) (dims : List Nat) (w : List N) :
    Exec (List N) :=
  if dims.prod = 0 then .ok w
  else do
    let v ← atKey j k
    nestLoad io v dims pre 0 w

/-- `FeedforwardLayer::load`, /repo/source/dnn/feedforward.cpp:47-52. -/
def feedforward (l : Layer N) (f : Fields) : Exec (Layer N) := do
  let o ← size0 f.outShapes
  let i ← size0 f.inShapes
  .ok { l with
    fields := f
    outLen := o
    inLen := i }

/-- `DenseLayer::load` after the base class, /repo/source/dnn/dense.cpp:198-215. -/
def loadDense [Zero N] (io : NumText N) (j : Json) (l : Layer N) (w b : List N) : Exec (Layer N) := do
  let o ← size0 l.fields.outShapes
  let i ← size0 l.fields.inShapes
  let w ← loadParams io j kWeights [] [o, i] (resize w (o * i))
  let b ← loadParams io j kBiases [] [o] (resize b o)
  .ok { l with
    own := .dense w b
    gradLens := [o * i, o] }

/-- `ConvolutionalLayer::load` after the base class, /repo/source/dnn/convolutional.cpp:322-370. -/
def loadConv [Zero N] (io : NumText N) (j : Json) (l : Layer N) (w b : List N) : Exec (Layer N) := do
  let k ← loadPair j kKernel
  let nf ← other j kFilters
  let nf ← asSize nf
  let s ← loadPair j kStride
  let p ← loadPair j kPadding
  let i ← shape0 l.fields.inShapes
  let w ← loadParams io j kWeights [] [k.h, k.w, i.c, nf] (resize w (k.h * k.w * i.c * nf))
  let b ← loadParams io j kBiases [] [nf] (resize b nf)
  .ok { l with
    own := .conv ⟨k, nf, s, p⟩ w b
    gradLens := [k.h * k.w * i.c * nf, nf] }

/-- `RecurrentLayer::load` after the base class, /repo/source/dnn/recurrent.cpp:556-619. -/
def loadRnn [Zero N] (io : NumText N) (j : Json) (l : Layer N) (r : RnnOwn N) : Exec (Layer N) := do
  let a ← other j kAct
  let a ← asInt a
  let h ← other j kHidden
  let h ← asSize h
  let t ← other j kSteps
  let t ← asSize t
  let i := l.fields.inSize
  let o := l.fields.outSize
  let wih ← loadParams io j kWeights [0] [h, i] (resize r.wih (i * h))
  let whh ← loadParams io j kWeights [1] [h, h] (resize r.whh (h * h))
  let who ← loadParams io j kWeights [2] [o, h] (resize r.who (h * o))
  let bh ← loadParams io j kBiases [0] [h] (resize r.bh h)
  let bo ← loadParams io j kBiases [1] [o] (resize r.bo o)
  .ok { l with
    own := .rnn ⟨a, h, t, wih, whh, who, bh, bo, resize r.state (h * max t 1)⟩
    outLen := o * t
    inLen := i * t
    gradLens := [i * h, h * h, h * o, h, o] }

/-- `_scale` of a dropout layer, /repo/source/dnn/dropout.cpp:40 and 109. -/
def scaleOf [One N] [Sub N] [Div N] [DecidableEq N] (p : N) : N := if p = 1 then 1 else 1 / (1 - p)

/-- `load(in)` of every layer class; dropout.cpp:103-110, mse_loss.cpp:89-95, loss.cpp:86-90. -/
def load [Zero N] [One N] [Sub N] [Div N] [DecidableEq N] (io : NumText N) (l : Layer N) (j : Json) :
    Exec (Layer N) := do
  let f ← loadBase (typeName l.own) j
  match l.own with
  | .dense w b => do
    let l ← feedforward l f
    loadDense io j l w b
  | .conv _ w b => do
    let l ← feedforward l f
    loadConv io j l w b
  | .maxPool _ => do
    let l ← feedforward l f
    let g ← loadPool j
    .ok { l with own := .maxPool g }
  | .avgPool _ => do
    let l ← feedforward l f
    let g ← loadPool j
    .ok { l with own := .avgPool g }
  | .dropout _ _ => do
    let l ← feedforward l f
    let v ← other j kDrop
    let p ← asNum io v
    .ok { l with own := .dropout p (scaleOf p) }
  | .cce => .ok { l with fields := f, inLen := f.inSize }
  | .mse _ => do
    let v ← other j kTolerance
    let t ← asNum io v
    .ok { l with fields := f, inLen := f.inSize, own := .mse t }
  | .rnn r => loadRnn io j { l with fields := f } r
  | _ => feedforward l f

/-! ### Construction and change of the input shape -/

/-- `Layer(name, input_shape, output_shape)`, /repo/source/dnn/layer.cpp:99-109 and layer.hpp:97-104.  The
name given to a layer without name is not modelled: the name is a parameter. -/
def fieldsOf (name : List Char) (i o : Shape3) : Fields := ⟨name, [i], [o], i.size, o.size⟩

/-- `Shape3d(size)`, /repo/source/dnn/dlmath.hpp:142-144. -/
def flat (n : Nat) : Shape3 := ⟨n, 1, 1⟩

/-- Constructors of the layers with one size: activation.cpp:33-37, dropout.cpp:36-45; `own` says which. -/
def newFlat (own : Own N) (name : List Char) (n : Nat) : Layer N := ⟨fieldsOf name (flat n) (flat n), own, n, n, []⟩

/-- Constructors of loss layers, /repo/source/dnn/loss.cpp:34-49. -/
def newLoss (own : Own N) (name : List Char) (n : Nat) : Layer N := ⟨fieldsOf name (flat n) (flat 0), own, 0, n, []⟩

/-- `DenseLayer`, /repo/source/dnn/dense.cpp:36-52. -/
def newDense [Zero N] (name : List Char) (i o : Nat) : Layer N :=
  ⟨fieldsOf name (flat i) (flat o), .dense (List.replicate (o * i) 0) (List.replicate o 0), o, i, [o * i, o]⟩

/-- `ConvolutionalLayer`, /repo/source/dnn/convolutional.cpp:57-78. -/
def newConv [Zero N] (name : List Char) (i : Shape3) (g : ConvGeo) : Exec (Layer N) := do
  let o ← convOutputShape i g.kernel g.stride g.padding g.filters
  let n := g.kernel.h * g.kernel.w * i.c * g.filters
  .ok ⟨fieldsOf name i o, .conv g (List.replicate n 0) (List.replicate g.filters 0), o.size, i.size, [n, g.filters]⟩

/-- `PoolingLayer`, /repo/source/dnn/pooling.cpp:53-62; `own` says which. -/
def newPool (own : PoolGeo → Own N) (name : List Char) (i : Shape3) (g : PoolGeo) : Exec (Layer N) := do
  let o ← poolOutputShape i g.kernel g.stride
  .ok ⟨fieldsOf name i o, own g, o.size, i.size, []⟩

/-- `ConcatenateLayer`, /repo/source/dnn/concatenate.cpp:88-99. -/
def newConcat (name : List Char) (shapes : List Shape3) (axis : Nat) : Exec (Layer N) := do
  let i ← ConcatLayer.inputShape shapes axis
  let o ← ConcatLayer.outputShape shapes axis
  .ok ⟨fieldsOf name i o, .concat axis, o.size, i.size, []⟩

/-- `RecurrentLayer`, /repo/source/dnn/recurrent.cpp:36-79. -/
def newRnn [Zero N] (name : List Char) (i o h t : Nat) (act : Int) : Layer N :=
  ⟨fieldsOf name (flat i) (flat o),
    .rnn ⟨act, h, t, List.replicate (i * h) 0, List.replicate (h * h) 0, List.replicate (h * o) 0,
      List.replicate h 0, List.replicate o 0, List.replicate (h * max t 1) 0⟩,
    o * t, i * t, [i * h, h * h, h * o, h, o]⟩

/-- `input_shape(shape)`, /repo/source/dnn/layer.cpp:143-146, with the `_set_input_shape` of the class:
layer.cpp:249-253, feedforward.cpp:54-58, activation.cpp:47-54, dropout.cpp:112-117, pooling.cpp:105-117,
convolutional.cpp:381-396, dense.cpp:218-223, recurrent.cpp:622-628, loss.cpp:92-95.  The setter of a
concatenate layer calls itself without end (concatenate.cpp:154-157).  Only shapes of one input. -/
def setInput [Zero N] (l : Layer N) (s : Shape3) : Exec (Layer N) :=
  let f : Fields :=
    { l.fields with
      inShapes := [s]
      inSize := s.size }
  match l.own with
  | .concat _ => .ub
  | .cce => .ok { l with fields := f, inLen := s.size }
  | .mse _ => .ok { l with fields := f, inLen := s.size }
  | .dense w b => do
    let o ← size0 f.outShapes
    .ok { l with
      fields := f
      own := .dense (resize w (o * s.size)) b
      inLen := s.size
      gradLens := [o * s.size, o] }
  | .conv g w b => do
    let n := g.kernel.h * g.kernel.w * s.c * g.filters
    let o ← convOutputShape s g.kernel g.stride g.padding g.filters
    .ok { l with
      fields := { f with outShapes := [o] }
      own := .conv g (resize w n) b
      outLen := o.size
      inLen := s.size
      gradLens := [n, g.filters] }
  | .maxPool g => do
    let o ← poolOutputShape s g.kernel g.stride
    .ok { l with fields := { f with outShapes := [o] }, outLen := o.size, inLen := s.size }
  | .avgPool g => do
    let o ← poolOutputShape s g.kernel g.stride
    .ok { l with fields := { f with outShapes := [o] }, outLen := o.size, inLen := s.size }
  | .dropout _ _ => .ok { l with fields := { f with outShapes := [s] }, outLen := s.size, inLen := s.size }
  | .rnn r => .ok { l with
      fields := f
      own := .rnn { r with wih := resize r.wih (s.size * r.hidden) }
      inLen := s.size * r.steps
      gradLens := (s.size * r.hidden) :: l.gradLens.drop 1 }
  | _ => .ok { l with fields := { f with outShapes := [flat s.size] }, outLen := s.size, inLen := s.size }

/-! ### Models -/

/-- What `Model::dump` and `load` see of a model: its name and its layers in order
(/repo/source/dnn/model.hpp, `_shared_fields` and `_state.layers`). -/
structure Model (N : Type) where
  name : List Char
  layers : List (Layer N)

/-- The item that `Model::dump` writes, /repo/source/dnn/model.cpp:317-325. -/
def dumpItem (io : NumText N) (m : Model N) : Exec Json := do
  let out ← put .none kName (ofString m.name)
  let ls ← forUp m.layers.length .none fun i acc => do
    let l ← rd m.layers i
    let d ← dump io l
    append acc d
  put out kLayers ls

/-- `Model::dump(out)`, /repo/source/dnn/model.cpp:315-327: the text written. -/
def saveModel (io : NumText N) (m : Model N) : Exec (List Char) := do
  let j ← dumpItem io m
  .ok (print j)

/-- `Model::load(in)` after the item has been read, /repo/source/dnn/model.cpp:334-339.  (`model["name"]`
and `model["layers"]` create missing keys, whose conversion or subscript throws.) -/
def loadItem [Zero N] [One N] [Sub N] [Div N] [DecidableEq N] (io : NumText N) (m : Model N) (j : Json) :
    Exec (Model N) := do
  let name ← atKey j kName
  let name ← leafText name
  let ls ← forUp m.layers.length m.layers fun i ls => do
    let v ← atKey j kLayers
    let d ← atIdx v i
    let l ← rd ls i
    let l ← load io l d
    wr ls i l
  .ok ⟨name, ls⟩

/-- `Model::load(in)`, /repo/source/dnn/model.cpp:329-340, on a file with the text; the number bounds the
reading of the item. -/
def loadModel [Zero N] [One N] [Sub N] [Div N] [DecidableEq N] (io : NumText N) (n : Nat) (m : Model N)
    (text : List Char) : Exec (Model N) := do
  let j ← parse n text
  loadItem io m j

end Verif.Dump
