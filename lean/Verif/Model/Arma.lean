import Verif.Model.Data
import Verif.Model.Mlpack

/-
Model of the conversions of data sets to Armadillo objects, /repo/source/data/dataset.hpp:263-326, and of `fit`,
`_fit` and `predict` of `MlpackFNN`, /repo/source/middleware/mlpack_fnn.hpp:59-84 and 107-137.  Armadillo and mlpack
are not part of the repository.  Of Armadillo, the documented meaning of the operations that are called is written
down here; the network of mlpack is a parameter.
-/

namespace Verif.Arma

open Verif.Data Verif.Nn

variable {α : Type}

/-- `arma::Mat<T>`: sizes, and the elements column after column as in Armadillo's memory. -/
structure Mat (α : Type) where
  rows : Nat
  cols : Nat
  elems : List α

/-- `arma::Cube<T>`: sizes, and the elements slice after slice, each of them column after column. -/
structure Cube (α : Type) where
  rows : Nat
  cols : Nat
  slices : Nat
  elems : List α

/-- Element access `m(i, j)`. -/
def Mat.get? (m : Mat α) (i j : Nat) : Option α :=
  if i < m.rows ∧ j < m.cols then m.elems[j * m.rows + i]? else none

/-- Element access `c(i, j, k)`. -/
def Cube.get? (c : Cube α) (i j k : Nat) : Option α :=
  if i < c.rows ∧ j < c.cols ∧ k < c.slices then c.elems[(k * c.cols + j) * c.rows + i]? else none

/-- `arma::Col<T>(std::vector)`, `arma::Mat<T>(std::vector)` and `arma::conv_to<arma::Mat<T>>::from`: one column. -/
def Mat.ofVec (v : List α) : Mat α := ⟨v.length, 1, v⟩

/-- `arma::Row<T>(std::vector)`: one row. -/
def Mat.rowOfVec (v : List α) : Mat α := ⟨1, v.length, v⟩

/-- `Mat::reshape`: the elements stay in the order of the memory; missing ones are zero, the rest is dropped. -/
def Mat.reshape [Zero α] (m : Mat α) (r c : Nat) : Mat α := ⟨r, c, resize m.elems (r * c)⟩

/-- `Cube::reshape`. -/
def Cube.reshape [Zero α] (x : Cube α) (r c s : Nat) : Cube α := ⟨r, c, s, resize x.elems (r * c * s)⟩

/-- The constructor of a cube; the elements are zero. -/
def Cube.new [Zero α] (r c s : Nat) : Cube α := ⟨r, c, s, List.replicate (r * c * s) 0⟩

/-- `cube.row(0) = column` for a cube with one row and one column: the column becomes the tube; Armadillo throws if
the sizes differ.  Simplification: cubes of other sizes do not occur. -/
def Cube.setTube (x : Cube α) (m : Mat α) : Exec (Cube α) :=
  if m.elems.length = x.slices then .ok { x with elems := m.elems }
  else .throw "copy into subcube: incompatible dimensions"

/-- `operator arma::Col<T>`, /repo/source/data/dataset.hpp:268-272. -/
def toCol (d : Dataset α) : Mat α := .ofVec d.data

/-- `operator arma::Row<T>`, /repo/source/data/dataset.hpp:278-282. -/
def toRow (d : Dataset α) : Mat α := .rowOfVec d.data

/-- `operator arma::Mat<T>`, /repo/source/data/dataset.hpp:288-293. -/
def toMat [Zero α] (d : Dataset α) : Mat α :=
  (Mat.ofVec d.data).reshape d.featureSize d.featureAmount

/-- `operator arma::Cube<T>`, /repo/source/data/dataset.hpp:299-315. -/
def toCube [Zero α] (d : Dataset α) : Exec (Cube α) := do
  let ret ← (Cube.new 1 1 d.datasetSize).setTube (.ofVec d.data)
  .ok (ret.reshape d.featureSize d.sequenceSize d.sequenceAmount)

/-- The arguments of the optimizer and of `Train`: learning rate, batch size, maximal number of iterations,
tolerance, whether samples are shuffled, and the two matrices. -/
structure TrainCall (α : Type) where
  optimizer : OptimizerType
  learningRate : ℝ
  batchSize : Nat
  maxIterations : Nat
  tolerance : ℝ
  shuffle : Bool
  predictors : Mat α
  responses : Mat α

/-- `_fit`, /repo/source/middleware/mlpack_fnn.hpp:108-137, up to the call of `Train`.  The constants of Adam
(/repo/source/middleware/mlpack_fnn.hpp:128) and what `Train` does to the parameters are not modelled. -/
noncomputable def fitCall (optimizer : OptimizerType) (trainset labels : Mat α) (epochs batchSize : Nat)
    (learningRate : ℝ) : TrainCall α :=
  match optimizer with
  | .gradientDescent =>
    ⟨.gradientDescent, learningRate, batchSize, epochs * trainset.cols, 0, false, trainset, labels⟩
  | .adam => ⟨.adam, learningRate, batchSize, epochs * trainset.cols, 0, false, trainset, labels⟩

/-- `fit`, /repo/source/middleware/mlpack_fnn.hpp:59-75. -/
noncomputable def fit [Zero α] (f : Mlpack.Fnn) (data : Dataset α) (optimizer : OptimizerType)
    (epochs batchSize : Nat) (learningRate : ℝ) : Exec (TrainCall α) :=
  if f.names = 0 then .throw "The FNN has no layer: call add before fit"
  else do
    let i ← data.inputs
    let l ← data.labels
    .ok (fitCall optimizer (toMat i) (toMat l) epochs batchSize learningRate)

/-- `predict`, /repo/source/middleware/mlpack_fnn.hpp:77-84; `lib` is `_m.Predict`.  The default sequence size of
the constructor is one (/repo/source/data/dataset.hpp:105-107). -/
def predict [Zero α] (lib : Mat α → Mat α) (data : Dataset α) : Dataset α :=
  let prediction := lib (toMat data)
  ofVec prediction.elems prediction.rows 1 ∅

end Verif.Arma
