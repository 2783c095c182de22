import Verif.Model.Encoding
import Mathlib.Data.Finset.Basic
import Mathlib.Data.Finset.Card
import Mathlib.Order.Defs.LinearOrder

/-! One-hot encoding of labels. -/

namespace Verif.Spec

variable {α : Type}

/-- The vector with one position per value in `values` that is 1 at the rank of `v` (the number of smaller
values) and 0 elsewhere. -/
def oneHot [LinearOrder α] [Zero α] [One α] (values : Finset α) (v : α) : List α :=
  (List.range values.card).map fun k => if k = (values.filter (· < v)).card then 1 else 0

/-- The distinct values in column `l`. -/
def valuesOf [DecidableEq α] [Zero α] (rows : List (List α)) (l : Nat) : Finset α :=
  (rows.map fun r => r.getD l 0).toFinset

/-- The one-hot vectors of the given labels of a row, one after the other. -/
def labelBlocks [LinearOrder α] [Zero α] [One α] (rows : List (List α)) (labels : List Nat) (r : List α) :
    List α :=
  (labels.map fun l => oneHot (valuesOf rows l) (r.getD l 0)).flatten

end Verif.Spec

namespace Verif.Data

/-- Every row has a value for every column, and labels are columns. -/
structure Source.WellFormed {α : Type} (p : Source α) : Prop where
  long : ∀ r ∈ p.rows, r.length = p.featureSize
  labels : ∀ l ∈ p.labels, l < p.featureSize

end Verif.Data
