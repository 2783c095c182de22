import Verif.Model.Arma
import Verif.Spec.Data

/-! Vocabulary for statements about matrices of samples. -/

namespace Verif.Spec

open Verif.Arma

variable {α : Type}

/-- The matrix has the given columns, all of them of the given length: element `(i, j)` is element `i` of column
`j`, and there is nothing else. -/
structure HasColumns (m : Mat α) (height : Nat) (columns : List (List α)) : Prop where
  rows : m.rows = height
  cols : m.cols = columns.length
  size : m.elems.length = height * columns.length
  heights : ∀ c ∈ columns, c.length = height
  get : ∀ j c, columns[j]? = some c → ∀ i < height, m.get? i j = c[i]?

/-- A network of the library that maps samples of any size to outputs of size `k`, sample by sample. -/
def Samplewise (lib : Mat α → Mat α) (f : List α → List α) (k : Nat) : Prop :=
  (∀ x, (f x).length = k) ∧
  ∀ m h columns, HasColumns m h columns → columns ≠ [] → HasColumns (lib m) k (columns.map f)

/-- How many samples an optimizer of ensmallen visits at most: its parameter `maxIterations`, where zero stands for
no limit. -/
def visits (maxIterations : Nat) : Option Nat := if maxIterations = 0 then none else some maxIterations

end Verif.Spec
