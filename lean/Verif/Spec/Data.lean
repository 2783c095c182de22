import Verif.Model.Data

/-! Vocabulary for statements about datasets. -/

namespace Verif.Spec

open Verif.Data

variable {α : Type}

/-- Row `i` of the dataset: `feature_size()` values of `data()`. -/
def row (d : Dataset α) (i : Nat) : List α := (d.data.drop (i * d.featureSize)).take d.featureSize

/-- All rows, in order. -/
def rows (d : Dataset α) : List (List α) := (List.range d.size).map (row d)

/-- The rows of sequence `s`, in order. -/
def seqRows (d : Dataset α) (s : Nat) : List (List α) :=
  (List.range d.sequenceSize).map fun t => row d (s * d.sequenceSize + t)

/-- The values of a row in the given columns, in the order of the columns. -/
def pick (cols : Finset Nat) (r : List α) : List α :=
  (r.zipIdx.filter fun p => p.2 ∈ cols).map Prod.fst

/-- Sizes, data and index sets agree: `data()` is `size()` rows of `feature_size()` values, the rows are
`sequenceAmount` sequences of `sequence_size()` rows, label indices are columns, and the input indices
are the other columns. -/
structure Consistent (d : Dataset α) : Prop where
  data : d.data.length = d.size * d.featureSize
  total : d.datasetSize = d.data.length
  seqs : d.size = d.sequenceAmount * d.sequenceSize
  labels : ∀ i ∈ d.labelsIdx, i < d.featureSize
  inputs : ∀ i, i ∈ d.inputIdx ↔ i < d.featureSize ∧ i ∉ d.labelsIdx

end Verif.Spec
