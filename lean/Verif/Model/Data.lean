import Verif.Model.Concat
import Mathlib.Data.Finset.Sort
import Mathlib.Data.Real.Basic
import Mathlib.Data.Real.Archimedean

/-
Model of /repo/source/data/dataset.hpp.

`std::set<SizeType>` is a finite set that is iterated in increasing order.  Sizes are natural numbers:
no product of sizes below exceeds the length of a vector in memory, except where said.  The Armadillo
conversions are in Model/Arma.
-/

namespace Verif.Data

variable {α : Type}

/-- Fields of `Dataset<T>`, /repo/source/data/dataset.hpp:787-829. -/
structure Dataset (α : Type) where
  data : List α
  featureSize : Nat
  sequenceSize : Nat
  datasetSize : Nat
  featureAmount : Nat
  sequenceAmount : Nat
  labelsIdx : Finset Nat
  inputIdx : Finset Nat

/-- Iteration over a `std::set`. -/
def iter (s : Finset Nat) : List Nat := s.sort (· ≤ ·)

/-- `std::vector::resize`. -/
def resize [Zero α] (l : List α) (n : Nat) : List α := l.take n ++ List.replicate (n - l.length) 0

/-- The vector `{begin + a, begin + b}`; iterators outside the vector are undefined behaviour. -/
def slice (l : List α) (a b : Nat) : Exec (List α) :=
  if a ≤ b ∧ b ≤ l.length then .ok ((l.drop a).take (b - a)) else .ub

/-- A loop that appends (or writes at a running index) one value per element. -/
def collect {β γ : Type} (f : β → Exec γ) : List β → Exec (List γ)
  | [] => .ok []
  | b :: bs => do
    let c ← f b
    let cs ← collect f bs
    .ok (c :: cs)

/-- The loop that erases label indices, /repo/source/data/dataset.hpp:126-129. -/
def keepLabels (featureSize : Nat) (labels : Finset Nat) : Finset Nat :=
  labels.filter fun i => ¬ i ≥ featureSize

/-- The loop that fills `_input_idx`, /repo/source/data/dataset.hpp:130-136. -/
def inputsOf (featureSize : Nat) (labels : Finset Nat) : Finset Nat :=
  (List.range featureSize).foldl (fun s i => if i ∉ labels then insert i s else s) ∅

/-- `Dataset()`, /repo/source/data/dataset.hpp:82-93. -/
def Dataset.empty : Dataset α := ⟨[], 0, 0, 0, 0, 0, ∅, ∅⟩

/-- `Dataset(Vec, feature_size, sequence_size, labels_idx)`, /repo/source/data/dataset.hpp:105-137. -/
def ofVec [Zero α] (data : List α) (featureSize sequenceSize : Nat) (labels : Finset Nat) :
    Dataset α :=
  let fs := min featureSize data.length
  let ss := min sequenceSize (data.length / max fs 1)
  let ds := data.length / max (fs * ss) 1 * (fs * ss)
  let ls := keepLabels fs labels
  { data := resize data ds
    featureSize := fs
    sequenceSize := ss
    datasetSize := ds
    featureAmount := ds / max fs 1
    sequenceAmount := ds / max (fs * ss) 1
    labelsIdx := ls
    inputIdx := inputsOf fs ls }

/-- `Dataset(Mat, sequence_size, labels_idx)`, /repo/source/data/dataset.hpp:147-192. -/
def ofMat [Zero α] (rows : List (List α)) (sequenceSize : Nat) (labels : Finset Nat) : Dataset α :=
  let fa := rows.length
  let ss := min sequenceSize fa
  let fs := match rows with
    | [] => 0
    | r :: _ => rows.foldl (fun m v => min v.length m) r.length
  let data := if fs ≠ 0 then rows.foldl (fun d v => d ++ v.take fs) [] else []
  let sa := fa / max ss 1
  let ds := sa * ss * fs
  let ls := keepLabels fs labels
  { data := resize data ds
    featureSize := fs
    sequenceSize := ss
    datasetSize := ds
    featureAmount := fa
    sequenceAmount := sa
    labelsIdx := ls
    inputIdx := inputsOf fs ls }

/-- The sizes found by `Dataset(Cub, …)`, /repo/source/data/dataset.hpp:206-229: sequence size and
feature size. -/
def cubSizes (cube : List (List (List α))) : Nat × Nat :=
  match cube with
  | [] => (0, 0)
  | [] :: _ => (cube.length, 0)
  | (v0 :: m0) :: _ =>
    cube.foldl (fun s m => (min m.length s.1, m.foldl (fun f v => min v.length f) s.2))
      ((v0 :: m0).length, v0.length)

/-- `Dataset(Cub, labels_idx)`, /repo/source/data/dataset.hpp:200-256. -/
def ofCub (cube : List (List (List α))) (labels : Finset Nat) : Exec (Dataset α) := do
  let sz := cubSizes cube
  let data ← if (cube.headD []).isEmpty then .ok []
    else if sz.1 ≠ 0 ∧ sz.2 ≠ 0 then do
      let blocks ← collect (fun m => collect (fun i => do
        let v ← rd m i
        slice v 0 sz.2) (List.range sz.1)) cube
      .ok blocks.flatten.flatten
    else .ok []
  let ls := keepLabels sz.2 labels
  .ok {
    data := data
    featureSize := sz.2
    sequenceSize := sz.1
    datasetSize := cube.length * sz.1 * sz.2
    featureAmount := cube.length * sz.1
    sequenceAmount := cube.length
    labelsIdx := ls
    inputIdx := inputsOf sz.2 ls }

/-- `size()`, /repo/source/data/dataset.hpp:354. -/
def Dataset.size (d : Dataset α) : Nat := d.featureAmount

/-- `empty()`, /repo/source/data/dataset.hpp:360. -/
def Dataset.isEmpty (d : Dataset α) : Bool := d.data.isEmpty

/-- `sequence_size(s)`, /repo/source/data/dataset.hpp:340-347.  A division by zero is undefined
behaviour. -/
def Dataset.setSequenceSize [Zero α] (d : Dataset α) (s : Nat) : Exec (Dataset α) :=
  let ss := min s d.featureAmount
  if ss = 0 then .ub
  else
    let sa := d.featureAmount / ss
    let ds := ss * sa * d.featureSize
    if d.featureSize = 0 then .ub
    else .ok { d with
      sequenceSize := ss
      sequenceAmount := sa
      datasetSize := ds
      featureAmount := ds / d.featureSize
      data := resize d.data ds }

/-- `entry(row_idx)`, /repo/source/data/dataset.hpp:379-385. -/
def Dataset.entry (d : Dataset α) (row : Nat) : Exec (List α) :=
  if row ≥ d.featureAmount then .ok []
  else slice d.data (row * d.featureSize) (row * d.featureSize + d.featureSize)

/-- `entry_seq(seq_idx)`, /repo/source/data/dataset.hpp:392-398. -/
def Dataset.entrySeq (d : Dataset α) (s : Nat) : Exec (List α) :=
  if s ≥ d.sequenceAmount then .ok []
  else slice d.data (s * d.sequenceSize * d.featureSize)
    (s * d.sequenceSize * d.featureSize + d.sequenceSize * d.featureSize)

/-- `_field_from_row_idx`, /repo/source/data/dataset.hpp:745-757. -/
def Dataset.fieldFromRow (d : Dataset α) (row : Nat) (s : Finset Nat) : Exec (List α) :=
  collect (fun idx => rd d.data (row * d.featureSize + idx)) (iter s)

/-- `_field_from_seq_idx`, /repo/source/data/dataset.hpp:769-785. -/
def Dataset.fieldFromSeq (d : Dataset α) (seq : Nat) (s : Finset Nat) : Exec (List α) := do
  let parts ← collect (fun t =>
    collect (fun idx => rd d.data (seq * d.sequenceSize * d.featureSize + t * d.featureSize + idx))
      (iter s)) (List.range d.sequenceSize)
  .ok parts.flatten

/-- `input(row_idx)`, /repo/source/data/dataset.hpp:415-420. -/
def Dataset.input (d : Dataset α) (row : Nat) : Exec (List α) :=
  if row ≥ d.featureAmount then .ok []
  else if d.inputIdx.card = d.featureSize then d.entry row
  else d.fieldFromRow row d.inputIdx

/-- `inputs_seq(seq_idx)`, /repo/source/data/dataset.hpp:448-453. -/
def Dataset.inputsSeq (d : Dataset α) (seq : Nat) : Exec (List α) :=
  if seq ≥ d.sequenceAmount then .ok []
  else if d.inputIdx.card = d.featureSize then d.entrySeq seq
  else d.fieldFromSeq seq d.inputIdx

/-- `label(row_idx)`, /repo/source/data/dataset.hpp:491-495. -/
def Dataset.label (d : Dataset α) (row : Nat) : Exec (List α) :=
  if row ≥ d.featureAmount ∨ d.labelsIdx = ∅ then .ok []
  else d.fieldFromRow row d.labelsIdx

/-- `labels_seq(seq_idx)`, /repo/source/data/dataset.hpp:523-527. -/
def Dataset.labelsSeq (d : Dataset α) (seq : Nat) : Exec (List α) :=
  if seq ≥ d.sequenceAmount ∨ d.labelsIdx = ∅ then .ok []
  else d.fieldFromSeq seq d.labelsIdx

/-- The loops of `inputs()` and `labels()`, /repo/source/data/dataset.hpp:428-437 and 503-512, for the
column set `s`. -/
def Dataset.columns (d : Dataset α) (s : Finset Nat) : Exec (List α) := do
  let rows ← collect (fun row =>
    collect (fun col => rd d.data (row * d.featureSize + col)) (iter s)) (List.range d.featureAmount)
  .ok rows.flatten

/-- `inputs()`, /repo/source/data/dataset.hpp:426-439. -/
def Dataset.inputs [Zero α] (d : Dataset α) : Exec (Dataset α) := do
  let ret ← d.columns d.inputIdx
  .ok (ofVec ret d.inputIdx.card d.sequenceSize ∅)

/-- `labels()`, /repo/source/data/dataset.hpp:501-514. -/
def Dataset.labels [Zero α] (d : Dataset α) : Exec (Dataset α) := do
  let ret ← d.columns d.labelsIdx
  .ok (ofVec ret d.labelsIdx.card d.sequenceSize ∅)

/-- `label_idx(set)`, /repo/source/data/dataset.hpp:468-483. -/
def Dataset.setLabels (d : Dataset α) (labels : Finset Nat) : Dataset α :=
  let ls := keepLabels d.featureSize labels
  { d with labelsIdx := ls, inputIdx := inputsOf d.featureSize ls }

/-- `subdata(from, to)`, /repo/source/data/dataset.hpp:535-553. -/
def Dataset.subdata [Zero α] (d : Dataset α) (from_ to_ : Nat) : Exec (Dataset α) :=
  let to' := if to_ > d.featureAmount then d.featureAmount else to_
  if from_ > to' then .throw "The argument 'from' exceeds 'to'"
  else do
    let sub ← slice d.data (from_ * d.featureSize) (to' * d.featureSize)
    .ok (ofVec sub d.featureSize d.sequenceSize d.labelsIdx)

/-- The two clamping lines of `subdata(perc)` and `split(perc)`,
/repo/source/data/dataset.hpp:562-563, 577-578. -/
noncomputable def clamp (perc : ℝ) : ℝ :=
  let p := if perc > 1 then 1 else perc
  if p < 0 then 0 else p

/-- `subdata(perc)`, /repo/source/data/dataset.hpp:560-567.  `fl` rounds the exact result of an
operation to a floating-point number; `perc` is not NaN. -/
noncomputable def Dataset.subdataPerc [Zero α] (fl : ℝ → ℝ) (d : Dataset α) (perc : ℝ) :
    Exec (Dataset α) :=
  d.subdata 0 ⌊fl (clamp perc * d.featureAmount)⌋₊

/-- `split(perc)`, /repo/source/data/dataset.hpp:575-583, with `fl` as in `subdataPerc`.  With sequence
size 0 the quotient is an infinity or NaN, whose conversion to `SizeType` is undefined behaviour. -/
noncomputable def Dataset.split [Zero α] (fl : ℝ → ℝ) (d : Dataset α) (perc : ℝ) :
    Exec (Dataset α × Dataset α) :=
  if d.sequenceSize = 0 then .ub
  else do
    let cut := ⌊fl (fl (clamp perc * d.featureAmount) / d.sequenceSize)⌋₊ * d.sequenceSize
    let train ← d.subdata 0 cut
    let test ← d.subdata cut d.featureAmount
    .ok (train, test)

/-- `shuffle(rne)`, /repo/source/data/dataset.hpp:590-608, where `perm` is the vector returned by
`unique_rand_sequence(0, size(), rne)` (/repo/source/dnn/dlmath.hpp:253-260). -/
def Dataset.shuffle [Zero α] (d : Dataset α) (perm : List Nat) : Exec (Dataset α) := do
  let data ← forUp d.featureAmount (List.replicate d.data.length 0) fun curr new => do
    let to_ ← rd perm curr
    forUp d.featureSize new fun i new => do
      let v ← rd d.data (curr * d.featureSize + i)
      wr new (to_ * d.featureSize + i) v
  .ok { d with data := data }

/-- `min_max_normalization(min, max, idx_vec)`, /repo/source/data/dataset.hpp:610-636. -/
def Dataset.normalizeBy [Sub α] [Div α] [DecidableEq α] (d : Dataset α) (lo hi : α)
    (cols : List Nat) : Exec (Dataset α) :=
  if lo = hi then .throw "normalization error: min and max cannot be equal"
  else do
    let cols := if cols = [] then List.range d.featureSize else cols
    let data ← forUp d.featureAmount d.data fun row data =>
      forUp cols.length data fun k data => do
        let col ← rd cols k
        let v ← rd data (row * d.featureSize + col)
        wr data (row * d.featureSize + col) ((v - lo) / (hi - lo))
    .ok { d with data := data }

/-- `min_max_normalization()`, /repo/source/data/dataset.hpp:638-674. -/
def Dataset.normalize [Zero α] [Sub α] [Div α] [LT α] [DecidableLT α] (d : Dataset α) :
    Exec (Dataset α) := do
  let zeros : List α := List.replicate d.featureSize 0
  let mm ← forUp d.featureSize (zeros, zeros) fun col mm => do
    let v ← rd d.data col
    let mn ← wr mm.1 col v
    let mx ← wr mm.2 col v
    .ok (mn, mx)
  let mm ← forFrom 1 (d.featureAmount - 1) mm fun row mm =>
    forUp d.featureSize mm fun col mm => do
      let v ← rd d.data (row * d.featureSize + col)
      let hi ← rd mm.2 col
      let mx ← if v > hi then wr mm.2 col v else .ok mm.2
      let lo ← rd mm.1 col
      let mn ← if v < lo then wr mm.1 col v else .ok mm.1
      .ok (mn, mx)
  let data ← forUp d.featureAmount d.data fun row data =>
    forUp d.featureSize data fun col data => do
      let v ← rd data (row * d.featureSize + col)
      let lo ← rd mm.1 col
      let hi ← rd mm.2 col
      wr data (row * d.featureSize + col) ((v - lo) / (hi - lo))
  .ok { d with data := data }

/-- `concatenate(d1, d2, axis)`, /repo/source/data/dataset.hpp:702-732. -/
def concatenate [Zero α] (d1 d2 : Dataset α) (axis : Nat) : Exec (Dataset α) :=
  if d1.isEmpty then .ok d2
  else if d2.isEmpty then .ok d1
  else if axis > 2 then .throw "Axis overflow: axis param is out of range [0,2]"
  else if axis ≠ 2 ∧ d1.labelsIdx ≠ d2.labelsIdx then
    .throw "The inputs datasets have different label indexes"
  else do
    let s1 : Shape3 := ⟨d1.sequenceAmount, d1.sequenceSize, d1.featureSize⟩
    let s2 : Shape3 := ⟨d2.sequenceAmount, d2.sequenceSize, d2.featureSize⟩
    let s := s1.set axis (s1.get axis + s2.get axis)
    let res ← Concat.concatenate2 (List.replicate s.size 0) d1.data s1 d2.data s2 axis
    .ok (ofVec res s.c s.w (if axis = 2 then ∅ else d1.labelsIdx))

end Verif.Data
