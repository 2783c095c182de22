import Verif.Model.Data

/-
Model of the label encodings of /repo/source/parser/parser.hpp and of `Dataset::parse`.

A `DatasetParser` is seen through its virtual functions: `entry(i)` is row `i` of `rows`, `feature_size()`
and `labels_idx()` are fixed.  The concrete parsers are modelled elsewhere.  `std::set<NumType>` and
`std::map<NumType, SizeType>` order their keys with `<`; the values are not NaN.
-/

namespace Verif.Data

variable {α : Type}

/-- A `DatasetParser`, /repo/source/parser/parser.hpp:66-119. -/
structure Source (α : Type) where
  rows : List (List α)
  featureSize : Nat
  labels : Finset Nat

/-- `unique(idx)`, /repo/source/parser/parser.hpp:127-137. -/
def Source.unique [DecidableEq α] (p : Source α) (idx : Nat) : Exec (Finset α) := do
  let ret ← collect (fun i => do
    let r ← rd p.rows i
    rd r idx) (List.range p.rows.length)
  .ok ret.toFinset

/-- `unique_map(idx)`, /repo/source/parser/parser.hpp:146-158, as the list of its pairs. -/
def Source.uniqueMap [LinearOrder α] (p : Source α) (idx : Nat) : Exec (List (α × Nat)) := do
  let s ← p.unique idx
  .ok (s.sort (· ≤ ·)).zipIdx

/-- `std::map::at`. -/
def mapAt [DecidableEq α] (m : List (α × Nat)) (v : α) : Exec Nat :=
  match m.find? (fun q => q.1 = v) with
  | some q => .ok q.2
  | none => .throw "map::at"

/-- `encoding_feature_size(ONE_HOT_ENCODING)`, /repo/source/parser/parser.hpp:170-179. -/
def Source.oneHotFeatureSize [DecidableEq α] (p : Source α) : Exec Nat := do
  let sets ← collect p.unique (iter p.labels)
  .ok (sets.foldl (fun e s => e + s.card) (p.featureSize - p.labels.card))

/-- `encoding_labels_idx(ONE_HOT_ENCODING)`, /repo/source/parser/parser.hpp:198-208. -/
def Source.oneHotLabels [DecidableEq α] (p : Source α) : Exec (Finset Nat) := do
  let e ← p.oneHotFeatureSize
  let off := p.featureSize - p.labels.card
  .ok ((List.range (e - off)).map (off + ·)).toFinset

/-- The copy of the inputs of a row, /repo/source/parser/parser.hpp:250-259. -/
def copyInputs (featureSize : Nat) (labels : Finset Nat) (base : Nat) (row ret : List α) :
    Exec (List α) :=
  forUp featureSize ret fun col ret =>
    if col ∉ labels then do
      let v ← rd row col
      wr ret (base + col) v
    else .ok ret

/-- The copy of the one-hot vectors of a row, /repo/source/parser/parser.hpp:261-282; the state is `ret`
and `col_offset`. -/
def copyLabels [DecidableEq α] [Zero α] [One α] (labels : List Nat) (maps : List (List (α × Nat)))
    (base offset : Nat) (row ret : List α) : Exec (List α × Nat) :=
  forUp labels.length (ret, offset) fun i st => do
    let m ← rd maps i
    let l ← rd labels i
    let v ← rd row l
    let hot ← mapAt m v
    let ret ← forUp m.length st.1 fun col ret =>
      wr ret (base + st.2 + col) (if col = hot then 1 else 0)
    .ok (ret, st.2 + m.length)

/-- `data_to_encoding(ONE_HOT_ENCODING)`, /repo/source/parser/parser.hpp:227-283. -/
def Source.oneHotData [LinearOrder α] [Zero α] [One α] (p : Source α) : Exec (List α) := do
  let maps ← collect p.uniqueMap (iter p.labels)
  let entrySize := maps.foldl (fun e m => e + m.length) (p.featureSize - p.labels.card)
  forUp p.rows.length (List.replicate (entrySize * p.rows.length) 0) fun r ret => do
    let row ← rd p.rows r
    let ret ← copyInputs p.featureSize p.labels (r * entrySize) row ret
    let st ← copyLabels (iter p.labels) maps (r * entrySize) (p.featureSize - p.labels.card) row ret
    .ok st.1

/-- `data_to_encoding(DEFAULT_ENCODING)`, /repo/source/parser/parser.hpp:284-298. -/
def Source.defaultData [Zero α] (p : Source α) : Exec (List α) :=
  forUp p.rows.length (List.replicate (p.featureSize * p.rows.length) 0) fun r ret => do
    let row ← rd p.rows r
    forUp p.featureSize ret fun col ret => do
      let v ← rd row col
      wr ret (r * p.featureSize + col) v

/-- `Dataset::parse(parser, ONE_HOT_ENCODING, sequence_size)`, /repo/source/data/dataset.hpp:679-690. -/
def parseOneHot [LinearOrder α] [Zero α] [One α] (p : Source α) (ss : Nat) : Exec (Dataset α) := do
  let data ← p.oneHotData
  let fs ← p.oneHotFeatureSize
  let ls ← p.oneHotLabels
  .ok (ofVec data fs ss ls)

/-- `Dataset::parse(parser, DEFAULT_ENCODING, sequence_size)`, /repo/source/data/dataset.hpp:679-690. -/
def parseDefault [Zero α] (p : Source α) (ss : Nat) : Exec (Dataset α) := do
  let data ← p.defaultData
  .ok (ofVec data p.featureSize ss p.labels)

end Verif.Data
