import Verif.Proofs.Arma
import Verif.Props.Data

/-!
C103: data sets reach Armadillo and mlpack, and predictions come back, with their rows intact.
-/

namespace Verif.Props

open Verif.Data Verif.Spec Verif.Arma

variable {α : Type}

/-- The vectors hold `data()` in order. -/
theorem C103_vectors_partial (d : Dataset α) :
    ((toCol d).cols = 1 ∧ (toCol d).rows = d.data.length ∧
      ∀ i < d.data.length, (toCol d).get? i 0 = d.data[i]?) ∧
    ((toRow d).rows = 1 ∧ (toRow d).cols = d.data.length ∧
      ∀ i < d.data.length, (toRow d).get? 0 i = d.data[i]?) := by
  refine ⟨⟨rfl, rfl, ?_⟩, rfl, rfl, ?_⟩
  · intro i hi
    rw [toCol, Mat.ofVec, Mat.get?, if_pos ⟨hi, Nat.one_pos⟩]
    simp
  · intro i hi
    rw [toRow, Mat.rowOfVec, Mat.get?, if_pos ⟨Nat.one_pos, hi⟩]
    simp

/-- The columns of the matrix are the rows of the data set. -/
theorem C103_matrix_partial [Zero α] {d : Dataset α} (h : Consistent d) :
    HasColumns (toMat d) d.featureSize (rows d) := toMat_columns h

/-- Slice `q` of the cube is sequence `q`, and its columns are the rows of the sequence. -/
theorem C103_cube_partial [Zero α] {d : Dataset α} (h : Consistent d) :
    ∃ c, toCube d = .ok c ∧ c.rows = d.featureSize ∧ c.cols = d.sequenceSize ∧
      c.slices = d.sequenceAmount ∧ c.elems.length = c.rows * c.cols * c.slices ∧
      ∀ q < d.sequenceAmount, ∀ s < d.sequenceSize, ∀ i < d.featureSize,
        c.get? i s q = ((seqRows d q)[s]?.bind fun r => r[i]?) := by
  have hl : d.featureSize * d.sequenceSize * d.sequenceAmount = d.data.length := by
    rw [h.data, h.seqs]; ring
  refine ⟨⟨d.featureSize, d.sequenceSize, d.sequenceAmount, d.data⟩, ?_, rfl, rfl, rfl, hl.symm, ?_⟩
  · have ht : (Cube.new (α := α) 1 1 d.datasetSize).setTube (.ofVec d.data) =
        .ok ⟨1, 1, d.datasetSize, d.data⟩ := by
      rw [Cube.setTube, if_pos (show (Mat.ofVec d.data).elems.length = (Cube.new (α := α) 1 1 d.datasetSize).slices
        from h.total.symm)]
      rfl
    rw [toCube, ht]
    show Exec.ok _ = _
    rw [Cube.reshape, hl, resize_self]
  · intro q hq s hs i hi
    have hrow : q * d.sequenceSize + s < d.size := seq_row_lt h hq hs
    have hm := toMat_columns h
    have hg := hm.get (q * d.sequenceSize + s) (row d (q * d.sequenceSize + s))
      (by simp [rows, hrow]) i hi
    rw [Mat.get?, if_pos ⟨by rw [hm.rows]; exact hi, by rw [hm.cols, rows_length]; exact hrow⟩, hm.rows,
      elems_of_hasColumns hm, rows_flatten h] at hg
    rw [Cube.get?, if_pos ⟨hi, hs, hq⟩]
    dsimp only
    rw [hg]
    simp [seqRows, hs]

/-- `fit` hands the pairs of input and label columns of every row to the library, in order, and lets the optimizer
visit every row `epochs` times. -/
theorem C103_fit_partial [Zero α] {d : Dataset α} (h : Consistent d) (f : Mlpack.Fnn) (o : Nn.OptimizerType)
    (epochs batch : Nat) (rate : ℝ) (hi : d.inputIdx ≠ ∅) (hl : d.labelsIdx ≠ ∅)
    (hn : f.names ≠ 0) (hr : 0 < d.size) (he : 0 < epochs) :
    ∃ c, fit f d o epochs batch rate = .ok c ∧ c.optimizer = o ∧ c.learningRate = rate ∧ c.batchSize = batch ∧
      c.shuffle = false ∧ visits c.maxIterations = some (epochs * d.size) ∧
      HasColumns c.predictors d.inputIdx.card ((rows d).map (pick d.inputIdx)) ∧
      HasColumns c.responses d.labelsIdx.card ((rows d).map (pick d.labelsIdx)) := by
  obtain ⟨x, hx, cx, -, rx⟩ := C44_inputs h
  obtain ⟨y, hy, cy, -, ry⟩ := C44_labels h
  rw [if_neg hi] at rx
  rw [if_neg hl] at ry
  have hcard : ∀ (cols : Finset Nat) (e : Dataset α), Consistent e → (∀ i ∈ cols, i < d.featureSize) →
      rows e = (rows d).map (pick cols) →
      e.featureSize = cols.card ∧ e.size = d.size := by
    intro cols e ce hc he
    have hs : e.size = d.size := by
      have := congrArg List.length he
      simpa [rows_length] using this
    refine ⟨?_, hs⟩
    have h0 : row e 0 = pick cols (row d 0) := by
      have := congrArg (fun l => l[0]?) he
      simpa [rows, hr, hs] using this
    have := congrArg List.length h0
    rw [row_length ce (by omega), pick_row h hr hc] at this
    rw [this, List.length_map, iter_length]
  obtain ⟨fx, sx⟩ := hcard d.inputIdx x cx (fun i hi => ((h.inputs i).mp hi).1) rx
  obtain ⟨fy, -⟩ := hcard d.labelsIdx y cy h.labels ry
  have hX := toMat_columns cx
  have hY := toMat_columns cy
  rw [fx, rx] at hX
  rw [fy, ry] at hY
  have hcols : (toMat x).cols = d.size := by
    rw [hX.cols]; simp [rows_length]
  refine ⟨fitCall o (toMat x) (toMat y) epochs batch rate, ?_, ?_⟩
  · simp only [fit]
    rw [if_neg hn, hx, hy]
    rfl
  · have hv : visits (epochs * d.size) = some (epochs * d.size) := by
      rw [visits, if_neg (Nat.mul_pos he hr).ne']
    cases o <;> exact ⟨rfl, rfl, rfl, rfl, by rw [← hv, ← hcols]; rfl, hX, hY⟩

/-- Without a layer `fit` throws. -/
theorem C103_fit_throws_partial [Zero α] (d : Dataset α) (f : Mlpack.Fnn) (o : Nn.OptimizerType)
    (epochs batch : Nat) (rate : ℝ) (hn : f.names = 0) :
    ∃ m, fit f d o epochs batch rate = .throw m := by
  simp only [fit]
  rw [if_pos hn]
  exact ⟨_, rfl⟩

/-- `predict` of a data set with at least one row and no label columns: one row for every row, in order, what the
network of the library computes from it. -/
theorem C103_predict_partial [Zero α] {d : Dataset α} (h : Consistent d) (lib : Mat α → Mat α)
    (f : List α → List α) (k : Nat) (hlib : Samplewise lib f k) (hk : 0 < k) (hl : d.labelsIdx = ∅)
    (hr : 0 < d.size) :
    let r := predict lib d
    Consistent r ∧ r.featureSize = k ∧ r.sequenceSize = 1 ∧ r.labelsIdx = ∅ ∧
      rows r = (rows d).map fun x => f (pick d.inputIdx x) := by
  intro r
  have hne : rows d ≠ [] := by
    intro h0
    have := rows_length d
    rw [h0] at this
    simp at this
    omega
  have hm := hlib.2 _ _ _ (toMat_columns h) hne
  have hr' : r = ofVec ((rows d).map f).flatten k 1 ∅ := by
    show ofVec _ _ _ _ = _
    rw [elems_of_hasColumns hm, hm.rows]
  have hw := ofVec_whole (m := d.size) (ss := 1) (L := (rows d).map f) hm.heights (Or.inl hk)
    (by simp [rows_length]) ∅
  dsimp only at hw
  rw [← hr'] at hw
  obtain ⟨w1, w2⟩ := hw
  obtain ⟨a1, a2, -, a4⟩ := w2 (by simpa using hne)
  refine ⟨by rw [hr']; exact consistent_ofVec _ _ _ _, a1, a2, by rw [a4]; simp [keepLabels], ?_⟩
  rw [w1]
  apply List.map_congr_left
  intro x hx
  obtain ⟨i, hi, rfl⟩ := List.mem_map.mp hx
  rw [pick_all]
  intro j hj
  rw [row_length h (List.mem_range.mp hi)] at hj
  rw [h.inputs, hl]
  exact ⟨hj, by simp⟩

/-- What `predict` returns in general: the network gets whole rows, label columns included. -/
theorem C103_predict_actual_partial [Zero α] {d : Dataset α} (h : Consistent d) (lib : Mat α → Mat α)
    (f : List α → List α) (k : Nat) (hlib : Samplewise lib f k) (hk : 0 < k) (hr : 0 < d.size) :
    rows (predict lib d) = (rows d).map f := by
  have hne : rows d ≠ [] := by
    intro h0
    have := rows_length d
    rw [h0] at this
    simp at this
    omega
  have hm := hlib.2 _ _ _ (toMat_columns h) hne
  have hr' : predict lib d = ofVec ((rows d).map f).flatten k 1 ∅ := by
    show ofVec _ _ _ _ = _
    rw [elems_of_hasColumns hm, hm.rows]
  have hw := ofVec_whole (m := d.size) (ss := 1) (L := (rows d).map f) hm.heights (Or.inl hk)
    (by simp [rows_length]) ∅
  rw [hr']
  exact hw.1

/-- A library network that adds up each sample. -/
def adder (m : Mat ℤ) : Mat ℤ :=
  ⟨1, m.cols, (List.range m.cols).map fun j => (((List.range m.rows).map fun i => (m.get? i j).getD 0).sum)⟩

theorem adder_samplewise : Samplewise adder (fun x => [x.sum]) 1 := by
  refine ⟨fun x => rfl, ?_⟩
  intro m h columns hc _
  have e : adder m = ⟨1, columns.length, (columns.map fun x : List ℤ => [x.sum]).flatten⟩ := by
    simp only [adder]
    rw [hc.cols]
    congr 1
    have hs : ∀ L : List (List ℤ), (L.map fun x : List ℤ => [x.sum]).flatten = L.map List.sum := by
      intro L
      induction L with
      | nil => rfl
      | cons a t ih => rw [List.map_cons, List.flatten_cons, ih]; rfl
    rw [hs]
    apply List.ext_getElem
    · simp
    · intro j h1 h2
      have hj : j < columns.length := by simpa using h1
      simp only [List.getElem_map, List.getElem_range]
      congr 1
      have hcj := hc.heights _ (List.getElem_mem hj)
      apply List.ext_getElem
      · simp [hc.rows, hcj]
      · intro i h3 h4
        have hi : i < h := by rw [← hc.rows]; simpa using h3
        simp only [List.getElem_map, List.getElem_range]
        rw [hc.get j _ (List.getElem?_eq_getElem hj) i hi, List.getElem?_eq_getElem (by omega)]
        rfl
  rw [e]
  apply hasColumns_of_flatten
  · intro x hx
    obtain ⟨y, -, rfl⟩ := List.mem_map.mp hx
    rfl
  · simp

/-- A data set with a label column is predicted from the label too. -/
theorem C103_predict_refuted : ∃ (d : Dataset ℤ) (lib : Mat ℤ → Mat ℤ) (f : List ℤ → List ℤ),
    Consistent d ∧ Samplewise lib f 1 ∧ 0 < d.size ∧
      rows (predict lib d) ≠ (rows d).map fun x => f (pick d.inputIdx x) := by
  refine ⟨ofVec [1, 2, 3, 4] 2 1 {1}, adder, _, consistent_ofVec _ _ _ _, adder_samplewise, by decide, ?_⟩
  rw [C103_predict_actual_partial (consistent_ofVec _ _ _ _) _ _ 1 adder_samplewise Nat.one_pos (by decide)]
  decide

/-- With zero epochs the optimizer is created without a limit instead of doing nothing. -/
theorem C103_epochs_refuted [Zero α] {d : Dataset α} (h : Consistent d) (f : Mlpack.Fnn) (o : Nn.OptimizerType)
    (batch : Nat) (rate : ℝ) (hn : f.names ≠ 0) :
    ∃ c, fit f d o 0 batch rate = .ok c ∧ visits c.maxIterations = none := by
  obtain ⟨x, hx, -⟩ := C44_inputs h
  obtain ⟨y, hy, -⟩ := C44_labels h
  refine ⟨fitCall o (toMat x) (toMat y) 0 batch rate, ?_, ?_⟩
  · simp only [fit]
    rw [if_neg hn, hx, hy]
    rfl
  · cases o <;> simp [fitCall, visits]

/-- Two sequences of two rows with one label column. -/
example : let d := ofVec [1, 2, 3, 4, 5, 6, 7, (8 : ℤ)] 2 2 {1}
    Consistent d ∧ d.inputIdx ≠ ∅ ∧ d.labelsIdx ≠ ∅ ∧ 0 < d.size ∧ (toMat d).get? 1 2 = some 6 ∧
      (toMat d).cols = 4 := by
  intro d
  exact ⟨consistent_ofVec _ _ _ _, by decide, by decide, by decide, by decide, by decide⟩

end Verif.Props
