import Verif.Props.DataHist
import Verif.Proofs.Encoding

/-! C51: label encodings. -/

namespace Verif.Props

open Verif.Data Verif.Spec

variable {α : Type}

theorem oneHotLabels_ok [DecidableEq α] [Zero α] {p : Source α} (h : p.WellFormed) :
    ∃ ls, p.oneHotLabels = .ok ls ∧ ∀ i, i ∈ ls ↔ p.featureSize - p.labels.card ≤ i ∧ i < encSize p := by
  unfold Source.oneHotLabels
  rw [oneHotFeatureSize_ok h, Exec.bind_ok]
  refine ⟨_, rfl, fun i => ?_⟩
  simp only [List.mem_toFinset, List.mem_map, List.mem_range]
  constructor
  · rintro ⟨a, ha, rfl⟩; omega
  · intro hi
    exact ⟨i - (p.featureSize - p.labels.card), by omega, by omega⟩

/-- What one-hot encoding does for all label positions: a row keeps the values of its first columns (as
many as there are inputs) except that label columns among them become 0, and is followed by the one-hot
vectors of its labels in the order of their columns; exactly the columns of these vectors are labels. -/
theorem C51_actual [LinearOrder α] [Zero α] [One α] {p : Source α} (h : p.WellFormed) (hr : p.rows ≠ [])
    (hf : 0 < p.featureSize) :
    ∃ d, parseOneHot p 1 = .ok d ∧ Consistent d ∧
      rows d = p.rows.map (fun r =>
        ((List.range (p.featureSize - p.labels.card)).map fun c => if c ∈ p.labels then 0 else r.getD c 0)
          ++ labelBlocks p.rows (p.labels.sort (· ≤ ·)) r) ∧
      ∀ i, i ∈ d.labelsIdx ↔ p.featureSize - p.labels.card ≤ i ∧ i < d.featureSize := by
  obtain ⟨ls, hls, hmem⟩ := oneHotLabels_ok h
  have hE := encSize_ge h hr
  have hL : ∀ r ∈ p.rows.map (encRow p), r.length = encSize p := by
    intro r hr
    obtain ⟨x, _, rfl⟩ := List.mem_map.mp hr
    exact encRow_length p x
  obtain ⟨h1, h2⟩ := ofVec_whole (m := p.rows.length) (ss := 1) hL (.inl (by omega)) (by simp) ls
  obtain ⟨f1, f2, f3, f4⟩ := h2 (by simpa using hr)
  refine ⟨_, ?_, consistent_ofVec _ _ _ _, h1, ?_⟩
  · unfold parseOneHot
    rw [oneHotData_ok h, Exec.bind_ok, oneHotFeatureSize_ok h, Exec.bind_ok, hls, Exec.bind_ok]
  · intro i
    rw [f4, f1, mem_keepLabels, hmem]
    omega

/-- **C51** (labels in the last columns): every row consists of its inputs in order, followed by one
block per label that is 1 at the rank of the label's value among its distinct values and 0 elsewhere;
exactly the block columns are labels.  Missing: labels in other columns, see `C51_position_refuted`. -/
theorem C51_one_hot_partial [LinearOrder α] [Zero α] [One α] {p : Source α} (h : p.WellFormed)
    (hr : p.rows ≠ []) (hf : 0 < p.featureSize)
    (hlast : ∀ l ∈ p.labels, p.featureSize - p.labels.card ≤ l) :
    ∃ d, parseOneHot p 1 = .ok d ∧ Consistent d ∧
      rows d = p.rows.map (fun r => r.take (p.featureSize - p.labels.card)
        ++ labelBlocks p.rows (p.labels.sort (· ≤ ·)) r) ∧
      (∀ i, i ∈ d.labelsIdx ↔ p.featureSize - p.labels.card ≤ i ∧ i < d.featureSize) ∧
      ∀ i r, p.rows[i]? = some r →
        d.input i = .ok (r.take (p.featureSize - p.labels.card)) ∧
        d.label i = .ok (labelBlocks p.rows (p.labels.sort (· ≤ ·)) r) := by
  obtain ⟨d, h1, h2, h3, h4⟩ := C51_actual h hr hf
  have hrow : ∀ r ∈ p.rows, ((List.range (p.featureSize - p.labels.card)).map fun c =>
      if c ∈ p.labels then 0 else r.getD c 0) = r.take (p.featureSize - p.labels.card) := by
    intro r hr'
    have hlen := h.long r hr'
    apply List.ext_getElem?
    intro c
    by_cases hc : c < p.featureSize - p.labels.card
    · rw [List.getElem?_map, List.getElem?_range hc, List.getElem?_take_of_lt hc]
      simp only [Option.map_some]
      rw [if_neg (fun hm => by have := hlast c hm; omega)]
      simp [List.getElem?_eq_getElem (show c < r.length by omega)]
    · rw [List.getElem?_eq_none (by simpa using hc), List.getElem?_eq_none (by
        rw [List.length_take]; omega)]
  have h3' : rows d = p.rows.map (fun r => r.take (p.featureSize - p.labels.card)
        ++ labelBlocks p.rows (p.labels.sort (· ≤ ·)) r) := by
    rw [h3]
    apply List.map_congr_left
    intro r hr'
    rw [hrow r hr']
  refine ⟨d, h1, h2, h3', h4, ?_⟩
  intro i r hi
  have hil : i < p.rows.length := (List.getElem?_eq_some_iff.mp hi).1
  have hsz : d.size = p.rows.length := by
    have := congrArg List.length h3
    rw [rows_length, List.length_map] at this
    exact this
  have hrw : row d i = r.take (p.featureSize - p.labels.card)
        ++ labelBlocks p.rows (p.labels.sort (· ≤ ·)) r := by
    have := congrArg (fun l => l[i]?) h3'
    unfold rows at this
    rw [List.getElem?_map, List.getElem?_range (by omega), List.getElem?_map, hi] at this
    simpa using this
  have hlen := h.long r (List.mem_of_getElem? hi)
  have ha : (r.take (p.featureSize - p.labels.card)).length = p.featureSize - p.labels.card := by
    rw [List.length_take]; omega
  have hwidth := row_length h2 (show i < d.size by omega)
  rw [hrw, List.length_append, ha] at hwidth
  rw [input_ok h2 (by omega), label_ok h2 (by omega), hrw]
  have split_pick : ∀ (cols : Finset Nat) (a b : List α), (∀ j < a.length + b.length, (j ∈ cols ↔ a.length ≤ j)) →
      pick cols (a ++ b) = b := by
    intro cols a b hcols
    unfold pick
    rw [List.zipIdx_append, List.filter_append, List.map_append]
    have e1 : (a.zipIdx.filter fun q => decide (q.2 ∈ cols)) = [] := by
      rw [List.filter_eq_nil_iff]
      intro q hq
      have := List.snd_lt_of_mem_zipIdx hq
      have := (hcols q.2 (by omega)).not.mpr (by omega)
      simpa using this
    have e2 : ((b.zipIdx (0 + a.length)).filter fun q => decide (q.2 ∈ cols)) = b.zipIdx (0 + a.length) := by
      rw [List.filter_eq_self]
      intro q hq
      have h5 := List.snd_lt_of_mem_zipIdx hq
      have h6 := List.le_snd_of_mem_zipIdx hq
      have := (hcols q.2 (by omega)).mpr (by omega)
      simpa using this
    rw [e1, e2]
    simp
  have split_pick' : ∀ (cols : Finset Nat) (a b : List α), (∀ j < a.length + b.length, (j ∈ cols ↔ j < a.length)) →
      pick cols (a ++ b) = a := by
    intro cols a b hcols
    unfold pick
    rw [List.zipIdx_append, List.filter_append, List.map_append]
    have e1 : (a.zipIdx.filter fun q => decide (q.2 ∈ cols)) = a.zipIdx := by
      rw [List.filter_eq_self]
      intro q hq
      have := List.snd_lt_of_mem_zipIdx hq
      have := (hcols q.2 (by omega)).mpr (by omega)
      simpa using this
    have e2 : ((b.zipIdx (0 + a.length)).filter fun q => decide (q.2 ∈ cols)) = [] := by
      rw [List.filter_eq_nil_iff]
      intro q hq
      have h5 := List.snd_lt_of_mem_zipIdx hq
      have h6 := List.le_snd_of_mem_zipIdx hq
      have := (hcols q.2 (by omega)).not.mpr (by omega)
      simpa using this
    rw [e1, e2]
    simp
  constructor
  · rw [split_pick']
    intro j hj
    rw [h2.inputs, h4, ha]
    omega
  · rw [split_pick]
    intro j hj
    rw [h4, ha]
    omega

/-- **C51 is false** for a label in the first of two columns: of the inputs 5 and 6 nothing is left. -/
theorem C51_position_refuted :
    ∃ d, parseOneHot (⟨[[7, 5], [8, 6]], 2, {0}⟩ : Source ℤ) 1 = .ok d ∧
      rows d = [[0, 1, 0], [0, 0, 1]] ∧ 5 ∉ d.data ∧ 6 ∉ d.data := by
  obtain ⟨d, h1, h2, h3, _⟩ := C51_actual (p := (⟨[[7, 5], [8, 6]], 2, {0}⟩ : Source ℤ))
    ⟨by decide, by decide⟩ (by decide) (by decide)
  have hr : rows d = [[0, 1, 0], [0, 0, 1]] := by
    rw [h3]
    simp only [Finset.sort_singleton]
    decide
  refine ⟨d, h1, hr, ?_, ?_⟩
  · rw [← rows_flatten h2, hr]; decide
  · rw [← rows_flatten h2, hr]; decide

/-- Without encoding, `parse` keeps the rows and the label columns. -/
theorem C51_default [Zero α] {p : Source α} (h : p.WellFormed) (hr : p.rows ≠ []) (hf : 0 < p.featureSize) :
    ∃ d, parseDefault p 1 = .ok d ∧ Consistent d ∧ rows d = p.rows ∧ d.labelsIdx = p.labels := by
  have hdata : p.defaultData = .ok p.rows.flatten := by
    have hlen := length_flatten_rows h.long
    unfold Source.defaultData
    obtain ⟨f', g1, g2, _⟩ := forCells (α := α) (L := p.featureSize * p.rows.length) (n := p.rows.length)
      (fs := p.featureSize) (m := p.featureSize) (col := id)
      (g := fun i j _ => vec (p.rows.getD i []) j)
      (body := fun r col ret => do
        let row ← rd p.rows r
        let v ← rd row col
        wr ret (r * p.featureSize + col) v)
      (by rw [Nat.mul_comm]) (fun k hk => hk) (fun k _ k' _ e => e) (by
        intro i hi k hk f
        have hrr : p.rows[i]? = some (p.rows.getD i []) := by simp [List.getElem?_eq_getElem hi]
        have hl := h.long _ (List.mem_of_getElem? hrr)
        have hb : (i + 1) * p.featureSize ≤ p.rows.length * p.featureSize := Nat.mul_le_mul_right _ hi
        rw [Nat.add_one_mul, Nat.mul_comm p.rows.length] at hb
        rw [rd_of_some hrr, Exec.bind_ok, rd_vec (by omega), Exec.bind_ok, wr_tab _ _ (by omega)]
        rfl) (fun _ => 0)
    have hzero : List.replicate (p.featureSize * p.rows.length) (0 : α)
        = tab (p.featureSize * p.rows.length) fun _ => 0 := by
      apply List.ext_getElem <;> simp [tab]
    rw [hzero]
    have hcongr : forUp p.rows.length (tab (p.featureSize * p.rows.length) fun _ => (0 : α)) (fun r ret => (do
        let row ← rd p.rows r
        forUp p.featureSize ret fun col ret => do
          let v ← rd row col
          wr ret (r * p.featureSize + col) v))
        = forUp p.rows.length (tab (p.featureSize * p.rows.length) fun _ => (0 : α)) (fun r ret =>
          forUp p.featureSize ret fun col ret => (do
            let row ← rd p.rows r
            let v ← rd row col
            wr ret (r * p.featureSize + col) v)) := by
      apply forFrom_congr
      intro i s _ hi
      have hrr : p.rows[i]? = some (p.rows.getD i []) := by
        simp [List.getElem?_eq_getElem (show i < p.rows.length by omega)]
      rw [rd_of_some hrr]
      rfl
    rw [hcongr, g1]
    congr 1
    have hch := chunks_flatten p.featureSize p.rows.length (tab (p.featureSize * p.rows.length) f')
      (by simp [Nat.mul_comm])
    rw [List.take_of_length_le (by simp [Nat.mul_comm])] at hch
    rw [← hch]
    congr 1
    apply List.ext_getElem?
    intro i
    rw [List.getElem?_map]
    by_cases hi : i < p.rows.length
    · rw [List.getElem?_range hi, List.getElem?_eq_getElem hi]
      simp only [Option.map_some, Option.some.injEq]
      have hb : (i + 1) * p.featureSize ≤ p.rows.length * p.featureSize := Nat.mul_le_mul_right _ hi
      rw [Nat.add_one_mul, Nat.mul_comm p.rows.length] at hb
      have hl := h.long _ (List.getElem_mem hi)
      apply List.ext_getElem?
      intro c
      by_cases hcE : c < p.featureSize
      · have := g2 i hi c hcE
        dsimp only [id] at this
        rw [List.getElem?_take_of_lt hcE, List.getElem?_drop, tab_getElem? _ (by omega), this,
          getElem?_vec (by omega)]
        simp [List.getElem?_eq_getElem hi]
      · rw [List.getElem?_eq_none (by rw [List.length_take]; omega), List.getElem?_eq_none (by omega)]
    · rw [List.getElem?_eq_none (by simpa using hi), List.getElem?_eq_none (by simpa using hi)]
      rfl
  obtain ⟨h1, h2⟩ := ofVec_whole (m := p.rows.length) (ss := 1) h.long (.inl hf) (by simp) p.labels
  obtain ⟨f1, f2, f3, f4⟩ := h2 hr
  refine ⟨_, ?_, consistent_ofVec _ _ _ _, h1, ?_⟩
  · unfold parseDefault
    rw [hdata, Exec.bind_ok]
  · rw [f4]
    ext i
    rw [mem_keepLabels]
    exact ⟨fun hh => hh.1, fun hh => ⟨hh, h.labels i hh⟩⟩

/-- Two rows whose label is the last column. -/
example : (⟨[[5, 7], [6, 8]], 2, {1}⟩ : Source ℤ).WellFormed ∧
    ∀ l ∈ (⟨[[5, 7], [6, 8]], 2, {1}⟩ : Source ℤ).labels, 2 - 1 ≤ l :=
  ⟨⟨by decide, by decide⟩, by decide⟩

end Verif.Props
