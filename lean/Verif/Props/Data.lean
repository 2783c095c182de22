import Verif.Proofs.Data
import Mathlib.Data.List.Perm.Basic
import Mathlib.Tactic.Linarith

/-! C41–C50: datasets. -/

namespace Verif.Props

open Verif.Data Verif.Spec

variable {α : Type}

/-! ### C41: from a vector -/

/-- **C41**: the dataset is consistent; it keeps a prefix of the vector, whole sequences only, and as
many of them as fit; the feature size is the requested one, at most the length; the sequence size is
the requested one, at most the number of rows available; labels outside the columns are dropped. -/
theorem C41_of_vector [Zero α] (l : List α) (fs ss : Nat) (labels : Finset Nat) :
    let d := ofVec l fs ss labels
    Consistent d ∧ d.data <+: l ∧
    d.featureSize = min fs l.length ∧
    (0 < d.featureSize → d.sequenceSize = min ss (l.length / d.featureSize)) ∧
    (∃ k, d.data.length = k * (d.featureSize * d.sequenceSize) ∧ k = d.sequenceAmount) ∧
    (0 < d.featureSize * d.sequenceSize →
      l.length < d.data.length + d.featureSize * d.sequenceSize) ∧
    (∀ i, i ∈ d.labelsIdx ↔ i ∈ labels ∧ i < d.featureSize) := by
  intro d
  have hc : Consistent d := consistent_ofVec l fs ss labels
  have ht : d.datasetSize ≤ l.length := ofVec_total l fs ss labels
  have hd : d.data = l.take d.datasetSize := resize_take ht
  refine ⟨hc, ?_, rfl, ?_, ⟨d.sequenceAmount, ?_, rfl⟩, ?_, ?_⟩
  · rw [hd]; exact List.take_prefix _ _
  · intro hf
    change min ss (l.length / max d.featureSize 1) = _
    rw [max_eq_left (show 1 ≤ d.featureSize by omega)]
  · rw [hc.data, hc.seqs]; ring
  · intro hp
    rw [← hc.total]
    change _ < l.length / max (d.featureSize * d.sequenceSize) 1 * (d.featureSize * d.sequenceSize) + _
    rw [max_eq_left (show 1 ≤ d.featureSize * d.sequenceSize by omega)]
    have := Nat.lt_div_mul_add hp (a := l.length)
    exact this
  · intro i
    exact mem_keepLabels

/-- Seven numbers in rows of 2 and sequences of 3 rows: one sequence of three rows is kept, and the
label set {1, 5} becomes {1}. -/
example : let d := ofVec [1, 2, 3, 4, 5, 6, (7 : ℤ)] 2 3 {1, 5}
    d.data = [1, 2, 3, 4, 5, 6] ∧ d.size = 3 ∧ d.labelsIdx = {1} ∧ d.inputIdx = {0} := by decide

/-! ### C43: accessors -/

/-- **C43**: `entry`. -/
theorem C43_entry {d : Dataset α} (h : Consistent d) (i : Nat) :
    d.entry i = .ok (if i < d.size then row d i else []) := by
  by_cases hi : i < d.size
  · rw [if_pos hi, entry_ok h hi]
  · rw [if_neg hi]
    unfold Dataset.entry
    rw [if_pos (by unfold Dataset.size at hi; omega)]

/-- **C43**: `input`. -/
theorem C43_input [Zero α] {d : Dataset α} (h : Consistent d) (i : Nat) :
    d.input i = .ok (if i < d.size then pick d.inputIdx (row d i) else []) := by
  by_cases hi : i < d.size
  · rw [if_pos hi, input_ok h hi]
  · rw [if_neg hi]
    unfold Dataset.input
    rw [if_pos (by unfold Dataset.size at hi; omega)]

/-- **C43**: `label`. -/
theorem C43_label [Zero α] {d : Dataset α} (h : Consistent d) (i : Nat) :
    d.label i = .ok (if i < d.size then pick d.labelsIdx (row d i) else []) := by
  by_cases hi : i < d.size
  · rw [if_pos hi, label_ok h hi]
  · rw [if_neg hi]
    unfold Dataset.label
    rw [if_pos (.inl (by unfold Dataset.size at hi; omega))]

/-- **C43**: `entry_seq`. -/
theorem C43_entry_seq {d : Dataset α} (h : Consistent d) (s : Nat) :
    d.entrySeq s = .ok (if s < d.sequenceAmount then (seqRows d s).flatten else []) := by
  by_cases hs : s < d.sequenceAmount
  · rw [if_pos hs, entrySeq_ok h hs]
  · rw [if_neg hs]
    unfold Dataset.entrySeq
    rw [if_pos (by omega)]

/-- **C43**: `inputs_seq`. -/
theorem C43_inputs_seq [Zero α] {d : Dataset α} (h : Consistent d) (s : Nat) :
    d.inputsSeq s = .ok (if s < d.sequenceAmount then
      ((seqRows d s).map (pick d.inputIdx)).flatten else []) := by
  by_cases hs : s < d.sequenceAmount
  · rw [if_pos hs]
    unfold Dataset.inputsSeq
    rw [if_neg (by omega)]
    split
    · rename_i hc
      rw [entrySeq_ok h hs]
      congr 2
      conv_lhs => rw [← List.map_id (seqRows d s)]
      apply List.map_congr_left
      intro r hr
      obtain ⟨t, ht, rfl⟩ := List.mem_map.mp hr
      rw [pick_all]
      · rfl
      · rw [row_length h (seq_row_lt h hs (by simpa using ht))]
        exact inputs_all h hc
    · exact fieldSeq_ok h hs fun j hj => ((h.inputs j).mp hj).1
  · rw [if_neg hs]
    unfold Dataset.inputsSeq
    rw [if_pos (by omega)]

/-- **C43**: `labels_seq`. -/
theorem C43_labels_seq [Zero α] {d : Dataset α} (h : Consistent d) (s : Nat) :
    d.labelsSeq s = .ok (if s < d.sequenceAmount then
      ((seqRows d s).map (pick d.labelsIdx)).flatten else []) := by
  by_cases hs : s < d.sequenceAmount
  · rw [if_pos hs]
    unfold Dataset.labelsSeq
    by_cases he : d.labelsIdx = ∅
    · rw [if_pos (.inr he), he]
      congr 1
      symm
      rw [List.flatten_eq_nil_iff]
      intro l hl
      obtain ⟨r, _, rfl⟩ := List.mem_map.mp hl
      exact pick_empty r
    · rw [if_neg (by rintro (h' | h'); omega; exact he h')]
      exact fieldSeq_ok h hs h.labels
  · rw [if_neg hs]
    unfold Dataset.labelsSeq
    rw [if_pos (.inl (by omega))]

/-- **C43**: the rows have `feature_size()` values and are, one after the other, `data()`. -/
theorem C43_rows {d : Dataset α} (h : Consistent d) :
    (rows d).flatten = d.data ∧ ∀ r ∈ rows d, r.length = d.featureSize := by
  refine ⟨rows_flatten h, fun r hr => ?_⟩
  obtain ⟨i, hi, rfl⟩ := List.mem_map.mp hr
  exact row_length h (by simpa using hi)

/-! ### C44: inputs and labels -/

/-- The dataset made of the selected columns. -/
theorem columns_dataset [Zero α] {d : Dataset α} (h : Consistent d) {s : Finset Nat}
    (hs : ∀ j ∈ s, j < d.featureSize) :
    ∃ c, d.columns s = .ok c ∧ Consistent (ofVec c s.card d.sequenceSize ∅) ∧
      (ofVec c s.card d.sequenceSize ∅).labelsIdx = ∅ ∧
      rows (ofVec c s.card d.sequenceSize ∅) = if s = ∅ then [] else (rows d).map (pick s) := by
  have hc : d.columns s = .ok ((rows d).map (pick s)).flatten := by
    unfold Dataset.columns
    have : collect (fun row => collect (fun col => rd d.data (row * d.featureSize + col)) (iter s))
        (List.range d.featureAmount) = .ok ((rows d).map (pick s)) := by
      unfold rows
      rw [List.map_map]
      apply collect_ok
      intro i hi
      exact field_ok h (i := i) (by simpa [Dataset.size] using hi) hs
    rw [this]
    rfl
  refine ⟨_, hc, consistent_ofVec _ _ _ _, ?_, ?_⟩
  · ext i
    change i ∈ keepLabels _ ∅ ↔ _
    rw [mem_keepLabels]
    simp
  · have hlen : ∀ r ∈ (rows d).map (pick s), r.length = s.card := by
      intro r hr
      obtain ⟨r', hr', rfl⟩ := List.mem_map.mp hr
      obtain ⟨i, hi, rfl⟩ := List.mem_map.mp hr'
      rw [pick_row h (by simpa using hi) hs, List.length_map, iter_length]
    by_cases he : s = ∅
    · subst he
      rw [if_pos rfl]
      have : (((rows d).map (pick ∅)).flatten) = [] := by
        apply List.length_eq_zero_iff.mp
        rw [length_flatten_rows hlen]; simp
      rw [this, ofVec_nil]
      rfl
    · rw [if_neg he]
      have hcard : 0 < s.card := Finset.card_pos.mpr (Finset.nonempty_iff_ne_empty.mpr he)
      exact (ofVec_whole hlen (.inl hcard) (m := d.sequenceAmount)
        (by rw [List.length_map, rows_length, h.seqs]) ∅).1

/-- **C44**: `inputs()` is a dataset without labels that has, for each row, the row of its inputs (no
rows if there are no input columns). -/
theorem C44_inputs [Zero α] {d : Dataset α} (h : Consistent d) :
    ∃ r, d.inputs = .ok r ∧ Consistent r ∧ r.labelsIdx = ∅ ∧
      rows r = if d.inputIdx = ∅ then [] else (rows d).map (pick d.inputIdx) := by
  obtain ⟨c, h1, h2⟩ := columns_dataset h (s := d.inputIdx) fun j hj => ((h.inputs j).mp hj).1
  refine ⟨_, ?_, h2⟩
  unfold Dataset.inputs
  rw [h1, Exec.bind_ok]

/-- **C44**: `labels()` likewise. -/
theorem C44_labels [Zero α] {d : Dataset α} (h : Consistent d) :
    ∃ r, d.labels = .ok r ∧ Consistent r ∧ r.labelsIdx = ∅ ∧
      rows r = if d.labelsIdx = ∅ then [] else (rows d).map (pick d.labelsIdx) := by
  obtain ⟨c, h1, h2⟩ := columns_dataset h (s := d.labelsIdx) h.labels
  refine ⟨_, ?_, h2⟩
  unfold Dataset.labels
  rw [h1, Exec.bind_ok]

/-- **C44**: row `i` of `inputs()` is `input(i)`, row `i` of `labels()` is `label(i)`, for all `i`. -/
theorem C44_rows_agree [Zero α] {d : Dataset α} (h : Consistent d) (i : Nat) :
    (do let r ← d.inputs; r.entry i) = d.input i ∧ (do let r ← d.labels; r.entry i) = d.label i := by
  have key : ∀ (r : Dataset α) (s : Finset Nat), Consistent r →
      rows r = (if s = ∅ then [] else (rows d).map (pick s)) →
      r.entry i = .ok (if i < d.size then pick s (row d i) else []) := by
    intro r s hr hrows
    rw [C43_entry hr]
    have hsz : r.size = if s = ∅ then 0 else d.size := by
      rw [← rows_length, hrows]
      split
      · rfl
      · rw [List.length_map, rows_length]
    by_cases he : s = ∅
    · rw [if_pos he] at hsz
      rw [if_neg (by omega), he, pick_empty]
      simp
    · rw [if_neg he] at hsz hrows
      by_cases hi : i < d.size
      · rw [if_pos (by omega), if_pos hi]
        have h1 : (rows r)[i]? = some (row r i) := by
          unfold rows
          rw [List.getElem?_map, List.getElem?_range (by omega)]
          rfl
        rw [hrows] at h1
        unfold rows at h1
        rw [List.getElem?_map, List.getElem?_map, List.getElem?_range hi] at h1
        simp only [Option.map_some, Option.some.injEq] at h1
        rw [h1]
      · rw [if_neg (by omega), if_neg hi]
  obtain ⟨r1, e1, c1, _, w1⟩ := C44_inputs h
  obtain ⟨r2, e2, c2, _, w2⟩ := C44_labels h
  rw [e1, e2, C43_input h, C43_label h]
  exact ⟨key r1 _ c1 w1, key r2 _ c2 w2⟩

theorem pick_perm (s t : Finset Nat) : ∀ (r : List α), (∀ j < r.length, j ∈ t ↔ j ∉ s) →
    (pick s r ++ pick t r).Perm r := by
  intro r h
  have h1 : r.zipIdx.filter (fun p => decide (p.2 ∈ t)) = r.zipIdx.filter fun p => !decide (p.2 ∈ s) := by
    apply List.filter_congr
    intro p hp
    have := h p.2 (by have := List.snd_lt_of_mem_zipIdx hp; omega)
    by_cases h' : p.2 ∈ s <;> simp_all
  unfold pick
  rw [h1, ← List.map_append]
  have := (List.filter_append_perm (fun p : α × Nat => decide (p.2 ∈ s)) r.zipIdx).map Prod.fst
  simpa using this

/-- **C44**: inputs and labels of a row are, together, the values of the row. -/
theorem C44_partition [Zero α] {d : Dataset α} (h : Consistent d) (i : Nat) (hi : i < d.size) :
    ∃ x y e, d.input i = .ok x ∧ d.label i = .ok y ∧ d.entry i = .ok e ∧ (x ++ y).Perm e ∧
      x.length + y.length = d.featureSize := by
  have hp := pick_perm d.inputIdx d.labelsIdx (row d i) (by
    intro j hj
    rw [row_length h hi] at hj
    rw [h.inputs]
    simp [hj])
  refine ⟨_, _, _, input_ok h hi, label_ok h hi, entry_ok h hi, hp, ?_⟩
  rw [← List.length_append, hp.length_eq, row_length h hi]

/-! ### C46, C45: parts of a dataset -/

theorem slice_rows {d : Dataset α} (h : Consistent d) {a b : Nat} (hab : a ≤ b) (hb : b ≤ d.size) :
    slice d.data (a * d.featureSize) (b * d.featureSize)
      = .ok (((rows d).drop a).take (b - a)).flatten := by
  have hr := (C43_rows h)
  have h1 : a * d.featureSize ≤ b * d.featureSize := Nat.mul_le_mul_right _ hab
  have h2 : b * d.featureSize ≤ d.size * d.featureSize := Nat.mul_le_mul_right _ hb
  unfold slice
  rw [if_pos ⟨h1, by rw [h.data]; exact h2⟩]
  congr 1
  have h3 : d.data.drop (a * d.featureSize) = ((rows d).drop a).flatten := by
    have e1 := take_flatten_rows hr.2 a (by rw [rows_length]; omega)
    rw [hr.1] at e1
    have e2 : d.data = ((rows d).take a).flatten ++ ((rows d).drop a).flatten := by
      rw [← List.flatten_append, List.take_append_drop, hr.1]
    have e3 := List.take_append_drop (a * d.featureSize) d.data
    rw [e1] at e3
    conv_rhs at e3 => rw [e2]
    exact List.append_cancel_left e3
  rw [h3, ← Nat.sub_mul, take_flatten_rows (fun r hr' => hr.2 r (List.mem_of_mem_drop hr'))]
  rw [List.length_drop, rows_length]
  omega

/-- **C46**: `subdata(from, to)` throws exactly when `from` exceeds `min(to, size())`. -/
theorem C46_throws_iff [Zero α] {d : Dataset α} (h : Consistent d) (a b : Nat) :
    (∃ m, d.subdata a b = .throw m) ↔ min b d.size < a := by
  unfold Dataset.subdata
  have : (if b > d.featureAmount then d.featureAmount else b) = min b d.size := by
    unfold Dataset.size; split <;> omega
  dsimp only
  rw [this]
  constructor
  · rintro ⟨m, hm⟩
    by_contra hc
    rw [if_neg (by omega), slice_rows h (by omega) (by omega)] at hm
    cases hm
  · intro hlt
    rw [if_pos hlt]
    exact ⟨_, rfl⟩

/-- **C46**: otherwise it returns the requested rows as far as they make up whole sequences (fewer rows
than one sequence are kept as one short sequence); a non-empty result has the same columns and
labels. -/
theorem C46_returns [Zero α] {d : Dataset α} (h : Consistent d) (hf : 0 < d.featureSize ∨ d.size = 0)
    (a b : Nat) (hab : a ≤ min b d.size) :
    let n := min b d.size - a
    let s := min d.sequenceSize n
    ∃ r, d.subdata a b = .ok r ∧ Consistent r ∧
      rows r = ((rows d).drop a).take (n / max s 1 * s) ∧
      (0 < n → r.featureSize = d.featureSize ∧ r.sequenceSize = s ∧ r.labelsIdx = d.labelsIdx ∧
        r.inputIdx = d.inputIdx) := by
  intro n s
  have hmin : (if b > d.featureAmount then d.featureAmount else b) = min b d.size := by
    unfold Dataset.size; split <;> omega
  have hL : ∀ r ∈ ((rows d).drop a).take n, r.length = d.featureSize := fun r hr =>
    (C43_rows h).2 r (List.mem_of_mem_drop (List.mem_of_mem_take hr))
  have hlen : (((rows d).drop a).take n).length = n := by
    rw [List.length_take, List.length_drop, rows_length]; omega
  refine ⟨ofVec (((rows d).drop a).take n).flatten d.featureSize d.sequenceSize d.labelsIdx, ?_,
    consistent_ofVec _ _ _ _, ?_⟩
  · unfold Dataset.subdata
    dsimp only
    rw [hmin, if_neg (by omega), slice_rows h hab (by omega)]
    rfl
  · have hfs : 0 < d.featureSize ∨ ((rows d).drop a).take n = [] := by
      rcases hf with hf | hf
      · exact .inl hf
      · exact .inr (List.length_eq_zero_iff.mp (by omega))
    obtain ⟨h1, h2⟩ := ofVec_flatten hL hfs d.sequenceSize d.labelsIdx
    rw [hlen] at h1 h2
    have hle : n / max s 1 * s ≤ n := by
      by_cases hk : s = 0
      · rw [hk]; simp
      · rw [max_eq_left (show 1 ≤ s by omega)]
        exact Nat.div_mul_le_self _ _
    refine ⟨?_, fun hn => ?_⟩
    · rw [h1, List.take_take]
      congr 1
      exact min_eq_left hle
    · obtain ⟨e1, e2, e3⟩ := h2 (by intro e; rw [e] at hlen; simp at hlen; omega)
      have hlab : (ofVec (((rows d).drop a).take n).flatten d.featureSize d.sequenceSize
          d.labelsIdx).labelsIdx = d.labelsIdx := by
        rw [e3]
        ext i
        rw [mem_keepLabels]
        exact ⟨fun h => h.1, fun hi => ⟨hi, h.labels i hi⟩⟩
      refine ⟨e1, e2, hlab, ?_⟩
      ext i
      rw [(consistent_ofVec _ _ _ _).inputs, h.inputs, e1, hlab]

/-- **C46**: whole sequences are returned completely. -/
theorem C46_whole_sequences [Zero α] {d : Dataset α} (h : Consistent d)
    (hf : 0 < d.featureSize ∨ d.size = 0) (a b : Nat) (hab : a ≤ min b d.size)
    (hw : d.sequenceSize ∣ min b d.size - a) :
    ∃ r, d.subdata a b = .ok r ∧ Consistent r ∧ r.size = min b d.size - a ∧
      rows r = ((rows d).drop a).take (min b d.size - a) ∧
      (0 < r.size → r.featureSize = d.featureSize ∧ r.sequenceSize = d.sequenceSize ∧
        r.labelsIdx = d.labelsIdx ∧ r.inputIdx = d.inputIdx) := by
  obtain ⟨r, h1, h2, h3, h4⟩ := C46_returns h hf a b hab
  generalize hn : min b d.size - a = n at *
  have hkey : n / max (min d.sequenceSize n) 1 * min d.sequenceSize n = n ∧
      (0 < n → min d.sequenceSize n = d.sequenceSize) := by
    obtain ⟨c, hc⟩ := hw
    rcases Nat.eq_zero_or_pos n with h0 | h0
    · subst h0; simp
    · have hs : 0 < d.sequenceSize := by
        rcases Nat.eq_zero_or_pos d.sequenceSize with e | e
        · rw [e] at hc; simp at hc; omega
        · exact e
      have hle : d.sequenceSize ≤ n := Nat.le_of_dvd h0 ⟨c, hc⟩
      rw [min_eq_left hle, max_eq_left (show 1 ≤ d.sequenceSize by omega)]
      exact ⟨Nat.div_mul_cancel ⟨c, hc⟩, fun _ => rfl⟩
  rw [hkey.1] at h3
  have hsz : r.size = n := by
    rw [← rows_length, h3, List.length_take, List.length_drop, rows_length]
    omega
  refine ⟨r, h1, h2, hsz, h3, fun hp => ?_⟩
  obtain ⟨e1, e2, e3⟩ := h4 (by omega)
  exact ⟨e1, by rw [e2]; exact hkey.2 (by omega), e3⟩

/-- A rounding of results of floating-point operations that is monotone and leaves the integers up to
`n` as they are. -/
structure Rounding (n : Nat) (fl : ℝ → ℝ) : Prop where
  mono : Monotone fl
  exact : ∀ k ≤ n, fl k = k

theorem clamp_bounds (p : ℝ) : 0 ≤ clamp p ∧ clamp p ≤ 1 := by
  unfold clamp
  dsimp only
  split <;> split <;> constructor <;> linarith

/-- **C46**: `subdata(perc)` returns the first rows: as many as the rounded product of the size and the percentage,
with the percentage cut to the interval from 0 to 1, as far as they make up whole sequences. -/
theorem C46_percentage [Zero α] {d : Dataset α} (h : Consistent d) (hf : 0 < d.featureSize ∨ d.size = 0)
    (fl : ℝ → ℝ) (p : ℝ) :
    let n := min ⌊fl (max 0 (min 1 p) * d.size)⌋₊ d.size
    let s := min d.sequenceSize n
    ∃ r, d.subdataPerc fl p = .ok r ∧ Consistent r ∧ rows r = (rows d).take (n / max s 1 * s) ∧
      (0 < n → r.featureSize = d.featureSize ∧ r.sequenceSize = s ∧ r.labelsIdx = d.labelsIdx ∧
        r.inputIdx = d.inputIdx) := by
  intro n s
  have hc : clamp p = max 0 (min 1 p) := by
    unfold clamp
    dsimp only
    split_ifs with h1 h2 h2
    · norm_num at h2
    · rw [min_eq_left h1.le]; norm_num
    · rw [min_eq_right (not_lt.mp h1), max_eq_left h2.le]
    · rw [min_eq_right (not_lt.mp h1), max_eq_right (not_lt.mp h2)]
  obtain ⟨r, h1, h2, h3, h4⟩ := C46_returns h hf 0 ⌊fl (max 0 (min 1 p) * d.size)⌋₊ (Nat.zero_le _)
  refine ⟨r, ?_, h2, h3, h4⟩
  unfold Dataset.subdataPerc
  rw [hc]
  exact h1

/-- **C45** (non-empty datasets): `split(p)` returns two datasets whose rows, one after the other, are
the rows of the dataset; the cut is a multiple of the sequence size; a non-empty part has the same
columns, labels and sequence size.  For every `p` and every rounding.  Missing: the empty dataset, see
`C45_empty_refuted`. -/
theorem C45_split_partial [Zero α] {d : Dataset α} (h : Consistent d) (hne : d.isEmpty = false)
    (fl : ℝ → ℝ) (hfl : Rounding d.size fl) (p : ℝ) :
    ∃ train test, d.split fl p = .ok (train, test) ∧ Consistent train ∧ Consistent test ∧
      rows train ++ rows test = rows d ∧ d.sequenceSize ∣ train.size ∧
      ∀ r ∈ [train, test], 0 < r.size → r.featureSize = d.featureSize ∧
        r.sequenceSize = d.sequenceSize ∧ r.labelsIdx = d.labelsIdx ∧ r.inputIdx = d.inputIdx := by
  have hd : 0 < d.data.length := by
    unfold Dataset.isEmpty at hne
    rcases hq : d.data with _ | ⟨a, t⟩
    · rw [hq] at hne; simp at hne
    · simp
  rw [h.data] at hd
  have hsize : 0 < d.size := Nat.pos_of_mul_pos_right hd
  have hfs : 0 < d.featureSize := Nat.pos_of_mul_pos_left hd
  have hss : 0 < d.sequenceSize := by
    rw [h.seqs] at hsize
    exact Nat.pos_of_mul_pos_left hsize
  obtain ⟨c0, c1⟩ := clamp_bounds p
  have hbound : fl (fl (clamp p * d.featureAmount) / d.sequenceSize) ≤ (d.sequenceAmount : ℝ) := by
    have h1 : fl (clamp p * d.featureAmount) ≤ (d.size : ℝ) := by
      rw [← hfl.exact d.size (Nat.le_refl _)]
      apply hfl.mono
      have : (0 : ℝ) ≤ (d.featureAmount : ℝ) := Nat.cast_nonneg _
      unfold Dataset.size
      nlinarith
    have hsa : d.sequenceAmount ≤ d.size := by
      rw [h.seqs]; exact Nat.le_mul_of_pos_right _ hss
    rw [← hfl.exact d.sequenceAmount hsa]
    apply hfl.mono
    have hs' : (0 : ℝ) < (d.sequenceSize : ℝ) := by exact_mod_cast hss
    rw [div_le_iff₀ hs']
    have : (d.size : ℝ) = (d.sequenceAmount : ℝ) * (d.sequenceSize : ℝ) := by exact_mod_cast h.seqs
    linarith
  have hq : ⌊fl (fl (clamp p * d.featureAmount) / d.sequenceSize)⌋₊ ≤ d.sequenceAmount :=
    Nat.floor_le_of_le hbound
  generalize hcut : ⌊fl (fl (clamp p * d.featureAmount) / d.sequenceSize)⌋₊ = q at hq
  have hcs : q * d.sequenceSize ≤ d.size := by rw [h.seqs]; exact Nat.mul_le_mul_right _ hq
  obtain ⟨r1, a1, a2, a3, a4, a5⟩ := C46_whole_sequences h (.inl hfs) 0 (q * d.sequenceSize)
    (Nat.zero_le _) (by rw [min_eq_left hcs]; exact Dvd.intro_left _ rfl)
  obtain ⟨r2, b1, b2, b3, b4, b5⟩ := C46_whole_sequences h (.inl hfs) (q * d.sequenceSize)
    d.featureAmount (by change _ ≤ min d.size d.size; omega) (by
      change _ ∣ min d.size d.size - _
      rw [Nat.min_self, h.seqs, ← Nat.sub_mul]
      exact Dvd.intro_left _ rfl)
  rw [min_eq_left hcs, Nat.sub_zero] at a3 a4
  rw [show min d.featureAmount d.size = d.size from Nat.min_self _] at b3 b4
  refine ⟨r1, r2, ?_, a2, b2, ?_, ?_, ?_⟩
  · unfold Dataset.split
    rw [if_neg (by omega), hcut]
    dsimp only
    rw [a1, Exec.bind_ok, b1, Exec.bind_ok]
  · rw [a4, b4, List.drop_zero, List.take_of_length_le (l := List.drop _ _), List.take_append_drop]
    rw [List.length_drop, rows_length]
  · rw [a3]; exact Dvd.intro_left _ rfl
  · intro r hr
    rcases List.mem_cons.mp hr with rfl | hr
    · exact a5
    · rcases List.mem_cons.mp hr with rfl | hr
      · exact b5
      · cases hr

/-- **C45 is false** for the empty dataset: `split` divides by its sequence size, which is 0, and
converts the resulting NaN to an integer. -/
theorem C45_empty_refuted (fl : ℝ → ℝ) (p : ℝ) (fs ss : Nat) (labels : Finset Nat) :
    (ofVec ([] : List ℝ) fs ss labels).split fl p = .ub := by
  rw [ofVec_nil]
  rfl

/-- **C45**: in exact arithmetic, and for `p` between 0 and 1, the training set is the largest number of
whole sequences with at most `p * size()` rows. -/
theorem C45_proportion [Zero α] {d : Dataset α} (h : Consistent d) (hne : d.isEmpty = false)
    (p : ℝ) (hp0 : 0 ≤ p) (hp1 : p ≤ 1) :
    ∃ train test, d.split id p = .ok (train, test) ∧ (train.size : ℝ) ≤ p * d.size ∧
      p * d.size < train.size + d.sequenceSize := by
  obtain ⟨train, test, h1, h2, h3, h4, h5, h6⟩ := C45_split_partial h hne id
    ⟨monotone_id, fun _ _ => rfl⟩ p
  refine ⟨train, test, h1, ?_⟩
  have hs0 : d.sequenceSize ≠ 0 := by
    intro e
    unfold Dataset.split at h1
    rw [if_pos e] at h1
    cases h1
  have hs : (0 : ℝ) < (d.sequenceSize : ℝ) := by exact_mod_cast Nat.pos_of_ne_zero hs0
  have hcl : clamp p = p := by
    unfold clamp
    dsimp only
    have h1 : ¬ p > 1 := by linarith
    have h0 : ¬ p < 0 := by linarith
    simp only [h1, h0, if_false]
  have hsize : train.size = ⌊p * d.size / d.sequenceSize⌋₊ * d.sequenceSize := by
    unfold Dataset.split at h1
    rw [if_neg hs0] at h1
    dsimp only [id] at h1
    rw [hcl] at h1
    change (do let train ← d.subdata 0 (⌊p * d.size / d.sequenceSize⌋₊ * d.sequenceSize); _) = _ at h1
    have hle : ⌊p * d.size / d.sequenceSize⌋₊ * d.sequenceSize ≤ d.size := by
      have h7 : ⌊p * d.size / d.sequenceSize⌋₊ ≤ d.sequenceAmount := by
        apply Nat.floor_le_of_le
        rw [div_le_iff₀ hs]
        have e : (d.size : ℝ) = (d.sequenceAmount : ℝ) * (d.sequenceSize : ℝ) := by
          exact_mod_cast h.seqs
        have : (0 : ℝ) ≤ (d.size : ℝ) := Nat.cast_nonneg _
        nlinarith
      conv_rhs => rw [h.seqs]
      exact Nat.mul_le_mul_right _ h7
    have hd : 0 < d.data.length := by
      unfold Dataset.isEmpty at hne
      rcases hq : d.data with _ | ⟨a, t⟩
      · rw [hq] at hne; simp at hne
      · simp
    rw [h.data] at hd
    obtain ⟨r1, a1, _, a3, _⟩ := C46_whole_sequences h (.inl (Nat.pos_of_mul_pos_left hd)) 0
      (⌊p * d.size / d.sequenceSize⌋₊ * d.sequenceSize)
      (Nat.zero_le _) (by rw [min_eq_left hle]; exact Dvd.intro_left _ rfl)
    rw [a1, Exec.bind_ok] at h1
    obtain ⟨r2, _, hr2⟩ := Exec.bind_eq_ok h1
    cases hr2
    rw [a3, min_eq_left hle, Nat.sub_zero]
  have hnn : (0 : ℝ) ≤ p * d.size / d.sequenceSize :=
    div_nonneg (mul_nonneg hp0 (Nat.cast_nonneg _)) hs.le
  have hfl := Nat.floor_le hnn
  have hfl2 := Nat.lt_floor_add_one (p * (d.size : ℝ) / d.sequenceSize)
  rw [le_div_iff₀ hs] at hfl
  rw [div_lt_iff₀ hs] at hfl2
  have hc : (train.size : ℝ) = (⌊p * d.size / d.sequenceSize⌋₊ : ℝ) * d.sequenceSize := by
    rw [hsize]; push_cast; ring
  rw [hc]
  constructor
  · exact hfl
  · linarith

/-- Six rows in sequences of two: `split(0.6)` gives two rows (one sequence) and four. -/
example : Consistent (ofVec [1, 2, 3, 4, 5, (6 : ℝ)] 1 2 ∅) ∧
    (ofVec [1, 2, 3, 4, 5, (6 : ℝ)] 1 2 ∅).size = 6 ∧
    (ofVec [1, 2, 3, 4, 5, (6 : ℝ)] 1 2 ∅).isEmpty = false := by
  refine ⟨consistent_ofVec _ _ _ _, by simp [ofVec, Dataset.size], by
    simp [ofVec, Dataset.isEmpty, resize]⟩

end Verif.Props
