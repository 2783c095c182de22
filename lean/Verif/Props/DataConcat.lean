import Verif.Props.DataNorm
import Verif.Props.Concat

/-! C49: concatenation of datasets. -/

namespace Verif.Props

open Verif.Data Verif.Spec Verif.Concat

variable {α : Type}

/-- The dataset as a cube: sequences, rows of a sequence, features. -/
def cubeOf (d : Dataset α) : Shape3 := ⟨d.sequenceAmount, d.sequenceSize, d.featureSize⟩

theorem cube_size {d : Dataset α} (h : Consistent d) :
    d.data.length = (cubeOf d).h * (cubeOf d).w * (cubeOf d).c := by
  unfold cubeOf
  rw [h.data, h.seqs]

theorem nonempty_pos {d : Dataset α} (h : Consistent d) (he : d.isEmpty = false) :
    0 < d.sequenceAmount ∧ 0 < d.sequenceSize ∧ 0 < d.featureSize := by
  have hl : 0 < d.data.length := by
    unfold Dataset.isEmpty at he
    rcases hq : d.data with _ | ⟨a, t⟩
    · rw [hq] at he; cases he
    · simp
  rw [h.data, h.seqs] at hl
  have h1 := Nat.pos_of_mul_pos_right hl
  have h2 := Nat.pos_of_mul_pos_left hl
  exact ⟨Nat.pos_of_mul_pos_right h1, Nat.pos_of_mul_pos_left h1, h2⟩

/-- Everything about a successful concatenation, cell by cell. -/
theorem concat_cells [Zero α] {d1 d2 : Dataset α} (h1 : Consistent d1) (h2 : Consistent d2)
    (e1 : d1.isEmpty = false) (e2 : d2.isEmpty = false) {axis : Nat}
    (hj : Joinable (cubeOf d1) (cubeOf d2) axis) (hl : axis ≠ 2 → d1.labelsIdx = d2.labelsIdx) :
    ∃ r, concatenate d1 d2 axis = .ok r ∧ Consistent r ∧ cubeOf r = joined (cubeOf d1) (cubeOf d2) axis ∧
      r.labelsIdx = (if axis = 2 then ∅ else d1.labelsIdx) ∧
      ∀ i j k, InCube (cubeOf r) i j k →
        r.data[cellIdx (cubeOf r) i j k]? = joinedCell d1.data (cubeOf d1) d2.data (cubeOf d2) axis i j k := by
  obtain ⟨p1, p2, p3⟩ := nonempty_pos h1 e1
  obtain ⟨q1, q2, q3⟩ := nonempty_pos h2 e2
  have hset : (cubeOf d1).set axis ((cubeOf d1).get axis + (cubeOf d2).get axis)
      = joined (cubeOf d1) (cubeOf d2) axis := by
    have := hj.1
    rcases axis with _ | _ | _ | _
    · rfl
    · rfl
    · rfl
    · omega
  generalize hs : joined (cubeOf d1) (cubeOf d2) axis = s at hset
  have hpos : 0 < s.h ∧ 0 < s.w ∧ 0 < s.c := by
    rw [← hs]
    unfold joined cubeOf
    dsimp only
    refine ⟨?_, ?_, ?_⟩ <;> split <;> omega
  obtain ⟨d, c1, c2, c3, _⟩ := C01_concatenate_places (List.replicate s.size (0 : α)) d1.data d2.data
    (cubeOf d1) (cubeOf d2) axis hj (Nat.le_of_eq (cube_size h1).symm) (Nat.le_of_eq (cube_size h2).symm)
    (by rw [hs]; simp [Shape3.size])
  rw [hs] at c3
  have hdl : d.length = s.h * s.w * s.c := by rw [c2]; simp [Shape3.size]
  have hr := ofVec_rows (if axis = 2 then ∅ else d1.labelsIdx) hdl hpos.2.2 hpos.2.1 hpos.1
  have hcube : cubeOf (ofVec d s.c s.w (if axis = 2 then ∅ else d1.labelsIdx)) = s := by
    rw [hr]; rfl
  refine ⟨ofVec d s.c s.w (if axis = 2 then ∅ else d1.labelsIdx), ?_, consistent_ofVec _ _ _ _, hcube,
    ?_, ?_⟩
  · unfold concatenate
    rw [if_neg (by simp [e1]), if_neg (by simp [e2]), if_neg (by have := hj.1; omega),
      if_neg (by rintro ⟨a, b⟩; exact b (hl a))]
    change (do
      let res ← concatenate2 (List.replicate ((cubeOf d1).set axis ((cubeOf d1).get axis
        + (cubeOf d2).get axis)).size 0) d1.data (cubeOf d1) d2.data (cubeOf d2) axis
      Exec.ok (ofVec res ((cubeOf d1).set axis ((cubeOf d1).get axis + (cubeOf d2).get axis)).c
        ((cubeOf d1).set axis ((cubeOf d1).get axis + (cubeOf d2).get axis)).w _)) = _
    rw [hset, c1, Exec.bind_ok]
  · rw [hr]
    dsimp only
    ext i
    rw [mem_keepLabels]
    constructor
    · exact fun h => h.1
    · intro hi
      refine ⟨hi, ?_⟩
      by_cases ha : axis = 2
      · rw [if_pos ha] at hi; simp at hi
      · rw [if_neg ha] at hi
        have := h1.labels i hi
        rw [← hs]
        unfold joined cubeOf
        dsimp only
        rw [if_neg ha]
        exact this
  · intro i j k hin
    rw [hcube] at hin ⊢
    have := c3 i j k hin
    rw [hr]
    exact this

theorem row_of_cells {r : Dataset α} (h : Consistent r) {i : Nat} (hi : i < r.size) {L : List α}
    (hL : L.length = r.featureSize)
    (hc : ∀ k < r.featureSize, r.data[i * r.featureSize + k]? = L[k]?) : row r i = L := by
  have hl := row_length h hi
  apply List.ext_getElem?
  intro k
  by_cases hk : k < r.featureSize
  · rw [← hc k hk]
    unfold row
    rw [List.getElem?_take_of_lt hk, List.getElem?_drop]
  · rw [List.getElem?_eq_none (by omega), List.getElem?_eq_none (by omega)]

theorem row_cell {d : Dataset α} {i k : Nat} (hk : k < d.featureSize) :
    (row d i)[k]? = d.data[i * d.featureSize + k]? := by
  unfold row
  rw [List.getElem?_take_of_lt hk, List.getElem?_drop]

/-- **C49**, axis 0: the rows (and sequences) of the second dataset follow those of the first. -/
theorem C49_axis0 [Zero α] {d1 d2 : Dataset α} (h1 : Consistent d1) (h2 : Consistent d2)
    (e1 : d1.isEmpty = false) (e2 : d2.isEmpty = false) (hs : d1.sequenceSize = d2.sequenceSize)
    (hf : d1.featureSize = d2.featureSize) (hl : d1.labelsIdx = d2.labelsIdx) :
    ∃ r, concatenate d1 d2 0 = .ok r ∧ Consistent r ∧ rows r = rows d1 ++ rows d2 ∧
      r.featureSize = d1.featureSize ∧ r.sequenceSize = d1.sequenceSize ∧
      r.sequenceAmount = d1.sequenceAmount + d2.sequenceAmount ∧ r.labelsIdx = d1.labelsIdx := by
  obtain ⟨r, a1, a2, a3, a4, a5⟩ := concat_cells h1 h2 e1 e2 (axis := 0)
    ⟨by omega, fun h => absurd rfl h, fun _ => hs, fun _ => hf⟩ (fun _ => hl)
  have b1 : r.sequenceAmount = d1.sequenceAmount + d2.sequenceAmount := congrArg Shape3.h a3
  have b2 : r.sequenceSize = d1.sequenceSize := congrArg Shape3.w a3
  have b3 : r.featureSize = d1.featureSize := congrArg Shape3.c a3
  obtain ⟨p1, p2, p3⟩ := nonempty_pos h1 e1
  refine ⟨r, a1, a2, ?_, b3, b2, b1, a4⟩
  have hsize : r.size = d1.size + d2.size := by
    rw [a2.seqs, b1, b2, Nat.add_mul, ← h1.seqs, hs, ← h2.seqs]
  apply List.ext_getElem?
  intro i
  by_cases hi : i < r.size
  · have hi' : i / r.sequenceSize < r.sequenceAmount := by
      rw [Nat.div_lt_iff_lt_mul (by omega), ← a2.seqs]; exact hi
    have hm : i % r.sequenceSize < r.sequenceSize := Nat.mod_lt _ (by omega)
    have hdm : i / r.sequenceSize * r.sequenceSize + i % r.sequenceSize = i := by
      rw [Nat.mul_comm]; exact Nat.div_add_mod _ _
    have hcell : ∀ k < r.featureSize, r.data[i * r.featureSize + k]? = _ := fun k hk =>
      (by rw [cellIdx, show (cubeOf r).w = r.sequenceSize from rfl, hdm]; rfl :
        r.data[i * r.featureSize + k]?
          = r.data[cellIdx (cubeOf r) (i / r.sequenceSize) (i % r.sequenceSize) k]?).trans
        (a5 (i / r.sequenceSize) (i % r.sequenceSize) k ⟨hi', hm, hk⟩)
    have hrr : (rows r)[i]? = some (row r i) := by
      unfold rows
      rw [List.getElem?_map, List.getElem?_range hi]
      rfl
    rw [hrr]
    by_cases hlt : i < d1.size
    · rw [List.getElem?_append_left (by rw [rows_length]; exact hlt)]
      unfold rows
      rw [List.getElem?_map, List.getElem?_range hlt]
      simp only [Option.map_some, Option.some.injEq]
      apply row_of_cells a2 hi (by rw [row_length h1 hlt, b3])
      intro k hk
      rw [hcell k hk, row_cell (by omega)]
      have : i / r.sequenceSize < (cubeOf d1).h := by
        change _ < d1.sequenceAmount
        rw [Nat.div_lt_iff_lt_mul (by omega), b2, ← h1.seqs]
        exact hlt
      unfold joinedCell
      rw [if_pos rfl, if_pos this, cellIdx]
      change d1.data[(i / r.sequenceSize * d1.sequenceSize + _) * d1.featureSize + k]? = _
      rw [← b2, hdm]
    · have hlt' : i - d1.size < d2.size := by omega
      rw [List.getElem?_append_right (by rw [rows_length]; omega), rows_length]
      unfold rows
      rw [List.getElem?_map, List.getElem?_range hlt']
      simp only [Option.map_some, Option.some.injEq]
      apply row_of_cells a2 hi (by rw [row_length h2 hlt', b3, hf])
      intro k hk
      rw [hcell k hk, row_cell (by omega)]
      have hge : ¬ i / r.sequenceSize < (cubeOf d1).h := by
        change ¬ _ < d1.sequenceAmount
        rw [Nat.div_lt_iff_lt_mul (by omega), b2, ← h1.seqs]
        exact hlt
      unfold joinedCell
      rw [if_pos rfl, if_neg hge, cellIdx]
      change d2.data[((i / r.sequenceSize - d1.sequenceAmount) * d2.sequenceSize + _) * d2.featureSize + k]? = _
      rw [← hs, ← b2, Nat.sub_mul]
      have hge' : d1.sequenceAmount * r.sequenceSize ≤ i / r.sequenceSize * r.sequenceSize :=
        Nat.mul_le_mul_right _ (Nat.not_lt.mp hge)
      have : i / r.sequenceSize * r.sequenceSize - d1.sequenceAmount * r.sequenceSize
          + i % r.sequenceSize = i - d1.size := by
        rw [h1.seqs, ← b2]; omega
      rw [this]
  · rw [List.getElem?_eq_none (by rw [rows_length]; omega),
      List.getElem?_eq_none (by rw [List.length_append, rows_length, rows_length]; omega)]

/-- **C49**, axis 1: sequence `s` of the result is sequence `s` of the first dataset followed by
sequence `s` of the second. -/
theorem C49_axis1 [Zero α] {d1 d2 : Dataset α} (h1 : Consistent d1) (h2 : Consistent d2)
    (e1 : d1.isEmpty = false) (e2 : d2.isEmpty = false) (hs : d1.sequenceAmount = d2.sequenceAmount)
    (hf : d1.featureSize = d2.featureSize) (hl : d1.labelsIdx = d2.labelsIdx) :
    ∃ r, concatenate d1 d2 1 = .ok r ∧ Consistent r ∧
      (∀ s < r.sequenceAmount, seqRows r s = seqRows d1 s ++ seqRows d2 s) ∧
      r.featureSize = d1.featureSize ∧ r.sequenceSize = d1.sequenceSize + d2.sequenceSize ∧
      r.sequenceAmount = d1.sequenceAmount ∧ r.labelsIdx = d1.labelsIdx := by
  obtain ⟨r, a1, a2, a3, a4, a5⟩ := concat_cells h1 h2 e1 e2 (axis := 1)
    ⟨by omega, fun _ => hs, fun h => absurd rfl h, fun _ => hf⟩ (fun _ => hl)
  have b1 : r.sequenceAmount = d1.sequenceAmount := congrArg Shape3.h a3
  have b2 : r.sequenceSize = d1.sequenceSize + d2.sequenceSize := congrArg Shape3.w a3
  have b3 : r.featureSize = d1.featureSize := congrArg Shape3.c a3
  refine ⟨r, a1, a2, ?_, b3, b2, b1, a4⟩
  intro s hs'
  apply List.ext_getElem?
  intro t
  by_cases ht : t < r.sequenceSize
  · have hrow := seq_row_lt a2 hs' ht
    have hcell : ∀ k < r.featureSize, r.data[(s * r.sequenceSize + t) * r.featureSize + k]? = _ :=
      fun k hk => a5 s t k ⟨hs', ht, hk⟩
    have hrr : (seqRows r s)[t]? = some (row r (s * r.sequenceSize + t)) := by
      unfold seqRows
      rw [List.getElem?_map, List.getElem?_range ht]
      rfl
    rw [hrr]
    by_cases hlt : t < d1.sequenceSize
    · rw [List.getElem?_append_left (by simpa [seqRows] using hlt)]
      unfold seqRows
      rw [List.getElem?_map, List.getElem?_range hlt]
      simp only [Option.map_some, Option.some.injEq]
      apply row_of_cells a2 hrow (by rw [row_length h1 (seq_row_lt h1 (by omega) hlt), b3])
      intro k hk
      rw [hcell k hk, row_cell (by omega)]
      unfold joinedCell
      rw [if_neg (by omega), if_pos rfl, if_pos (show t < (cubeOf d1).w from hlt)]
      rfl
    · have hlt' : t - d1.sequenceSize < d2.sequenceSize := by omega
      rw [List.getElem?_append_right (by simp [seqRows]; omega)]
      unfold seqRows
      rw [List.length_map, List.length_range, List.getElem?_map, List.getElem?_range hlt']
      simp only [Option.map_some, Option.some.injEq]
      apply row_of_cells a2 hrow (by rw [row_length h2 (seq_row_lt h2 (by omega) hlt'), b3, hf])
      intro k hk
      rw [hcell k hk, row_cell (by omega)]
      unfold joinedCell
      rw [if_neg (by omega), if_pos rfl, if_neg (show ¬ t < (cubeOf d1).w from hlt)]
      rfl
  · rw [List.getElem?_eq_none (by simp [seqRows]; omega),
      List.getElem?_eq_none (by simp [seqRows]; omega)]

/-- **C49**, axis 2: row `i` of the result is row `i` of the first dataset followed by row `i` of the
second; no column is a label. -/
theorem C49_axis2 [Zero α] {d1 d2 : Dataset α} (h1 : Consistent d1) (h2 : Consistent d2)
    (e1 : d1.isEmpty = false) (e2 : d2.isEmpty = false) (hs : d1.sequenceAmount = d2.sequenceAmount)
    (hw : d1.sequenceSize = d2.sequenceSize) :
    ∃ r, concatenate d1 d2 2 = .ok r ∧ Consistent r ∧ r.size = d1.size ∧
      (∀ i < r.size, row r i = row d1 i ++ row d2 i) ∧
      r.featureSize = d1.featureSize + d2.featureSize ∧ r.sequenceSize = d1.sequenceSize ∧
      r.sequenceAmount = d1.sequenceAmount ∧ r.labelsIdx = ∅ := by
  obtain ⟨r, a1, a2, a3, a4, a5⟩ := concat_cells h1 h2 e1 e2 (axis := 2)
    ⟨by omega, fun _ => hs, fun _ => hw, fun h => absurd rfl h⟩ (fun h => absurd rfl h)
  have b1 : r.sequenceAmount = d1.sequenceAmount := congrArg Shape3.h a3
  have b2 : r.sequenceSize = d1.sequenceSize := congrArg Shape3.w a3
  have b3 : r.featureSize = d1.featureSize + d2.featureSize := congrArg Shape3.c a3
  obtain ⟨p1, p2, p3⟩ := nonempty_pos h1 e1
  have hsize : r.size = d1.size := by rw [a2.seqs, h1.seqs, b1, b2]
  have hsize2 : r.size = d2.size := by rw [a2.seqs, h2.seqs, b1, b2, hs, hw]
  refine ⟨r, a1, a2, hsize, ?_, b3, b2, b1, a4⟩
  intro i hi
  have hi' : i / r.sequenceSize < r.sequenceAmount := by
    rw [Nat.div_lt_iff_lt_mul (by omega), ← a2.seqs]; exact hi
  have hm : i % r.sequenceSize < r.sequenceSize := Nat.mod_lt _ (by omega)
  have hdm : i / r.sequenceSize * r.sequenceSize + i % r.sequenceSize = i := by
    rw [Nat.mul_comm]; exact Nat.div_add_mod _ _
  have hl1 := row_length h1 (show i < d1.size by omega)
  have hl2 := row_length h2 (show i < d2.size by omega)
  apply row_of_cells a2 hi (by rw [List.length_append, hl1, hl2, b3])
  intro k hk
  have hcell := (by rw [cellIdx, show (cubeOf r).w = r.sequenceSize from rfl, hdm]; rfl :
        r.data[i * r.featureSize + k]?
          = r.data[cellIdx (cubeOf r) (i / r.sequenceSize) (i % r.sequenceSize) k]?).trans
        (a5 (i / r.sequenceSize) (i % r.sequenceSize) k ⟨hi', hm, hk⟩)
  rw [hcell]
  unfold joinedCell
  rw [if_neg (by omega), if_neg (by omega)]
  by_cases hlt : k < d1.featureSize
  · rw [if_pos (show k < (cubeOf d1).c from hlt), List.getElem?_append_left (by omega), row_cell hlt, cellIdx]
    change d1.data[(i / r.sequenceSize * d1.sequenceSize + _) * d1.featureSize + k]? = _
    rw [← b2, hdm]
  · rw [if_neg (show ¬ k < (cubeOf d1).c from hlt), List.getElem?_append_right (by omega), hl1,
      row_cell (by omega), cellIdx]
    change d2.data[(i / r.sequenceSize * d2.sequenceSize + _) * d2.featureSize + (k - d1.featureSize)]? = _
    rw [← hw, ← b2, hdm]

/-- **C49**: two non-empty datasets are refused exactly when there is no such axis, when the labels
differ (except along the features), or when they differ in one of the other two dimensions. -/
theorem C49_throws_iff [Zero α] {d1 d2 : Dataset α} (h1 : Consistent d1) (h2 : Consistent d2)
    (e1 : d1.isEmpty = false) (e2 : d2.isEmpty = false) (axis : Nat) :
    (∃ m, concatenate d1 d2 axis = .throw m) ↔
      axis > 2 ∨ (axis ≠ 2 ∧ d1.labelsIdx ≠ d2.labelsIdx) ∨
      (axis ≠ 0 ∧ d1.sequenceAmount ≠ d2.sequenceAmount) ∨
      (axis ≠ 1 ∧ d1.sequenceSize ≠ d2.sequenceSize) ∨
      (axis ≠ 2 ∧ d1.featureSize ≠ d2.featureSize) := by
  constructor
  · rintro ⟨m, hm⟩
    by_contra hc
    push Not at hc
    obtain ⟨c1, c2, c3, c4, c5⟩ := hc
    obtain ⟨r, a1, _⟩ := concat_cells h1 h2 e1 e2 (axis := axis) ⟨by omega, c3, c4, c5⟩ c2
    rw [a1] at hm
    cases hm
  · intro h
    unfold concatenate
    rw [if_neg (by simp [e1]), if_neg (by simp [e2])]
    by_cases c1 : axis > 2
    · rw [if_pos c1]; exact ⟨_, rfl⟩
    by_cases c2 : axis ≠ 2 ∧ d1.labelsIdx ≠ d2.labelsIdx
    · rw [if_neg c1, if_pos c2]; exact ⟨_, rfl⟩
    rw [if_neg c1, if_neg c2]
    obtain ⟨m, hm⟩ := (C01_concatenate_throws_iff (List.replicate ((cubeOf d1).set axis
      ((cubeOf d1).get axis + (cubeOf d2).get axis)).size (0 : α)) d1.data d2.data (cubeOf d1) (cubeOf d2)
      axis).mpr (by
        rintro ⟨_, g1, g2, g3⟩
        rcases h with h | h | h | h | h
        · exact c1 h
        · exact c2 h
        · exact h.2 (g1 h.1)
        · exact h.2 (g2 h.1)
        · exact h.2 (g3 h.1))
    refine ⟨m, ?_⟩
    unfold cubeOf at hm
    dsimp only
    rw [hm]
    rfl

/-- **C49**: an empty dataset is neutral, for every axis. -/
theorem C49_empty_neutral [Zero α] (d e : Dataset α) (he : e.isEmpty = true) (axis : Nat) :
    concatenate e d axis = .ok d ∧ (d.isEmpty = false → concatenate d e axis = .ok d) := by
  unfold concatenate
  constructor
  · rw [if_pos he]
  · intro hd
    rw [if_neg (by simp [hd]), if_pos he]

/-- Two datasets that can be joined along every axis. -/
example : ∃ d1 d2 : Dataset ℤ, Consistent d1 ∧ Consistent d2 ∧ d1.isEmpty = false ∧ d2.isEmpty = false ∧
    d1.sequenceAmount = d2.sequenceAmount ∧ d1.sequenceSize = d2.sequenceSize ∧
    d1.featureSize = d2.featureSize ∧ d1.labelsIdx = d2.labelsIdx ∧ d1.sequenceSize = 2 :=
  ⟨ofVec [1, 2, 3, 4, 5, 6, 7, 8] 2 2 {1}, ofVec [9, 8, 7, 6, 5, 4, 3, 2] 2 2 {1},
    consistent_ofVec _ _ _ _, consistent_ofVec _ _ _ _, rfl, rfl, rfl, rfl, rfl, rfl, rfl⟩

end Verif.Props
