import Verif.Props.DataOps
import Verif.Proofs.DataNorm

/-! C48: min-max normalization. -/

namespace Verif.Props

open Verif.Data Verif.Spec

variable {α : Type}

/-- Column `j` of the dataset, top to bottom. -/
def column [Zero α] (d : Dataset α) (j : Nat) : List α := (rows d).map fun r => vec r j

theorem column_eq [Zero α] {d : Dataset α} {j : Nat} (hj : j < d.featureSize) (h : Consistent d) :
    column d j = tab d.size (fun i => vec d.data (i * d.featureSize + j)) := by
  unfold column rows tab
  rw [List.map_map]
  apply List.map_congr_left
  intro i hi
  have hi : i < d.size := by simpa using hi
  simp only [Function.comp_apply]
  rw [row_eq_tab h hi, vec_tab _ hj]

/-- **C48** (datasets with rows): every column is replaced by `(x - min) / (max - min)` with its own
least and greatest value, so in a column that is not constant every value is in [0,1] and the extremes
become 0 and 1.  Nothing but the data changes.  Missing: constant columns (`C48_constant_refuted`) and
datasets without rows (`C48_no_rows_refuted`). -/
theorem C48_normalize_partial {d : Dataset ℝ} (h : Consistent d) (hn : 0 < d.size) :
    ∃ data, d.normalize = .ok { d with data := data } ∧ Consistent { d with data := data } ∧
      ∀ j < d.featureSize, ∃ lo hi, IsLeast {x | x ∈ column d j} lo ∧ IsGreatest {x | x ∈ column d j} hi ∧
        (lo ≠ hi →
          column { d with data := data } j = (column d j).map (fun x => (x - lo) / (hi - lo)) ∧
          (∀ y ∈ column { d with data := data } j, 0 ≤ y ∧ y ≤ 1) ∧
          0 ∈ column { d with data := data } j ∧ 1 ∈ column { d with data := data } j) := by
  obtain ⟨data, lo, hi, h1, h2, h3, h4⟩ := normalize_ok h hn
  have hc : Consistent { d with data := data } := consistent_of_same h h2 rfl rfl rfl rfl rfl rfl rfl
  refine ⟨data, h1, hc, ?_⟩
  intro j hj
  obtain ⟨a, ⟨i1, b1, b2⟩, i2, c1, c2⟩ := h3 j hj
  have hcol := column_eq hj h
  have hcol' : column { d with data := data } j
      = (column d j).map (fun x => (x - lo j) / (hi j - lo j)) := by
    rw [column_eq (d := { d with data := data }) hj hc, hcol]
    unfold tab
    rw [List.map_map]
    apply List.map_congr_left
    intro i hi'
    exact h4 i (by simpa [Dataset.size] using hi') j hj
  have hmem : ∀ x, x ∈ column d j ↔ ∃ i < d.size, vec d.data (i * d.featureSize + j) = x := by
    intro x; rw [hcol]; simp [tab]
  have hlo : lo j ∈ column d j := (hmem _).mpr ⟨i1, b1, b2⟩
  have hhi : hi j ∈ column d j := (hmem _).mpr ⟨i2, c1, c2⟩
  have hle : ∀ x ∈ column d j, lo j ≤ x ∧ x ≤ hi j := by
    intro x hx
    obtain ⟨i, hi', rfl⟩ := (hmem x).mp hx
    exact a i hi'
  refine ⟨lo j, hi j, ⟨hlo, fun x hx => (hle x hx).1⟩, ⟨hhi, fun x hx => (hle x hx).2⟩, ?_⟩
  intro hne
  have hpos : 0 < hi j - lo j := by
    have := lt_of_le_of_ne (hle _ hlo).2 hne
    linarith
  refine ⟨hcol', ?_, ?_, ?_⟩
  · intro y hy
    rw [hcol'] at hy
    obtain ⟨x, hx, rfl⟩ := List.mem_map.mp hy
    obtain ⟨u, v⟩ := hle x hx
    constructor
    · exact div_nonneg (by linarith) hpos.le
    · rw [div_le_one hpos]; linarith
  · rw [hcol']
    exact List.mem_map.mpr ⟨lo j, hlo, by simp⟩
  · rw [hcol']
    exact List.mem_map.mpr ⟨hi j, hhi, div_self hpos.ne'⟩

/-- Numbers with the IEEE rule that a division by zero is not a number (infinities are merged into
`nan`). -/
inductive Fl
  | num (x : ℚ)
  | nan
deriving DecidableEq

namespace Fl
instance : Zero Fl := ⟨num 0⟩
instance : Sub Fl := ⟨fun x y => match x, y with
  | num a, num b => num (a - b)
  | _, _ => nan⟩
instance : Div Fl := ⟨fun x y => match x, y with
  | num a, num b => if b = 0 then nan else num (a / b)
  | _, _ => nan⟩
instance : LT Fl := ⟨fun x y => match x, y with
  | num a, num b => a < b
  | _, _ => False⟩
instance : DecidableLT Fl := fun x y => match x, y with
  | num a, num b => inferInstanceAs (Decidable (a < b))
  | num _, nan => isFalse id
  | nan, num _ => isFalse id
  | nan, nan => isFalse id
end Fl

/-- **C48 is false** for a constant column: it is divided by zero and becomes NaN, not a value in
[0,1]. -/
theorem C48_constant_refuted :
    ∃ d', (ofVec [Fl.num 5, Fl.num 1, Fl.num 5, Fl.num 3] 2 1 {1}).normalize = .ok d' ∧
      d'.data = [Fl.nan, Fl.num 0, Fl.nan, Fl.num 1] := by
  have h : (match (ofVec [Fl.num 5, Fl.num 1, Fl.num 5, Fl.num 3] 2 1 {1}).normalize with
      | .ok d => some d.data
      | _ => none) = some [Fl.nan, Fl.num 0, Fl.nan, Fl.num 1] := by
    decide +kernel
  split at h
  · rename_i d e
    exact ⟨d, e, Option.some.inj h⟩
  · cases h

/-- **C48 is false** for a dataset built with sequence size 0: it has columns but no rows, and its first
row is read nevertheless. -/
theorem C48_no_rows_refuted (fs : Nat) (hfs : 0 < fs) (v : List ℝ) (hv : v ≠ []) (labels : Finset Nat) :
    Consistent (ofVec v fs 0 labels) ∧ (ofVec v fs 0 labels).size = 0 ∧
      (ofVec v fs 0 labels).normalize = .ub := by
  refine ⟨consistent_ofVec _ _ _ _, by simp [ofVec, Dataset.size], ?_⟩
  have hl : 0 < v.length := List.length_pos_iff.mpr hv
  have h1 : (ofVec v fs 0 labels).data = [] := by simp [ofVec, resize]
  have h2 : ∃ m, (ofVec v fs 0 labels).featureSize = m + 1 :=
    ⟨min fs v.length - 1, by simp only [ofVec]; omega⟩
  obtain ⟨m, h2⟩ := h2
  unfold Dataset.normalize
  rw [h1, h2]
  rfl

/-- **C48**, explicit bounds: in the selected columns (all if none is given) every value `x` becomes
`(x - min) / (max - min)`, the other columns and everything but the data stay the same. -/
theorem C48_explicit_bounds [Zero α] [Sub α] [Div α] [DecidableEq α] {d : Dataset α} (h : Consistent d)
    {lo hi : α} (hne : lo ≠ hi) {cols : List Nat} (hnd : cols.Nodup) (hc : ∀ c ∈ cols, c < d.featureSize) :
    ∃ data, d.normalizeBy lo hi cols = .ok { d with data := data } ∧ Consistent { d with data := data } ∧
      ∀ j < d.featureSize, column { d with data := data } j
        = if j ∈ cols ∨ cols = [] then (column d j).map (fun x => (x - lo) / (hi - lo))
          else column d j := by
  obtain ⟨data, h1, h2, h3⟩ := normalizeBy_ok h hne hnd hc
  have hcon : Consistent { d with data := data } := consistent_of_same h h2 rfl rfl rfl rfl rfl rfl rfl
  refine ⟨data, h1, hcon, fun j hj => ?_⟩
  rw [column_eq (d := { d with data := data }) hj hcon, column_eq hj h]
  split
  · rename_i hm
    unfold tab
    rw [List.map_map]
    apply List.map_congr_left
    intro i hi'
    have := h3 i (by simpa [Dataset.size] using hi') j hj
    rw [if_pos hm] at this
    exact this
  · rename_i hm
    apply tab_congr
    intro i hi'
    have := h3 i hi' j hj
    rw [if_neg hm] at this
    exact this

/-- **C48**, explicit bounds: equal bounds are refused. -/
theorem C48_equal_bounds_throw [Sub α] [Div α] [DecidableEq α] (d : Dataset α) (lo : α) (cols : List Nat) :
    ∃ msg, d.normalizeBy lo lo cols = .throw msg := by
  unfold Dataset.normalizeBy
  rw [if_pos rfl]
  exact ⟨_, rfl⟩

/-- A dataset of two rows that is not constant in its second column. -/
example : Consistent (ofVec [5, 1, 5, (3 : ℝ)] 2 1 {1}) ∧ 0 < (ofVec [5, 1, 5, (3 : ℝ)] 2 1 {1}).size := by
  refine ⟨consistent_ofVec _ _ _ _, ?_⟩
  decide

end Verif.Props
