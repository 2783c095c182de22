import Verif.Proofs.CsvRef

/-
C81: CSV objects, rows and fields are independent values.
C56: several iterators.
-/

namespace Verif.Props

open Verif.Csv Verif.Spec Verif.Text

/-! ### C81 -/

/-- A program that destroys no CSV object and whose assignments are between objects of the same types does what it
would do if CSV objects, rows and fields were independent values. -/
theorem C81_values_partial {os : List Op} (hk : KeepsAll os) (ha : ({} : Values).AssignsAlike os) :
    ({} : World).run os = ({} : Values).run os := by
  have h := run_sim os rel_empty ha
  have hA : ({} : World).AllAlive ∧ KeepsAll os := ⟨fun c hc => absurd hc (Nat.not_lt_zero c), hk⟩
  rcases hw : ({} : World).run os with a | m | _ <;> rcases hv : ({} : Values).run os with b | m' | _ <;>
    rw [hw, hv] at h
  · rw [show a = b from h]
  · exact h.elim
  · exact h.elim
  · exact h.elim
  · rw [show m = m' from h]
  · exact h.elim
  · exact (h hA).elim
  · exact (h hA).elim

/-- If CSV objects are destroyed, the program still reports nothing but what it would report with independent
values, unless it has undefined behaviour. -/
theorem C81_destroyed_partial {os : List Op} (ha : ({} : Values).AssignsAlike os) :
    ({} : World).run os = .ub ∨ ({} : World).run os = ({} : Values).run os := by
  have h := run_sim os rel_empty ha
  rcases hw : ({} : World).run os with a | m | _ <;> rcases hv : ({} : Values).run os with b | m' | _ <;>
    rw [hw, hv] at h
  · right; rw [show a = b from h]
  · exact h.elim
  · exact h.elim
  · exact h.elim
  · right; rw [show m = m' from h]
  · exact h.elim
  · exact Or.inl rfl
  · exact Or.inl rfl
  · exact Or.inl rfl

/-- A file with a column of integers and one of texts. -/
def letters : List Char := "n,t\n1,x\n2,y\n".toList

/-- A file with one column of decimal fractions. -/
def decimals : List Char := "d\n1.5\n2.5\n".toList

/-- Assigning one field of a row to another changes the type of a column of the CSV object. -/
theorem C81_field_refuted : ¬ ∀ os : List Op, ({} : World).run os = ({} : Values).run os := by
  intro h
  have := h [.make letters [.auto] ',', .row 0 1, .field 0 0, .field 0 1, .setField 0 1, .seeCsv 0]
  revert this
  decide +kernel

/-- What the program of `C81_field_refuted` reports, with values and in fact. -/
theorem C81_field_actual :
    ({} : Values).run [.make letters [.auto] ',', .row 0 1, .field 0 0, .field 0 1, .setField 0 1, .seeCsv 0] =
      .ok [.csv [.int, .string] 2 3] ∧
    ({} : World).run [.make letters [.auto] ',', .row 0 1, .field 0 0, .field 0 1, .setField 0 1, .seeCsv 0] =
      .ok [.csv [.string, .string] 2 3] := by
  constructor <;> decide +kernel

/-- Assigning a row of one file to a row of another gives the CSV object of the second file, and the rows read
from it before, the types of the first. -/
theorem C81_row_refuted :
    ({} : Values).run [.make letters [.auto] ',', .make decimals [.auto] ',', .row 0 1, .row 0 2, .row 1 1,
      .setRow 0 2, .seeCsv 0, .seeRow 1] =
      .ok [.csv [.int, .string] 2 3, .row ['2', ',', 'y'] 2 2 [.int, .string]] ∧
    ({} : World).run [.make letters [.auto] ',', .make decimals [.auto] ',', .row 0 1, .row 0 2, .row 1 1,
      .setRow 0 2, .seeCsv 0, .seeRow 1] =
      .ok [.csv [.float] 2 3, .row ['2', ',', 'y'] 2 2 [.float]] := by
  constructor <;> decide +kernel

/-- A copy of a CSV object cannot be used after the original has been destroyed. -/
theorem C81_copy_refuted :
    ({} : Values).run [.make letters [.auto] ',', .copyCsv 0, .drop 0, .row 1 2, .seeRow 0] =
      .ok [.row ['2', ',', 'y'] 2 2 [.int, .string]] ∧
    ({} : World).run [.make letters [.auto] ',', .copyCsv 0, .drop 0, .row 1 2, .seeRow 0] = .ub := by
  constructor <;> decide +kernel

/-- A row cannot be asked for its types after its CSV object has been destroyed. -/
theorem C81_row_destroyed_refuted :
    ({} : Values).run [.make letters [.auto] ',', .row 0 2, .drop 0, .seeRow 0] =
      .ok [.row ['2', ',', 'y'] 2 2 [.int, .string]] ∧
    ({} : World).run [.make letters [.auto] ',', .row 0 2, .drop 0, .seeRow 0] = .ub := by
  constructor <;> decide +kernel

/-- A program to which `C81_values_partial` applies: rows of two files and of a copy, rows of one file exchanged. -/
example :
    let os : List Op := [.make letters [.auto] ',', .make decimals [.auto] ',', .copyCsv 0, .row 0 1, .row 2 2, .row 1 2,
      .copyRow 0, .setRow 0 1, .setRow 1 3, .field 0 1, .seeRow 0, .seeRow 1, .seeRow 2, .seeField 0]
    KeepsAll os ∧ ({} : Values).AssignsAlike os ∧
    ({} : World).run os = .ok [.row ['2', ',', 'y'] 2 2 [.int, .string], .row ['1', ',', 'x'] 1 2 [.int, .string],
      .row ['2', '.', '5'] 2 1 [.float], .field ['y'] .string 1] := by
  refine ⟨?_, ?_, by decide +kernel⟩
  · intro c hc
    simp at hc
  · exact assignsAlikeB_sound (by decide +kernel)

/-! ### C56: several iterators -/

/-- Iterators of a CSV object, copies of them and the results of `it++` and `it--` move independently: every one
shows the line of its own position, and two are equal iff their positions are. -/
theorem C56_iterators_partial {file : List Char} {ls : List (List Char)} {rest : List Char} {types : List Ty}
    {sep : Char} {c : Csv} (hl : Lines file ls rest) (h0 : ls ≠ []) (hw : ls.length < 2 ^ 64)
    (h : Csv.make (some file) types sep = .ok c) {os : List IOp} {seen : List Saw}
    (hs : runPositions ls [1, ls.length - 1] os = some seen) :
    runIters c.file [c.begin, c.finish] os = .ok seen := by
  obtain ⟨hf, hrows, -⟩ := make_fields h
  have hn : c.rows = ls.length := by rw [hrows]; rw [hl.2.2, count_lines hl.1 hl.2.1]
  have hp : 0 < ls.length := List.length_pos_iff.mpr h0
  rw [hf]
  refine runIters_spec hl h0 hw os (.cons ?_ (.cons ?_ .nil)) hs
  · unfold Csv.begin
    rw [hf]
    obtain ⟨a, b⟩ := iter_make hl h0 1
    exact ⟨a, b, hp⟩
  · unfold Csv.finish
    rw [hf, if_neg (by omega), hn]
    obtain ⟨a, b⟩ := iter_make hl h0 (ls.length - 1)
    exact ⟨a, b, by omega⟩

example : runPositions ["n,t".toList, "1,x".toList, "2,y".toList] [1, 2]
    [.look 0, .postNext 0, .look 2, .look 0, .same 0 1, .prev 2, .look 2, .copy 2, .same 3 1] =
    some [.line "1,x".toList 1, .line "1,x".toList 1, .line "2,y".toList 2, .same true, .line "n,t".toList 0,
      .same false] := by decide +kernel

end Verif.Props
