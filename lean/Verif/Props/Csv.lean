import Verif.Proofs.Csv
import Mathlib.Data.List.Forall2

/-
C55, C56, C57 and C65: CSV files.
-/

namespace Verif.Props

open Verif.Spec Verif.Csv Verif.Text

/-! ### C57: fields of a row -/

/-- A row built from a line has one more field than the line has separators. -/
theorem C57_columns (line : List Char) (idx : Nat) (types : List Ty) (sep : Char) :
    (Row.counted line idx types sep).1.cols = line.count sep + 1 := rfl

/-- That is the number of pieces of the line. -/
theorem C57_count {line : List Char} {sep : Char} {ps : List (List Char)} (h : Cut sep line ps) (idx : Nat)
    (types : List Ty) : (Row.counted line idx types sep).1.cols = ps.length := by
  obtain ⟨h1, h2, h3⟩ := h
  subst h3
  exact cut_count h1 h2

/-- Every row, whatever its number of columns: `row[i]` is the `i`-th piece of the line, except that an empty last
piece and a missing piece are reported as missing. -/
theorem C57_access_partial {r : Row} {types : List Ty} {ps : List (List Char)} (h : Cut r.sep r.line ps)
    (ht : types.length = r.cols) (ha : Ty.auto ∉ types) (i : Nat) :
    (i ≥ r.cols → r.get types i = .throw "operator[] failed: idx >= this->_cols_amount") ∧
    (∀ p, i < r.cols → ps[i]? = some p → ¬ (i + 1 = ps.length ∧ p = []) →
      ∃ t, types[i]? = some t ∧ r.get types i = .ok (p, t)) ∧
    (i < r.cols → (ps[i]? = none ∨ (i + 1 = ps.length ∧ ps[i]? = some [])) →
      r.get types i = .throw "CSV bad format: fields missing") := by
  obtain ⟨h1, h2, h3⟩ := h
  have hl : Left (Js.In.on r.line) (join r.sep ps) := h3 ▸ left_on _
  refine ⟨fun hi => ?_, fun p hi hp hn => ?_, fun hi hp => ?_⟩
  · unfold Row.get
    rw [if_pos hi]
  · have hti : i < types.length := by omega
    refine ⟨types[i], List.getElem?_eq_getElem hti, ?_⟩
    unfold Row.get
    rw [if_neg (by omega)]
    rcases scan_spec h2 hl hp with ⟨k, -⟩ | ⟨-, k⟩
    · exact absurd k hn
    · have : types[i] ≠ Ty.auto := fun e => ha (e ▸ List.getElem_mem hti)
      rw [k, Exec.bind_ok, List.getElem?_eq_getElem hti]
      dsimp only
      rw [if_neg this]
  · unfold Row.get
    rw [if_neg (by omega)]
    rcases hp with hp | ⟨k1, k2⟩
    · rw [scan_missing h1 h2 hl (List.getElem?_eq_none_iff.mp hp)]
      rfl
    · rcases scan_spec h2 hl k2 with ⟨-, k⟩ | ⟨k, -⟩
      · rw [k]
        rfl
      · exact absurd ⟨k1, rfl⟩ k

/-- A row built from a line: `row[i]` is the `i`-th piece, except for an empty last one.  Missing: the empty last
piece. -/
theorem C57_pieces_partial {line : List Char} {sep : Char} {ps : List (List Char)} (h : Cut sep line ps) (idx : Nat)
    (types : List Ty) {i : Nat} {p : List Char} (hp : ps[i]? = some p) (hn : ¬ (i + 1 = ps.length ∧ p = [])) :
    ∃ t, (Row.counted line idx types sep).1.get (Row.counted line idx types sep).2 i = .ok (p, t) := by
  have hc := C57_count h idx types
  have hi : i < ps.length := (List.getElem?_eq_some_iff.mp hp).1
  have hty : (Row.counted line idx types sep).2.length = (Row.counted line idx types sep).1.cols ∧
      Ty.auto ∉ (Row.counted line idx types sep).2 := by
    unfold Row.counted Row.make
    dsimp only
    split
    · refine ⟨by simp [pieces_length], fun hm => ?_⟩
      obtain ⟨v, -, hv⟩ := List.mem_map.mp hm
      exact parseType_ne_auto v hv
    · rename_i hn
      exact ⟨Decidable.byContradiction fun hc => hn (Or.inr (Or.inr hc)), fun hm => hn (Or.inl hm)⟩
  obtain ⟨t, -, ht⟩ := (C57_access_partial (r := (Row.counted line idx types sep).1) h hty.1 hty.2 i).2.1 p
    (by omega) hp hn
  exact ⟨t, ht⟩

/-- An index past the end throws. -/
theorem C57_past_end {line : List Char} {sep : Char} {ps : List (List Char)} (h : Cut sep line ps) (idx : Nat)
    (types types' : List Ty) {i : Nat} (hi : ps.length ≤ i) :
    ∃ m, (Row.counted line idx types sep).1.get types' i = .throw m := by
  refine ⟨"operator[] failed: idx >= this->_cols_amount", ?_⟩
  unfold Row.get
  rw [if_pos (by rw [C57_count h]; exact hi)]

/-- The conversion of a row to texts gives exactly the pieces, also the empty ones. -/
theorem C57_strings {line : List Char} {sep : Char} {ps : List (List Char)} (h : Cut sep line ps) (idx : Nat)
    (types : List Ty) : (Row.counted line idx types sep).1.strings = ps := by
  have hc := C57_count h idx types
  obtain ⟨h1, h2, h3⟩ := h
  unfold Row.strings
  rw [hc]
  exact pieces_spec h1 h2 (show Left (Js.In.on line) _ from h3 ▸ left_on _)

/-- The claim is false for a row whose last field is empty, e.g. `x,` : the field 1 is the empty text, but asking
for it throws. -/
theorem C57_refuted : ∃ (line : List Char) (ps : List (List Char)), Cut ',' line ps ∧ ps[1]? = some [] ∧
    (Row.counted line 0 [.string, .string] ',').1.cols = 2 ∧
    (Row.counted line 0 [.string, .string] ',').1.get [.string, .string] 1 =
      .throw "CSV bad format: fields missing" :=
  ⟨['x', ','], [['x'], []], ⟨by simp, by decide, rfl⟩, rfl, rfl, rfl⟩

/-- Non-vacuity: a line with an empty field in the middle. -/
example : Cut ',' ['x', ',', ',', 'y'] [['x'], [], ['y']] := ⟨by simp, by decide, rfl⟩

example : (Row.counted ['x', ',', ',', 'y'] 0 [.string, .string, .string] ',').1.get [.string, .string, .string] 1 =
    .ok ([], .string) := rfl

/-! ### C55: random access -/

/-- After any history of accesses, `csv[i]` is line `i mod rows`, for files with at least two rows. -/
theorem C55_history_partial {file : List Char} {ls : List (List Char)} {rest : List Char} {types : List Ty}
    {sep : Char} {c0 : Csv} (hl : Lines file ls rest) (h2 : 2 ≤ ls.length)
    (h : Csv.make (some file) types sep = .ok c0) (is : List Nat) (i : Nat) :
    c0.rows = ls.length ∧ ∃ c rs c' r, c0.gets is = .ok (c, rs) ∧ c.get i = .ok (c', r) ∧
      ls[i % ls.length]? = some r.line ∧ r.idx = i % ls.length ∧ r.sep = sep ∧ r.cols = c0.cols ∧
      c'.types = c0.types := by
  have hi := make_inv hl h2 h
  have f := make_fields h
  have h0 : ls ≠ [] := by rintro rfl; simp at h2
  have hc : c0.cols ≠ 0 := by rw [f.2.2.2.1]; omega
  obtain ⟨c, rs, k1, k2, -⟩ := gets_inv hl h0 hc is hi
  obtain ⟨c', r, k3, k4, k5, k6, k7, k8⟩ := get_spec hl h0 hc k2 i
  exact ⟨hi.rows, c, rs, c', r, k1, k3, k5, k6, k8.trans f.2.2.1, k7, k4.types⟩

/-- The fields of that row are the pieces of the line, for lines with as many pieces as the header. -/
theorem C55_fields_partial {file : List Char} {ls : List (List Char)} {rest : List Char} {types : List Ty}
    {sep : Char} {c0 : Csv} (hl : Lines file ls rest) (h2 : 2 ≤ ls.length)
    (h : Csv.make (some file) types sep = .ok c0) (is : List Nat) (i : Nat) {line : List Char}
    {ps hs : List (List Char)} (hi : ls[i % ls.length]? = some line) (hp : Cut sep line ps) {head : List Char}
    (hh : ls[0]? = some head) (hhs : Cut sep head hs) (hlen : ps.length = hs.length) :
    ∃ c rs c' r, c0.gets is = .ok (c, rs) ∧ c.get i = .ok (c', r) ∧ r.strings = ps ∧
      ∀ j p, ps[j]? = some p → ¬ (j + 1 = ps.length ∧ p = []) → ∃ t, r.get c'.types j = .ok (p, t) := by
  obtain ⟨-, c, rs, c', r, k1, k3, k5, k6, k7, k8, k9⟩ := C55_history_partial hl h2 h is i
  have f := make_fields h
  have hcols : c0.cols = ps.length := by
    have hlf : Left (Js.In.on file) ((ls.drop 0).flatMap (fun l => l ++ ['\n']) ++ rest) := by
      have := left_on file
      rw [hl.2.2] at this ⊢
      exact this
    obtain ⟨s1, b1, -⟩ := next_line (i := 0) hl.1 hlf hh
    rw [f.2.2.2.1, b1, hlen]
    show head.count sep + 1 = _
    rw [← hhs.2.2]
    exact cut_count hhs.1 hhs.2.1
  have hline : r.line = line := by
    rw [hi] at k5
    exact (Option.some.inj k5).symm
  have hp' : Cut r.sep r.line ps := by rw [k7, hline]; exact hp
  refine ⟨c, rs, c', r, k1, k3, ?_, fun j p hj hn => ?_⟩
  · unfold Row.strings
    rw [k8, hcols]
    exact pieces_spec hp'.1 hp'.2.1 (hp'.2.2 ▸ left_on _)
  · obtain ⟨t, -, ht⟩ := (C57_access_partial hp' (types := c'.types) (by rw [k9, k8]; exact f.2.2.2.2.1)
      (by rw [k9]; exact f.2.2.2.2.2.1) j).2.1 p
      (by rw [k8, hcols]; exact (List.getElem?_eq_some_iff.mp hj).1) hj hn
    exact ⟨t, ht⟩

/-- `entry(i)` is made of the pieces of data row `i`, for every data row and after any history of accesses. -/
theorem C55_entry_partial {file : List Char} {ls : List (List Char)} {rest : List Char} {types : List Ty}
    {sep : Char} {c0 : Csv} (hl : Lines file ls rest) (h2 : 2 ≤ ls.length)
    (h : Csv.make (some file) types sep = .ok c0) (is : List Nat) {i : Nat} {line : List Char}
    {ps hs : List (List Char)} (hi : ls.tail[i]? = some line) (hp : Cut sep line ps) {head : List Char}
    (hh : ls[0]? = some head) (hhs : Cut sep head hs) (hlen : ps.length = hs.length) :
    c0.entries = ls.tail.length ∧ ∃ c rs c', c0.gets is = .ok (c, rs) ∧ c.entry i = .ok (c', ps) := by
  have hi' : ls[i + 1]? = some line := by simpa [List.getElem?_tail] using hi
  have hlt := (List.getElem?_eq_some_iff.mp hi').1
  obtain ⟨c, rs, c', r, k1, k2, k3, -⟩ := C55_fields_partial hl h2 h is (i + 1)
    (by rw [Nat.mod_eq_of_lt hlt]; exact hi') hp hh hhs hlen
  refine ⟨?_, c, rs, c', k1, ?_⟩
  · obtain ⟨hr, -⟩ := C55_history_partial hl h2 h [] 0
    unfold Csv.entries
    rw [if_neg (by omega), hr, List.length_tail]
  · unfold Csv.entry
    rw [k2, Exec.bind_ok]
    dsimp only
    rw [k3]

/-- A file with one row: `csv[1]` should be row 0; at first it is the unterminated text after it, and
after an access to another row it is row 0. -/
theorem C55_refuted : ∃ (file : List Char) (ls : List (List Char)) (rest : List Char) (c0 c1 c2 : Csv) (r1 r2 : Row),
    Lines file ls rest ∧ ls.length = 1 ∧ Csv.make (some file) [.string] ',' = .ok c0 ∧
    c0.get 1 = .ok (c1, r1) ∧ ls[1 % ls.length]? ≠ some r1.line ∧
    c0.gets [0] = .ok (c2, [⟨['a'], 0, 1, ','⟩]) ∧ c2.get 1 = .ok (c2, r2) ∧ ls[1 % ls.length]? = some r2.line :=
  ⟨['a', '\n', 'b'], [['a']], ['b'],
    ⟨['a', '\n', 'b'], [.string], ⟨['a'], 0, 1, ','⟩, ⟨['b'], 1, 1, ','⟩, 1, 1, ','⟩,
    ⟨['a', '\n', 'b'], [.string], ⟨['a'], 0, 1, ','⟩, ⟨['b'], 1, 1, ','⟩, 1, 1, ','⟩,
    ⟨['a', '\n', 'b'], [.string], ⟨['a'], 0, 1, ','⟩, ⟨['a'], 0, 1, ','⟩, 1, 1, ','⟩,
    ⟨['b'], 1, 1, ','⟩, ⟨['a'], 0, 1, ','⟩,
    ⟨by decide, by decide, rfl⟩, rfl, by rfl, by rfl, by decide, by rfl, by rfl, rfl⟩

/-- A file without a complete line: an access divides by zero. -/
theorem C55_no_rows_refuted : ∃ (file : List Char) (c0 : Csv), Csv.make (some file) [.string] ',' = .ok c0 ∧
    c0.get 0 = .ub :=
  ⟨['a'], ⟨['a'], [.string], ⟨['a'], 0, 1, ','⟩, ⟨[], 1, 1, ','⟩, 1, 0, ','⟩, by rfl, by rfl⟩

/-- Non-vacuity: a file with a header, two data rows and an unterminated rest. -/
example : Lines "x,y\n1,2\n3,4\n5".toList ["x,y".toList, "1,2".toList, "3,4".toList] "5".toList :=
  ⟨by decide, by decide, by decide⟩

example : ∃ c, Csv.make (some "x,y\n1,2\n3,4\n5".toList) [.string, .string] ',' = .ok c ∧
    (c.gets [2, 5, 1, 3]).bind (fun q => .ok (q.2.map (·.line))) =
      .ok ["3,4".toList, "3,4".toList, "1,2".toList, "x,y".toList] := ⟨_, rfl, by rfl⟩

/-! ### C56: iteration -/

/-- Iterating from `begin()` to `end()` yields the data rows once each, in order, but not the last one.  Missing: the
last data row. -/
theorem C56_loop_partial {file : List Char} {ls : List (List Char)} {rest : List Char} {types : List Ty}
    {sep : Char} {c : Csv} (hl : Lines file ls rest) (h2 : 2 ≤ ls.length) (hw : ls.length < 2 ^ 64)
    (h : Csv.make (some file) types sep = .ok c) {n : Nat} (hn : ls.length ≤ n) :
    visit c.finish n c.begin = some ls.tail.dropLast := by
  have hi := make_inv hl h2 h
  have h0 : ls ≠ [] := by rintro rfl; simp at h2
  have hb := iter_make hl h0 1
  have hr : c.finish.req = ls.length - 1 := by
    show (if c.rows = 0 then 2 ^ 64 - 1 else c.rows - 1) = _
    rw [if_neg (by rw [hi.rows]; omega), hi.rows]
  have he : c.begin = Iter.make file 1 := by unfold Csv.begin; rw [hi.file]
  have e1 : c.begin.req = 1 := rfl
  rw [visit_spec hl hw (last := c.finish) (by omega) n (he ▸ hb.1) (by omega) (by omega), hr, e1]
  congr 1
  rw [List.dropLast_eq_take, List.length_tail, List.drop_one]

/-- Any walk with `++`, `--` and dereferences that stays on the rows of the file sees at each dereference the line of
its position, whatever it looked at before. -/
theorem C56_walk_partial {file : List Char} {ls : List (List Char)} {rest : List Char} {types : List Ty}
    {sep : Char} {c : Csv} (hl : Lines file ls rest) (h0 : ls ≠ []) (hw : ls.length < 2 ^ 64)
    (h : Csv.make (some file) types sep = .ok c) {ms : List Move} {ps : List Nat}
    (hm : track ls.length 1 ms = some ps) : (c.begin.moves ms).map some = ps.map (fun p => ls[p]?) := by
  have hb := iter_make hl h0 1
  have he : c.begin = Iter.make file 1 := by unfold Csv.begin; rw [(make_fields h).1]
  rw [he]
  exact moves_spec hl hw ms hb.1 (by rw [hb.2]; exact List.length_pos_iff.mpr h0) (by rw [hb.2]; exact hm)

/-- Wherever an iterator has been moved, even before the first or behind the last row, one step back and one step
forth, or the other way around, change nothing: the same rows are seen afterwards. -/
theorem C56_turn_partial (c : Csv) (pre post : List Move) :
    c.begin.moves (pre ++ .back :: .forth :: post) = c.begin.moves (pre ++ post) ∧
    c.begin.moves (pre ++ .forth :: .back :: post) = c.begin.moves (pre ++ post) := by
  have upd : ∀ it : Iter, it.update.req = it.req := by
    intro it
    have h1 : ∀ it : Iter, it.advance.req = it.req := by
      intro it
      unfold Iter.advance
      dsimp only
      split <;> rfl
    have h2 : it.restart.req = it.req := by
      unfold Iter.restart
      split <;> rfl
    exact (h1 _).trans h2
  have turn : ∀ (pre : List Move) (it : Iter), it.req < 2 ^ 64 →
      it.moves (pre ++ .back :: .forth :: post) = it.moves (pre ++ post) ∧
      it.moves (pre ++ .forth :: .back :: post) = it.moves (pre ++ post) := by
    intro pre
    induction pre with
    | nil =>
      intro it hit
      constructor
      · show it.prev.next.moves post = it.moves post
        congr 1
        unfold Iter.prev Iter.next
        cases it
        simp only [Iter.mk.injEq, and_true, true_and]
        dsimp only at hit ⊢
        split <;> omega
      · show it.next.prev.moves post = it.moves post
        congr 1
        unfold Iter.prev Iter.next
        cases it
        simp only [Iter.mk.injEq, and_true, true_and]
        dsimp only at hit ⊢
        split <;> omega
    | cons m pre ih =>
      intro it hit
      cases m with
      | forth => exact ih it.next (Nat.mod_lt _ (by decide))
      | back =>
        refine ih it.prev ?_
        show (if it.req = 0 then 2 ^ 64 - 1 else it.req - 1) < 2 ^ 64
        split <;> omega
      | look =>
        have := ih it.update (by rw [upd]; exact hit)
        exact ⟨congrArg (it.update.line :: ·) this.1, congrArg (it.update.line :: ·) this.2⟩
  exact turn pre _ (by show 1 < _; decide)

/-- The claim is false: for a file with two data rows the loop ends after the first one. -/
theorem C56_refuted : ∃ (file : List Char) (ls : List (List Char)) (c : Csv), Lines file ls [] ∧
    Csv.make (some file) [.string] ',' = .ok c ∧ ls.tail = [['a'], ['b']] ∧
    ∀ n ≥ 3, visit c.finish n c.begin = some [['a']] := by
  refine ⟨['h', '\n', 'a', '\n', 'b', '\n'], [['h'], ['a'], ['b']],
    ⟨['h', '\n', 'a', '\n', 'b', '\n'], [.string], ⟨['h'], 0, 1, ','⟩, ⟨['a'], 1, 1, ','⟩, 1, 3, ','⟩,
    ⟨by decide, by decide, rfl⟩, by rfl, rfl, fun n hn => ?_⟩
  exact C56_loop_partial (ls := [['h'], ['a'], ['b']]) (rest := []) (types := [.string]) (sep := ',')
    ⟨by decide, by decide, rfl⟩ (by decide) (by decide) (by rfl) hn

/-- A file with only a header: there is no data row, but the loop runs on for as many iterations as there are
sizes. -/
theorem C56_header_only_refuted {file : List Char} {l rest : List Char} {types : List Ty} {sep : Char} {c : Csv}
    (hl : Lines file [l] rest) (h : Csv.make (some file) types sep = .ok c) {n : Nat} (hn : n + 1 < 2 ^ 64) :
    visit c.finish n c.begin = none := by
  have hr : c.rows = 1 := by
    rw [(make_fields h).2.1, hl.2.2, count_lines hl.1 hl.2.1]
    rfl
  have e0 : c.finish.req = 0 := by
    show (if c.rows = 0 then 2 ^ 64 - 1 else c.rows - 1) = _
    rw [if_neg (by omega), hr]
  have e1 : c.begin.req = 1 := rfl
  exact visit_behind n (by omega) (by omega)

/-- Non-vacuity of walks: forth, look, back, back, look. -/
example : track 3 1 [.look, .forth, .look, .back, .back, .look] = some [1, 2, 0] := by decide

/-! ### C65: whole-file conversions -/

/-- The conversion to texts lists every complete line of the file, the header first. -/
theorem C65_lines {file : List Char} {ls : List (List Char)} {rest : List Char} {types : List Ty} {sep : Char}
    {c : Csv} (hl : Lines file ls rest) (h : Csv.make (some file) types sep = .ok c) :
    c.lines = ls ∧ c.rows = ls.length := by
  obtain ⟨f1, f2, -⟩ := make_fields h
  have hr : c.rows = ls.length := by rw [f2, hl.2.2, count_lines hl.1 hl.2.1]
  have hlf : Left (Js.In.on file) (ls.flatMap (fun l => l ++ ['\n']) ++ rest) := by
    have := left_on file
    rw [hl.2.2] at this ⊢
    exact this
  refine ⟨?_, hr⟩
  unfold Csv.lines
  dsimp only
  rw [hr, f1, readLines_spec rfl hl.1 hlf]
  simp

/-- The conversion to a table has one row for each complete line, made of its pieces, when every line has as many
pieces as the header. -/
theorem C65_table {file : List Char} {ls : List (List Char)} {rest : List Char} {types : List Ty} {sep : Char}
    {c : Csv} (hl : Lines file ls rest) (h : Csv.make (some file) types sep = .ok c)
    {tab : List (List (List Char))} (ht : List.Forall₂ (fun l ps => Cut sep l ps ∧ ps.length = c.cols) ls tab) :
    c.table = tab := by
  obtain ⟨f1, f2, f3, -⟩ := make_fields h
  have hr : c.rows = ls.length := by rw [f2, hl.2.2, count_lines hl.1 hl.2.1]
  have hlf : Left (Js.In.on file) (ls.flatMap (fun l => l ++ ['\n']) ++ rest) := by
    have := left_on file
    rw [hl.2.2] at this ⊢
    exact this
  unfold Csv.table
  dsimp only
  rw [hr, f1, f3, readLines_spec rfl hl.1 hlf, List.length_map, Nat.sub_self]
  simp only [List.replicate_zero, List.append_nil]
  clear hlf hr f2 hl h
  induction ht with
  | nil => rfl
  | cons hx _ ih =>
    rw [List.map_cons, ih]
    congr 1
    obtain ⟨⟨k1, k2, k3⟩, k4⟩ := hx
    rw [← k4]
    exact pieces_spec k1 k2 (k3 ▸ left_on _)

example : ∃ c, Csv.make (some "x,y\n1,\n".toList) [.string, .string] ',' = .ok c ∧
    c.table = [["x".toList, "y".toList], ["1".toList, []]] := ⟨_, rfl, by rfl⟩

end Verif.Props
