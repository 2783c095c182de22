import Verif.Spec.Csv
import Verif.Proofs.TypeChecker

namespace Verif.Csv

open Verif.Js Verif.Text Verif.Spec

/-! ### Streams -/

theorem takeWhile_sep {d : Char} {p tail : List Char} (h : d ∉ p) :
    (p ++ d :: tail).takeWhile (· ≠ d) = p := by
  induction p with
  | nil => simp
  | cons a p ih =>
    have ha : a ≠ d := fun e => h (e ▸ List.mem_cons_self)
    simp only [List.cons_append, List.takeWhile_cons]
    rw [if_pos (by simpa using ha), ih (fun hd => h (List.mem_cons_of_mem _ hd))]

theorem takeWhile_all {d : Char} {p : List Char} (h : d ∉ p) : p.takeWhile (· ≠ d) = p := by
  induction p with
  | nil => rfl
  | cons a p ih =>
    have ha : a ≠ d := fun e => h (e ▸ List.mem_cons_self)
    simp only [List.takeWhile_cons]
    rw [if_pos (by simpa using ha), ih (fun hd => h (List.mem_cons_of_mem _ hd))]

/-- The stream can be read and what is left to read is this text. -/
def Left (s : In) (text : List Char) : Prop := s.eof = false ∧ s.fail = false ∧ s.buf.drop s.pos = text

theorem left_on (text : List Char) : Left (In.on text) text := ⟨rfl, rfl, rfl⟩

theorem left_good {s : In} {t : List Char} (h : Left s t) : s.good = true := by simp [In.good, h.1, h.2.1]

theorem line_sep {s : In} {d : Char} {p tail : List Char} (h : Left s (p ++ d :: tail)) (hd : d ∉ p) :
    ∃ s', s.line d = (s', some p) ∧ Left s' tail ∧ s'.buf = s.buf := by
  refine ⟨{ s with pos := s.pos + p.length + 1 }, ?_, ⟨h.1, h.2.1, ?_⟩, rfl⟩
  · unfold In.line
    rw [if_pos (left_good h)]
    simp only [h.2.2, takeWhile_sep hd]
    rw [if_pos (by simp)]
  · show s.buf.drop (s.pos + p.length + 1) = tail
    rw [Nat.add_assoc, ← List.drop_drop, h.2.2, ← List.drop_drop]
    simp

theorem line_last {s : In} {d : Char} {p : List Char} (h : Left s p) (hd : d ∉ p) :
    ∃ s', s.line d = (s', some p) ∧ s'.eof = true ∧ s'.fail = p.isEmpty := by
  refine ⟨{ s with pos := s.pos + p.length, eof := true, fail := p.isEmpty }, ?_, rfl, rfl⟩
  unfold In.line
  rw [if_pos (left_good h)]
  simp only [h.2.2, takeWhile_all hd]
  rw [if_neg (by simp)]

theorem ignore_sep {s : In} {p tail : List Char} (h : Left s (p ++ '\n' :: tail)) (hd : '\n' ∉ p) :
    Left (ignoreLine s) tail ∧ (ignoreLine s).buf = s.buf := by
  have e : ignoreLine s = { s with pos := s.pos + p.length + 1 } := by
    unfold ignoreLine
    rw [if_pos (left_good h)]
    simp only [h.2.2, takeWhile_sep hd]
    rw [if_pos (by simp)]
  rw [e]
  refine ⟨⟨h.1, h.2.1, ?_⟩, rfl⟩
  show s.buf.drop (s.pos + p.length + 1) = tail
  rw [Nat.add_assoc, ← List.drop_drop, h.2.2, ← List.drop_drop]
  simp

/-! ### Pieces -/

theorem join_cons {sep : Char} {p : List Char} {ps : List (List Char)} (h : ps ≠ []) :
    join sep (p :: ps) = p ++ sep :: join sep ps := by
  cases ps with
  | nil => exact absurd rfl h
  | cons q ps => rfl

theorem pieces_spec {sep : Char} : ∀ {ps : List (List Char)} {s : In}, ps ≠ [] → (∀ p ∈ ps, sep ∉ p) →
    Left s (join sep ps) → pieces sep ps.length s = ps := by
  intro ps
  induction ps with
  | nil => intro s h; exact absurd rfl h
  | cons p ps ih =>
    intro s _ hp hl
    cases ps with
    | nil =>
      obtain ⟨s', h1, -, -⟩ := line_last (d := sep) (p := p) hl (hp p List.mem_cons_self)
      simp [pieces, h1]
    | cons q ps =>
      obtain ⟨s', h1, h2, -⟩ := line_sep (d := sep) (p := p) (tail := join sep (q :: ps)) hl (hp p List.mem_cons_self)
      have := ih (s := s') (by simp) (fun r hr => hp r (List.mem_cons_of_mem _ hr)) h2
      rw [List.length_cons, pieces, h1]
      simp only [Option.getD_some, this]

theorem scan_spec {sep : Char} : ∀ {ps : List (List Char)} {s : In} {i : Nat} {p : List Char},
    (∀ p ∈ ps, sep ∉ p) → Left s (join sep ps) → ps[i]? = some p →
    ((i + 1 = ps.length ∧ p = []) ∧ scan sep i s = .throw "CSV bad format: fields missing") ∨
    (¬ (i + 1 = ps.length ∧ p = []) ∧ scan sep i s = .ok p) := by
  intro ps
  induction ps with
  | nil => intro s i p _ _ h; simp at h
  | cons a ps ih =>
    intro s i p hp hl hi
    cases ps with
    | nil =>
      cases i with
      | succ i => simp at hi
      | zero =>
        cases hi
        obtain ⟨s', h1, -, h3⟩ := line_last (d := sep) (p := a) hl (hp a List.mem_cons_self)
        cases a with
        | nil => left; exact ⟨⟨rfl, rfl⟩, by simp [scan, h1, h3]⟩
        | cons c a => right; exact ⟨by simp, by simp [scan, h1, h3]⟩
    | cons q ps =>
      obtain ⟨s', h1, h2, -⟩ := line_sep (d := sep) (p := a) (tail := join sep (q :: ps)) hl (hp a List.mem_cons_self)
      cases i with
      | zero =>
        cases hi
        right
        exact ⟨by simp, by simp [scan, h1, h2.2.1]⟩
      | succ i =>
        have hi : (q :: ps)[i]? = some p := hi
        have e : scan sep (i + 1) s = scan sep i s' := by simp [scan, h1, h2.2.1]
        rw [e]
        rcases ih (fun r hr => hp r (List.mem_cons_of_mem _ hr)) h2 hi with ⟨⟨k1, k2⟩, k3⟩ | ⟨k1, k2⟩
        · left; exact ⟨⟨by simp only [List.length_cons] at k1 ⊢; omega, k2⟩, k3⟩
        · right
          refine ⟨?_, k2⟩
          rintro ⟨h, h'⟩
          exact k1 ⟨by simp only [List.length_cons] at h ⊢; omega, h'⟩

theorem line_bad {s : In} {d : Char} (h : s.eof = true) : (s.line d).1.fail = true := by
  unfold In.line
  rw [if_neg (by simp [In.good, h])]

theorem scan_missing {sep : Char} : ∀ {ps : List (List Char)} {s : In} {i : Nat}, ps ≠ [] →
    (∀ p ∈ ps, sep ∉ p) → Left s (join sep ps) → ps.length ≤ i →
    scan sep i s = .throw "CSV bad format: fields missing" := by
  intro ps
  induction ps with
  | nil => intro s i h; exact absurd rfl h
  | cons a ps ih =>
    intro s i _ hp hl hi
    cases i with
    | zero => simp at hi
    | succ i =>
      cases ps with
      | nil =>
        obtain ⟨s', h1, h2, -⟩ := line_last (d := sep) (p := a) hl (hp a List.mem_cons_self)
        have hb : ∀ i, scan sep i s' = .throw "CSV bad format: fields missing" := by
          intro i
          cases i <;> simp [scan, line_bad h2]
        rw [scan, h1]
        dsimp only
        rw [hb]
        split <;> rfl
      | cons q ps =>
        obtain ⟨s', h1, h2, -⟩ := line_sep (d := sep) (p := a) (tail := join sep (q :: ps)) hl (hp a List.mem_cons_self)
        rw [scan, h1]
        dsimp only
        rw [if_neg (by simp [h2.2.1])]
        exact ih (by simp) (fun r hr => hp r (List.mem_cons_of_mem _ hr)) h2 (by simp only [List.length_cons] at hi ⊢; omega)

theorem cut_count {sep : Char} : ∀ {ps : List (List Char)}, ps ≠ [] → (∀ p ∈ ps, sep ∉ p) →
    (join sep ps).count sep + 1 = ps.length := by
  intro ps
  induction ps with
  | nil => intro h; exact absurd rfl h
  | cons p ps ih =>
    intro _ hp
    have h0 : p.count sep = 0 := List.count_eq_zero.mpr (hp p List.mem_cons_self)
    cases ps with
    | nil => simp [join, h0]
    | cons q ps =>
      have := ih (by simp) (fun r hr => hp r (List.mem_cons_of_mem _ hr))
      rw [join_cons (by simp), List.count_append, h0, List.count_cons_self]
      simp only [List.length_cons] at this ⊢
      omega

theorem parseType_ne_auto (v : List Char) : parseType v ≠ .auto := by
  unfold parseType
  repeat' split
  all_goals simp

/-! ### Lines -/

theorem glue_cons {l : List Char} {ls : List (List Char)} {rest : List Char} :
    (l :: ls).flatMap (fun l => l ++ ['\n']) ++ rest = l ++ '\n' :: (ls.flatMap (fun l => l ++ ['\n']) ++ rest) := by
  simp

theorem skip_spec : ∀ {n : Nat} {ls : List (List Char)} {rest : List Char} {s : In}, n ≤ ls.length →
    (∀ l ∈ ls, '\n' ∉ l) → Left s (ls.flatMap (fun l => l ++ ['\n']) ++ rest) →
    Left (skipLines n s) ((ls.drop n).flatMap (fun l => l ++ ['\n']) ++ rest) ∧ (skipLines n s).buf = s.buf := by
  intro n
  induction n with
  | zero => intro ls rest s _ _ h; exact ⟨h, rfl⟩
  | succ n ih =>
    intro ls rest s hn hl h
    cases ls with
    | nil => simp at hn
    | cons l ls =>
      rw [glue_cons] at h
      obtain ⟨h1, h2⟩ := ignore_sep h (hl l List.mem_cons_self)
      obtain ⟨h3, h4⟩ := ih (s := ignoreLine s) (ls := ls) (by simpa using hn) (fun r hr => hl r (List.mem_cons_of_mem _ hr)) h1
      exact ⟨h3, h4.trans h2⟩

/-- Reading the next line. -/
theorem next_line {ls : List (List Char)} {rest l : List Char} {s : In} {i : Nat} (hl : ∀ l ∈ ls, '\n' ∉ l)
    (h : Left s ((ls.drop i).flatMap (fun l => l ++ ['\n']) ++ rest)) (hi : ls[i]? = some l) :
    ∃ s', s.line '\n' = (s', some l) ∧ Left s' ((ls.drop (i + 1)).flatMap (fun l => l ++ ['\n']) ++ rest) ∧
      s'.buf = s.buf := by
  have hd : ls.drop i = l :: ls.drop (i + 1) := by
    obtain ⟨h1, rfl⟩ := List.getElem?_eq_some_iff.mp hi
    exact List.drop_eq_getElem_cons h1
  rw [hd, glue_cons] at h
  exact line_sep h (hl l (List.mem_of_getElem? hi))

theorem count_lines {ls : List (List Char)} {rest : List Char} (hl : ∀ l ∈ ls, '\n' ∉ l) (hr : '\n' ∉ rest) :
    (ls.flatMap (fun l => l ++ ['\n']) ++ rest).count '\n' = ls.length := by
  rw [List.count_append, List.count_eq_zero.mpr hr, Nat.add_zero]
  induction ls with
  | nil => rfl
  | cons l ls ih =>
    rw [List.flatMap_cons, List.count_append, List.count_append, List.count_eq_zero.mpr (hl l List.mem_cons_self),
      ih (fun r hr => hl r (List.mem_cons_of_mem _ hr))]
    simp
    omega

theorem readLines_spec : ∀ {n : Nat} {ls : List (List Char)} {rest : List Char} {s : In}, n = ls.length →
    (∀ l ∈ ls, '\n' ∉ l) → Left s (ls.flatMap (fun l => l ++ ['\n']) ++ rest) → readLines n s = ls := by
  intro n
  induction n with
  | zero => intro ls rest s hn _ _; cases ls with | nil => rfl | cons _ _ => simp at hn
  | succ n ih =>
    intro ls rest s hn hl h
    cases ls with
    | nil => simp at hn
    | cons l ls =>
      rw [glue_cons] at h
      obtain ⟨s', h1, h2, -⟩ := line_sep h (hl l List.mem_cons_self)
      have := ih (s := s') (ls := ls) (by simpa using hn) (fun r hr => hl r (List.mem_cons_of_mem _ hr)) h2
      simp [readLines, h1, h2.2.1, this]

/-! ### CSV objects -/

/-- The object belongs to this file, and its cached row is the line of its index. -/
structure Inv (file : List Char) (ls : List (List Char)) (c0 c : Csv) : Prop where
  file : c.file = file
  rows : c.rows = ls.length
  cols : c.cols = c0.cols
  sep : c.sep = c0.sep
  types : c.types = c0.types
  len : c.types.length = c.cols
  auto : Ty.auto ∉ c.types
  cache : ls[c.cache.idx]? = some c.cache.line
  ccols : c.cache.cols = c.cols
  csep : c.cache.sep = c.sep

theorem make_types {line : List Char} {i cols : Nat} {ts : List Ty} {sep : Char} (h : ts.length = cols)
    (ha : Ty.auto ∉ ts) (h0 : cols ≠ 0) : Row.make line i cols ts sep = (⟨line, i, cols, sep⟩, ts) := by
  unfold Row.make
  rw [if_neg]
  rintro (h1 | h1 | h1)
  · exact ha h1
  · omega
  · exact h1 h

theorem pieces_length (sep : Char) : ∀ (n : Nat) (s : In), (pieces sep n s).length = n
  | 0, _ => rfl
  | n + 1, s => by simp [pieces, pieces_length sep n]

theorem make_fields {file : List Char} {types : List Ty} {sep : Char} {c : Csv}
    (h : Csv.make (some file) types sep = .ok c) :
    c.file = file ∧ c.rows = file.count '\n' ∧ c.sep = sep ∧
      c.cols = (((In.on file).line '\n').2.getD []).count sep + 1 ∧ c.types.length = c.cols ∧ Ty.auto ∉ c.types ∧
      c.header = ⟨((In.on file).line '\n').2.getD [], 0, c.cols, sep⟩ ∧
      c.cache = ⟨(((In.on file).line '\n').1.line '\n').2.getD [], 1, c.cols, sep⟩ := by
  unfold Csv.make at h
  dsimp only at h
  generalize ((In.on file).line '\n').2.getD [] = hd at h ⊢
  generalize (((In.on file).line '\n').1.line '\n').2.getD [] = fl at h ⊢
  generalize ht : (if Ty.auto ∈ types ∨ types.length = 0 ∨ types.length ≠ hd.count sep + 1 then
    (pieces sep (hd.count sep + 1) (In.on fl)).map parseType else types) = ts at h
  have h1 : ts.length = hd.count sep + 1 := by
    rw [← ht]
    split
    · simp [pieces_length]
    · rename_i hn
      exact Decidable.byContradiction fun hc => hn (Or.inr (Or.inr hc))
  have h2 : Ty.auto ∉ ts := by
    rw [← ht]
    split
    · intro hm
      obtain ⟨v, -, hv⟩ := List.mem_map.mp hm
      exact parseType_ne_auto v hv
    · rename_i hn
      exact fun hm => hn (Or.inl hm)
  rw [make_types h1 h2 (by omega)] at h
  dsimp only at h
  rw [make_types h1 h2 (by omega)] at h
  cases h
  exact ⟨rfl, rfl, rfl, rfl, h1, h2, rfl, rfl⟩

theorem make_inv {file : List Char} {ls : List (List Char)} {rest : List Char} {types : List Ty} {sep : Char}
    {c : Csv} (hl : Lines file ls rest) (h2 : 2 ≤ ls.length) (h : Csv.make (some file) types sep = .ok c) :
    Inv file ls c c := by
  obtain ⟨a1, a2, a3, a4, a5, a6, a7, a8⟩ := make_fields h
  have hlf : Left (In.on file) ((ls.drop 0).flatMap (fun l => l ++ ['\n']) ++ rest) := by
    have := left_on file
    rw [hl.2.2] at this ⊢
    exact this
  obtain ⟨s1, b1, b2, -⟩ := next_line (i := 0) hl.1 hlf (List.getElem?_eq_getElem (by omega))
  obtain ⟨s2, b3, b4, -⟩ := next_line (i := 1) hl.1 b2 (List.getElem?_eq_getElem (by omega))
  refine ⟨a1, ?_, rfl, rfl, rfl, a5, a6, ?_, ?_, ?_⟩
  · rw [a2, hl.2.2, count_lines hl.1 hl.2.1]
  · rw [a8, b1, b3]
    show ls[1]? = some ls[1]
    exact List.getElem?_eq_getElem (by omega)
  · rw [a8]
  · rw [a8, a3]

/-- One access. -/
theorem get_spec {file : List Char} {ls : List (List Char)} {rest : List Char} {c0 c : Csv} (hl : Lines file ls rest)
    (h0 : ls ≠ []) (hc : c0.cols ≠ 0) (h : Inv file ls c0 c) (i : Nat) :
    ∃ c' r, c.get i = .ok (c', r) ∧ Inv file ls c0 c' ∧ ls[i % ls.length]? = some r.line ∧ r.idx = i % ls.length ∧
      r.cols = c0.cols ∧ r.sep = c0.sep := by
  unfold Csv.get
  by_cases e : c.cache.idx = i
  · rw [if_pos e]
    have hi : i < ls.length := by
      have := h.cache
      rw [e] at this
      exact (List.getElem?_eq_some_iff.mp this).1
    refine ⟨c, c.cache, rfl, h, ?_, ?_, h.ccols.trans h.cols, h.csep.trans h.sep⟩
    · rw [Nat.mod_eq_of_lt hi, ← e]
      exact h.cache
    · rw [Nat.mod_eq_of_lt hi]
      exact e
  · have hp : 0 < ls.length := List.length_pos_iff.mpr h0
    rw [if_neg e, if_neg (by rw [h.rows]; omega)]
    dsimp only
    rw [h.rows, h.file]
    have hm := Nat.mod_lt i hp
    have hlf : Left (In.on file) (ls.flatMap (fun l => l ++ ['\n']) ++ rest) := by
      have := left_on file
      rw [hl.2.2] at this ⊢
      exact this
    obtain ⟨h1, -⟩ := skip_spec (n := i % ls.length) (by omega) hl.1 hlf
    obtain ⟨s', h3, -, -⟩ := next_line hl.1 h1 (List.getElem?_eq_getElem hm)
    rw [h3, make_types h.len h.auto (by rw [h.cols]; exact hc)]
    refine ⟨_, _, rfl, ⟨rfl, rfl, h.cols, h.sep, h.types, h.len, h.auto, ?_, rfl, rfl⟩, ?_, rfl, h.cols, h.sep⟩
    · exact List.getElem?_eq_getElem hm
    · exact List.getElem?_eq_getElem hm

theorem gets_inv {file : List Char} {ls : List (List Char)} {rest : List Char} {c0 : Csv} (hl : Lines file ls rest)
    (h0 : ls ≠ []) (hc : c0.cols ≠ 0) : ∀ (is : List Nat) {c : Csv}, Inv file ls c0 c →
    ∃ c' rs, c.gets is = .ok (c', rs) ∧ Inv file ls c0 c' ∧
      rs.map (fun r => some r.line) = is.map (fun i => ls[i % ls.length]?) := by
  intro is
  induction is with
  | nil => intro c h; exact ⟨c, [], rfl, h, rfl⟩
  | cons i is ih =>
    intro c h
    obtain ⟨c1, r, h1, h2, h3, -⟩ := get_spec hl h0 hc h i
    obtain ⟨c2, rs, h4, h5, h6⟩ := ih h2
    refine ⟨c2, r :: rs, ?_, h5, ?_⟩
    · simp only [Csv.gets, h1, Exec.bind_ok, h4]
    · simp only [List.map_cons, h6, h3]

/-! ### Iterators -/

/-- The iterator holds the line of its index, and its stream is after that line. -/
structure ItInv (file : List Char) (ls : List (List Char)) (rest : List Char) (it : Iter) : Prop where
  line : ls[it.idx]? = some it.line
  left : Left it.stream ((ls.drop (it.idx + 1)).flatMap (fun l => l ++ ['\n']) ++ rest)
  buf : it.stream.buf = file

theorem iter_make {file : List Char} {ls : List (List Char)} {rest : List Char} (hl : Lines file ls rest)
    (h0 : ls ≠ []) (q : Nat) : ItInv file ls rest (Iter.make file q) ∧ (Iter.make file q).req = q := by
  have hlf : Left (In.on file) ((ls.drop 0).flatMap (fun l => l ++ ['\n']) ++ rest) := by
    have := left_on file
    rw [hl.2.2] at this ⊢
    exact this
  obtain ⟨s1, b1, b2, b3⟩ := next_line (i := 0) hl.1 hlf (List.getElem?_eq_getElem (List.length_pos_iff.mpr h0))
  refine ⟨⟨?_, ?_, ?_⟩, rfl⟩
  · show ls[0]? = some (((In.on file).line '\n').2.getD [])
    rw [b1]
    exact List.getElem?_eq_getElem _
  · show Left ((In.on file).line '\n').1 _
    rw [b1]
    exact b2
  · show ((In.on file).line '\n').1.buf = file
    rw [b1]
    exact b3

theorem advance_spec {file : List Char} {ls : List (List Char)} {rest : List Char} {it : Iter}
    (hl : Lines file ls rest) (h : ItInv file ls rest it) (hq : it.req < ls.length) (hle : it.idx ≤ it.req) :
    ItInv file ls rest it.advance ∧ it.advance.idx = it.req := by
  unfold Iter.advance
  dsimp only
  by_cases e : it.idx = it.req
  · rw [if_neg (by simpa using e)]
    have : it.req - (it.idx + 1) = 0 := by omega
    rw [this]
    exact ⟨h, e⟩
  · rw [if_pos e]
    obtain ⟨h1, h2⟩ := skip_spec (n := it.req - (it.idx + 1)) (ls := ls.drop (it.idx + 1)) (by simp; omega)
      (fun l hm => hl.1 l (List.mem_of_mem_drop hm)) h.left
    rw [List.drop_drop, show it.idx + 1 + (it.req - (it.idx + 1)) = it.req by omega] at h1
    obtain ⟨s', h3, h4, h5⟩ := next_line hl.1 h1 (List.getElem?_eq_getElem hq)
    rw [h3]
    exact ⟨⟨List.getElem?_eq_getElem hq, h4, h5.trans (h2.trans h.buf)⟩, rfl⟩

theorem restart_req (it : Iter) : it.restart.req = it.req := by unfold Iter.restart; split <;> rfl

theorem advance_req (it : Iter) : it.advance.req = it.req := by unfold Iter.advance; dsimp only; split <;> rfl

theorem update_req (it : Iter) : it.update.req = it.req := (advance_req _).trans (restart_req _)

theorem next_req {it : Iter} (h : it.req + 1 < 2 ^ 64) : it.next.req = it.req + 1 := Nat.mod_eq_of_lt h

theorem prev_req {it : Iter} (h : 0 < it.req) : it.prev.req = it.req - 1 := if_neg (by omega)

theorem restart_spec {file : List Char} {ls : List (List Char)} {rest : List Char} {it : Iter}
    (hl : Lines file ls rest) (h : ItInv file ls rest it) (hq : it.req < ls.length) :
    ItInv file ls rest it.restart ∧ it.restart.idx ≤ it.req := by
  unfold Iter.restart
  by_cases hle : it.req < it.idx
  · rw [if_pos hle]
    have hlf : Left (rewind it.stream) ((ls.drop 0).flatMap (fun l => l ++ ['\n']) ++ rest) := by
      unfold rewind
      rw [if_neg (by simp [h.left.2.1])]
      refine ⟨rfl, h.left.2.1, ?_⟩
      show it.stream.buf.drop 0 = _
      rw [h.buf, hl.2.2]
      rfl
    have hp : 0 < ls.length := by omega
    obtain ⟨s1, b1, b2, b3⟩ := next_line (i := 0) hl.1 hlf (List.getElem?_eq_getElem hp)
    have hb : (rewind it.stream).buf = file := by
      unfold rewind
      split <;> exact h.buf
    dsimp only
    rw [b1]
    exact ⟨⟨List.getElem?_eq_getElem hp, b2, b3.trans hb⟩, Nat.zero_le _⟩
  · rw [if_neg hle]
    exact ⟨h, by omega⟩

theorem update_spec {file : List Char} {ls : List (List Char)} {rest : List Char} {it : Iter}
    (hl : Lines file ls rest) (h : ItInv file ls rest it) (hq : it.req < ls.length) :
    ItInv file ls rest it.update ∧ it.update.idx = it.req ∧ it.update.req = it.req := by
  obtain ⟨h1, h2⟩ := restart_spec hl h hq
  obtain ⟨h3, h4⟩ := advance_spec hl h1 (by rw [restart_req]; exact hq) (by rw [restart_req]; exact h2)
  exact ⟨h3, h4.trans (restart_req _), update_req _⟩

theorem ItInv.next {file : List Char} {ls : List (List Char)} {rest : List Char} {it : Iter}
    (h : ItInv file ls rest it) : ItInv file ls rest it.next := ⟨h.line, h.left, h.buf⟩

theorem ItInv.prev {file : List Char} {ls : List (List Char)} {rest : List Char} {it : Iter}
    (h : ItInv file ls rest it) : ItInv file ls rest it.prev := ⟨h.line, h.left, h.buf⟩

theorem moves_spec {file : List Char} {ls : List (List Char)} {rest : List Char} (hl : Lines file ls rest)
    (hw : ls.length < 2 ^ 64) : ∀ (ms : List Move) {it : Iter} {ps : List Nat}, ItInv file ls rest it →
    it.req ≤ ls.length → track ls.length it.req ms = some ps →
    (it.moves ms).map some = ps.map (fun p => ls[p]?) := by
  intro ms
  induction ms with
  | nil => intro it ps _ _ h; cases h; rfl
  | cons m ms ih =>
    intro it ps hi hq h
    cases m with
    | forth =>
      simp only [track] at h
      split at h
      · rename_i hlt
        have e : it.next.req = it.req + 1 := next_req (by omega)
        rw [Iter.moves]
        exact ih hi.next (by omega) (by rw [e]; exact h)
      · simp at h
    | back =>
      simp only [track] at h
      split at h
      · rename_i hlt
        have e : it.prev.req = it.req - 1 := prev_req hlt
        rw [Iter.moves]
        exact ih hi.prev (by omega) (by rw [e]; exact h)
      · simp at h
    | look =>
      simp only [track] at h
      split at h
      · rename_i hlt
        obtain ⟨h1, h2, h3⟩ := update_spec hl hi hlt
        obtain ⟨qs, hqs, rfl⟩ := Option.map_eq_some_iff.mp h
        have := ih h1 (by rw [h3]; exact hq) (by rw [h3]; exact hqs)
        rw [Iter.moves, List.map_cons, this, List.map_cons, ← h1.line, h2]
      · simp at h

theorem visit_spec {file : List Char} {ls : List (List Char)} {rest : List Char} (hl : Lines file ls rest)
    (hw : ls.length < 2 ^ 64) {last : Iter} (hlast : last.req ≤ ls.length) : ∀ (n : Nat) {it : Iter},
    ItInv file ls rest it → it.req ≤ last.req → last.req - it.req ≤ n →
    visit last n it = some ((ls.drop it.req).take (last.req - it.req)) := by
  intro n
  induction n with
  | zero =>
    intro it _ h1 h2
    have e : it.req = last.req := by omega
    simp [visit, e]
  | succ n ih =>
    intro it hi h1 h2
    by_cases e : it.req = last.req
    · simp [visit, e]
    · have hlt : it.req < ls.length := by omega
      obtain ⟨u1, u2, u3⟩ := update_spec hl hi hlt
      have en : it.update.next.req = it.req + 1 := by rw [next_req (by omega), u3]
      have := ih u1.next (by omega) (by omega)
      rw [visit, if_neg e]
      dsimp only
      rw [this, en]
      have hl1 := u1.line
      rw [u2, List.getElem?_eq_getElem hlt] at hl1
      rw [List.drop_eq_getElem_cons hlt, show last.req - it.req = (last.req - (it.req + 1)) + 1 by omega,
        List.take_succ_cons]
      simp only [Option.map_some, Option.some.injEq] at hl1 ⊢
      rw [hl1]

/-- A loop whose end lies behind its start does not end soon. -/
theorem visit_behind {last : Iter} : ∀ (n : Nat) {it : Iter}, last.req < it.req → it.req + n < 2 ^ 64 →
    visit last n it = none := by
  intro n
  induction n with
  | zero => intro it h _; simp [visit, show it.req ≠ last.req by omega]
  | succ n ih =>
    intro it h h2
    have hu := update_req it
    have en : it.update.next.req = it.req + 1 := by rw [next_req (by omega), hu]
    rw [visit, if_neg (by omega)]
    dsimp only
    rw [ih (it := it.update.next) (by omega) (by omega)]
    rfl

end Verif.Csv
