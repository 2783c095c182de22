import Verif.Proofs.Number
import Verif.Proofs.Decimal
import Verif.Props.Csv
import Verif.Props.Encoding
import Verif.Props.TypeChecker
import Mathlib.Tactic.NormNum

/-! C80: the numbers of a CSV file. -/

namespace Verif.Props

open Verif.Spec Verif.Csv Verif.Text Verif.Num

/-- The conversion of a text to a number succeeds exactly if the text is a decimal numeral, possibly after blanks,
and then stores the number the numeral spells. -/
theorem C80_convert (s : List Char) (v : Option ℚ) :
    convertNum s = (true, v) ↔ ∃ a n q, (∀ c ∈ a, IsBlank c) ∧ Numeral n q ∧ s = a ++ n ∧ v = some q :=
  convertNum_iff

/-- A field that is a numeral with blanks around it has that number as its value. -/
theorem C80_field {s : List Char} {q : ℚ} (h : Padded s q) : asNum s = .ok q := asNum_padded h

/-- A text spells at most one number. -/
theorem C80_unique {s : List Char} {q q' : ℚ} (h : Padded s q) (h' : Padded s q') : q = q' := padded_unique h h'

theorem numeral_of_isNumeral {s : List Char} (h : IsNumeral s) : ∃ q, Numeral s q := by
  have hs : ∀ sg, IsSign sg → ∃ f, Sign sg f := by
    rintro sg (rfl | rfl | rfl)
    · exact ⟨1, .inl ⟨rfl, rfl⟩⟩
    · exact ⟨-1, .inr (.inr ⟨rfl, rfl⟩)⟩
    · exact ⟨1, .inr (.inl ⟨rfl, rfl⟩)⟩
  have hd : ∀ ds, Digits ds → ∀ c ∈ ds, IsDigit c := by
    exact fun ds h => h
  obtain ⟨sg, whole, point, frac, expo, rfl, h1, h2, h3, h4, h5, h6⟩ := h
  obtain ⟨f, hf⟩ := hs sg h1
  obtain ⟨k, hk⟩ : ∃ k, Exponent expo k := by
    rcases h6 with rfl | ⟨e, esg, ds, rfl, he, hes, hds, hne⟩
    · exact ⟨0, .inl ⟨rfl, rfl⟩⟩
    · obtain ⟨g, hg⟩ := hs esg hes
      exact ⟨_, .inr ⟨e, esg, g, ds, he, hg, hne, hd ds hds, rfl, rfl⟩⟩
  rcases h3 with rfl | rfl
  · refine ⟨_, sg, f, whole ++ frac, [], [], expo, k, hf, ?_, ⟨by simp, .inl ⟨rfl, rfl⟩⟩, by simp [h5], hk,
      by simp, rfl⟩
    intro c hc
    rcases List.mem_append.1 hc with h | h
    · exact hd _ h2 c h
    · exact hd _ h4 c h
  · exact ⟨_, sg, f, whole, '.' :: frac, frac, expo, k, hf, hd _ h2, ⟨hd _ h4, .inr rfl⟩, by simp [h5], hk,
      by simp, rfl⟩

theorem isNumeral_of_isInteger {s : List Char} (h : IsInteger s) : IsNumeral s := by
  obtain ⟨sg, ds, rfl, h1, h2, h3⟩ := h
  refine ⟨sg, [], [], ds, [], by simp, h1, fun c hc => by simp at hc, .inl rfl, h2, ?_, .inl rfl⟩
  rcases h3 with rfl | ⟨d, r, rfl, -⟩ <;> simp

/-- A field whose type is reported as integer or floating point is a numeral and is read as the number it spells. -/
theorem C80_typed {s : List Char} (h : parseType s = .int ∨ parseType s = .float) :
    ∃ q, Numeral s q ∧ convertNum s = (true, some q) := by
  have hn : IsNumeral s := by
    rcases h with h | h
    · exact isNumeral_of_isInteger ((C52_classification s).2.2.1.1 h)
    · exact ((C52_classification s).2.2.2.1.1 h).1
  obtain ⟨q, hq⟩ := numeral_of_isNumeral hn
  exact ⟨q, hq, convertNum_iff.2 ⟨[], s, q, by simp, hq, rfl, rfl⟩⟩

theorem natText_digit {n : Nat} : ∀ c ∈ natText n, IsDigit c := by
  intro c hc
  refine isDigit_iff.1 ?_
  have := Dump.digit_of_natText hc
  simpa [isDigit, Dump.isDigit] using this

theorem digitsVal_decimal (ds : List Char) : digitsVal ds = Dump.decimal ds := by
  unfold digitsVal Dump.decimal
  congr 1
  funext n c
  rw [Nat.mul_comm]
  rfl

theorem natOf_natText (n : Nat) : natOf (natText n) = n := by
  rw [← digitsVal_eq, digitsVal_decimal]
  exact Dump.decimal_natText n

/-- An integer written as text is read as that integer. -/
theorem C80_integer_text (i : ℤ) : convertNum (intText i) = (true, some (i : ℚ)) := by
  refine convertNum_iff.2 ⟨[], intText i, i, by simp, ?_, rfl, rfl⟩
  have hne : natText i.natAbs ≠ [] := Nat.toDigits_ne_nil
  by_cases h : i < 0
  · refine ⟨['-'], -1, natText i.natAbs, [], [], [], 0, .inr (.inr ⟨rfl, rfl⟩), natText_digit,
      ⟨by simp, .inl ⟨rfl, rfl⟩⟩, by simp [hne], .inl ⟨rfl, rfl⟩, by simp [intText, h], ?_⟩
    rw [natOf_natText]
    have : (i : ℚ) = -(i.natAbs : ℚ) := by
      have : i = -(i.natAbs : ℤ) := by omega
      exact_mod_cast this
    rw [this]
    simp [natOf]
  · refine ⟨[], 1, natText i.natAbs, [], [], [], 0, .inl ⟨rfl, rfl⟩, natText_digit,
      ⟨by simp, .inl ⟨rfl, rfl⟩⟩, by simp [hne], .inl ⟨rfl, rfl⟩, by simp [intText, h], ?_⟩
    rw [natOf_natText]
    have : (i : ℚ) = (i.natAbs : ℚ) := by
      have : ((i.natAbs : ℤ) : ℚ) = i := by rw [show (i.natAbs : ℤ) = i by omega]
      rw [← this]; rfl
    rw [this]
    simp [natOf]

/-- A number written with six decimals is read as the number written. -/
theorem C80_float_text (neg : Bool) (m : Nat) :
    convertNum (floatText neg m) = (true, some ((if neg then -1 else 1) * ((m : ℚ) / 1000000))) := by
  refine convertNum_iff.2 ⟨[], floatText neg m, _, by simp, ?_, rfl, rfl⟩
  have hne : natText (m / 1000000) ≠ [] := Nat.toDigits_ne_nil
  have h6 : ∀ c ∈ Dump.sixDigits m, IsDigit c := fun c hc => by
    refine isDigit_iff.1 ?_
    have := Dump.sixDigits_digit m c hc
    simpa [isDigit, Dump.isDigit] using this
  have hv : natOf (Dump.sixDigits m) = m % 1000000 := by
    rw [← digitsVal_eq, digitsVal_decimal]
    exact Dump.decimal_sixDigits m
  refine ⟨if neg then ['-'] else [], if neg then -1 else 1, natText (m / 1000000), '.' :: Dump.sixDigits m,
    Dump.sixDigits m, [], 0, ?_, natText_digit, ⟨h6, .inr rfl⟩, by simp [hne], .inl ⟨rfl, rfl⟩, ?_, ?_⟩
  · cases neg
    · exact .inl ⟨rfl, rfl⟩
    · exact .inr (.inr ⟨rfl, rfl⟩)
  · simp [floatText, Dump.sixDigits]
  · rw [natOf_natText, hv]
    have hl : (Dump.sixDigits m).length = 6 := rfl
    have hm := Nat.div_add_mod m 1000000
    have : (m : ℚ) = 1000000 * ((m / 1000000 : Nat) : ℚ) + ((m % 1000000 : Nat) : ℚ) := by
      exact_mod_cast hm.symm
    rw [hl, this]
    cases neg <;> norm_num <;> ring

/-- Numbers in saved models are read by this conversion as the model of saving and loading reads them. -/
theorem C80_saved (x : ℚ) :
    convertNum (Dump.sixDecimals.text x) = (true, some (Dump.sixDecimals.value (Dump.sixDecimals.text x))) := by
  show convertNum (floatText _ _) = (true, some (Dump.readDecimal (floatText _ _)))
  rw [Dump.readDecimal_floatText, C80_float_text]

/-- Converting a row to numbers gives the number of each of its fields. -/
theorem C80_row {r : Row} {ps : List (List Char)} {qs : List ℚ} (hp : r.strings = ps)
    (hq : List.Forall₂ Padded ps qs) : Row.nums r = .ok qs := by
  unfold Row.nums
  rw [hp]
  exact collect_forall₂ (hq.imp fun _ _ h => asNum_padded h)

theorem entryNums_of {c : Csv} {i : Nat} {c' : Csv} {ps : List (List Char)} {qs : List ℚ}
    (h : c.entry i = .ok (c', ps)) (hq : List.Forall₂ Padded ps qs) : Csv.entryNums c i = .ok (c', qs) := by
  unfold Csv.entry at h
  unfold Csv.entryNums
  cases hg : c.get (i + 1) with
  | ok r =>
    rw [hg, Exec.bind_ok] at h
    injection h with h
    rw [Prod.mk.injEq] at h
    rw [Exec.bind_ok, C80_row h.2 hq, Exec.bind_ok, h.1]
  | throw m => rw [hg] at h; cases h
  | ub => rw [hg] at h; cases h

/-- A file with a header and at least one data row: after any accesses, `entry(i)` is the list of the numbers in the
fields of data row `i`. -/
theorem C80_entry_partial {file : List Char} {ls : List (List Char)} {rest : List Char} {types : List Ty}
    {sep : Char} {c0 : Csv} (hl : Lines file ls rest) (h2 : 2 ≤ ls.length)
    (h : Csv.make (some file) types sep = .ok c0) (is : List Nat) {i : Nat} {line : List Char}
    {ps hs : List (List Char)} (hi : ls.tail[i]? = some line) (hp : Cut sep line ps) {head : List Char}
    (hh : ls[0]? = some head) (hhs : Cut sep head hs) (hlen : ps.length = hs.length) {qs : List ℚ}
    (hq : List.Forall₂ Padded ps qs) :
    ∃ c rs c', c0.gets is = .ok (c, rs) ∧ Csv.entryNums c i = .ok (c', qs) := by
  obtain ⟨-, c, rs, c', h1, h3⟩ := C55_entry_partial hl h2 h is hi hp hh hhs hlen
  exact ⟨c, rs, c', h1, entryNums_of h3 hq⟩

/-- The numbers in the fields of a line. -/
def LineNums (sep : Char) (n : Nat) (line : List Char) (qs : List ℚ) : Prop :=
  ∃ ps, Cut sep line ps ∧ ps.length = n ∧ List.Forall₂ Padded ps qs

theorem gets_snoc {c0 c c' : Csv} {is : List Nat} {rs : List Row} {i : Nat} {r : Row}
    (h : c0.gets is = .ok (c, rs)) (hg : c.get i = .ok (c', r)) : c0.gets (is ++ [i]) = .ok (c', rs ++ [r]) := by
  induction is generalizing c0 rs with
  | nil =>
    simp only [Csv.gets, Exec.ok.injEq, Prod.mk.injEq] at h
    obtain ⟨rfl, rfl⟩ := h
    simp [Csv.gets, hg]
  | cons j is ih =>
    rw [Csv.gets] at h
    rw [List.cons_append, Csv.gets]
    cases hj : c0.get j with
    | ok q =>
      rw [hj, Exec.bind_ok] at h
      cases hr : q.1.gets is with
      | ok w =>
        rw [hr, Exec.bind_ok] at h
        simp only [Exec.ok.injEq, Prod.mk.injEq] at h
        obtain ⟨rfl, rfl⟩ := h
        rw [Exec.bind_ok, ih hr]
        rfl
      | throw m => rw [hr] at h; cases h
      | ub => rw [hr] at h; cases h
    | throw m => rw [hj] at h; cases h
    | ub => rw [hj] at h; cases h

theorem entriesNums_of {file : List Char} {ls : List (List Char)} {rest : List Char} {types : List Ty}
    {sep : Char} {c0 : Csv} (hl : Lines file ls rest) (h2 : 2 ≤ ls.length)
    (h : Csv.make (some file) types sep = .ok c0) {head : List Char}
    {hs : List (List Char)} (hh : ls[0]? = some head) (hhs : Cut sep head hs) {rows : List (List ℚ)}
    (hr : List.Forall₂ (LineNums sep hs.length) ls.tail rows) (n i : Nat) (hin : i + n = rows.length)
    (is : List Nat) {c : Csv} {rs : List Row} (hc : c0.gets is = .ok (c, rs)) :
    ∃ c', Csv.entriesNums c i n = .ok (c', rows.drop i) := by
  induction n generalizing i is c rs with
  | zero => exact ⟨c, by simp [Csv.entriesNums, show i = rows.length by omega]⟩
  | succ n ih =>
    have hlen := hr.length_eq
    have hi1 : i < ls.tail.length := by omega
    have hi2 : i < rows.length := by omega
    obtain ⟨ps, hp1, hp2, hp3⟩ : LineNums sep hs.length ls.tail[i] rows[i] := hr.get hi1 hi2
    obtain ⟨-, c1, rs1, c', h1, h3⟩ :=
      C55_entry_partial hl h2 h is (List.getElem?_eq_getElem hi1) hp1 hh hhs hp2
    rw [hc] at h1
    simp only [Exec.ok.injEq, Prod.mk.injEq] at h1
    obtain ⟨rfl, rfl⟩ := h1
    have he := entryNums_of h3 hp3
    obtain ⟨r, hg⟩ : ∃ r, c.get (i + 1) = .ok (c', r) := by
      unfold Csv.entry at h3
      cases hg : c.get (i + 1) with
      | ok q =>
        rw [hg, Exec.bind_ok] at h3
        simp only [Exec.ok.injEq, Prod.mk.injEq] at h3
        exact ⟨q.2, by rw [← h3.1]⟩
      | throw m => rw [hg] at h3; cases h3
      | ub => rw [hg] at h3; cases h3
    obtain ⟨c'', hc''⟩ := ih (i + 1) (by omega) (is ++ [i + 1]) (gets_snoc hc hg)
    refine ⟨c'', ?_⟩
    rw [Csv.entriesNums, he, Exec.bind_ok, hc'', Exec.bind_ok, List.drop_eq_getElem_cons hi2]

theorem lineNums_mem {sep : Char} {n : Nat} {ls : List (List Char)} {rows : List (List ℚ)}
    (h : List.Forall₂ (LineNums sep n) ls rows) {r : List ℚ} (hr : r ∈ rows) : ∃ l, LineNums sep n l r := by
  induction h with
  | nil => simp at hr
  | cons hx _ ih =>
    rcases List.mem_cons.1 hr with rfl | h'
    · exact ⟨_, hx⟩
    · exact ih h'

/-- Parsing a file whose data fields are numerals gives the data set with exactly the numbers of the file, row by
row, whatever was read from the CSV object before. -/
theorem C80_dataset_partial {file : List Char} {ls : List (List Char)} {rest : List Char} {types : List Ty}
    {sep : Char} {c0 : Csv} (hl : Lines file ls rest) (h2 : 2 ≤ ls.length)
    (h : Csv.make (some file) types sep = .ok c0) {head : List Char} {hs : List (List Char)}
    (hh : ls[0]? = some head) (hhs : Cut sep head hs) {rows : List (List ℚ)}
    (hr : List.Forall₂ (LineNums sep hs.length) ls.tail rows) {labels : Finset Nat}
    (hlab : ∀ l ∈ labels, l < hs.length) (is : List Nat) :
    ∃ c rs d, c0.gets is = .ok (c, rs) ∧ Csv.dataset c labels 1 = .ok d ∧ Consistent d ∧
      Spec.rows d = rows ∧ d.labelsIdx = labels := by
  have f := make_fields h
  have hcols : c0.cols = hs.length := by
    have hlf : Left (Js.In.on file) ((ls.drop 0).flatMap (fun l => l ++ ['\n']) ++ rest) := by
      have := left_on file
      rw [hl.2.2] at this ⊢
      exact this
    obtain ⟨s1, b1, -⟩ := next_line (i := 0) hl.1 hlf hh
    rw [f.2.2.2.1, b1]
    show head.count sep + 1 = _
    rw [← hhs.2.2]
    exact cut_count hhs.1 hhs.2.1
  have hpos : 0 < hs.length := List.length_pos_iff.2 hhs.1
  obtain ⟨c, rs, hc, hinv, -⟩ := gets_inv hl (by intro h0; simp [h0] at h2) (by omega) is (make_inv hl h2 h)
  have hlen := hr.length_eq
  have hent : c.entries = rows.length := by
    unfold Csv.entries
    rw [if_neg (by rw [hinv.rows]; omega), hinv.rows, ← hlen, List.length_tail]
  obtain ⟨c', hc'⟩ := entriesNums_of hl h2 h hh hhs hr rows.length 0 (by omega) is hc
  obtain ⟨d, hd, hcons, hrows, hlab'⟩ := C51_default (p := (⟨rows, hs.length, labels⟩ : Data.Source ℚ))
    ⟨fun r hr' => by
        obtain ⟨l, ps, -, hps, hq⟩ := lineNums_mem hr hr'
        show r.length = hs.length
        rw [← hq.length_eq, hps], hlab⟩
    (by
      intro h0
      have h0' : rows = [] := h0
      rw [h0', List.length_nil, List.length_tail] at hlen
      omega) hpos
  refine ⟨c, rs, d, hc, ?_, hcons, hrows, hlab'⟩
  unfold Csv.dataset
  rw [hent, hc', Exec.bind_ok, hinv.cols, hcols]
  exact hd

/-- If the header is made of numerals too, the conversion of the whole file to a matrix gives the numbers of all
lines. -/
theorem C80_matrix {file : List Char} {ls : List (List Char)} {rest : List Char} {types : List Ty}
    {sep : Char} {c : Csv} (hl : Lines file ls rest) (h : Csv.make (some file) types sep = .ok c)
    {rows : List (List ℚ)} (hr : List.Forall₂ (LineNums sep c.cols) ls rows) : Csv.matNums c = .ok rows := by
  obtain ⟨tab, h1, h2⟩ : ∃ tab : List (List (List Char)),
      List.Forall₂ (fun l ps => Cut sep l ps ∧ ps.length = c.cols) ls tab ∧
      List.Forall₂ (fun ps qs => List.Forall₂ Padded ps qs) tab rows := by
    clear h hl
    induction hr with
    | nil => exact ⟨[], .nil, .nil⟩
    | cons hx _ ih =>
      obtain ⟨ps, k1, k2, k3⟩ := hx
      obtain ⟨tab, h1, h2⟩ := ih
      exact ⟨ps :: tab, .cons ⟨k1, k2⟩ h1, .cons k3 h2⟩
  unfold Csv.matNums
  rw [C65_table hl h h1]
  exact collect_forall₂ (h2.imp fun _ _ hq => collect_forall₂ (hq.imp fun _ _ hp => asNum_padded hp))

theorem entryNums_eq {c c' : Csv} {i : Nat} {ps : List (List Char)} (h : c.entry i = .ok (c', ps)) :
    Csv.entryNums c i = (Data.collect asNum ps).bind fun v => .ok (c', v) := by
  unfold Csv.entry at h
  unfold Csv.entryNums
  cases hg : c.get (i + 1) with
  | ok r =>
    rw [hg, Exec.bind_ok] at h
    injection h with h
    rw [Prod.mk.injEq] at h
    rw [Exec.bind_ok, Row.nums, h.2, h.1]
    rfl
  | throw m => rw [hg] at h; cases h
  | ub => rw [hg] at h; cases h

theorem asNum_of {s : List Char} {b : Bool} {q : ℚ} (h : convertNum s = (b, some q)) : asNum s = .ok q := by
  simp [asNum, h]

/-- A field that is not a number is read as zero; the failure of the conversion is not reported. -/
theorem C80_text_refuted : ∃ c c', Csv.make (some "x,y\nabc,2\n".toList) [.string, .string] ',' = .ok c ∧
    Csv.entryNums c 0 = .ok (c', [0, 2]) ∧ convertNum "abc".toList = (false, some 0) ∧
    ∀ q, ¬ Padded "abc".toList q := by
  have h1 : convertNum "abc".toList = (false, some 0) := by decide +kernel
  have h2 : convertNum "2".toList = (true, some 2) := by decide +kernel
  let c := (⟨"x,y\nabc,2\n".toList, [.string, .string], ⟨"x,y".toList, 0, 2, ','⟩,
    ⟨"abc,2".toList, 1, 2, ','⟩, 2, 2, ','⟩ : Csv)
  refine ⟨c, c, rfl, ?_, h1, ?_⟩
  · rw [entryNums_eq (c' := c) (ps := ["abc".toList, "2".toList]) rfl]
    simp only [Data.collect, asNum_of h1, asNum_of h2, Exec.bind_ok]
    rfl
  · rintro q ⟨a, n, b, ha, ⟨sg, f, ip, fr, fp, ex, k, -, hip, ⟨hfp, hfr⟩, hne, -, rfl, -⟩, -, hs⟩
    have hd : ∀ c ∈ ip ++ fp, IsDigit c := by
      intro c hc
      rcases List.mem_append.1 hc with h | h
      · exact hip c h
      · exact hfp c h
    obtain ⟨c, r, hcr⟩ := List.exists_cons_of_ne_nil hne
    have hm : c ∈ "abc".toList := by
      rw [hs]
      have : c ∈ ip ++ fp := by rw [hcr]; simp
      rcases List.mem_append.1 this with h | h
      · simp [h]
      · rcases hfr with ⟨-, rfl⟩ | rfl
        · simp at h
        · simp [h]
    have hc := isDigit_iff.2 (hd c (by rw [hcr]; simp))
    have hall : ∀ c ∈ "abc".toList, isDigit c = false := by decide
    rw [hall c hm] at hc
    cases hc

/-- A field that only begins like a number is read as that number. -/
theorem C80_tail_refuted : ∃ c c', Csv.make (some "x\n12km\n".toList) [.string] ',' = .ok c ∧
    Csv.entryNums c 0 = .ok (c', [12]) ∧ convertNum "12km".toList = (false, some 12) := by
  have h1 : convertNum "12km".toList = (false, some 12) := by decide +kernel
  let c := (⟨"x\n12km\n".toList, [.string], ⟨"x".toList, 0, 1, ','⟩,
    ⟨"12km".toList, 1, 1, ','⟩, 1, 2, ','⟩ : Csv)
  refine ⟨c, c, rfl, ?_, h1⟩
  rw [entryNums_eq (c' := c) (ps := ["12km".toList]) rfl]
  simp only [Data.collect, asNum_of h1, Exec.bind_ok]
  rfl

/-- A data row with an empty field, in a file of numbers: the value of that field is never set. -/
theorem C80_empty_refuted : ∃ c, Csv.make (some "x,y\n1,\n".toList) [.string, .string] ',' = .ok c ∧
    Csv.entryNums c 0 = .ub := by
  have h1 : convertNum "1".toList = (true, some 1) := by decide +kernel
  have h2 : asNum [] = .ub := rfl
  let c := (⟨"x,y\n1,\n".toList, [.string, .string], ⟨"x,y".toList, 0, 2, ','⟩,
    ⟨"1,".toList, 1, 2, ','⟩, 2, 2, ','⟩ : Csv)
  refine ⟨c, rfl, ?_⟩
  rw [entryNums_eq (c' := c) (ps := ["1".toList, []]) rfl]
  simp only [Data.collect, asNum_of h1, h2, Exec.bind_ok]
  rfl

/-- The header of an ordinary file becomes a row of zeros in the matrix of the file. -/
theorem C80_header_refuted : ∃ c, Csv.make (some "x,y\n1,2\n".toList) [.string, .string] ',' = .ok c ∧
    Csv.matNums c = .ok [[0, 0], [1, 2]] := by
  have h1 : convertNum "1".toList = (true, some 1) := by decide +kernel
  have h2 : convertNum "2".toList = (true, some 2) := by decide +kernel
  have h3 : convertNum "x".toList = (false, some 0) := by decide +kernel
  have h4 : convertNum "y".toList = (false, some 0) := by decide +kernel
  let c := (⟨"x,y\n1,2\n".toList, [.string, .string], ⟨"x,y".toList, 0, 2, ','⟩,
    ⟨"1,2".toList, 1, 2, ','⟩, 2, 2, ','⟩ : Csv)
  have hc : Csv.make (some "x,y\n1,2\n".toList) [.string, .string] ',' = .ok c := rfl
  refine ⟨c, hc, ?_⟩
  unfold Csv.matNums
  rw [C65_table (ls := ["x,y".toList, "1,2".toList]) (rest := []) ⟨by decide, by decide, by decide⟩ hc
    (tab := [["x".toList, "y".toList], ["1".toList, "2".toList]])
    (.cons ⟨⟨by simp, by decide, rfl⟩, rfl⟩ (.cons ⟨⟨by simp, by decide, rfl⟩, rfl⟩ .nil))]
  simp only [Data.collect, asNum_of h1, asNum_of h2, asNum_of h3, asNum_of h4, Exec.bind_ok]

/-- The hypotheses are met by a file with several forms of numerals. -/
example : List.Forall₂ (LineNums ',' 2) ["-1.5,  2e3".toList, "+007,.25\r".toList] [[-3 / 2, 2000], [7, 1 / 4]] := by
  have hd : ∀ c, isDigit c = true → IsDigit c := fun c => isDigit_iff.1
  refine .cons ⟨["-1.5".toList, "  2e3".toList], ⟨by simp, by decide, by decide⟩, rfl, .cons ?_ (.cons ?_ .nil)⟩
    (.cons ⟨["+007".toList, ".25\r".toList], ⟨by simp, by decide, by decide⟩, rfl, .cons ?_ (.cons ?_ .nil)⟩ .nil)
  · refine ⟨[], "-1.5".toList, [], by simp, ?_, by simp, by simp⟩
    exact strtod_iff.1 (by decide +kernel)
  · refine ⟨"  ".toList, "2e3".toList, [], by simp [IsBlank], ?_, by simp, by decide⟩
    exact strtod_iff.1 (by decide +kernel)
  · refine ⟨[], "+007".toList, [], by simp, ?_, by simp, by simp⟩
    exact strtod_iff.1 (by decide +kernel)
  · refine ⟨[], ".25".toList, "\r".toList, by simp, ?_, by simp [IsBlank], by decide⟩
    exact strtod_iff.1 (by decide +kernel)

example : ∃ c, Csv.make (some "x,y\n-1.5,  2e3\n+007,.25\r\n".toList) [.string, .string] ',' = .ok c ∧
    Lines "x,y\n-1.5,  2e3\n+007,.25\r\n".toList ["x,y".toList, "-1.5,  2e3".toList, "+007,.25\r".toList] [] ∧
    Cut ',' "x,y".toList [['x'], ['y']] := ⟨_, rfl, ⟨by decide, by decide, by decide⟩, ⟨by simp, by decide, rfl⟩⟩

end Verif.Props
