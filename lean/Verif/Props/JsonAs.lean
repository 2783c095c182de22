import Verif.Proofs.JsonAs
import Verif.Props.Json
import Verif.Props.Number
import Verif.Props.Drift

/-! C91 and C92: values read from JSON items and CSV fields with a type. -/

namespace Verif.Props

open Verif.Spec Verif.Js Verif.Text Verif.Num

/-- `int` of C++. -/
abbrev cInt : IntType := ⟨true, 32⟩

/-- `unsigned int` of C++. -/
abbrev cUnsigned : IntType := ⟨false, 32⟩

theorem intNumeral_text (i : ℤ) : IntNumeral (intText i) i := by
  have hne : natText i.natAbs ≠ [] := Nat.toDigits_ne_nil
  by_cases h : i < 0
  · refine ⟨['-'], -1, natText i.natAbs, .inr (.inr ⟨rfl, rfl⟩), hne, natText_digit, by simp [intText, h], ?_⟩
    rw [natOf_natText]
    omega
  · refine ⟨[], 1, natText i.natAbs, .inl ⟨rfl, rfl⟩, hne, natText_digit, by simp [intText, h], ?_⟩
    rw [natOf_natText]
    omega

theorem asText_int {t : IntType} {s : List Char} {i : ℤ} (h : PaddedInt s i) (hi : IntType.Holds t i) :
    asText (.int t) s = .ok (.int i) := by
  obtain ⟨a, n, b, ha, hn, hb, rfl⟩ := h
  simp only [asText, convertInt_holds ha hn (blanks_noDigit hb) hi]

theorem asText_num (q : ℚ) : asText .num (floatText (decide (q < 0)) (Dump.millionths q)) =
    .ok (.num (trip Dump.sixDecimals q)) := by
  have h := C80_saved q
  have e : Dump.sixDecimals.text q = floatText (decide (q < 0)) (Dump.millionths q) := rfl
  rw [e] at h
  simp only [asText, asNum, h]
  rfl

theorem itemOf_leaf (v : Val) : ∃ s ty, itemOf v = .leaf s ty := by
  cases v <;> exact ⟨_, _, rfl⟩

/-- C91: a value stored in an item is read back, with the same type, as that value; a floating point number up to
half a millionth. -/
theorem C91_item {k : ValType} {v : Val} (h : HasKind k v) :
    ∃ w, asItem k (itemOf v) = .ok w ∧ SameVal v w ∧ (SixDecimals v → w = v) := by
  cases k <;> cases v <;> try exact h.elim
  · rename_i t i
    refine ⟨.int i, ?_, rfl, fun _ => rfl⟩
    exact asText_int ⟨[], intText i, [], by simp, intNumeral_text i, by simp, by simp⟩ h
  · rename_i q
    refine ⟨.num (trip Dump.sixDecimals q), asText_num q, ?_, ?_⟩
    · have := (C60_resolution q).1
      exact this
    · intro hz
      exact congrArg Val.num (millionth_trip hz)
  · rename_i b
    refine ⟨.bool b, ?_, rfl, fun _ => rfl⟩
    cases b <;> rfl
  · rename_i s
    exact ⟨.text s, rfl, rfl, fun _ => rfl⟩

theorem castItem_leaf (k : ValType) (s : List Char) (ty : Ty) : castItem k (.leaf s ty) = asItem k (.leaf s ty) := by
  cases k <;> rfl

theorem castItem_itemOf (k : ValType) (v : Val) : castItem k (itemOf v) = asItem k (itemOf v) := by
  obtain ⟨s, ty, h⟩ := itemOf_leaf v
  rw [h, castItem_leaf]

/-- C91: a vector stored as a JSON list is read back as the vector. -/
theorem C91_list {k : ValType} {vs : List Val} (h : ∀ v ∈ vs, HasKind k v) :
    ∃ ws, asVec k (listOfVals vs) = .ok ws ∧ List.Forall₂ SameVal vs ws ∧
      ((∀ v ∈ vs, SixDecimals v) → ws = vs) := by
  induction vs with
  | nil => exact ⟨[], rfl, .nil, fun _ => rfl⟩
  | cons v vs ih =>
    obtain ⟨w, h1, h2, h3⟩ := C91_item (h v (by simp))
    obtain ⟨ws, h4, h5, h6⟩ := ih fun v hv => h v (by simp [hv])
    refine ⟨w :: ws, ?_, .cons h2 h5, fun hz => ?_⟩
    · simp only [listOfVals, asVec, List.map_cons, Data.collect, castItem_itemOf, h1] at h4 ⊢
      rw [Exec.bind_ok, h4, Exec.bind_ok]
    · rw [h3 (hz v (by simp)), h6 fun v hv => hz v (by simp [hv])]

/-- C91: a map stored as a JSON dictionary is read back as the map. -/
theorem C91_dict {k : ValType} {m : List (Key × Val)} (h : ∀ p ∈ m, HasKind k p.2) :
    ∃ m', asMap k (dictOfVals m) = .ok m' ∧ List.Forall₂ (fun p p' => p'.1 = p.1 ∧ SameVal p.2 p'.2) m m' ∧
      ((∀ p ∈ m, SixDecimals p.2) → m' = m) := by
  induction m with
  | nil => exact ⟨[], rfl, .nil, fun _ => rfl⟩
  | cons p m ih =>
    obtain ⟨w, h1, h2, h3⟩ := C91_item (h p (by simp))
    obtain ⟨m', h4, h5, h6⟩ := ih fun q hq => h q (by simp [hq])
    refine ⟨(p.1, w) :: m', ?_, .cons ⟨rfl, h2⟩ h5, fun hz => ?_⟩
    · simp only [dictOfVals, asMap, List.map_cons, Data.collect, castItem_itemOf, h1, Exec.bind_ok] at h4 ⊢
      rw [h4, Exec.bind_ok]
    · rw [h3 (hz p (by simp)), h6 fun q hq => hz q (by simp [hq])]

theorem plain_itemOf {v : Val} (h : CanWrite v) : Plain (itemOf v) := by
  obtain ⟨h1, h2, h3, h4⟩ := C53_scalars_partial
  cases v with
  | int i => exact h2 i
  | num q => exact h3 _ _
  | bool b => exact h4 b
  | text s => exact h1 s h.2

theorem itemOf_ne {v : Val} (h : CanWrite v) (ty : Ty) : itemOf v ≠ .leaf [] ty := by
  intro he
  cases v with
  | int i =>
    injection he with h1
    obtain ⟨sg, f, ds, -, hne, -, h2, -⟩ := intNumeral_text i
    rw [h1] at h2
    exact hne (List.append_eq_nil_iff.1 h2.symm).2
  | num q =>
    injection he with h1
    unfold floatText at h1
    simp at h1
  | bool b => injection he with h1; cases b <;> cases h1
  | text s => injection he with h1; exact h.1 h1

theorem print_itemOf {v : Val} (h : CanWrite v) : print (itemOf v) ≠ [] := by
  obtain ⟨s, ty, hs⟩ := itemOf_leaf v
  have hne := itemOf_ne h ty
  rw [hs] at hne ⊢
  have : s ≠ [] := fun e => hne (by rw [e])
  cases ty <;> simp [print, this]

/-- C91: a value stored, written to a file and read from it is still read back with its type. -/
theorem C91_file_item {k : ValType} {v : Val} (h : HasKind k v) (hw : CanWrite v) :
    ∃ w, SameVal v w ∧ (SixDecimals v → w = v) ∧
      ∃ N, ∀ n, N ≤ n → ∃ j, parse n (print (itemOf v)) = .ok j ∧ asItem k j = .ok w := by
  obtain ⟨w, h1, h2, h3⟩ := C91_item h
  obtain ⟨⟨N, hN⟩, -⟩ := C53_round_trip_partial (plain_itemOf hw) (print_itemOf hw)
  exact ⟨w, h2, h3, N, fun n hn => ⟨_, hN n hn, h1⟩⟩

/-- C91: the same for the vectors. -/
theorem C91_file_list {k : ValType} {vs : List Val} (h : ∀ v ∈ vs, HasKind k v) (hne : vs ≠ [])
    (hw : ∀ v ∈ vs, CanWrite v) :
    ∃ ws, List.Forall₂ SameVal vs ws ∧ ((∀ v ∈ vs, SixDecimals v) → ws = vs) ∧
      ∃ N, ∀ n, N ≤ n → ∃ j, parse n (print (listOfVals vs)) = .ok j ∧ asVec k j = .ok ws := by
  obtain ⟨ws, h1, h2, h3⟩ := C91_list h
  have hp : Plain (listOfVals vs) := by
    refine .list (by simpa using hne) ?_ fun _ => ?_
    · intro t ht
      obtain ⟨v, hv, rfl⟩ := List.mem_map.1 ht
      exact plain_itemOf (hw v hv)
    · intro hl
      obtain ⟨v, hv, he⟩ := List.mem_map.1 (List.mem_of_getLast? hl)
      exact itemOf_ne (hw v hv) _ he
  obtain ⟨⟨N, hN⟩, -⟩ := C53_round_trip_partial hp (by simp [listOfVals, print])
  exact ⟨ws, h2, h3, N, fun n hn => ⟨_, hN n hn, h1⟩⟩

/-- C91: the same for the maps. -/
theorem C91_file_dict {k : ValType} {m : List (Key × Val)} (h : ∀ p ∈ m, HasKind k p.2) (hne : m ≠ [])
    (hw : ∀ p ∈ m, CanWrite p.2) (hk : ∀ p ∈ m, '"' ∉ p.1) (hs : KeysSorted m) :
    ∃ m', List.Forall₂ (fun p p' => p'.1 = p.1 ∧ SameVal p.2 p'.2) m m' ∧ ((∀ p ∈ m, SixDecimals p.2) → m' = m) ∧
      ∃ N, ∀ n, N ≤ n → ∃ j, parse n (print (dictOfVals m)) = .ok j ∧ asMap k j = .ok m' := by
  obtain ⟨m', h1, h2, h3⟩ := C91_dict h
  have hp : Plain (dictOfVals m) := by
    refine .dict (by simpa using hne) ?_ ?_ ?_
    · intro p hp
      obtain ⟨q, hq, rfl⟩ := List.mem_map.1 hp
      exact hk q hq
    · intro p hp
      obtain ⟨q, hq, rfl⟩ := List.mem_map.1 hp
      exact plain_itemOf (hw q hq)
    · unfold KeysSorted at hs ⊢
      rw [List.pairwise_map]
      exact hs
  obtain ⟨⟨N, hN⟩, -⟩ := C53_round_trip_partial hp (by simp [dictOfVals, print])
  exact ⟨m', h2, h3, N, fun n hn => ⟨_, hN n hn, h1⟩⟩

/-- C91: a row of a CSV file whose fields are integers the type holds, with blanks around them, is converted to those
integers. -/
theorem C91_row {r : Csv.Row} {t : IntType} {is : List ℤ} (h : List.Forall₂ PaddedInt r.strings is)
    (hi : ∀ i ∈ is, IntType.Holds t i) : Row.vals (.int t) r = .ok (is.map .int) := by
  unfold Row.vals
  apply collect_forall₂
  generalize r.strings = l at h
  induction h with
  | nil => exact .nil
  | cons h _ ih => exact .cons (asText_int h (hi _ (by simp))) (ih fun i hm => hi i (by simp [hm]))

/-! ### C92: texts that are not values of the type -/

/-- C92: the conversion of a text to an integer of a signed type succeeds exactly if the text is a decimal integer
that the type holds, possibly after blanks, and then stores that integer. -/
theorem C92_convert {t : IntType} (ht : t.signed = true) (s : List Char) (v : Option ℤ) :
    convertInt t s = (true, v) ↔
      ∃ a n i, (∀ c ∈ a, IsBlank c) ∧ IntNumeral n i ∧ s = a ++ n ∧ IntType.Holds t i ∧ v = some i := by
  rw [convertInt_iff]
  constructor
  · rintro ⟨a, n, i, h1, h2, h3, ⟨h4, h5⟩ | ⟨h4, -⟩⟩
    · exact ⟨a, n, i, h1, h2, h3, h4, h5⟩
    · rw [ht] at h4; cases h4
  · rintro ⟨a, n, i, h1, h2, h3, h4, h5⟩
    exact ⟨a, n, i, h1, h2, h3, .inl ⟨h4, h5⟩⟩

/-- C92, proved part: reading an item as a value throws exactly if the item is empty, a list or a dictionary.
Missing: texts that are not values of the type, for which the claim is refuted below. -/
theorem C92_item_partial (k : ValType) (j : Json) :
    (∃ m, asItem k j = .throw m) ↔ ∀ s ty, j ≠ .leaf s ty := by
  cases j with
  | leaf s ty =>
    simp only [asItem, ne_eq]
    constructor
    · rintro ⟨m, h⟩
      cases k with
      | int t => simp only [asText] at h; split at h <;> cases h
      | num =>
        simp only [asText, asNum] at h
        split at h <;> cases h
      | bool => cases h
      | text => cases h
    · intro h
      exact absurd rfl (h s ty)
  | none => exact Iff.intro (fun _ s ty h => nomatch h) (fun _ => ⟨_, rfl⟩)
  | list ts => exact Iff.intro (fun _ s ty h => nomatch h) (fun _ => ⟨_, rfl⟩)
  | dict m => exact Iff.intro (fun _ s ty h => nomatch h) (fun _ => ⟨_, rfl⟩)

/-- C92, proved part: reading an item as a vector throws if it is not a list, and as a map if it is not a
dictionary. -/
theorem C92_container_partial (k : ValType) (j : Json) :
    ((∀ ts, j ≠ .list ts) → ∃ m, asVec k j = .throw m) ∧ ((∀ m, j ≠ .dict m) → ∃ m, asMap k j = .throw m) := by
  constructor
  · intro h
    cases j with
    | list ts => exact absurd rfl (h ts)
    | _ => exact ⟨_, rfl⟩
  · intro h
    cases j with
    | dict m => exact absurd rfl (h m)
    | _ => exact ⟨_, rfl⟩

/-- C92, what happens: a text that begins with an integer the type holds is read as that integer, whatever follows
it. -/
theorem C92_prefix_actual {t : IntType} {a n r : List Char} {i : ℤ} (ha : ∀ c ∈ a, IsBlank c) (hn : IntNumeral n i)
    (hr : ∀ c ∈ r.head?, ¬ IsDigit c) (hi : IntType.Holds t i) : asText (.int t) (a ++ n ++ r) = .ok (.int i) := by
  have hr' : NoDigit r := fun c hc => by
    have := hr c hc
    rw [← Num.isDigit_iff] at this
    simpa using this
  simp only [asText, convertInt_holds ha hn hr' hi]

/-- C92, what happens: an integer outside the range of a signed type is read as the end of the range nearest to
it. -/
theorem C92_range_actual {t : IntType} (ht : t.signed = true) {s : List Char} {i : ℤ} (h : PaddedInt s i)
    (hi : ¬ IntType.Holds t i) :
    asText (.int t) s = .ok (.int (if i < 0 then -2 ^ (t.bits - 1) else 2 ^ (t.bits - 1) - 1)) := by
  obtain ⟨a, n, b, ha, hn, hb, rfl⟩ := h
  simp only [asText, convertInt_outside ht ha hn (blanks_noDigit hb) hi]

/-- C92, what happens: a negative integer is read as an unsigned one modulo the size of the type, and the conversion
reports success. -/
theorem C92_unsigned_actual {t : IntType} (ht : t.signed = false) {a n b : List Char} {i : ℤ}
    (ha : ∀ c ∈ a, IsBlank c) (hn : IntNumeral n i) (hb : ∀ c ∈ b, IsBlank c) (hi : i < 0) (hi' : -2 ^ t.bits < i) :
    asText (.int t) (a ++ n ++ b) = .ok (.int (2 ^ t.bits + i)) ∧
      (b = [] → (convertInt t (a ++ n ++ b)).1 = true) := by
  have h := convertInt_wraps ht ha hn (blanks_noDigit hb) hi hi'
  refine ⟨by simp only [asText, h], fun hb => ?_⟩
  rw [h, hb]
  rfl

/-- C92, what happens: reading an integer from a text has no defined value exactly if the text has only
blanks. -/
theorem C92_blank_actual (t : IntType) (s : List Char) :
    asText (.int t) s = .ub ↔ ∀ c ∈ s, IsBlank c := by
  have hb : (∀ c ∈ s, IsBlank c) ↔ s.dropWhile isSpace = [] := by
    induction s with
    | nil => simp
    | cons c s ih =>
      by_cases h : isSpace c = true
      · rw [List.dropWhile_cons_of_pos h, ← ih]
        simp [isSpace_iff.1 h]
      · rw [List.dropWhile_cons_of_neg h]
        simp [← isSpace_iff, h]
  rw [hb]
  constructor
  · intro h
    by_contra hne
    have he : (s.dropWhile isSpace).isEmpty = false := by simpa using hne
    simp only [asText, convertInt, he, Bool.false_eq_true, if_false] at h
    split at h
    · cases h
    · next heq => split at heq <;> (try split at heq) <;> (try split at heq) <;> simp at heq
  · intro h
    simp [asText, convertInt, h]

/-- C92 is false: texts that are no integers, integers with a fraction, integers outside the range and negative
integers for an unsigned type are read as other integers. -/
theorem C92_integer_refuted :
    asItem (.int cInt) (ofString "seven".toList) = .ok (.int 0) ∧
      asItem (.int cInt) (ofString "12.7".toList) = .ok (.int 12) ∧
      asItem (.int cInt) (ofString "99999999999".toList) = .ok (.int 2147483647) ∧
      asItem (.int cUnsigned) (ofInt (-1)) = .ok (.int 4294967295) ∧
      asItem .bool (ofString "yes".toList) = .ok (.bool false) := by
  refine ⟨?_, ?_, ?_, ?_, ?_⟩
  · show asText (.int cInt) "seven".toList = _
    have : convertInt cInt "seven".toList = (false, some 0) := by decide +kernel
    simp only [asText, this]
  · show asText (.int cInt) "12.7".toList = _
    have : convertInt cInt "12.7".toList = (false, some 12) := by decide +kernel
    simp only [asText, this]
  · show asText (.int cInt) "99999999999".toList = _
    have : convertInt cInt "99999999999".toList = (false, some 2147483647) := by decide +kernel
    simp only [asText, this]
  · show asText (.int cUnsigned) (intText (-1)) = _
    have : convertInt cUnsigned (intText (-1)) = (true, some 4294967295) := by decide +kernel
    simp only [asText, this]
  · rfl

/-- C92 is false: reading an integer from an empty text has no defined value. -/
theorem C92_empty_refuted : asItem (.int cInt) (ofString []) = .ub :=
  (C92_blank_actual cInt []).2 (by simp)

/-! ### A concrete case -/

theorem holds_int (i : ℤ) : IntType.Holds cInt i ↔ -2147483648 ≤ i ∧ i < 2147483648 := by
  simp [IntType.Holds]

/-- The hypotheses hold for a vector of integers, one of which is negative. -/
example : ∃ ws, asVec (.int cInt) (listOfVals [.int 3, .int (-2147483648), .int 0]) = .ok ws ∧
    ws = [.int 3, .int (-2147483648), .int 0] := by
  obtain ⟨ws, h1, -, h2⟩ := C91_list (k := .int cInt) (vs := [.int 3, .int (-2147483648), .int 0]) (by
    intro v hv
    simp only [List.mem_cons, List.not_mem_nil, or_false] at hv
    rcases hv with rfl | rfl | rfl <;> simp [HasKind, holds_int])
  refine ⟨ws, h1, h2 ?_⟩
  intro v hv
  simp only [List.mem_cons, List.not_mem_nil, or_false] at hv
  rcases hv with rfl | rfl | rfl <;> trivial

/-- The hypotheses hold for a map written to a file. -/
example : ∃ m', List.Forall₂ (fun p p' => p'.1 = p.1 ∧ SameVal p.2 p'.2)
      [(['a'], Val.num (1 / 3)), (['b'], Val.num (-2))] m' ∧
    ∃ N, ∀ n, N ≤ n → ∃ j, parse n (print (dictOfVals [(['a'], Val.num (1 / 3)), (['b'], Val.num (-2))])) = .ok j ∧
      asMap .num j = .ok m' := by
  obtain ⟨m', h1, -, h2⟩ := C91_file_dict (k := .num) (m := [(['a'], Val.num (1 / 3)), (['b'], Val.num (-2))])
    (by intro p hp; simp only [List.mem_cons, List.not_mem_nil, or_false] at hp; rcases hp with rfl | rfl <;> trivial)
    (by simp)
    (by intro p hp; simp only [List.mem_cons, List.not_mem_nil, or_false] at hp; rcases hp with rfl | rfl <;> trivial)
    (by intro p hp; simp only [List.mem_cons, List.not_mem_nil, or_false] at hp; rcases hp with rfl | rfl <;> simp)
    (by simp [KeysSorted]; decide)
  exact ⟨m', h1, h2⟩

/-- The hypotheses hold for a negative integer read as an unsigned one. -/
example : asText (.int cUnsigned) " -7 ".toList = .ok (.int 4294967289) :=
  (C92_unsigned_actual (a := [' ']) (n := ['-', '7']) (b := [' ']) (i := -7) rfl (by simp [IsBlank])
    ⟨['-'], -1, ['7'], .inr (.inr ⟨rfl, rfl⟩), by simp, by simp [IsDigit], rfl, by decide⟩ (by simp [IsBlank])
    (by decide) (by decide)).1

end Verif.Props
