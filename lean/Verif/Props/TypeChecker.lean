import Verif.Proofs.TypeChecker

/-
C52: classification of texts.
-/

namespace Verif.Props

open Verif.Text Verif.Spec

/-- C52: the matcher used by the model accepts exactly the language of the regular expression. -/
theorem C52_matcher (r : Re) (s : List Char) : r.accepts s = true ↔ Matches r s := accepts_iff r s

/-- C52: the class of every text: empty is NONE, `true`/`false` BOOL, decimal integers without leading
zeros INT, other decimal or scientific numerals FLOAT, everything else STRING. -/
theorem C52_classification (s : List Char) :
    (parseType s = .none ↔ s = []) ∧
      (parseType s = .bool ↔ s = "true".toList ∨ s = "false".toList) ∧
      (parseType s = .int ↔ IsInteger s) ∧ (parseType s = .float ↔ IsNumeral s ∧ ¬ IsInteger s) ∧
      (parseType s = .string ↔
        s ≠ [] ∧ s ≠ "true".toList ∧ s ≠ "false".toList ∧ ¬ IsInteger s ∧ ¬ IsNumeral s) := by
  have ht : "true".toList = ['t', 'r', 'u', 'e'] := rfl
  have hf : "false".toList = ['f', 'a', 'l', 's', 'e'] := rfl
  rw [ht, hf]
  unfold parseType
  by_cases h0 : s = []
  · subst h0
    have hi : ¬ IsInteger [] := by
      rintro ⟨a, b, e, _, _, h⟩
      have := List.append_eq_nil_iff.mp e.symm
      rcases h with h | ⟨d, r, h, _⟩ <;> rw [this.2] at h <;> cases h
    have hn : ¬ IsNumeral [] := by
      rintro ⟨a, b, c, d, f, e, _, _, _, _, hd, _⟩
      have := List.append_eq_nil_iff.mp e.symm
      exact hd (List.append_eq_nil_iff.mp this.1).2
    simp [hi, hn]
  · have he : s.isEmpty = false := by simpa using h0
    have hb : ∀ w : List Char, (w = ['t', 'r', 'u', 'e'] ∨ w = ['f', 'a', 'l', 's', 'e']) →
        ¬ IsInteger w ∧ ¬ IsNumeral w := by
      intro w hw
      constructor
      · intro hi
        have := (accepts_iff integerRe w).mpr (m_integer.mpr hi)
        rcases hw with rfl | rfl <;> exact absurd this (by decide)
      · intro hi
        have := (accepts_iff floatRe w).mpr (m_float.mpr hi)
        rcases hw with rfl | rfl <;> exact absurd this (by decide)
    simp only [he, Bool.false_eq_true, if_false]
    by_cases hs : stringRe.accepts s = true
    · obtain ⟨h1, h2, h3, h4, h5⟩ := quoted_not_number ((accepts_iff _ _).mp hs)
      simp [hs, h1, h2, h3, h4, h5]
    · rw [if_neg hs]
      by_cases hbool : booleanRe.accepts s = true
      · have h := m_boolean.mp ((accepts_iff _ _).mp hbool)
        have := hb s h
        rw [if_pos hbool]
        simp only [this, h0, h]
        refine ⟨by simp, by simp, by simp, by simp, ?_⟩
        rcases h with h | h <;> simp [h]
      · have hnb : ¬ (s = ['t', 'r', 'u', 'e'] ∨ s = ['f', 'a', 'l', 's', 'e']) := fun h =>
          hbool ((accepts_iff _ _).mpr (m_boolean.mpr h))
        have hnb' := not_or.mp hnb
        rw [if_neg hbool]
        by_cases hint : integerRe.accepts s = true
        · have h := m_integer.mp ((accepts_iff _ _).mp hint)
          rw [if_pos hint]
          simp [h, h0, hnb'.1, hnb'.2]
        · have hni : ¬ IsInteger s := fun h => hint ((accepts_iff _ _).mpr (m_integer.mpr h))
          rw [if_neg hint]
          by_cases hfl : floatRe.accepts s = true
          · have h := m_float.mp ((accepts_iff _ _).mp hfl)
            rw [if_pos hfl]
            simp [h, hni, h0, hnb'.1, hnb'.2]
          · have hnf : ¬ IsNumeral s := fun h => hfl ((accepts_iff _ _).mpr (m_float.mpr h))
            rw [if_neg hfl]
            simp [hnf, hni, h0, hnb'.1, hnb'.2]

/-- C52: a quoted text is STRING, whatever stands between the quotes (even a number or a line end). -/
theorem C52_quoted (s : List Char) : parseType ('"' :: (s ++ ['"'])) = .string := by
  have h := C52_classification ('"' :: (s ++ ['"']))
  have hq : ∀ c, c = '"' → ¬ IsDigit c := by rintro c rfl; simp [IsDigit]
  rw [h.2.2.2.2]
  have hd : ∀ ds rest b : List Char, Digits ds → '"' :: b = ds ++ rest → ds = [] := by
    intro ds rest b h e
    cases ds with
    | nil => rfl
    | cons d ds =>
      rw [List.cons_append, List.cons.injEq] at e
      exact absurd (h d (by simp)) (hq d e.1.symm)
  have hs : ∀ sign rest b : List Char, IsSign sign → '"' :: b = sign ++ rest → sign = [] := by
    intro sign rest b h e
    rcases h with rfl | rfl | rfl
    · rfl
    · rw [List.cons_append, List.cons.injEq] at e; exact absurd e.1 (by decide)
    · rw [List.cons_append, List.cons.injEq] at e; exact absurd e.1 (by decide)
  refine ⟨by simp, by simp, by simp, ?_, ?_⟩
  · rintro ⟨sign, ds, e, h1, h2, h3⟩
    obtain rfl := hs _ _ _ h1 e
    have := hd ds [] _ h2 (by simpa using e)
    subst this
    rcases h3 with h3 | ⟨d, r, h3, _⟩ <;> cases h3
  · rintro ⟨sign, whole, point, frac, expo, e, h1, h2, h3, h4, h5, _⟩
    simp only [List.append_assoc] at e
    obtain rfl := hs _ _ _ h1 e
    rw [List.nil_append] at e
    obtain rfl := hd whole _ _ h2 e
    rw [List.nil_append] at e
    rcases h3 with rfl | rfl
    · exact h5 (hd frac _ _ h4 e)
    · rw [List.cons_append, List.cons.injEq] at e
      exact absurd e.1 (by decide)

/-- The value a text of decimal digits denotes. -/
def decimalValue (s : List Char) : Nat := s.foldl (fun v c => 10 * v + (c.toNat - '0'.toNat)) 0

theorem natText_spec (n : Nat) :
    Digits (natText n) ∧ (natText n = ['0'] ∨ ∃ d rest, natText n = d :: rest ∧ d ≠ '0') ∧
      decimalValue (natText n) = n ∧ (natText n = ['0'] ↔ n = 0) := by
  induction n using Nat.strongRecOn with
  | ind n ih =>
    have hdig : ∀ k, k < 10 → IsDigit (Nat.digitChar k) ∧ (Nat.digitChar k).toNat - '0'.toNat = k ∧
        (Nat.digitChar k = '0' ↔ k = 0) := by
      unfold IsDigit
      decide
    unfold natText at *
    by_cases h : n < 10
    · rw [Nat.toDigits_of_lt_base h]
      obtain ⟨h1, h2, h3⟩ := hdig n h
      refine ⟨?_, ?_, ?_, ?_⟩
      · intro c hc
        rw [List.mem_singleton.mp hc]
        exact h1
      · by_cases h0 : n = 0
        · exact .inl (by rw [h3.mpr h0])
        · exact .inr ⟨_, [], rfl, fun e => h0 (h3.mp e)⟩
      · simp only [decimalValue, List.foldl_cons, List.foldl_nil]
        omega
      · rw [List.cons.injEq]
        simp only [and_true]
        exact h3
    · rw [Nat.toDigits_of_base_le (by omega) (by omega)]
      obtain ⟨i1, i2, i3, i4⟩ := ih (n / 10) (by omega)
      obtain ⟨h1, h2, h3⟩ := hdig (n % 10) (by omega)
      have hne : Nat.toDigits 10 (n / 10) ≠ ['0'] := fun e => by
        have := i4.mp e
        omega
      obtain ⟨d, rest, e, hd⟩ := i2.resolve_left hne
      refine ⟨?_, .inr ⟨d, rest ++ [Nat.digitChar (n % 10)], by rw [e]; rfl, hd⟩, ?_, ?_⟩
      · intro c hc
        rcases List.mem_append.mp hc with hc | hc
        · exact i1 c hc
        · rw [List.mem_singleton.mp hc]
          exact h1
      · unfold decimalValue at *
        rw [List.foldl_append, i3]
        simp only [List.foldl_cons, List.foldl_nil]
        omega
      · rw [e]
        constructor
        · intro h'
          simp at h'
        · intro h'
          omega

/-- C52: the text written for an integer is INT, and it denotes that integer. -/
theorem C52_integer_text (i : Int) :
    parseType (intText i) = .int ∧ ∃ (neg : Bool) (ds : List Char), intText i = (if neg then ['-'] else []) ++ ds ∧
      i = (if neg then -(decimalValue ds : Int) else decimalValue ds) := by
  obtain ⟨h1, h2, h3, h4⟩ := natText_spec i.natAbs
  constructor
  · rw [(C52_classification _).2.2.1]
    unfold intText
    by_cases hi : i < 0
    · rw [if_pos hi]
      exact ⟨['-'], _, rfl, .inr (.inl rfl), h1, h2⟩
    · rw [if_neg hi]
      exact ⟨[], _, rfl, .inl rfl, h1, h2⟩
  · refine ⟨decide (i < 0), natText i.natAbs, ?_, ?_⟩
    · unfold intText
      by_cases hi : i < 0 <;> simp [hi]
    · rw [h3]
      by_cases hi : i < 0
      · simp only [hi, decide_true, if_true]; omega
      · simp only [hi, decide_false, Bool.false_eq_true, if_false]; omega

/-- C52: the text written for a boolean is BOOL, and reading it gives that boolean. -/
theorem C52_boolean_text (b : Bool) : parseType (boolText b) = .bool ∧ toBool (boolText b) = b := by
  cases b <;> decide

/-- C52: the text written for a finite floating number is FLOAT, and reading its digits gives the
number rounded to millionths. -/
theorem C52_float_text (neg : Bool) (m : Nat) :
    parseType (floatText neg m) = .float ∧
      ∃ whole frac, floatText neg m = (if neg then ['-'] else []) ++ whole ++ ['.'] ++ frac ∧ frac.length = 6 ∧
        decimalValue (whole ++ frac) = m := by
  obtain ⟨h1, h2, h3, h4⟩ := natText_spec (m / 1000000)
  have hdig : ∀ k, k < 10 → IsDigit (Nat.digitChar k) ∧ (Nat.digitChar k).toNat - '0'.toNat = k := by
    unfold IsDigit
    decide
  constructor
  · rw [(C52_classification _).2.2.2.1]
    constructor
    · refine ⟨if neg then ['-'] else [], natText (m / 1000000), ['.'],
        [100000, 10000, 1000, 100, 10, 1].map fun p => Nat.digitChar (m / p % 10), [], ?_, ?_, h1, .inr rfl, ?_,
        by simp, .inl rfl⟩
      · unfold floatText
        rw [List.append_nil]
      · cases neg
        · exact .inl rfl
        · exact .inr (.inl rfl)
      · intro c hc
        obtain ⟨p, _, rfl⟩ := List.mem_map.mp hc
        exact (hdig _ (Nat.mod_lt _ (by omega))).1
    · rintro ⟨sign, ds, e, hs, hd, _⟩
      have hpt : '.' ∈ floatText neg m := by simp [floatText]
      rw [e] at hpt
      rcases List.mem_append.mp hpt with h | h
      · rcases hs with rfl | rfl | rfl <;> simp at h
      · have := hd '.' h
        simp [IsDigit] at this
  · refine ⟨natText (m / 1000000), _, rfl, by simp, ?_⟩
    unfold decimalValue at *
    rw [List.foldl_append, h3]
    simp only [List.map_cons, List.map_nil, List.foldl_cons, List.foldl_nil,
      (hdig _ (Nat.mod_lt _ (show 0 < 10 by omega))).2]
    omega

/-- C52: classifying a row of texts classifies each of them. -/
theorem C52_row (fields : List (List Char)) :
    (parseTypes fields).length = fields.length ∧
      ∀ i (h : i < fields.length), (parseTypes fields)[i]? = some (parseType fields[i]) := by
  refine ⟨by simp [parseTypes], fun i h => ?_⟩
  simp [parseTypes, h]

/-- C52: examples of every class. -/
example : parseType "".toList = .none ∧ parseType "\"12\"".toList = .string ∧ parseType "true".toList = .bool ∧
    parseType "-120".toList = .int ∧ parseType "007".toList = .float ∧ parseType ".5e-3".toList = .float ∧
    parseType "1.".toList = .string ∧ intText (-120) = "-120".toList ∧
    floatText true 1500000 = "-1.500000".toList := by decide +kernel

end Verif.Props
