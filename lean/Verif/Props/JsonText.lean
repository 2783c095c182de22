import Verif.Proofs.JsonText
import Verif.Props.Json

/-
C102: reading JSON texts.
-/

namespace Verif.Props

open Verif Verif.Js Verif.Text Verif.Spec

/-- **C102** for texts without spaces: reading a text gives the value it denotes, whatever the order of the
fields of its dictionaries; of fields with the same key the last one counts.  (The number bounds the
recursion of the model; any number that is large enough will do.) -/
theorem C102_text_partial {T : List Char} {t : Json} (h : Denotes T t) (hne : T ≠ []) :
    ∃ N, ∀ n, N ≤ n → parse n T = .ok t := by
  obtain ⟨N, hN⟩ := item_reads h
  refine ⟨N, fun n hn => ?_⟩
  obtain ⟨s, hs⟩ := (hN n hn [] [] (by simpa using hne)).2.2 rfl hne
  unfold parse
  have e : In.on T = atPos [] (T ++ []) := by simp [In.on, atPos]
  rw [e, hs]
  rfl

/-- **C102**: a text without spaces denotes one value only. -/
theorem C102_unique_partial {T : List Char} {t u : Json} (ht : Denotes T t) (hu : Denotes T u) : t = u := by
  by_cases hne : T = []
  · have empty : ∀ {T : List Char} {t : Json}, Denotes T t → T = [] → t = .leaf [] (parseType []) := by
      intro T t h e
      cases h with
      | scalar _ => rw [e]
      | string _ => cases e
      | list _ _ _ => cases e
      | dict _ _ _ _ _ => cases e
    rw [empty ht hne, empty hu hne]
  · obtain ⟨N, hN⟩ := C102_text_partial ht hne
    obtain ⟨M, hM⟩ := C102_text_partial hu hne
    have h1 := hN (max N M) (by omega)
    rw [hM (max N M) (by omega)] at h1
    injection h1 with h1
    exact h1.symm

/-- **C102**: the text a value of C53 is written as denotes that value. -/
theorem C102_written_partial {t : Json} (h : Plain t) : Denotes (print t) t := by
  induction h with
  | text hv =>
    rw [print_leaf, if_pos rfl]
    exact .string hv
  | @scalar v ty hp hs =>
    subst hp
    rw [print_leaf, if_neg hs]
    exact .scalar hs
  | @list ts hn hp hl ih =>
    rw [print_list, commas_eq]
    have := Denotes.list (xs := ts.map fun t => (print t, t)) (by simpa using hn) (by
      intro x hx
      obtain ⟨t, ht, rfl⟩ := List.mem_map.mp hx
      exact ih t ht) (by
      intro h2
      rw [List.length_map] at h2
      have h3 := hl h2
      simp only [List.map_map]
      intro h4
      rw [List.getLast?_map] at h4
      cases h5 : ts.getLast? with
      | none => rw [h5] at h4; cases h4
      | some u =>
        rw [h5] at h4 h3
        simp only [Option.map_some, Function.comp, Option.some.injEq] at h4
        rcases print_head (hp u (List.mem_of_getLast? h5)) with ⟨_, h6⟩ | ⟨c, r, h6, _⟩
        · exact h3 (by rw [h6])
        · rw [h4] at h6
          cases h6)
    simpa [Function.comp_def] using this
  | @dict m hn hk hp hs ih =>
    rw [print_dict, commas_eq]
    have := Denotes.dict (fs := m.map fun p => (p.1, print p.2, p.2)) (m := m) (by simpa using hn) (by
      intro x hx
      obtain ⟨p, hp, rfl⟩ := List.mem_map.mp hx
      exact hk p hp) (by
      intro x hx
      obtain ⟨p, hp, rfl⟩ := List.mem_map.mp hx
      exact ih p hp) hs (by
      intro k
      have h1 := putAll_find (acc := []) (fs := m) (by simp [KeysSorted]) k
      have h2 : putAll [] m = m := by
        have : ∀ (a b : List (Key × Json)), KeysSorted (a ++ b) → putAll a b = a ++ b := by
          intro a b
          induction b generalizing a with
          | nil => intro _; simp [putAll]
          | cons q b ih =>
            intro hab
            show putAll (mapPut a q.1 q.2) b = _
            rw [mapPut_last fun p hp => (List.pairwise_append.mp hab).2.2 p hp q (by simp), ih _ (by simpa using hab)]
            simp
        simpa using this [] m (by simpa using hs)
      rw [h2] at h1
      rw [h1]
      unfold lastField
      rw [← List.map_reverse, List.find?_map]
      have hc : (fun f : Key × List Char × Json => decide (f.1 = k)) ∘ (fun p : Key × Json => (p.1, print p.2, p.2))
        = fun f => decide (f.1 = k) := rfl
      rw [hc]
      cases m.reverse.find? fun f => decide (f.1 = k) <;> simp [mapFind])
    have hf : (m.map fun p : Key × Json => '"' :: (p.1 ++ '"' :: ':' :: print p.2)) = m.map field := rfl
    simpa [Function.comp_def, hf] using this

/-- A case: the fields in another order than the keys, a key twice. -/
example : Denotes "{\"b\":1,\"a\":[2,\"x\"],\"b\":3}".toList
    (.dict [("a".toList, .list [ofInt 2, ofString "x".toList]), ("b".toList, ofInt 3)]) := by
  have num : ∀ i : Int, Denotes (intText i) (ofInt i) := by
    intro i
    have := C102_written_partial (C53_scalars_partial.2.1 i)
    have e : ofInt i = .leaf (intText i) .int := rfl
    rw [e, print_leaf, if_neg (by decide)] at this
    exact this
  have l := Denotes.list (xs := [("2".toList, ofInt 2), ("\"x\"".toList, ofString "x".toList)]) (by simp) (by
    intro x hx
    simp only [List.mem_cons, List.not_mem_nil, or_false] at hx
    rcases hx with rfl | rfl
    · exact num 2
    · exact .string (v := ['x']) (by decide)) (by simp)
  exact .dict (fs := [("b".toList, "1".toList, ofInt 1), ("a".toList, "[2,\"x\"]".toList, .list [ofInt 2, ofString "x".toList]),
    ("b".toList, "3".toList, ofInt 3)]) (by simp) (by simp) (by
      intro f hf
      simp only [List.mem_cons, List.not_mem_nil, or_false] at hf
      rcases hf with rfl | rfl | rfl
      · exact num 1
      · exact l
      · exact num 3) (by simp [KeysSorted, keyLt]) (by
      intro k
      by_cases h1 : "a".toList = k
      · subst h1; rfl
      · by_cases h2 : "b".toList = k
        · subst h2; rfl
        · simp [mapFind, lastField] at h1 h2 ⊢
          simp [h1, h2])

/-- **C102** fails for spaces: after a comma in a list they become part of the next value, which turns a number
into a string. -/
theorem C102_space_refuted (n : Nat) :
    parse (n + 3) "[1, 2]".toList = .ok (.list [ofInt 1, .leaf " 2".toList .string]) ∧
      parse (n + 3) "[1,2]".toList = .ok (.list [ofInt 1, ofInt 2]) := ⟨rfl, rfl⟩

/-- **C102** fails for spaces: after a comma in a dictionary they make the reader use a character that was
never read. -/
theorem C102_space_dict_refuted (n : Nat) :
    parse n "{\"a\":1, \"b\":2}".toList = .ub ∧
      parse (n + 4) "{\"a\":1,\"b\":2}".toList = .ok (.dict [("a".toList, ofInt 1), ("b".toList, ofInt 2)]) := by
  refine ⟨?_, rfl⟩
  match n with
  | 0 => rfl
  | 1 => rfl
  | 2 => rfl
  | 3 => rfl
  | n + 4 => rfl

end Verif.Props
