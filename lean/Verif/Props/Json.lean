import Verif.Proofs.JsonEq

/-
C53: writing and reading JSON.
-/

namespace Verif.Props

open Verif.Js Verif.Text Verif.Spec

/-- C53: the comparison of two values without empty items returns, and tells whether they have the same
structure and texts. -/
theorem C53_equality {t u : Json} (ht : Full t) (hu : Full u) :
    ∃ b, eqItem t u = .ok b ∧ (b = true ↔ SameText t u) := eqItem_spec ht hu

/-- C53, proved part: a value of the class `Plain` that is not written as the empty text is read back from
its text unchanged, and compares equal.  Missing: the values outside the class (empty lists and
dictionaries, texts and keys with quotes, a last empty leaf, empty items), for which the claim is refuted
below. -/
theorem C53_round_trip_partial {t : Json} (h : Plain t) (hne : print t ≠ []) :
    (∃ N, ∀ n, N ≤ n → parse n (print t) = .ok t) ∧ eqItem t t = .ok true := by
  constructor
  · obtain ⟨N, hN⟩ := item_spec h
    refine ⟨N, fun n hn => ?_⟩
    obtain ⟨s, hs⟩ := (hN n hn [] [] (by simpa using hne)).2.2 rfl hne
    rw [List.append_nil] at hs
    unfold parse
    rw [on_at, hs]
    rfl
  · obtain ⟨b, hb, hb'⟩ := eqItem_spec (plain_full h) (plain_full h)
    rw [hb, hb'.mpr (sameText_refl (plain_full h))]

/-- C53, proved part: the values made by the constructors from a text without quotes, an integer, a finite
floating number or a boolean are in the class. -/
theorem C53_scalars_partial :
    (∀ v, '"' ∉ v → Plain (ofString v)) ∧ (∀ i, Plain (ofInt i)) ∧ (∀ neg m, Plain (ofFloat neg m)) ∧
      (∀ b, Plain (ofBool b)) := by
  refine ⟨fun v hv => ?_, fun i => ?_, fun neg m => ?_, fun b => ?_⟩
  · show Plain (.leaf v (parseType v))
    by_cases h : parseType v = .string
    · rw [h]; exact .text hv
    · exact .scalar rfl h
  · exact .scalar (C52_integer_text i).1 (by simp)
  · exact .scalar (C52_float_text neg m).1 (by simp)
  · exact .scalar (C52_boolean_text b).1 (by simp)

/-- C53, proved part: lists and dictionaries nested without bound stay in the class. -/
theorem C53_nested_partial :
    (∀ ts : List Json, ts ≠ [] → (∀ t ∈ ts, Plain t) → ts.getLast? ≠ some (.leaf [] .none) →
        Plain (.list ts)) ∧
      (∀ m : List (Key × Json), m ≠ [] → (∀ p ∈ m, '"' ∉ p.1) → (∀ p ∈ m, Plain p.2) → KeysSorted m →
        Plain (.dict m)) :=
  ⟨fun _ h1 h2 h3 => .list h1 h2 fun _ => h3, fun _ h1 h2 h3 h4 => .dict h1 h2 h3 h4⟩

/-- C53: an empty list is read back as a list with one item. -/
theorem C53_empty_list_refuted (n : Nat) :
    parse (n + 2) (print (.list [])) = .ok (.list [.leaf [] .none]) := by
  rw [print_list]
  rfl

/-- C53: reading back an empty dictionary uses a character that was never read. -/
theorem C53_empty_dict_refuted (n : Nat) : parse n (print (.dict [])) = .ub := by
  rw [print_dict]
  match n with
  | 0 => rfl
  | 1 => rfl
  | 2 => rfl
  | n + 3 => rfl

/-- C53: a string with a quote is cut at the quote. -/
theorem C53_quote_refuted (n : Nat) (v w : List Char) (hv : '"' ∉ v) :
    parse (n + 1) (print (ofString (v ++ '"' :: w))) = .ok (.leaf v .string) ∧
      ofString (v ++ '"' :: w) ≠ .leaf v .string := by
  have ht : parseType (v ++ '"' :: w) = .string := by
    by_contra h
    exact scalar_free h (c := '"') (by simp) (by simp)
  have e : ofString (v ++ '"' :: w) = .leaf (v ++ '"' :: w) .string := by
    show Json.leaf _ (parseType _) = _
    rw [ht]
  constructor
  · rw [e, print_leaf, if_pos rfl]
    unfold parse
    rw [on_at]
    unfold parseItem
    rw [read_at]
    simp only [useChar, Exec.bind_ok]
    rw [if_neg (by decide), if_neg (by decide), back_one]
    unfold parseLeaf
    rw [read_at]
    simp only [useChar, Exec.bind_ok]
    rw [if_pos trivial]
    have e2 : v ++ '"' :: w ++ ['"'] = v ++ '"' :: (w ++ ['"']) := by simp
    rw [e2, line_at hv]
    cases w with
    | nil =>
      show (skipComma (atPos _ ('"' :: [])) _ >>= _ >>= _) = _
      rw [skipComma_other _ (by decide)]
      rfl
    | cons c w =>
      show (skipComma (atPos _ (c :: (w ++ ['"']))) _ >>= _ >>= _) = _
      by_cases hc : c = ','
      · rw [hc, skipComma_comma]; rfl
      · rw [skipComma_other _ hc]; rfl
  · rw [e]
    simp

/-- C53: a list whose last item is an empty text loses it. -/
theorem C53_last_empty_refuted (n : Nat) :
    parse (n + 3) (print (.list [ofInt 1, ofString []])) = .ok (.list [ofInt 1]) := by
  rw [print_list]
  simp only [List.map_cons, List.map_nil, ofInt, ofString, leafOf, print_leaf]
  rfl

/-- C53: an item without content in a list comes back as a leaf. -/
theorem C53_empty_item_refuted (n : Nat) :
    parse (n + 2) (print (.list [.none])) = .ok (.list [.leaf [] .none]) := by
  rw [print_list]
  simp only [List.map_cons, List.map_nil, print_none]
  rfl

/-- C53: a non-trivial value of the class, with its text. -/
example : Plain (.dict [("a".toList, .list [ofInt 1, ofString "x,]}".toList]), ("b".toList, ofBool true)]) ∧
    print (.dict [("a".toList, .list [ofInt 1, ofString "x,]}".toList]), ("b".toList, ofBool true)]) =
      "{\"a\":[1,\"x,]}\"],\"b\":true}".toList := by
  constructor
  · refine .dict (by simp) (by decide) ?_ (by simp [KeysSorted, keyLt]) 
    intro p hp
    simp only [List.mem_cons, List.not_mem_nil, or_false] at hp
    rcases hp with rfl | rfl
    · refine .list (by simp) ?_ (by intro _ h; simp [ofString, leafOf] at h)
      intro t ht
      simp only [List.mem_cons, List.not_mem_nil, or_false] at ht
      rcases ht with rfl | rfl
      · exact C53_scalars_partial.2.1 1
      · exact C53_scalars_partial.1 _ (by decide)
    · exact C53_scalars_partial.2.2.2 true
  · rw [print_dict]
    simp only [List.map_cons, List.map_nil, field, print_list, ofInt, ofBool, ofString, leafOf, print_leaf]
    decide +kernel

end Verif.Props
