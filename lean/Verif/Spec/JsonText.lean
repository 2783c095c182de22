import Verif.Spec.Json

/-
What a JSON text without spaces denotes.
-/

namespace Verif.Spec

open Verif.Js Verif.Text

/-- The last value the fields give to a key. -/
def lastField {α : Type} (fs : List (Key × α)) (k : Key) : Option α :=
  (fs.reverse.find? fun f => f.1 = k).map Prod.snd

/-- The text denotes the value: a string without quotes, between quotes; a scalar; a list of the values of
texts separated by commas; a dictionary that gives to each key the last value the fields give to it,
whatever the order of the fields. -/
inductive Denotes : List Char → Json → Prop where
  | string {v : List Char} : '"' ∉ v → Denotes ('"' :: (v ++ ['"'])) (.leaf v .string)
  | scalar {v : List Char} : parseType v ≠ .string → Denotes v (.leaf v (parseType v))
  | list {xs : List (List Char × Json)} : xs ≠ [] → (∀ x ∈ xs, Denotes x.1 x.2) →
      (2 ≤ xs.length → (xs.map Prod.fst).getLast? ≠ some []) →
      Denotes ('[' :: ([','].intercalate (xs.map Prod.fst) ++ [']'])) (.list (xs.map Prod.snd))
  | dict {fs : List (Key × List Char × Json)} {m : List (Key × Json)} : fs ≠ [] → (∀ f ∈ fs, '"' ∉ f.1) →
      (∀ f ∈ fs, Denotes f.2.1 f.2.2) → KeysSorted m →
      (∀ k, mapFind m k = (lastField fs k).map Prod.snd) →
      Denotes ('{' :: ([','].intercalate (fs.map fun f => '"' :: (f.1 ++ '"' :: ':' :: f.2.1)) ++ ['}'])) (.dict m)

end Verif.Spec
