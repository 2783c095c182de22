import Verif.Model.Json

/-
Specification for JSON texts: which values can be written and read back.
-/

namespace Verif.Spec

open Verif.Js Verif.Text

/-- The keys of a dictionary are in increasing order, without repetitions. -/
def KeysSorted {α : Type} (m : List (Key × α)) : Prop := m.Pairwise fun p q => keyLt p.1 q.1 = true

/-- Values made of: strings without quotes; scalars (numbers, booleans, the empty leaf) carrying the type
their text has; non-empty lists, of which only a list of one item may end with the empty leaf; non-empty
dictionaries whose keys have no quotes. -/
inductive Plain : Json → Prop where
  | text {v : List Char} : '"' ∉ v → Plain (.leaf v .string)
  | scalar {v : List Char} {ty : Ty} : parseType v = ty → ty ≠ .string → Plain (.leaf v ty)
  | list {ts : List Json} : ts ≠ [] → (∀ t ∈ ts, Plain t) →
      (2 ≤ ts.length → ts.getLast? ≠ some (.leaf [] .none)) → Plain (.list ts)
  | dict {m : List (Key × Json)} : m ≠ [] → (∀ p ∈ m, '"' ∉ p.1) → (∀ p ∈ m, Plain p.2) → KeysSorted m →
      Plain (.dict m)

/-- The two values have the same structure and the same texts (the types of leaves may differ). -/
inductive SameText : Json → Json → Prop where
  | leaf {v : List Char} {t u : Ty} : SameText (.leaf v t) (.leaf v u)
  | list {ts us : List Json} : ts.length = us.length →
      (∀ (i : Nat) (t u : Json), ts[i]? = some t → us[i]? = some u → SameText t u) →
      SameText (.list ts) (.list us)
  | dict {m m' : List (Key × Json)} : (∀ k, k ∈ m.map Prod.fst ↔ k ∈ m'.map Prod.fst) →
      (∀ (k : Key) (t u : Json), mapFind m k = some t → mapFind m' k = some u → SameText t u) →
      SameText (.dict m) (.dict m')

/-- Values without empty items whose dictionaries have distinct keys. -/
inductive Full : Json → Prop where
  | leaf {v : List Char} {t : Ty} : Full (.leaf v t)
  | list {ts : List Json} : (∀ t ∈ ts, Full t) → Full (.list ts)
  | dict {m : List (Key × Json)} : (m.map Prod.fst).Nodup → (∀ p ∈ m, Full p.2) → Full (.dict m)

end Verif.Spec
