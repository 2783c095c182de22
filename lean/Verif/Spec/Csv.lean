import Verif.Model.Csv

/-
Specification of texts cut at separators and of files cut into lines.
-/

namespace Verif.Spec

/-- The pieces joined by the separator. -/
def join (sep : Char) : List (List Char) → List Char
  | [] => []
  | [p] => p
  | p :: q :: ps => p ++ sep :: join sep (q :: ps)

/-- The text is cut at its separators into these pieces. -/
def Cut (sep : Char) (text : List Char) (ps : List (List Char)) : Prop :=
  ps ≠ [] ∧ (∀ p ∈ ps, sep ∉ p) ∧ join sep ps = text

/-- The file consists of these lines, each ended by a newline, and of a rest without newlines. -/
def Lines (file : List Char) (ls : List (List Char)) (rest : List Char) : Prop :=
  (∀ l ∈ ls, '\n' ∉ l) ∧ '\n' ∉ rest ∧ file = ls.flatMap (fun l => l ++ ['\n']) ++ rest

/-- The positions looked at by a sequence of moves from position `p` that never leaves the positions
`0 .. rows`, of which the last one is not looked at. -/
def track (rows : Nat) : Nat → List Csv.Move → Option (List Nat)
  | _, [] => some []
  | p, .forth :: ms => if p < rows then track rows (p + 1) ms else none
  | p, .back :: ms => if 0 < p then track rows (p - 1) ms else none
  | p, .look :: ms => if p < rows then (track rows p ms).map (p :: ·) else none

end Verif.Spec
