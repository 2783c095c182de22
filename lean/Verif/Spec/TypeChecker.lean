import Verif.Model.TypeChecker

/-
Specification of the classes of texts.
-/

namespace Verif.Spec

/-- A decimal digit. -/
def IsDigit (c : Char) : Prop := c ∈ ['0', '1', '2', '3', '4', '5', '6', '7', '8', '9']

/-- A sign or nothing. -/
def IsSign (s : List Char) : Prop := s = [] ∨ s = ['-'] ∨ s = ['+']

/-- A text of digits, possibly empty. -/
def Digits (s : List Char) : Prop := ∀ c ∈ s, IsDigit c

/-- A decimal integer without leading zeros. -/
def IsInteger (s : List Char) : Prop :=
  ∃ sign ds, s = sign ++ ds ∧ IsSign sign ∧ Digits ds ∧ (ds = ['0'] ∨ ∃ d rest, ds = d :: rest ∧ d ≠ '0')

/-- A decimal or scientific numeral: sign, digits, possibly a point followed by digits, possibly an
exponent. -/
def IsNumeral (s : List Char) : Prop :=
  ∃ sign whole point frac expo, s = sign ++ whole ++ point ++ frac ++ expo ∧ IsSign sign ∧ Digits whole ∧
    (point = [] ∨ point = ['.']) ∧ Digits frac ∧ frac ≠ [] ∧
    (expo = [] ∨ ∃ e esign ds, expo = e :: (esign ++ ds) ∧ (e = 'e' ∨ e = 'E') ∧ IsSign esign ∧ Digits ds ∧
      ds ≠ [])

/-- The languages of regular expressions. -/
inductive Matches : Text.Re → List Char → Prop where
  | eps : Matches .eps []
  | cls {p : Char → Bool} {c : Char} : p c = true → Matches (.cls p) [c]
  | seq {r t : Text.Re} {s u : List Char} : Matches r s → Matches t u → Matches (.seq r t) (s ++ u)
  | left {r t : Text.Re} {s : List Char} : Matches r s → Matches (.alt r t) s
  | right {r t : Text.Re} {s : List Char} : Matches t s → Matches (.alt r t) s
  | stop {r : Text.Re} : Matches (.star r) []
  | more {r : Text.Re} {s u : List Char} : Matches r s → Matches (.star r) u → Matches (.star r) (s ++ u)

end Verif.Spec
