import Verif.Spec.Csv
import Verif.Spec.TypeChecker
import Mathlib.Data.Nat.Digits.Defs
import Mathlib.Algebra.Order.Field.Rat

/-
Specification of decimal numerals.
-/

namespace Verif.Spec

/-- A blank character. -/
def IsBlank (c : Char) : Prop := c ∈ [' ', '\t', '\n', '\x0b', '\x0c', '\r']

/-- The number written with these decimal digits, the most significant one first. -/
def natOf (ds : List Char) : ℕ := Nat.ofDigits 10 (ds.reverse.map fun c => c.toNat - '0'.toNat)

/-- An optional sign and the factor it stands for. -/
def Sign (s : List Char) (f : ℤ) : Prop := (s = [] ∧ f = 1) ∨ (s = ['+'] ∧ f = 1) ∨ (s = ['-'] ∧ f = -1)

/-- An optional fraction and its digits. -/
def Fraction (s ds : List Char) : Prop := (∀ c ∈ ds, IsDigit c) ∧ ((s = [] ∧ ds = []) ∨ s = '.' :: ds)

/-- An optional exponent and its value. -/
def Exponent (s : List Char) (k : ℤ) : Prop :=
  (s = [] ∧ k = 0) ∨ ∃ e sg f ds, (e = 'e' ∨ e = 'E') ∧ Sign sg f ∧ ds ≠ [] ∧ (∀ c ∈ ds, IsDigit c) ∧
    s = e :: (sg ++ ds) ∧ k = f * natOf ds

/-- The text is a decimal numeral for `q`, such as `12`, `-0.5`, `+7.`, `.25` or `1e-3`: an optional sign, digits with
an optional decimal point, and an optional exponent. -/
def Numeral (s : List Char) (q : ℚ) : Prop :=
  ∃ sg f ip fr fp ex k, Sign sg f ∧ (∀ c ∈ ip, IsDigit c) ∧ Fraction fr fp ∧ ip ++ fp ≠ [] ∧ Exponent ex k ∧
    s = sg ++ ip ++ fr ++ ex ∧ q = f * ((natOf ip + natOf fp / 10 ^ fp.length) * 10 ^ k)

/-- A numeral with blanks around it. -/
def Padded (s : List Char) (q : ℚ) : Prop :=
  ∃ a n b, (∀ c ∈ a, IsBlank c) ∧ Numeral n q ∧ (∀ c ∈ b, IsBlank c) ∧ s = a ++ n ++ b

end Verif.Spec
