import Verif.Model.JsonAs
import Verif.Spec.Number
import Verif.Spec.Json

/-
Specification for the typed access to JSON values.
-/

namespace Verif.Spec

open Verif.Js Verif.Num

/-- The text is a decimal numeral for the integer `i`: an optional sign and digits. -/
def IntNumeral (s : List Char) (i : ℤ) : Prop :=
  ∃ sg f ds, Sign sg f ∧ ds ≠ [] ∧ (∀ c ∈ ds, IsDigit c) ∧ s = sg ++ ds ∧ i = f * natOf ds

/-- The type can hold the integer. -/
def IntType.Holds (t : IntType) (i : ℤ) : Prop :=
  if t.signed then -2 ^ (t.bits - 1) ≤ i ∧ i < 2 ^ (t.bits - 1) else 0 ≤ i ∧ i < 2 ^ t.bits

/-- The value has this type. -/
def HasKind : ValType → Val → Prop
  | .int t, .int i => IntType.Holds t i
  | .num, .num _ => True
  | .bool, .bool _ => True
  | .text, .text _ => True
  | _, _ => False

/-- The same value, up to half a millionth for numbers that are not integers. -/
def SameVal : Val → Val → Prop
  | .num q, .num r => |r - q| ≤ 1 / 2000000
  | v, w => v = w

/-- The value is a number with at most six decimals, or not of type `double`. -/
def SixDecimals : Val → Prop
  | .num q => ∃ z : ℤ, q = z / 1000000
  | _ => True

/-- The value is not a text, or it is a text that is not empty and has no quotes. -/
def CanWrite : Val → Prop
  | .text s => s ≠ [] ∧ '"' ∉ s
  | _ => True

/-- The text spells the integer, with blanks around it. -/
def PaddedInt (s : List Char) (i : ℤ) : Prop :=
  ∃ a n b, (∀ c ∈ a, IsBlank c) ∧ IntNumeral n i ∧ (∀ c ∈ b, IsBlank c) ∧ s = a ++ n ++ b

end Verif.Spec
