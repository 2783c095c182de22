/-
Model of /repo/source/parser/type_checker.hpp: the regular expressions, `TypeChecker::parse` and
`convert` to text.

Text is a list of characters.  The regular expressions are those of the file, matched against the
whole text (`std::regex_match`, ECMAScript grammar); the matcher works with derivatives.
-/

namespace Verif.Text

/-- Regular expressions over classes of characters. -/
inductive Re where
  | none
  | eps
  | cls (p : Char → Bool)
  | seq (r s : Re)
  | alt (r s : Re)
  | star (r : Re)

/-- Does the expression match the empty text? -/
def Re.nullable : Re → Bool
  | .none => false
  | .eps => true
  | .cls _ => false
  | .seq r s => r.nullable && s.nullable
  | .alt r s => r.nullable || s.nullable
  | .star _ => true

/-- What remains to be matched after the character `c`. -/
def Re.deriv (c : Char) : Re → Re
  | .none => .none
  | .eps => .none
  | .cls p => if p c then .eps else .none
  | .seq r s => if r.nullable then .alt (.seq (r.deriv c) s) (s.deriv c) else .seq (r.deriv c) s
  | .alt r s => .alt (r.deriv c) (s.deriv c)
  | .star r => .seq (r.deriv c) (.star r)

/-- `std::regex_match`: does the expression match the whole text? -/
def Re.accepts : Re → List Char → Bool
  | r, [] => r.nullable
  | r, c :: cs => (r.deriv c).accepts cs

/-- A literal character. -/
def chr (c : Char) : Re := .cls (· == c)

/-- `r?` -/
def opt (r : Re) : Re := .alt .eps r

/-- `r+` -/
def plus (r : Re) : Re := .seq r (.star r)

/-- A literal text. -/
def lit : List Char → Re
  | [] => .eps
  | c :: cs => .seq (chr c) (lit cs)

/-- `[0-9]` -/
def digit : Re := .cls fun c => decide ('0' ≤ c) && decide (c ≤ '9')

/-- `[1-9]` -/
def digit1 : Re := .cls fun c => decide ('1' ≤ c) && decide (c ≤ '9')

/-- `[-+]?` -/
def signRe : Re := opt (.cls fun c => c == '-' || c == '+')

/-- `.`: any character except line ends (ECMAScript). -/
def anyRe : Re := .cls fun c => !(c == '\n') && !(c == '\r')

/-- `_float_regex`, /repo/source/parser/type_checker.hpp:42:
`^[-+]?[0-9]*\.?[0-9]+([eE][-+]?[0-9]+)?$`. -/
def floatRe : Re :=
  .seq signRe (.seq (.star digit) (.seq (opt (chr '.')) (.seq (plus digit)
    (opt (.seq (.cls fun c => c == 'e' || c == 'E') (.seq signRe (plus digit)))))))

/-- `_integer_regex`, /repo/source/parser/type_checker.hpp:47: `^[-+]?(0|[1-9][0-9]*)$`. -/
def integerRe : Re := .seq signRe (.alt (chr '0') (.seq digit1 (.star digit)))

/-- `_boolean_regex`, /repo/source/parser/type_checker.hpp:52: `^(true|false)$`. -/
def booleanRe : Re := .alt (lit ['t', 'r', 'u', 'e']) (lit ['f', 'a', 'l', 's', 'e'])

/-- `_string_regex`, /repo/source/parser/type_checker.hpp:57: `^".*"$`. -/
def stringRe : Re := .seq (chr '"') (.seq (.star anyRe) (chr '"'))

/-- `TypeChecker::Type`, /repo/source/parser/type_checker.hpp:146-155. -/
inductive Ty where
  | none
  | auto
  | float
  | int
  | bool
  | string
  | object
  deriving DecidableEq, Repr

/-- `TypeChecker::parse(field)`, /repo/source/parser/type_checker.hpp:269-296. -/
def parseType (field : List Char) : Ty :=
  if field.isEmpty then .none
  else if stringRe.accepts field then .string
  else if booleanRe.accepts field then .bool
  else if integerRe.accepts field then .int
  else if floatRe.accepts field then .float
  else .string

/-- `TypeChecker::parse(fields)`, /repo/source/parser/type_checker.hpp:303-313. -/
def parseTypes (fields : List (List Char)) : List Ty := fields.map parseType

/-- Decimal digits of a number, as `std::to_string` of an unsigned integer writes them. -/
def natText (n : Nat) : List Char := Nat.toDigits 10 n

/-- `convert<T>(v)` for integers: `std::to_string`, /repo/source/parser/type_checker.hpp:121-125. -/
def intText (i : Int) : List Char := if i < 0 then '-' :: natText i.natAbs else natText i.natAbs

/-- `convert<bool>(v)`, /repo/source/parser/type_checker.hpp:132-136. -/
def boolText (b : Bool) : List Char :=
  if b then ['t', 'r', 'u', 'e'] else ['f', 'a', 'l', 's', 'e']

/-- `convert<double>(v)`: `std::to_string` writes a finite number with exactly six decimals (`%f`).
The number is given as its sign and its absolute value rounded to millionths. -/
def floatText (neg : Bool) (millionths : Nat) : List Char :=
  (if neg then ['-'] else []) ++ natText (millionths / 1000000) ++ ['.'] ++
    [100000, 10000, 1000, 100, 10, 1].map fun p => Nat.digitChar (millionths / p % 10)

/-- `convert<bool>(s, ref)`, /repo/source/parser/type_checker.hpp:100-113: the value stored; the call
always reports success. -/
def toBool (s : List Char) : Bool := s == ['t', 'r', 'u', 'e'] || s == ['1']

end Verif.Text
