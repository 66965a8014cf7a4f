import Mathlib.Algebra.Order.Field.Rat
import Mathlib.Algebra.Order.Field.Power
/-!
# The number that a text of JSON denotes

Specification (RFC 8259, section 6): `i` are the digits before the point, `f` is empty or the point with digits, `e` is empty or an
exponent. Nothing here refers to the parser.
-/

namespace Verif.Json

/-- The digits behind the point. -/
def fracDigits (f : List Char) : List Char := f.drop 1

/-- The exponent, with its sign behind the letter. -/
def exponentNumber (e : List Char) : Int :=
  if (e.drop 1).head? = some '-' then -Nat.ofDigitChars 10 (e.drop 2) 0
  else if (e.drop 1).head? = some '+' then Nat.ofDigitChars 10 (e.drop 2) 0
  else Nat.ofDigitChars 10 (e.drop 1) 0

/-- The number without its sign. -/
def textNumber (i f e : List Char) : ℚ :=
  Nat.ofDigitChars 10 (i ++ fracDigits f) 0 * 10 ^ (exponentNumber e - (fracDigits f).length)

end Verif.Json
