import Mathlib.Algebra.Order.Field.Rat
import Mathlib.Data.Rat.Defs

/-! # The number that a numeral such as -12.5, 12 or 5.4e-05 denotes (C125) -/

namespace Reliability.Spec.RoundString

/-- The value of a string of digits. -/
def natOf (cs : List Char) : ℕ := cs.foldl (fun a c => 10 * a + (c.toNat - 48)) 0

/-- The value of the exponent `e-05`. -/
def expOf : List Char → ℤ
  | 'e' :: '-' :: ds => -(natOf ds)
  | 'e' :: '+' :: ds => natOf ds
  | _ => 0

/-- The value of a numeral without a sign: digits, perhaps a point and digits, perhaps an exponent. -/
def unsigned (s : List Char) : ℚ :=
  let ip := s.takeWhile Char.isDigit
  match s.dropWhile Char.isDigit with
  | '.' :: r => natOf (ip ++ r.takeWhile Char.isDigit) *
      10 ^ (expOf (r.dropWhile Char.isDigit) - (r.takeWhile Char.isDigit).length)
  | r => natOf ip * 10 ^ expOf r

/-- The value of a numeral. -/
def value (s : String) : ℚ :=
  match s.toList with
  | '-' :: r => -unsigned r
  | r => unsigned r

end Reliability.Spec.RoundString
