import Mathlib.Data.Int.Log
import Mathlib.Data.Nat.Digits.Defs
import Mathlib.Data.Rat.Floor
import Mathlib.Algebra.Order.Field.Rat

/-!
# `Utils.round_and_string`

Model of /repo/reliability/Utils.py:72-144 with the default limits 1e9 and 1e-4 and `integer_floats_to_ints = True` (no caller
in /repo gives others).  A finite float is the rational number it represents.  Python's formatting and `round` are modelled
as exactly rounded, ties to even; `str` of the rounded float as the decimal numeral of the rounded number (without trailing
zeros, with at least one digit after the point), which is what `repr` prints for numbers of fewer than 16 digits.
-/

namespace Reliability.RoundString

/-- The argument `number`. -/
inductive Number where
  | fin (q : ℚ)
  | inf
  | negInf
  | nan

/-- Rounding to the nearest integer, ties to even. -/
def nearest (q : ℚ) : ℤ :=
  let f := ⌊q⌋
  if q - f < 1 / 2 then f
  else if 1 / 2 < q - f then f + 1
  else if f % 2 = 0 then f else f + 1

/-- The decimal digits of a number, most significant first. -/
def digits (n : ℕ) : List Char := if n = 0 then ['0'] else (Nat.digits 10 n).reverse.map Nat.digitChar

/-- Zeros in front, up to `k` digits. -/
def pad (k : ℕ) (l : List Char) : List Char := List.replicate (k - l.length) '0' ++ l

/-- The sign in front of a numeral. -/
def sign (neg : Bool) : List Char := if neg then ['-'] else []

/-- `str(int(number))` (Utils.py:125-127, 135-137, 140-141). -/
def strInt (z : ℤ) : List Char := sign (decide (z < 0)) ++ digits z.natAbs

/-- Without the zeros at the end. -/
def rstrip (l : List Char) : List Char := (l.reverse.dropWhile (· == '0')).reverse

/-- `str(round(number, decimals))` for a number that is not whole (Utils.py:139). -/
def strRound (q : ℚ) (d : ℕ) : List Char :=
  let m := (nearest (|q| * 10 ^ d)).natAbs
  let f := rstrip (pad d (digits (m % 10 ^ d)))
  sign (decide (q < 0)) ++ digits (m / 10 ^ d) ++ '.' :: (if m % 10 ^ d = 0 then ['0'] else f)

/-- Mantissa (an integer of `d + 1` digits) and exponent of the scientific notation. -/
def mantissa (q : ℚ) (d : ℕ) : ℕ × ℤ :=
  let e := Int.log 10 |q|
  let m := (nearest (|q| / 10 ^ e * 10 ^ d)).natAbs
  if m = 10 ^ (d + 1) then (10 ^ d, e + 1) else (m, e)

/-- The exponent as Python prints it: a sign and at least two digits. -/
def strExp (e : ℤ) : List Char := 'e' :: (if e < 0 then '-' else '+') :: pad 2 (digits e.natAbs)

/-- `"{:0.de}".format(number)`, then the zeros after the point removed if there is nothing else there (Utils.py:131-133). -/
def strSci (q : ℚ) (d : ℕ) : List Char :=
  let m := mantissa q d
  sign (decide (q < 0)) ++ digits (m.1 / 10 ^ d) ++
    (if m.1 % 10 ^ d = 0 then [] else '.' :: pad d (digits (m.1 % 10 ^ d))) ++ strExp m.2

/-- `round_and_string(number, decimals)` (Utils.py:72-144). -/
def roundAndString (number : Number) (decimals : ℤ) : String :=
  let d := decimals.toNat
  match number with
  | .inf => "inf"
  | .negInf => "-inf"
  | .nan => "nan"
  | .fin q => String.ofList
      (if q - ⌊q⌋ = 0 then strInt ⌊q⌋
      else if 10 ^ 9 ≤ |q| ∨ |q| ≤ 1 / 10 ^ 4 then strSci q d
      else strRound q d)

end Reliability.RoundString
