import Mathlib.Algebra.Order.Field.Basic

/-!
# Floating-point specials

numpy float arithmetic on exact numbers extended with `inf`, `-inf` and `nan`.  Rounding is not
modelled (see DESIGN.md, trusted base); the special values are, because several functions of the
library rely on `1/0 = inf` and on comparisons with `inf`/`nan`.
-/

namespace Reliability

/-- A numpy float64 without rounding. -/
inductive Ext (K : Type _) where
  | fin (x : K)
  | pinf
  | ninf
  | nan
deriving DecidableEq

namespace Ext
variable {K : Type _} [Field K] [LinearOrder K]

/-- IEEE addition. -/
def add : Ext K → Ext K → Ext K
  | nan, _ => nan
  | _, nan => nan
  | fin a, fin b => fin (a + b)
  | pinf, ninf => nan
  | ninf, pinf => nan
  | pinf, _ => pinf
  | _, pinf => pinf
  | ninf, _ => ninf
  | _, ninf => ninf

/-- IEEE negation. -/
def neg : Ext K → Ext K
  | nan => nan
  | fin a => fin (-a)
  | pinf => ninf
  | ninf => pinf

/-- IEEE subtraction. -/
def sub (a b : Ext K) : Ext K := add a (neg b)

/-- `inf` times a finite number. -/
def infMul (a : K) : Ext K := if a < 0 then ninf else if 0 < a then pinf else nan

/-- IEEE multiplication. -/
def mul : Ext K → Ext K → Ext K
  | nan, _ => nan
  | _, nan => nan
  | fin a, fin b => fin (a * b)
  | pinf, fin b => infMul b
  | fin a, pinf => infMul a
  | ninf, fin b => neg (infMul b)
  | fin a, ninf => neg (infMul a)
  | pinf, pinf => pinf
  | ninf, ninf => pinf
  | pinf, ninf => ninf
  | ninf, pinf => ninf

/-- IEEE division of finite numbers (numpy, `divide="ignore"`). -/
def divFin (a b : K) : Ext K := if b = 0 then infMul a else fin (a / b)

/-- `x ** 0.5` (only ever applied to non-negative values in the code modelled). -/
def rpowHalf (sqrt : K → K) : Ext K → Ext K
  | nan => nan
  | pinf => pinf
  | ninf => pinf
  | fin a => if a < 0 then nan else fin (sqrt a)

/-- numpy `>` (false on nan). -/
def gt : Ext K → Ext K → Bool
  | fin a, fin b => decide (b < a)
  | pinf, fin _ => true
  | pinf, ninf => true
  | fin _, ninf => true
  | _, _ => false

/-- `arr[arr > 1] = 1`, one element. -/
def clipHi (x : Ext K) : Ext K := if gt x (fin 1) then fin 1 else x

/-- `arr[arr < 0] = 0`, one element. -/
def clipLo (x : Ext K) : Ext K := if gt (fin 0) x then fin 0 else x

end Ext
end Reliability
