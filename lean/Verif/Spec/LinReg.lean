import Mathlib.Algebra.Order.Field.Basic
import Mathlib.Algebra.BigOperators.Group.List.Basic

/-! # Specification of least squares lines (C49) -/

namespace Reliability.LinReg.Spec

variable {K : Type _} [Field K] [LinearOrder K]

/-- Sum of squared vertical residuals of the line `Y = m X + c` (regression on Y). -/
def sseY (x y : List K) (m c : K) : K :=
  (List.zipWith (fun a b => (b - (m * a + c)) ^ 2) x y).sum

/-- Sum of squared horizontal residuals of the line `Y = m X + c`, i.e. of `X = (Y - c)/m`
(regression on X). -/
def sseX (x y : List K) (m c : K) : K :=
  (List.zipWith (fun a b => (a - (b - c) / m) ^ 2) x y).sum

end Reliability.LinReg.Spec
