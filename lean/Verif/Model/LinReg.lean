import Mathlib.Algebra.Order.Field.Basic
import Mathlib.Algebra.BigOperators.Group.List.Basic
import Verif.Model.Basic
import Verif.Model.Ext

/-!
# Model of `linear_regression` (reliability/Utils.py:4478-4646)

Exact arithmetic over any ordered field.  `np.linalg.inv` on a 1×1 or 2×2 matrix is its exact inverse,
and `LinAlgError` is raised exactly when the determinant is zero (numpy, in floating point, may miss an
exactly singular matrix or return huge numbers for a nearly singular one).  Division of numpy floats by
zero gives inf/nan (`Ext`).  `show_plot` is not modelled.
-/

namespace Reliability.LinReg

open Reliability

variable {K : Type _} [Field K] [LinearOrder K]

/-- `RRX_or_RRY` -/
inductive Side where
  | RRX
  | RRY
  | other
deriving DecidableEq

/-- Utils.py:4585-4600 — `np.linalg.inv(A.T.dot(A)).dot(A.T).dot(v)` with `A = [u, 1]`. -/
def solve2 (u v : List K) : Option (K × K) :=
  let a := (u.map fun x => x * x).sum
  let b := u.sum
  let n := (u.map fun _ => (1 : K)).sum
  let D := a * n - b * b
  if D = 0 then none
  else
    -- the rows of inv(A^T A) . A^T
    let row0 := u.map fun x => (n / D) * x + (-b / D) * 1
    let row1 := u.map fun x => (-b / D) * x + (a / D) * 1
    some ((List.zipWith (· * ·) row0 v).sum, (List.zipWith (· * ·) row1 v).sum)

/-- Utils.py:4585-4600 — the same with a single column `A = [u]`. -/
def solve1 (u v : List K) : Option K :=
  let a := (u.map fun x => x * x).sum
  if a = 0 then none
  else some ((List.zipWith (· * ·) (u.map fun x => (1 / a) * x) v).sum)

/-- Utils.py:4478-4646 — `linear_regression(x, y, slope, x_intercept, y_intercept, RRX_or_RRY)`:
the slope and intercept of the line `Y = m X + c`. -/
def linearRegression (x y : List K) (slope x_intercept y_intercept : Option K) (side : Side) :
    Except Err (Ext K × Ext K) :=
  if x.length ≠ y.length then valueErr
  else if side = .other then valueErr
  else if x_intercept.isSome ∧ side = .RRY then valueErr
  else if y_intercept.isSome ∧ side = .RRX then valueErr
  else if slope.isSome ∧ (x_intercept.isSome ∨ y_intercept.isSome) then valueErr
  else if side = .RRY then
    match y_intercept, slope with
    | some c, _ =>
      if x.length < 1 then valueErr
      else match solve1 x (y.map fun b => b - c) with
        | none => .error .runtimeError
        | some m => .ok (.fin m, .fin c)
    | none, some m =>
      if x.length < 1 then valueErr
      else match solve1 (x.map fun _ => 1) (List.zipWith (fun a b => b - m * a) x y) with
        | none => .error .runtimeError
        | some c => .ok (.fin m, .fin c)
    | none, none =>
      if x.length < 2 then valueErr
      else match solve2 x y with
        | none => .error .runtimeError
        | some (m, c) => .ok (.fin m, .fin c)
  else
    match x_intercept, slope with
    | some c, _ =>
      if x.length < 1 then valueErr
      else match solve1 y (x.map fun a => a - c) with
        | none => .error .runtimeError
        | some m_x => .ok (.divFin 1 m_x, .divFin (-c) m_x)
    | none, some s =>
      if x.length < 1 then valueErr
      else match solve1 (y.map fun _ => 1) (List.zipWith (fun a b => a - s * b) x y) with
        | none => .error .runtimeError
        | some c_x => if s = 0 then .error .zeroDivision else .ok (.fin (1 / s), .fin (-c_x / s))
    | none, none =>
      if x.length < 2 then valueErr
      else match solve2 y x with
        | none => .error .runtimeError
        | some (m_x, c_x) => .ok (.divFin 1 m_x, .divFin (-c_x) m_x)

end Reliability.LinReg
