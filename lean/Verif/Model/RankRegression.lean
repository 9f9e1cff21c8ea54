import Verif.Model.Distributions
import Verif.Model.LinReg
import Verif.Model.PlottingPositions

/-!
# Model of `least_squares` (Utils.py:4649-5129)

The distributions whose CDF can be made a straight line: Weibull_2P, Exponential_1P, Normal_2P, Gumbel_2P,
Lognormal_2P, Loglogistic_2P.  The branches of the others end in scipy's `curve_fit`; their outcome is the parameter
`nlls`.  Exact real arithmetic.
-/

namespace Reliability.RankReg

open Reliability Reliability.Distributions Reliability.LinReg Reliability.PP

/-- The distributions fitted by non-linear least squares. -/
def nllsNames : List String :=
  ["Weibull_3P", "Exponential_2P", "Lognormal_3P", "Loglogistic_3P", "Gamma_2P", "Gamma_3P", "Beta_2P"]

/-- Parameters computed from a regression line; `none` if its slope or intercept is inf or nan (then so are the
parameters). -/
noncomputable def fromLine (line : Except Err (Ext ℝ × Ext ℝ)) (params : ℝ → ℝ → List ℝ) :
    Except Err (Option (List ℝ)) :=
  match line with
  | .error e => .error e
  | .ok (.fin m, .fin c) => .ok (some (params m c))
  | .ok _ => .ok none

/-- `1 / force_shape` where it is needed; a Python number, so 0 is a ZeroDivisionError. -/
noncomputable def inverted (s : Option ℝ) : Except Err (Option ℝ) :=
  match s with
  | none => .ok none
  | some v => if v = 0 then .error .zeroDivision else .ok (some (1 / v))

/-- `least_squares(dist, failures, right_censored, method, force_shape)` (Utils.py:4691-5129). -/
noncomputable def leastSquares (argsort : List ℝ → List Nat) (nlls : String → List ℝ → List ℝ → Except Err (Option (List ℝ)))
    (dist : String) (failures right_censored : List ℝ) (method : Side) (force_shape : Option ℝ) :
    Except Err (Option (List ℝ)) :=
  match failures.min?, failures.max? with
  | some lo, some hi =>
    if lo ≤ 0 ∧ dist ∉ ["Normal_2P", "Gumbel_2P"] then valueErr
    else if 1 ≤ hi ∧ dist = "Beta_2P" then valueErr
    else if force_shape.isSome ∧ dist ∉ ["Weibull_2P", "Normal_2P", "Lognormal_2P"] then valueErr
    else if method = .other then valueErr
    else
      match plottingPositions argsort failures (some right_censored) none true with
      | .error e => .error e
      | .ok (x, y) =>
        if dist = "Weibull_2P" then
          match (if method = .RRX then inverted force_shape else .ok force_shape) with
          | .error e => .error e
          | .ok s =>
            fromLine (linearRegression (x.map Real.log) (y.map fun p => Real.log (-Real.log (1 - p))) s none none method)
              fun m c => [Real.exp (-c / m), m]
        else if dist = "Exponential_1P" then
          fromLine (linearRegression x (y.map fun p => -Real.log (1 - p)) none (if method = .RRX then some 0 else none)
            (if method = .RRX then none else some 0) method) fun m _ => [m]
        else if dist = "Normal_2P" then
          match (if method = .RRY then inverted force_shape else .ok force_shape) with
          | .error e => .error e
          | .ok s =>
            fromLine (linearRegression x (y.map normStd.ppf) s none none method) fun m c => [-c * (1 / m), 1 / m]
        else if dist = "Gumbel_2P" then
          fromLine (linearRegression x (y.map fun p => Real.log (-Real.log (1 - p))) none none none method)
            fun m c => [-c * (1 / m), 1 / m]
        else if dist = "Lognormal_2P" then
          match (if method = .RRY then inverted force_shape else .ok force_shape) with
          | .error e => .error e
          | .ok s =>
            fromLine (linearRegression (x.map Real.log) (y.map normStd.ppf) s none none method)
              fun m c => [-c * (1 / m), 1 / m]
        else if dist = "Loglogistic_2P" then
          fromLine (linearRegression (x.map Real.log) (y.map fun p => Real.log (1 / p - 1)) none none none method)
            fun m c => [Real.exp (c / -m), -m]
        else if dist ∈ nllsNames then nlls dist x y
        else valueErr
  | _, _ => valueErr

end Reliability.RankReg
