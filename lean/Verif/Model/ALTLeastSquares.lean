import Mathlib.LinearAlgebra.Matrix.NonsingularInverse
import Mathlib.Analysis.SpecialFunctions.Log.Basic
import Mathlib.LinearAlgebra.Matrix.Notation
import Verif.Model.LinReg
import Verif.Model.Fitters

/-!
# The initial guess and the bounds of the ALT fitters

`ALT_least_squares` (Utils.py:5132-5263) and the bounds of `ALT_MLE_optimization` (Utils.py:6027-6076).
Times and stresses are positive reals; arrays of equal length (`alt_fitters_input_checking` has been passed).
-/

namespace Reliability.ALTLeastSquares

open Reliability Reliability.LinReg

/-- Utils.py:5223-5224, 5233-5234, 5243-5244 — `xx.T.dot(xx)` for `xx = np.array([np.ones_like(X), X, Y]).T`. -/
noncomputable def gram (X Y : List ℝ) : Matrix (Fin 3) (Fin 3) ℝ :=
  let n := (X.map fun _ => (1 : ℝ)).sum
  let sX := X.sum
  let sY := Y.sum
  let sXX := (X.map fun x => x * x).sum
  let sXY := (List.zipWith (· * ·) X Y).sum
  let sYY := (Y.map fun y => y * y).sum
  !![n, sX, sY; sX, sXX, sXY; sY, sXY, sYY]

/-- `xx.T.dot(yy)`, the same lines. -/
noncomputable def rhs (X Y Z : List ℝ) : Fin 3 → ℝ :=
  ![Z.sum, (List.zipWith (· * ·) X Z).sum, (List.zipWith (· * ·) Y Z).sum]

open Classical in
/-- Utils.py:5180-5213 — `non_invertable_handler`; `noise` is the 3 by 3 matrix drawn from the random generator. -/
noncomputable def nonInvertableHandler (noise : Matrix (Fin 3) (Fin 3) ℝ) (X Y Z : List ℝ) : Fin 3 → ℝ :=
  if (gram X Y).det ≠ 0 then Matrix.mulVec (gram X Y)⁻¹ (rhs X Y Z)
  else if (gram X Y + noise).det ≠ 0 then Matrix.mulVec (gram X Y + noise)⁻¹ (rhs X Y Z)
  else ![1, 2, 3]

/-- numpy numbers that cannot be nan or inf here (`linear_regression` with RRY returns finite numbers). -/
def finOr0 : Ext ℝ → ℝ
  | .fin x => x
  | _ => 0

/-- Utils.py:5132-5263 — `ALT_least_squares(model, failures, stress_1_array, stress_2_array)`. -/
noncomputable def altLeastSquares (noise : Matrix (Fin 3) (Fin 3) ℝ) (model : String) (L S1 S2 : List ℝ) :
    Except Err (List ℝ) :=
  if model = "Exponential" then
    match linearRegression (S1.map fun s => 1 / s) (L.map Real.log) none none none .RRY with
    | .error e => .error e
    | .ok (m, c) => .ok [finOr0 m, Real.exp (finOr0 c)]
  else if model = "Eyring" then
    match linearRegression (S1.map fun s => 1 / s) (List.zipWith (fun t s => Real.log t + Real.log s) L S1) none none none .RRY with
    | .error e => .error e
    | .ok (m, c) => .ok [finOr0 m, -finOr0 c]
  else if model = "Power" then
    match linearRegression (S1.map Real.log) (L.map Real.log) none none none .RRY with
    | .error e => .error e
    | .ok (m, c) => .ok [Real.exp (finOr0 c), finOr0 m]
  else if model = "Dual_Exponential" then
    let s := nonInvertableHandler noise (S1.map fun s => 1 / s) (S2.map fun s => 1 / s) (L.map Real.log)
    .ok [s 1, s 2, Real.exp (s 0)]
  else if model = "Power_Exponential" then
    let s := nonInvertableHandler noise (S1.map fun s => 1 / s) (S2.map Real.log) (L.map Real.log)
    .ok [s 1, Real.exp (s 0), s 2]
  else if model = "Dual_Power" then
    let s := nonInvertableHandler noise (S1.map Real.log) (S2.map Real.log) (L.map Real.log)
    .ok [Real.exp (s 0), s 1, s 2]
  else valueErr

/-- Utils.py:6027-6076 — the bounds of `ALT_MLE_optimization` for the stress model and the distribution. -/
def altBounds (model dist : String) : Except Err (List (Fitters.Bound ℝ)) :=
  let pos : Fitters.Bound ℝ := (some 0, none)
  let real : Fitters.Bound ℝ := (none, none)
  let bounds : Except Err (List (Fitters.Bound ℝ)) :=
    if model = "Exponential" then .ok [real, pos, pos]
    else if model = "Eyring" then .ok [real, real, pos]
    else if model = "Power" then .ok [pos, real, pos]
    else if model = "Dual_Exponential" then .ok [real, real, pos, pos]
    else if model = "Power_Exponential" then .ok [real, pos, real, pos]
    else if model = "Dual_Power" then .ok [pos, real, real, pos]
    else valueErr
  match bounds with
  | .error e => .error e
  | .ok b =>
    if dist ∉ ["Weibull", "Exponential", "Lognormal", "Normal"] then valueErr
    else if dist = "Exponential" then .ok b.dropLast else .ok b

end Reliability.ALTLeastSquares
