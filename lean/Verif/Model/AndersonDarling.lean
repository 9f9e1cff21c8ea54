import Mathlib.Analysis.SpecialFunctions.Log.Basic
import Verif.Model.Basic
import Verif.Model.NumPy

/-!
# Model of `anderson_darling` (Utils.py:1312-1352)

Exact real arithmetic.  Values at or below 0 or at or above 1 (inf or nan in the code) are outside the theorems'
hypotheses.
-/

namespace Reliability.AD

open Reliability

/-- The kinds of argument: a numpy array, a number (`CDF` of a single value), a Python list. -/
inductive Arg where
  | array (xs : List ℝ)
  | number (x : ℝ)
  | list (xs : List ℝ)

/-- Utils.py:1337-1350: one summand, from `Zi`, `Zi_1`, `FnZi_1`, `lnZi`, `lnZi_1`. -/
noncomputable def term (Zi Zi_1 FnZi_1 lnZi lnZi_1 : ℝ) : ℝ :=
  let A := -Zi - Real.log (1 - Zi) + Zi_1 + Real.log (1 - Zi_1)
  let B := 2 * Real.log (1 - Zi) * FnZi_1 - 2 * Real.log (1 - Zi_1) * FnZi_1
  let C := lnZi * FnZi_1 ^ 2 - Real.log (1 - Zi) * FnZi_1 ^ 2 - lnZi_1 * FnZi_1 ^ 2 + Real.log (1 - Zi_1) * FnZi_1 ^ 2
  A + B + C

/-- Utils.py:1330-1352 once `fitted_cdf` is an array or a list with one number; arrays of different lengths do not
broadcast (unless one has length 1: then `empirical_cdf` is empty and `FnZi_1` is the single 0, used for every term). -/
noncomputable def statistic (fitted empirical : List ℝ) : Except Err ℝ :=
  let Z := Np.sort fitted
  let Zi := Z ++ [1 - 1e-12]
  let Zi_1 := (0 :: Zi).dropLast
  let FnZi := Np.sort empirical
  let FnZi_1 := 0 :: FnZi
  let lnZi := Zi.map Real.log
  let lnZi_1 := (0 :: lnZi).dropLast
  let FnZi_1' := if FnZi_1.length = 1 then Zi.map (fun _ => 0) else FnZi_1
  if Zi.length = 1 then
    .ok (fitted.length * ((FnZi_1.map fun F => term (1 - 1e-12) 0 F (Real.log (1 - 1e-12)) 0)).sum)
  else if FnZi_1'.length ≠ Zi.length then valueErr
  else
    .ok (fitted.length * ((List.zipWith (fun (p : ℝ × ℝ) (q : ℝ × ℝ × ℝ) => term p.1 p.2 q.1 q.2.1 q.2.2)
      (Zi.zip Zi_1) (FnZi_1'.zip (lnZi.zip lnZi_1)))).sum)

/-- `anderson_darling(fitted_cdf, empirical_cdf)`: a list is wrapped in another list (Utils.py:1328-1329), which makes
it two-dimensional, and `np.hstack` with a number raises ValueError (1331). -/
noncomputable def andersonDarling (fitted : Arg) (empirical : List ℝ) : Except Err ℝ :=
  match fitted with
  | .array xs => statistic xs empirical
  | .number x => statistic [x] empirical
  | .list _ => valueErr

end Reliability.AD
