import Verif.Model.Nonparametric
import Mathlib.Analysis.SpecialFunctions.Log.Basic
import Mathlib.Analysis.SpecialFunctions.Exp

/-!
# Model of the plots of KaplanMeier, NelsonAalen and RankAdjustment (Nonparametric.py:268-346, 592-670, 929-1011)

The canvas is what is drawn and the limits of the axes. Colours and transparency are left out; `plt.plot` and `plt.fill_between` take
infinite values and leave them out of the picture; matplotlib's autoscaling does not show, because both limits are set at the end.
The text of the confidence level is a parameter.
-/

namespace Reliability.NP

open Reliability

/-- The axes with what is drawn on them. -/
structure Canvas where
  xlim : ℝ × ℝ
  ylim : ℝ × ℝ
  lines : List (List ℝ × List (Ext ℝ))
  bands : List (List ℝ × List (Ext ℝ) × List (Ext ℝ))
  title : String
  ylabel : String

/-- The three classes. -/
inductive Estimator where
  | km | na | ra

/-- Their arguments (`a` is that of RankAdjustment). -/
structure Args where
  failures : Option (List ℝ)
  right_censored : Option (List ℝ)
  a : Option ℝ
  CI : ℝ
  plot_type : String

/-- The results (Nonparametric.py:102-255, 427-579, 760-905). -/
noncomputable def estimate (argsort : List ℝ → List Nat) (ppf : ℝ → Ext ℝ) (e : Estimator) (q : Args) : Except Err (Result ℝ) :=
  match e with
  | .km => kaplanMeier argsort Real.sqrt ppf q.failures q.right_censored q.CI q.plot_type
  | .na => nelsonAalen Real.exp argsort Real.sqrt ppf q.failures q.right_censored q.CI q.plot_type
  | .ra => rankAdjustment argsort Real.sqrt ppf q.failures q.right_censored q.a q.CI q.plot_type

/-- `-np.log` of a float. -/
noncomputable def extNegLog : Ext ℝ → Ext ℝ
  | .fin s => if s = 0 then .pinf else if s < 0 then .nan else .fin (-(Real.log s))
  | .pinf => .ninf
  | .ninf => .nan
  | .nan => .nan

/-- `np.nan_to_num(x, posinf=1e10)`; minus infinity becomes the least float. -/
noncomputable def nanToNum : Ext ℝ → Ext ℝ
  | .fin s => .fin s
  | .pinf => .fin (10 ^ 10)
  | .ninf => .fin (-((2 - 1 / 2 ^ 52) * 2 ^ 1023))
  | .nan => .fin 0

/-- `self.CHF_lower` (Nonparametric.py:254, 578, 897). -/
noncomputable def Result.CHF_lower (r : Result ℝ) : List (Ext ℝ) := r.SF_upper.map extNegLog

/-- `self.CHF_upper` (Nonparametric.py:255, 579, 898). -/
noncomputable def Result.CHF_upper (r : Result ℝ) : List (Ext ℝ) := r.SF_lower.map extNegLog

/-- The name in the titles with bounds (Nonparametric.py:275, 299, 326; 599, 623, 650; 936, 960, 989). -/
def nameCI (e : Estimator) (func : String) : String :=
  match e with
  | .km => "Kaplan-Meier"
  | .na => "Nelson-Aalen"
  | .ra => if func = "SF" then "Rank-Adjustment" else "Rank Adjustment"

/-- The name in the titles without bounds. -/
def namePlain : Estimator → String
  | .km => "Kaplan-Meier"
  | .na => "Nelson-Aalen"
  | .ra => "Rank Adjustment"

/-- The title. -/
def titleOf (e : Estimator) (plot_CI : Bool) (func long ci : String) : String :=
  if plot_CI then nameCI e func ++ " " ++ func ++ " estimate\n with " ++ ci ++ "% confidence bounds"
  else namePlain e ++ " estimate of " ++ long

/-- `max` of an array, which is not empty here. -/
def maxOf : List ℝ → Except Err ℝ
  | [] => .error .valueError
  | x :: xs => .ok (xs.foldl max x)

/-- `self.CHF[-2]`, which must be finite to be used in `plt.ylim`. -/
noncomputable def lastButOne (l : List (Ext ℝ)) : Except Err ℝ :=
  match (l.reverse[1]? : Option (Ext ℝ)) with
  | none => .error .indexError
  | some (Ext.fin h) => .ok h
  | some _ => .error .valueError

/-- The curve and its band. -/
noncomputable def add (c : Canvas) (xs : List ℝ) (ys lo up : List (Ext ℝ)) (plot_CI : Bool) (title ylabel : String) (xlim ylim : ℝ × ℝ) : Canvas :=
  { xlim := xlim, ylim := ylim, lines := c.lines ++ [(xs, ys)], bands := if plot_CI then c.bands ++ [(xs, lo, up)] else c.bands
    title := title, ylabel := ylabel }

/-- The plot (Nonparametric.py:268-346, 592-670, 929-1011). -/
noncomputable def draw (e : Estimator) (r : Result ℝ) (plot_type : String) (plot_CI : Bool) (ci : String) (c : Canvas) : Except Err Canvas := do
  let xmax ← maxOf r.data
  let xlim := (0, max xmax c.xlim.2)
  if plot_type = "SF" ∨ plot_type = "sf" then
    .ok (add c r.xvals (r.SF.map .fin) r.SF_lower r.SF_upper plot_CI (titleOf e plot_CI "SF" "Survival Function" ci) "Reliability" xlim (0, 11 / 10))
  else if plot_type = "CDF" ∨ plot_type = "cdf" then
    .ok (add c r.xvals (r.CDF.map .fin) r.CDF_lower r.CDF_upper plot_CI (titleOf e plot_CI "CDF" "Cumulative Density Function" ci) "Fraction Failing"
      xlim (0, 11 / 10))
  else if plot_type = "CHF" ∨ plot_type = "chf" then do
    let h ← lastButOne (r.CHF Real.log)
    .ok (add c r.xvals (r.CHF Real.log) r.CHF_lower (r.CHF_upper.map nanToNum) plot_CI (titleOf e plot_CI "CHF" "Cumulative Hazard Function" ci)
      "Cumulative Hazard" xlim (0, max c.ylim.2 (h * (12 / 10))))
  else .error .valueError

/-- The constructor with its plot. -/
noncomputable def run (argsort : List ℝ → List Nat) (ppf : ℝ → Ext ℝ) (e : Estimator) (q : Args) (show_plot plot_CI : Bool) (ci : String)
    (c : Canvas) : Except Err (Result ℝ × Canvas) := do
  let r ← estimate argsort ppf e q
  if show_plot then do
    let c' ← draw e r q.plot_type plot_CI ci c
    .ok (r, c')
  else .ok (r, c)

end Reliability.NP
