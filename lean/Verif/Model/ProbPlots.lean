import Verif.Model.Distributions
import Verif.Model.Nonparametric
import Verif.Model.PlottingPositions
import Verif.Model.NumPy
import Verif.Model.Utils

/-!
# Model of the QQ plots, PP plots and `plot_points` (reliability/Probability_plotting.py:1993-2860)

What is drawn is returned: the coordinates handed to `plt.scatter` and `plt.plot`.  Colours, labels, axis
limits and the text of the legend are not modelled.  The dists are the eight standard distributions; `none`
stands for `None` and for an object of any other type.  `np.polyfit(x, y, deg=1)` and
`np.linalg.lstsq(x, y)` are parameters (what is trusted about them is in Spec/ProbPlots.lean).
-/

namespace Reliability.ProbPlots

open Reliability Reliability.Distributions Reliability.Utils

/-- `dist.inverse_SF(float(q))` for one number (Distributions.py:937-960). -/
noncomputable def isfOne (d : Dist) (q : ℝ) : Except Err (Ext ℝ) :=
  match inverseSF d [q] with
  | .ok (v :: _) => .ok v
  | .ok [] => .error .indexError
  | .error e => .error e

/-- `dist.quantile(q)` for one number (Distributions.py:911-935). -/
noncomputable def quantileOne (d : Dist) (q : ℝ) : Except Err (Ext ℝ) :=
  match quantile d [q] with
  | .ok (v :: _) => .ok v
  | .ok [] => .error .indexError
  | .error e => .error e

/-- The loops `for q in ...: dist_Y_ISF.append(Y_dist.inverse_SF(float(q)))` (Probability_plotting.py:2252-2254,
2657-2658). -/
noncomputable def isfAll (d : Dist) : List ℝ → Except Err (List (Ext ℝ))
  | [] => .ok []
  | q :: qs => do
    let v ← isfOne d q
    let vs ← isfAll d qs
    return v :: vs

/-- `np.polyfit` and `np.linalg.lstsq` raise `LinAlgError` when an array holds `inf` or `nan`
(Probability_plotting.py:2271-2272, 2691-2692); otherwise the array is one of numbers. -/
def allFinite : List (Ext ℝ) → Except Err (List ℝ)
  | [] => .ok []
  | .fin v :: vs => do
    let ws ← allFinite vs
    return v :: ws
  | _ :: _ => .error .runtimeError

/-- What a QQ plot draws and returns: the points of the scatter plot and `[m, m1, c1]`. -/
structure QQ where
  x_scatter : List ℝ
  y_scatter : List ℝ
  m : ℝ
  m1 : ℝ
  c1 : ℝ

/-- Probability_plotting.py:2258-2263 (= 2662-2668, 2087-2093, 2447-2452) — the points drawn:
`downsample_scatterplot is not False` calls `xy_downsample` with its default of 1000 points. -/
noncomputable def scatter (x y : List ℝ) (downsample : Factor) : Except Err (List ℝ × List ℝ) :=
  if downsample = .bool false then .ok (x, y) else xyDownsample x y downsample 1000

/-- Probability_plotting.py:2271-2272 and 2314 (= 2691-2692 and 2719) — the lines of best fit. -/
noncomputable def fitLines (polyfit : List ℝ → List ℝ → ℝ × ℝ) (lstsq : List ℝ → List ℝ → ℝ)
    (x y : List ℝ) (downsample : Factor) : Except Err QQ := do
  let (xs, ys) ← scatter x y downsample
  let deg1 := polyfit x y
  let m := lstsq x y
  return ⟨xs, ys, m, deg1.1, deg1.2⟩

/-- Probability_plotting.py:2153-2314 — `QQ_plot_parametric(X_dist, Y_dist, downsample_scatterplot)`. -/
noncomputable def qqParametric (polyfit : List ℝ → List ℝ → ℝ × ℝ) (lstsq : List ℝ → List ℝ → ℝ)
    (X_dist Y_dist : Option Dist) (downsample : Factor) : Except Err QQ :=
  match X_dist, Y_dist with
  | some X, some Y => do
    let xvals := Np.linspace (1 / 100 : ℝ) (99 / 100) 100
    let xi ← isfAll X xvals
    let yi ← isfAll Y xvals
    let x ← allFinite xi
    let y ← allFinite yi
    fitLines polyfit lstsq x y downsample
  | _, _ => valueErr

/-- `df.loc[df["Censoring code (censored=0)"] == 1.0]` and the column of estimates
(Probability_plotting.py:2409-2410, 2421-2422, 2435-2436, 2624-2625, ...), then `1 - ...`. -/
def failureEcdf (r : NP.Result ℝ) : List ℝ :=
  ((r.censor_codes.zip r.est).filter (fun p => p.1)).map fun p => 1 - p.2

/-- The numerical functions of numpy and scipy that the three estimators use. -/
structure Numerics where
  argsort : List ℝ → List Nat
  sqrt : ℝ → ℝ
  exp : ℝ → ℝ
  ppf : ℝ → Ext ℝ

/-- Probability_plotting.py:2400-2441 (= 2616-2654) — the empirical CDF at the failures by the chosen method; the
estimators are called with their defaults CI = 0.95 and plot_type = "SF". -/
noncomputable def ecdfOf (np : Numerics) (method : String) (failures : List ℝ) (rc : Option (List ℝ))
    (a : Option ℝ) : Except Err (List ℝ) :=
  if method = "KM" then do
    let r ← NP.kaplanMeier np.argsort np.sqrt np.ppf (some failures) rc (95 / 100) "SF"
    return failureEcdf r
  else if method = "NA" then do
    let r ← NP.nelsonAalen np.exp np.argsort np.sqrt np.ppf (some failures) rc (95 / 100) "SF"
    return failureEcdf r
  else if method = "RA" then do
    let r ← NP.rankAdjustment np.argsort np.sqrt np.ppf (some failures) rc a (95 / 100) "SF"
    return failureEcdf r
  else valueErr

/-- `dist_Y_ISF[dist_Y_ISF == -np.inf] = 0` (Probability_plotting.py:2660). -/
def ninfToZero : Ext ℝ → Ext ℝ
  | .ninf => .fin 0
  | v => v

/-- Probability_plotting.py:2494-2719 — `QQ_plot_semiparametric(X_data_failures, X_data_right_censored, Y_dist,
method, downsample_scatterplot, a=...)`; the data are lists or arrays (other types raise). -/
noncomputable def qqSemiparametric (np : Numerics) (polyfit : List ℝ → List ℝ → ℝ × ℝ)
    (lstsq : List ℝ → List ℝ → ℝ) (failures rc : Option (List ℝ)) (Y_dist : Option Dist) (method : String)
    (a : Option ℝ) (downsample : Factor) : Except Err QQ :=
  match failures, Y_dist with
  | some f, some Y => do
    let x := Np.sort f
    let ecdf ← ecdfOf np method x (rc.map Np.sort) a
    let yi ← isfAll Y ecdf
    let y ← allFinite (yi.reverse.map ninfToZero)
    fitLines polyfit lstsq x y downsample
  | _, _ => valueErr

/-- What a PP plot draws: the points, and the corners of the quantile lines. -/
structure PPPlot where
  x_scatter : List ℝ
  y_scatter : List ℝ
  lines : List (ℝ × ℝ)

/-- The type of a number passed as `xvals`. -/
inductive NumType where
  | pyFloat
  | npFloat64
  deriving DecidableEq

/-- `dist.CDF(xvals=v, show_plot=False)` for one number `v`: Utils.py:7120-7121 accepts Python's int and float
only — `type(xvals) not in [type(None), list, np.ndarray, int, float]` raises for a `np.float64`. -/
noncomputable def cdfNumber (d : Dist) (ty : NumType) (v : Ext ℝ) : Except Err ℝ :=
  match ty with
  | .npFloat64 => valueErr
  | .pyFloat => match v with
    | .fin x => CDFscalar d x
    | .pinf => .ok 1
    | .ninf => .ok 0
    | .nan => .error .runtimeError

/-- Probability_plotting.py:2115-2128 and 2130-2143 — one list of quantile lines: for each `q`, the probability
`A.CDF(xvals=B.quantile(q))`.  scipy's `ppf` of a number is a `np.float64`, which `unpack_single_arrays`
(Utils.py:7471-7495) leaves as it is. -/
noncomputable def quantileLines (A B : Dist) : List ℝ → Except Err (List (ℝ × ℝ))
  | [] => .ok []
  | q :: qs => do
    let v ← quantileOne B q
    let c ← cdfNumber A .npFloat64 v
    let rest ← quantileLines A B qs
    return (c, q) :: rest

/-- The number in an `Ext` (quantiles at 0.01 and 0.99 are numbers). -/
def asNumber : Ext ℝ → Except Err ℝ
  | .fin x => .ok x
  | _ => .error .runtimeError

/-- Probability_plotting.py:1993-2150 — `PP_plot_parametric(X_dist, Y_dist, y_quantile_lines, x_quantile_lines,
downsample_scatterplot)`.  A line for `q` has its corner at `(quantile, q)` (y lines) or `(q, quantile)`
(x lines). -/
noncomputable def ppParametric (X_dist Y_dist : Option Dist) (yLines xLines : Option (List ℝ))
    (downsample : Factor) : Except Err PPPlot :=
  match X_dist, Y_dist with
  | some X, some Y => do
    let x01 ← quantileOne X (1 / 100) >>= asNumber
    let y01 ← quantileOne Y (1 / 100) >>= asNumber
    let x99 ← quantileOne X (99 / 100) >>= asNumber
    let y99 ← quantileOne Y (99 / 100) >>= asNumber
    let xvals := Np.linspace (min x01 y01) (max x99 y99) 100
    let cx ← CDF X xvals
    let cy ← CDF Y xvals
    let (xs, ys) ← scatter cx cy downsample
    let yl ← quantileLines X Y (yLines.getD [])
    let xl ← quantileLines Y X (xLines.getD [])
    return ⟨xs, ys, yl ++ xl.map fun p => (p.2, p.1)⟩
  | _, _ => valueErr

/-- Probability_plotting.py:2317-2491 — `PP_plot_semiparametric(X_data_failures, X_data_right_censored, Y_dist,
method, downsample_scatterplot, a=...)`. -/
noncomputable def ppSemiparametric (np : Numerics) (failures rc : Option (List ℝ)) (Y_dist : Option Dist)
    (method : String) (a : Option ℝ) (downsample : Factor) : Except Err PPPlot :=
  match failures, Y_dist with
  | some f, some Y => do
    let x := Np.sort f
    let ecdf ← ecdfOf np method x (rc.map Np.sort) a
    let c ← CDF Y x
    let (xs, ys) ← scatter ecdf c downsample
    return ⟨xs, ys, []⟩
  | _, _ => valueErr

/-- `-np.log(1 - y)`: numpy gives `inf` at `y = 1` and `nan` above. -/
noncomputable def negLog1m (y : ℝ) : Ext ℝ :=
  if y < 1 then .fin (-Real.log (1 - y)) else if y = 1 then .pinf else .nan

/-- `abs(dy / dx)` (Probability_plotting.py:2808, 2820) -/
def absExt : Ext ℝ → Ext ℝ
  | .fin x => .fin |x|
  | .pinf => .pinf
  | .ninf => .pinf
  | .nan => .nan

/-- numpy's float division -/
noncomputable def divExt (a : Ext ℝ) (b : ℝ) : Ext ℝ :=
  match a with
  | .fin x => .divFin x b
  | .pinf => if 0 ≤ b then .pinf else .ninf
  | .ninf => if 0 ≤ b then .ninf else .pinf
  | .nan => .nan

/-- `abs(np.diff(np.hstack([[0], y])) / np.diff(np.hstack([[0], x])))`, with the previous pair as state
(Probability_plotting.py:2806-2808, 2818-2820). -/
noncomputable def slopes : ℝ → Ext ℝ → List (ℝ × Ext ℝ) → List (Ext ℝ)
  | _, _, [] => []
  | px, py, (x, y) :: rest => absExt (divExt (Ext.sub y py) (x - px)) :: slopes x y rest

/-- The `func` argument (upper or lower case). -/
inductive Func where
  | PDF | CDF | SF | HF | CHF | other
  deriving DecidableEq

/-- Probability_plotting.py:2802-2825 — `y_adjusted`. -/
noncomputable def adjusted (func : Func) (x y : List ℝ) : Except Err (List (Ext ℝ)) :=
  match func with
  | .PDF => .ok (slopes 0 (.fin 0) (x.zip (y.map .fin)))
  | .CDF => .ok (y.map .fin)
  | .SF => .ok (y.map fun v => .fin (1 - v))
  | .HF => .ok (slopes 0 (.fin 0) (x.zip (y.map negLog1m)))
  | .CHF => .ok (y.map negLog1m)
  | .other => valueErr

/-- Probability_plotting.py:2722-2846 — `plot_points(failures, right_censored, func, a)`: the points of the scatter
plot before `xy_downsample` (whose default factor False changes nothing). -/
noncomputable def plotPoints (argsort : List ℝ → List Nat) (failures : Option (List ℝ))
    (rc : Option (List ℝ)) (func : Func) (a : Option ℝ) : Except Err (List (ℝ × Ext ℝ)) :=
  match failures with
  | none => valueErr
  | some f =>
    if f.length < 1 then valueErr
    else do
      let (x, y) ← PP.plottingPositions argsort f rc a false
      let z ← adjusted func x y
      return x.zip z

end Reliability.ProbPlots
