import Verif.Model.ProbPlots
import Verif.Model.FitGlue
import Verif.Model.Utils

/-!
# The probability plots (Probability_plotting.py:172-1991) and their axes (Utils.py:918-1061)

A plot is modelled by what is drawn: the scatter of the failures, the distribution whose CDF is drawn, the scales of the
axes and their limits.  Colours, ticks, grids and the text of labels are not modelled.
-/

namespace Reliability.ProbPaper

open Reliability Reliability.FitGlue Reliability.Utils
open Reliability.FunctionCI (Two Expo distOf)

/-- The `dist` argument of `probability_plot_xylims` together with the parameters it needs
(Utils.py:931-946). -/
inductive Paper where
  | weibull | lognormal | loglogistic | normal | exponential | gumbel
  | gamma (beta : ℝ)
  | beta (alpha beta : ℝ)

/-- The scale of the y-axis (Utils.py:256-320 as used at 993-1041). -/
noncomputable def Paper.axis : Paper → Transform
  | .weibull => axisWeibull
  | .lognormal => axisNormal
  | .loglogistic => axisLoglogistic
  | .normal => axisNormal
  | .exponential => axisExponential
  | .gumbel => axisGumbel
  | .gamma b => axisGamma b
  | .beta a b => axisBeta a b

/-- Papers whose x-axis is logarithmic (Utils.py:967; `plt.xscale("log")` in the plots). -/
def Paper.logx : Paper → Bool
  | .weibull => true
  | .lognormal => true
  | .loglogistic => true
  | _ => false

/-- Papers on which negative times may be shown (Utils.py:986). -/
def Paper.negative : Paper → Bool
  | .normal => true
  | .gumbel => true
  | _ => false

/-- `np.log10` -/
noncomputable def log10 (x : ℝ) : ℝ := Real.log x / Real.log 10

/-- Utils.py:967-989 — the limits of the x-axis, given the smallest and largest abscissa.  On a logarithmic axis a smallest
value that is not positive gives limits that are infinite or nan, which `plt.xlim` refuses with ValueError. -/
noncomputable def xlims (p : Paper) (lo hi spacing : ℝ) : Except Err (ℝ × ℝ) :=
  if p.logx then
    if lo ≤ 0 then valueErr
    else
      let dx := log10 hi - log10 lo
      let l := (10 : ℝ) ^ (log10 lo - dx * spacing)
      let u := (10 : ℝ) ^ (log10 hi + dx * spacing)
      if l = u then .ok ((10 : ℝ) ^ (log10 l - 10 * spacing), (10 : ℝ) ^ (log10 u + 10 * spacing))
      else .ok (l, u)
  else
    let dx := hi - lo
    let l := lo - dx * spacing
    let u := hi + dx * spacing
    let lims := if l = u then (0, u * 2) else (l, u)
    if lims.1 < 0 ∧ !p.negative then .ok (0, lims.2) else .ok lims

/-- Utils.py:993-1060 — the limits of the y-axis, given the smallest and largest ordinate (strictly between 0 and 1). -/
noncomputable def ylims (p : Paper) (lo hi spacing : ℝ) : ℝ × ℝ :=
  let a := p.axis.fwd lo
  let b := p.axis.fwd hi
  let d := b - a
  let l := p.axis.inv (a - d * spacing)
  let u := p.axis.inv (b + d * spacing)
  let dx := min (1 - u) (u - 1)
  let u' := if u = l then u - spacing * dx else u
  let l' := if u = l then l + spacing * dx else l
  let l'' := if l' = 0 then (if 0 < lo then lo else 1 / 100000) else l'
  let u'' := if u' = 1 then (if hi < 1 then hi else 99999 / 100000) else u'
  (l'', u'')

/-- `min(x)` and `max(x)` (Utils.py:961-964); ValueError for no values. -/
noncomputable def range : List ℝ → Except Err (ℝ × ℝ)
  | [] => valueErr
  | x :: xs => .ok (xs.foldl min x, xs.foldl max x)

/-- Utils.py:918-1061 — `probability_plot_xylims(x, y, dist, spacing)` of finite values: the limits set. -/
noncomputable def xylims (p : Paper) (x y : List ℝ) (spacing : ℝ) : Except Err ((ℝ × ℝ) × (ℝ × ℝ)) := do
  let rx ← range x
  let ry ← range y
  let lx ← xlims p rx.1 rx.2 spacing
  return (lx, ylims p ry.1 ry.2 spacing)

/-- What is drawn. `line` is the distribution whose CDF is drawn, `shifted` is the axis label "Time - gamma". -/
structure Plot where
  scatter : Option (List ℝ × List ℝ)
  line : Option Distributions.Dist
  paper : Paper
  shifted : Bool
  limits : (ℝ × ℝ) × (ℝ × ℝ)

/-- The checks of the data (Probability_plotting.py:248-264 = 483-499, 711-727, 915-930, 1079-1094, 1246-1262, 1463-1478,
1624-1640, 1865-1880): no failures at all, too few to fit (unless the parameters are given), and containers other than lists
and arrays (`other`; a container with a length) are ValueErrors. -/
def checkData (least : ℕ) (given : Bool) (failures rc : InputCheck.DataArg ℝ) : Except Err (List ℝ × Option (List ℝ)) :=
  match failures with
  | .none => valueErr
  | .other => valueErr
  | .array f =>
    if f.length = 0 then valueErr
    else if f.length < least ∧ !given then valueErr
    else match rc with
      | .none => .ok (f, none)
      | .array c => .ok (f, some c)
      | .other => valueErr

/-- The options of the plots. -/
structure Opts where
  fit_gamma : Bool := false
  a : Option ℝ := none
  CI : ℝ := 95 / 100
  CI_type : InputCheck.StrArg := .str "time"
  show_fit : Bool := true
  show_scatter : Bool := true
  downsample : Factor := .bool false

/-- Plotting positions, scatter and limits, common to all the plots (e.g. Probability_plotting.py:354-360, 381-384). -/
noncomputable def draw (argsort : List ℝ → List ℕ) (o : Opts) (p : Paper) (shifted : Bool) (line : Option Distributions.Dist)
    (f : List ℝ) (rc : Option (List ℝ)) : Except Err Plot := do
  let xy ← PP.plottingPositions argsort f rc o.a false
  let sc ← if o.show_scatter then (xyDownsample xy.1 xy.2 o.downsample 1000).map some else .ok none
  let lims ← xylims p xy.1 xy.2 (1 / 10)
  return ⟨sc, if o.show_fit then line else none, p, shifted, lims⟩

/-- `failures - gamma + c`, and the same for the censored times (e.g. Probability_plotting.py:339-341; `c = 0.009` at
793-799, else 0). -/
noncomputable def shiftAll (g c : ℝ) (f : List ℝ) : List ℝ := f.map fun t => t - g + c

/-- What the plots read of a fit or of `__fitted_dist_params`: the distribution they draw (always with location 0), the
location, and the paper. -/
structure Read where
  line : Distributions.Dist
  gamma : ℝ
  paper : Paper

/-- The attributes of a two-parameter fit (e.g. Probability_plotting.py:287-307): `distribution` holds the same numbers as
the attributes of the fitter object.  The new distribution is made without a location (359-367). -/
noncomputable def readTwo (paper : ℝ → Paper) (d : Two) : Read := ⟨distOf d.fam d.a d.b 0, d.gamma, paper d.b⟩

/-- Exponential (Probability_plotting.py:748-763, 773-790, 809; 1902-1917, 1927-1944, 1957). -/
noncomputable def readExpo (paper : Paper) (d : Expo) : Read := ⟨Distributions.exponential d.Lambda 0, d.gamma, paper⟩

/-- The arguments of the fit (e.g. Probability_plotting.py:295-301); all others are left at their defaults.  `CI = none`: the
plot does not pass its CI on (Gumbel, Normal, Lognormal, Gamma, Beta). -/
noncomputable def fitArgs (f : List ℝ) (rc : Option (List ℝ)) (CI : Option ℝ) : Args :=
  { failures := .array f
    right_censored := match rc with | none => .none | some c => .array c
    CI := .float (CI.getD 0.95) }

/-- The body of the plots that only fit when the line is shown (`fixed` paper; Probability_plotting.py:265-396 = 500-626,
728-839, 931-1003, 1095-1167, 1263-1389, 1881-1990), or always (`fixed = none`: Gamma 1641-1784).  `c` is the shift of
the points on top of `- gamma`. -/
noncomputable def body (argsort : List ℝ → List ℕ) (fixed : Option Paper) (c : ℝ) (given : Option Read)
    (fit2 fit3 : Except Err Read) (o : Opts) (f : List ℝ) (rc : Option (List ℝ)) : Except Err Plot :=
  match o.show_fit, fixed with
  | false, some p => draw argsort o p false none f rc
  | _, _ =>
    if o.CI ≤ 0 ∨ o.CI ≥ 1 then valueErr
    else do
      let g : Bool := match given with
        | some d => if d.gamma > 0 then true else o.fit_gamma
        | none => o.fit_gamma
      let r ← match given with
        | some d => .ok d
        | none => if g then fit3 else fit2
      if g then draw argsort o r.paper true (some r.line) (shiftAll r.gamma c f) (rc.map (shiftAll r.gamma c))
      else draw argsort o r.paper false (some r.line) f rc

/-- Probability_plotting.py:172-396 — `Weibull_probability_plot`. -/
noncomputable def weibullPlot (argsort : List ℝ → List ℕ) (fit2 fit3 : Args → Except Err (FitRes Two))
    (failures rc : InputCheck.DataArg ℝ) (given : Option Two) (o : Opts) : Except Err Plot := do
  let d ← checkData 2 given.isSome failures rc
  let rd := readTwo fun _ => .weibull
  body argsort (some .weibull) 0 (given.map rd)
    ((fit2 (fitArgs d.1 d.2 (some o.CI))).map fun r => rd r.dist)
    ((fit3 (fitArgs d.1 d.2 (some o.CI))).map fun r => rd r.dist) o d.1 d.2

/-- Probability_plotting.py:399-626 — `Loglogistic_probability_plot`. -/
noncomputable def loglogisticPlot (argsort : List ℝ → List ℕ) (fit2 fit3 : Args → Except Err (FitRes Two))
    (failures rc : InputCheck.DataArg ℝ) (given : Option Two) (o : Opts) : Except Err Plot := do
  let d ← checkData 2 given.isSome failures rc
  let rd := readTwo fun _ => .loglogistic
  body argsort (some .loglogistic) 0 (given.map rd)
    ((fit2 (fitArgs d.1 d.2 (some o.CI))).map fun r => rd r.dist)
    ((fit3 (fitArgs d.1 d.2 (some o.CI))).map fun r => rd r.dist) o d.1 d.2

/-- Probability_plotting.py:1170-1389 — `Lognormal_probability_plot`. -/
noncomputable def lognormalPlot (argsort : List ℝ → List ℕ) (fit2 fit3 : Args → Except Err (FitRes Two))
    (failures rc : InputCheck.DataArg ℝ) (given : Option Two) (o : Opts) : Except Err Plot := do
  let d ← checkData 2 given.isSome failures rc
  let rd := readTwo fun _ => .lognormal
  body argsort (some .lognormal) 0 (given.map rd)
    ((fit2 (fitArgs d.1 d.2 none)).map fun r => rd r.dist)
    ((fit3 (fitArgs d.1 d.2 none)).map fun r => rd r.dist) o d.1 d.2

/-- Probability_plotting.py:1548-1784 — `Gamma_probability_plot`: the y-axis depends on beta, so the fit is always made. -/
noncomputable def gammaPlot (argsort : List ℝ → List ℕ) (fit2 fit3 : Args → Except Err (FitRes Two))
    (failures rc : InputCheck.DataArg ℝ) (given : Option Two) (o : Opts) : Except Err Plot := do
  let d ← checkData 2 given.isSome failures rc
  let rd := readTwo .gamma
  body argsort none 0 (given.map rd)
    ((fit2 (fitArgs d.1 d.2 none)).map fun r => rd r.dist)
    ((fit3 (fitArgs d.1 d.2 none)).map fun r => rd r.dist) o d.1 d.2

/-- Probability_plotting.py:842-1003, 1006-1167 — `Gumbel_probability_plot`, `Normal_probability_plot`: no location
(`__fitted_dist_params.gamma` is not read, there is no `fit_gamma`). -/
noncomputable def plainPlot (p : Paper) (argsort : List ℝ → List ℕ) (fit : Args → Except Err (FitRes Two))
    (failures rc : InputCheck.DataArg ℝ) (given : Option Two) (o : Opts) : Except Err Plot := do
  let d ← checkData 2 given.isSome failures rc
  let rd : Two → Read := fun t => ⟨distOf t.fam t.a t.b 0, 0, p⟩
  let r := (fit (fitArgs d.1 d.2 none)).map fun r => rd r.dist
  body argsort (some p) 0 (given.map rd) r r { o with fit_gamma := false } d.1 d.2

/-- Probability_plotting.py:629-839 (`Exponential_probability_plot_Weibull_Scale`: Weibull paper, points moved by 0.009 when
the location is fitted) and 1787-1990 (`Exponential_probability_plot`). One failure is enough. -/
noncomputable def exponentialPlot (weibullScale : Bool) (argsort : List ℝ → List ℕ)
    (fit1 fit2 : Args → Except Err (FitRes Expo)) (failures rc : InputCheck.DataArg ℝ) (given : Option Expo) (o : Opts) :
    Except Err Plot := do
  let d ← checkData 1 given.isSome failures rc
  let p : Paper := if weibullScale then .weibull else .exponential
  body argsort (some p) (if weibullScale then 0.009 else 0) (given.map (readExpo p))
    ((fit1 (fitArgs d.1 d.2 (some o.CI))).map fun r => readExpo p r.dist)
    ((fit2 (fitArgs d.1 d.2 (some o.CI))).map fun r => readExpo p r.dist) o d.1 d.2

/-- The point estimate in row `i` of `results`. -/
def pointAt (rows : List Row) (i : ℕ) : ℝ := (rows[i]?.map Row.point).getD 0

/-- Probability_plotting.py:1392-1545 — `Beta_probability_plot`: both parameters enter the y-axis, so the fit is always
made.  `given` are alpha and beta. -/
noncomputable def betaPlot (argsort : List ℝ → List ℕ) (fit : Args → Except Err (FitRes Distributions.Dist))
    (failures rc : InputCheck.DataArg ℝ) (given : Option (ℝ × ℝ)) (o : Opts) : Except Err Plot := do
  let d ← checkData 2 given.isSome failures rc
  let rd : ℝ × ℝ → Read := fun p => ⟨Distributions.betaDist p.1 p.2, 0, .beta p.1 p.2⟩
  let r := (fit (fitArgs d.1 d.2 none)).map fun r => rd (pointAt r.rows 0, pointAt r.rows 1)
  body argsort none 0 (given.map rd) r r { o with fit_gamma := false } d.1 d.2

end Reliability.ProbPaper
