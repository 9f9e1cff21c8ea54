import Verif.Model.Repairable
import Mathlib.Algebra.Order.Floor.Ring
import Mathlib.Algebra.Ring.Parity

/-!
# Model of the plots of optimal_replacement_time and ROCOF (Repairable_systems.py:403-478, 620-660, 708-723)

A canvas is what is drawn, its texts, labels and the limits of the axes. Colours, fonts, alignment and the order of drawing are left out. The two
plots of `optimal_replacement_time` are on different axes: `none` is a plot that is not wanted, `some c` is the axes used (new ones, or the
caller's with what is on them). `rs` stands for `round_and_string(_, 2)`, `str` for Python's `str` of a number.
-/

namespace Reliability.Repairable

open Reliability

/-- The axes with what is drawn on them. -/
structure RCanvas where
  lines : List (List ℝ × List ℝ)
  points : List (List ℝ × List ℝ)
  texts : List ((ℝ × ℝ) × String)
  xlim : ℝ × ℝ
  ylim : ℝ × ℝ
  xlabel : String
  ylabel : String
  title : String

/-- `np.round(x, 0)`: to the nearest integer, a half to the even one. -/
noncomputable def roundHalfEven (x : ℝ) : ℤ :=
  if x - ⌊x⌋ < 1 / 2 then ⌊x⌋
  else if 1 / 2 < x - ⌊x⌋ then ⌊x⌋ + 1
  else if Even ⌊x⌋ then ⌊x⌋ else ⌊x⌋ + 1

/-- `CPUT` at one time (Repairable_systems.py:351, 375). -/
noncomputable def cput (quad : (ℝ → ℝ) → ℝ → ℝ) (PM CM α β : ℝ) (q t : ℝ) : ℝ :=
  if q = 1 then ((PM * (t / α) ^ β) + CM) / t else cputNew quad PM CM α β t

/-- `alpha_multiple` (Repairable_systems.py:349, 359). -/
noncomputable def alphaMultiple (q : ℝ) : ℝ := if q = 1 then 4 else 3

/-- The number of points of `t` (Repairable_systems.py:350, 360). -/
noncomputable def gridSize (q : ℝ) : Nat := if q = 1 then 100000 else 10000

/-- The array `t` (Repairable_systems.py:350, 360). -/
noncomputable def gridTimes (α q : ℝ) : List ℝ := Np.linspace 1 (α * alphaMultiple q) (gridSize q)

/-- Repairable_systems.py:403-425 — the plot against time. -/
noncomputable def timePlot (quad : (ℝ → ℝ) → ℝ → ℝ) (rs : ℝ → String) (PM CM α β q : ℝ) (r : Replacement) (c : RCanvas) : RCanvas :=
  let t := gridTimes α q
  { lines := c.lines ++ [(t, t.map (cput quad PM CM α β q))]
    points := c.points ++ [([r.ORT], [r.min_cost])]
    texts := c.texts ++ [((r.ORT, r.min_cost),
      "\nMinimum cost per unit time is " ++ rs r.min_cost ++ "\nOptimal replacement time is " ++ rs r.ORT)]
    xlim := (0, α * alphaMultiple q)
    ylim := (0, r.min_cost * 2)
    xlabel := "Replacement time"
    ylabel := "Cost per unit time"
    title := "Optimal replacement time estimation" }

/-- `calc_ORT` (Repairable_systems.py:442-449). -/
noncomputable def calcORT (quad : (ℝ → ℝ) → ℝ → ℝ) (PM α β q x : ℝ) : ℝ :=
  if q = 1 then α * (x / (PM * (β - 1))) ^ (1 / β)
  else
    let t := gridTimes α q
    t.getD ((Np.argmin (t.map (cputNew quad PM x α β))).getD 0) 0

/-- `mult` (Repairable_systems.py:458-464). -/
noncomputable def textMult (ys : List ℝ) : ℝ := if ys.getD 50 0 > ys.getD 40 0 then 0.95 else 1.05

/-- Repairable_systems.py:427-478 — the plot against the ratio of the costs. -/
noncomputable def ratioPlot (quad : (ℝ → ℝ) → ℝ → ℝ) (rs str : ℝ → String) (PM CM α β q : ℝ) (r : Replacement) (c : RCanvas) : RCanvas :=
  let xupper : ℝ := (roundHalfEven (CM / PM) : ℝ) * 2
  let ratios := Np.linspace 1 xupper 200
  let ys := (ratios.map (· * PM)).map (calcORT quad PM α β q)
  { lines := c.lines ++ [(ratios, ys)]
    points := c.points ++ [([CM / PM], [r.ORT])]
    texts := c.texts ++ [((CM / PM * 1.05, r.ORT * textMult ys),
      "$cost_{CM} = $" ++ str CM ++ "\n$cost_{PM} = $" ++ str PM ++ "\nInterval = " ++ rs r.ORT)]
    xlim := (1, xupper)
    ylim := (0, r.ORT * 2)
    xlabel := "Cost ratio $\\left(\\frac{CM}{PM}\\right)$"
    ylabel := "Replacement Interval"
    title := "Optimal replacement interval\nacross a range of CM costs" }

/-- Repairable_systems.py:320-478 — `optimal_replacement_time` with its plots. -/
noncomputable def replacementPlots (quad : (ℝ → ℝ) → ℝ → ℝ) (rs str : ℝ → String) (PM CM α β q : ℝ) (time ratio : Option RCanvas) :
    Except Err (Replacement × Option RCanvas × Option RCanvas) := do
  let r ← optimalReplacementTime quad PM CM α β q
  pure (r, time.map (timePlot quad rs PM CM α β q r), ratio.map (ratioPlot quad rs str PM CM α β q r))

/-! ## ROCOF -/

/-- What the plot of ROCOF adds to the axes: the line labelled MTBF, the points with their label, and the title. -/
structure RocofDrawing where
  line : List ℝ × List ℝ
  points : List ℝ × List ℝ
  pointsLabel : String
  title : String

/-- `self.trend.upper()`. -/
def trendUpper : Trend → String
  | .improving .. => "IMPROVING"
  | .worsening .. => "WORSENING"
  | .constant .. => "CONSTANT"

/-- `x_to_plot, MTBF` (Repairable_systems.py:617-660); `x` is 1, 2, … -/
noncomputable def mtbfLine (x tc : List ℝ) (te : Bool) : Trend → List ℝ × List ℝ
  | .improving B L => (if te then x else x.dropLast, tc.map fun t => 1 / (L * B * t ^ (B - 1)))
  | .worsening B L => (if te then x else x.dropLast, tc.map fun t => 1 / (L * B * t ^ (B - 1)))
  | .constant rocof => (x, x.map fun _ => 1 / rocof)

/-- `tc` (Repairable_systems.py:592-614): the cumulative times that the trend is estimated from. -/
noncomputable def trendTimes (ti : List ℝ) (test_end : Option ℝ) : List ℝ :=
  Np.cumsum 0 (ti.take (if test_end.isSome then ti.length else ti.length - 1))

/-- Repairable_systems.py:708-723 — the plot; `ci` is the text of `CI * 100`. Lines need as many x as y values, else matplotlib raises ValueError. -/
noncomputable def rocofDraw (ti : List ℝ) (test_end : Option ℝ) (label : Option String) (ci : String) (trend : Trend) : Except Err RocofDrawing :=
  let x := (List.range ti.length).map fun i => ((i + 1 : Nat) : ℝ)
  let line := mtbfLine x (trendTimes ti test_end) test_end.isSome trend
  if line.1.length = line.2.length then
    .ok ⟨line, (x, ti), label.getD "Failure interarrival times",
      "Failure interarrival times vs failure number\nAt " ++ ci ++ "% confidence level the ROCOF is " ++ trendUpper trend⟩
  else valueErr

/-- Repairable_systems.py:590-723 — the analysis from the inter-arrival times with the plot. -/
noncomputable def rocofTiPlot (ppf : ℝ → ℝ) (ti : List ℝ) (CI : ℝ) (test_end : Option ℝ) (show_plot : Bool) (label : Option String) (ci : String) :
    Except Err (RocofResult × Option RocofDrawing) := do
  let r ← rocofTi ppf ti CI test_end
  if show_plot then
    let d ← rocofDraw ti test_end label ci r.trend
    pure (r, some d)
  else pure (r, none)

/-- Repairable_systems.py:545-723 — `ROCOF` with its plot. -/
noncomputable def rocofPlot (ppf : ℝ → ℝ) (tbf failure_times : Option (List ℝ)) (CI : ℝ) (test_end : Option ℝ) (show_plot : Bool)
    (label : Option String) (ci : String) : Except Err (RocofResult × Option RocofDrawing) :=
  match tbf, failure_times with
  | some _, some _ => valueErr
  | some l, none => if l.any (fun t => decide (t ≤ 0)) then valueErr else rocofTiPlot ppf l CI test_end show_plot label ci
  | none, some f =>
    if f.any (fun t => decide (t ≤ 0)) then valueErr else rocofTiPlot ppf (diffs 0 (Np.sort f)) CI test_end show_plot label ci
  | none, none => if CI ≤ 0 ∨ CI ≥ 1 then valueErr else .error .nameError

end Reliability.Repairable
