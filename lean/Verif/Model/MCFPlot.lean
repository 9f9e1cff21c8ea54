import Verif.Model.MCFParametric
import Verif.Model.NumPy
import Mathlib.Analysis.SpecialFunctions.Log.Basic

/-!
# Model of the plots of MCF_nonparametric and MCF_parametric (Repairable_systems.py:1019-1063, 1270-1325)

The canvas is what is drawn and the limits of the axes. Colours, markers and transparency are left out; so are the axis labels. The text of the
confidence level and of the rounded parameters are parameters.
-/

namespace Reliability.MCF

open Reliability

/-- The axes with what is drawn on them. -/
structure Canvas where
  xlim : ℝ × ℝ
  ylim : ℝ × ℝ
  lines : List (List ℝ × List ℝ)
  bands : List (List ℝ × List ℝ × List ℝ)
  points : List (List ℝ × List ℝ)
  title : String

/-- A vertex of the step plot: the elements of `x_MCF`, `y_MCF`, `y_lower`, `y_upper` at one position. -/
structure Vertex where
  x : ℝ
  y : ℝ
  lo : ℝ
  up : ℝ

/-- The loop over the results after the first (Repairable_systems.py:1028-1037). -/
def stepLoop (prev : OutRow ℝ) : List (OutRow ℝ) → List Vertex
  | [] => []
  | r :: rs => ⟨r.time, prev.MCF, prev.lower, prev.upper⟩ :: ⟨r.time, r.MCF, r.lower, r.upper⟩ :: stepLoop r rs

/-- The step arrays (Repairable_systems.py:1020-1041); `RESULTS_time[0]` of no results is an IndexError. -/
def stepArrays (rows : List (OutRow ℝ)) (last_time : ℝ) : Except Err (List Vertex) :=
  match rows with
  | [] => .error .indexError
  | r :: rs =>
    let l := rs.getLastD r
    .ok ([⟨0, 0, 0, 0⟩, ⟨r.time, 0, 0, 0⟩, ⟨r.time, r.MCF, r.lower, r.upper⟩] ++ stepLoop r rs ++
      [⟨last_time, l.MCF, l.lower, l.upper⟩])

/-- `max` of an array. -/
def maxOf (l : List ℝ) : Except Err ℝ :=
  match l.max? with
  | none => .error .valueError
  | some m => .ok m

/-- The title (Repairable_systems.py:1042, 1052-1057). -/
def npTitle (plot_CI : Bool) (ci : String) : String :=
  if plot_CI then "Non-parametric estimate of the Mean Cumulative Function" ++ "\nwith " ++ ci ++ "% one-sided confidence interval bounds"
  else "Non-parametric estimate of the Mean Cumulative Function"

/-- The plot (Repairable_systems.py:1019-1063). -/
noncomputable def drawNP (rows : List (OutRow ℝ)) (last_time : ℝ) (plot_CI : Bool) (ci : String) (c : Canvas) : Except Err Canvas := do
  let V ← stepArrays rows last_time
  let x := V.map Vertex.x
  let top ← maxOf (rows.map fun r => r.upper)
  .ok { xlim := (0, last_time), ylim := (0, top * (105 / 100)), lines := c.lines ++ [(x, V.map Vertex.y)]
        bands := if plot_CI then c.bands ++ [(x, V.map Vertex.lo, V.map Vertex.up)] else c.bands
        points := c.points, title := npTitle plot_CI ci }

/-- `MCF_nonparametric` with its plot, from the systems (Repairable_systems.py:862-1063); `last_time` is the latest end of a system (879). -/
noncomputable def plotNP (ppf : ℝ → ℝ) (systems : List (List ℝ)) (CI : ℝ) (show_plot plot_CI : Bool) (ci : String) (c : Canvas) :
    Except Err (List (OutRow ℝ) × Canvas) := do
  let rows ← mcfSystems Real.exp Real.sqrt ppf systems CI
  if show_plot then do
    let last_time ← maxOf (splitTimes systems).2
    let c' ← drawNP rows last_time plot_CI ci c
    .ok (rows, c')
  else .ok (rows, c)

end Reliability.MCF

namespace Reliability.MCFP

open Reliability

/-- `y_line` (Repairable_systems.py:1288). -/
noncomputable def yLine (fit : Fit) (x : ℝ) : ℝ := (x / fit.a) ^ fit.b

/-- `var` (Repairable_systems.py:1292-1298). -/
noncomputable def varLine (fit : Fit) (x : ℝ) : ℝ :=
  let p1 := -(fit.b / fit.a) * (x / fit.a) ^ fit.b
  let p2 := (x / fit.a) ^ fit.b * Real.log (x / fit.a)
  fit.varA * p1 ^ 2 + fit.varB * p2 ^ 2 + 2 * p1 * p2 * fit.cov

/-- `y_line_lower` (Repairable_systems.py:1300). -/
noncomputable def lowerLine (Z : ℝ) (fit : Fit) (x : ℝ) : ℝ := yLine fit x * Real.exp ((-Z * Real.sqrt (varLine fit x)) / yLine fit x)

/-- `y_line_upper` (Repairable_systems.py:1301). -/
noncomputable def upperLine (Z : ℝ) (fit : Fit) (x : ℝ) : ℝ := yLine fit x * Real.exp ((Z * Real.sqrt (varLine fit x)) / yLine fit x)

/-- The plot (Repairable_systems.py:1270-1325); `alpha4` and `beta4` are the parameters rounded to 4 places, as text. -/
noncomputable def drawP (Z : ℝ) (times mcf : List ℝ) (fit : Fit) (plot_CI : Bool) (alpha4 beta4 : String) (c : MCF.Canvas) :
    Except Err MCF.Canvas := do
  let tmax ← MCF.maxOf times
  let x_line := Np.linspace (1 / 1000) (tmax * 10) 1000
  let ymax ← MCF.maxOf mcf
  .ok { xlim := (0, tmax * (12 / 10)), ylim := (0, ymax * (14 / 10)), lines := c.lines ++ [(x_line, x_line.map (yLine fit))]
        bands := if plot_CI then c.bands ++ [(x_line, x_line.map (lowerLine Z fit), x_line.map (upperLine Z fit))] else c.bands
        points := c.points ++ [(times, mcf)]
        title := "Parametric estimate of the Mean Cumulative Function\n" ++ "$MCF = (\\frac{t}{\\alpha})^\\beta$ with α=" ++ alpha4 ++ ", β=" ++ beta4 }

/-- `MCF_parametric` with its plot. -/
noncomputable def plotP (ppf : ℝ → ℝ) (polyfit : List ℝ → List ℝ → ℝ × ℝ)
    (curveFit : (ℝ → ℝ → ℝ → ℝ) → List ℝ → List ℝ → ℝ × ℝ → Except Err Fit) (data : MCF.Data ℝ) (CI : ℝ) (show_plot plot_CI : Bool)
    (alpha4 beta4 : String) (c : MCF.Canvas) : Except Err (Result × MCF.Canvas) := do
  let r ← mcfParametric ppf polyfit curveFit data CI
  if show_plot then do
    let fit ← curveFit eqn r.times r.MCF (guess polyfit r.times r.MCF)
    let c' ← drawP (-ppf ((1 - CI) / 2)) r.times r.MCF fit plot_CI alpha4 beta4 c
    .ok (r, c')
  else .ok (r, c)

end Reliability.MCFP
