import Verif.Model.Nonparametric
import Verif.Model.PlottingPositions
import Verif.Model.Utils
import Mathlib.Analysis.SpecialFunctions.Pow.Real

/-!
# The figures of `Fit_Everything`

Model of /repo/reliability/Fitters.py:1360-1753: the bars of the histogram plot, the panels of the probability-probability
plot and the grid they are laid out in.  The curves of the fitted distributions and the decorations are not modelled.
Numbers are exact reals.  A fit is a name and a CDF.
-/

namespace Reliability.FitPlots

open Reliability.Utils Reliability.NP Reliability.PP

/-- `__probplot_layout`: columns and rows for a number of fitted distributions (Fitters.py:1360-1431); `none` is the
UnboundLocalError of a number that no branch treats.  The sizes of the figures are not modelled. -/
def layout (items : ℕ) : Option (ℕ × ℕ) :=
  if items = 16 then some (6, 3)
  else if items ∈ [13, 14, 15] then some (5, 3)
  else if items ∈ [10, 11, 12] then some (4, 3)
  else if items ∈ [7, 8, 9] then some (3, 3)
  else if items ∈ [5, 6] then some (3, 2)
  else if items = 4 then some (2, 2)
  else if items = 3 then some (3, 1)
  else if items = 2 then some (2, 1)
  else if items = 1 then some (1, 1)
  else none

/-! ## Histogram plot -/

/-- Errors of the figures: those of Python's classes in `Err`, and OverflowError. -/
inductive PlotErr where
  | overflow
  | unbound
  | py (e : Err)

/-- An error of a function that is called. -/
def lift {α : Type} : Except Err α → Except PlotErr α
  | .ok a => .ok a
  | .error e => .error (.py e)

/-- `np.percentile(X, p)` with linear interpolation. -/
noncomputable def percentile (p : ℝ) (X : List ℝ) : ℝ :=
  let s := Np.sort X
  let h := ((s.length : ℝ) - 1) * (p / 100)
  let k := ⌊h⌋₊
  s.getD k 0 + (h - k) * (s.getD (k + 1) (s.getD k 0) - s.getD k 0)

/-- `max(X)`, `min(X)`. -/
noncomputable def maximum (X : List ℝ) : ℝ := X.tail.foldl max (X.headD 0)

noncomputable def minimum (X : List ℝ) : ℝ := X.tail.foldl min (X.headD 0)

/-- The Freedman-Diaconis rule (Fitters.py:1445-1448): `int(np.ceil((max(X) - min(X)) / bin_width))`.  A bin width of 0 makes
the quotient infinite, and `int(inf)` is an OverflowError (`int(nan)`, if the range is 0 too, a ValueError). -/
noncomputable def numBins (X : List ℝ) : Except PlotErr ℕ :=
  let iqr := percentile 75 X - percentile 25 X
  let w := 2 * iqr * (X.length : ℝ) ^ (-(1 / 3 : ℝ))
  if w = 0 then (if maximum X - minimum X = 0 then .error (.py .valueError) else .error .overflow)
  else .ok ⌈(maximum X - minimum X) / w⌉.toNat

/-- The edges that `np.histogram(X, bins=n)` uses (for a range that is not 0). -/
noncomputable def edge (X : List ℝ) (n i : ℕ) : ℝ := minimum X + i * ((maximum X - minimum X) / n)

/-- The number of observations in bin `i` of `n`: the last bin includes its right edge. -/
noncomputable def binCount (X : List ℝ) (n i : ℕ) : ℕ :=
  X.countP fun x => decide (edge X n i ≤ x ∧ (x < edge X n (i + 1) ∨ i + 1 = n ∧ x ≤ edge X n (i + 1)))

/-- `np.histogram(X, bins=n, density=True)`. -/
noncomputable def density (X : List ℝ) (n : ℕ) : List ℝ :=
  (List.range n).map fun i => binCount X n i / (X.length : ℝ) / (edge X n (i + 1) - edge X n i)

/-- The bars: edges, heights in the plot of densities, heights in the plot of distribution functions. -/
structure Bars where
  edges : List ℝ
  pdf : List ℝ
  cdf : List ℝ

/-- `__histogram_plot`: the bars (Fitters.py:1444-1468, 1558-1572).  `np.histogram` refuses 0 bins with a ValueError. -/
noncomputable def histogramPlot (argsort : List ℝ → List ℕ) (failures right_censored : List ℝ) : Except PlotErr Bars := do
  let n ← numBins failures
  let _ ← (if n = 0 then .error (.py .valueError) else .ok () : Except PlotErr Unit)
  let hist := density failures n
  let frac : ℝ := failures.length / (failures ++ right_censored).length
  let cum := (Np.cumsum 0 hist).map (· / hist.sum)
  let p ← lift (plottingPositions argsort failures (some right_censored) none true)
  pure ⟨(List.range (n + 1)).map (edge failures n), hist.map (· * frac), cum.map (· * maximum p.2)⟩

/-! ## Probability-probability plot -/

/-- One panel: its place in the grid, its title, the points, and the limits of both axes. -/
structure Panel where
  rows : ℕ
  cols : ℕ
  place : ℕ
  title : String
  points : List (ℝ × ℝ)
  lower : ℝ
  upper : ℝ

/-- The loop over the fitted distributions (Fitters.py:1652-1751). -/
noncomputable def panels (rows cols : ℕ) (xx d : List ℝ) (factor : Factor) : ℕ → List (String × (ℝ → ℝ)) → Except PlotErr (List Panel)
  | _, [] => .ok []
  | place, (name, F) :: fits => do
    let yy := d.map F
    let plotlim := if maximum xx < maximum yy then maximum yy else maximum xx
    let s ← lift (xyDownsample xx yy factor 1000)
    let rest ← panels rows cols xx d factor (place + 1) fits
    pure (⟨rows, cols, place, name, s.1.zip s.2, -plotlim * 0.05, plotlim * 1.05⟩ :: rest)

/-- `__P_P_plot` (Fitters.py:1630-1753); `d = sorted(self._all_data)` (267). -/
noncomputable def ppPlot (argsort : List ℝ → List ℕ) (sqrt : ℝ → ℝ) (ppf : ℝ → Ext ℝ) (failures right_censored : List ℝ)
    (fits : List (String × (ℝ → ℝ))) (factor : Factor) : Except PlotErr (List Panel) := do
  let r ← lift (kaplanMeier argsort sqrt ppf (some failures) (some right_censored) 0.95 "SF")
  let g ← (match layout fits.length with
    | none => .error .unbound
    | some g => .ok g : Except PlotErr (ℕ × ℕ))
  panels g.2 g.1 (r.est.map (1 - ·)) (Np.sort (failures ++ right_censored)) factor 1 fits

end Reliability.FitPlots
