import Verif.Model.FitEverythingFull
import Verif.Model.ProbPaper
import Verif.Model.FitPlots
import Mathlib.Analysis.SpecialFunctions.Log.Base

/-!
# Model of the probability plots of `Fit_Everything` (/repo/reliability/Fitters.py:1342-1350, 1755-1940)

The panels with their places, titles and contents.  Labels, legends and the size of the figure are left out.  The fitter objects that
`Fit_Everything` keeps (`self.__<name>_params`) are those of the calls that made the rows; the model makes the call again instead of keeping
the object (the same call gives the same object, the answers of the optimizers being functions).
-/

namespace Reliability.FitProbPlots

open Reliability Reliability.Utils Reliability.InputCheck Reliability.FitGlue Reliability.FitSpecial Reliability.ProbPaper
open Reliability.FitEverythingFull Reliability.FitPlots
open Reliability.Fitters (Dist)

/-- The curve that is drawn on top of the points where the probability plot itself draws no line. -/
structure Curve where
  xs : List ℝ
  ys : List ℝ

/-- `xvals` (Fitters.py:1780-1782): `np.logspace(np.log10(min) - 3, np.log10(max) + 1, 1000)`. -/
noncomputable def curveGrid (f : List ℝ) : List ℝ :=
  (Np.linspace (Real.logb 10 (minimum f) - 3) (Real.logb 10 (maximum f) + 1) 1000).map fun u => (10 : ℝ) ^ u

/-- The classes with their answers, as the probability plots would call them (they are not called: `__fitted_dist_params` is given or no
line is shown). -/
noncomputable def wf2 (A : Answers) := fitWeibull2P A.argsort A.J A.w2
noncomputable def wf3 (A : Answers) := fitWeibull3P A.argsort A.J A.w3 A.w2

/-- `Weibull_probability_plot` without its line, and the CDF of the fitted model (Fitters.py:1830-1859). -/
noncomputable def withCurve (A : Answers) (f rc : List ℝ) (factor : Factor) (D : AnyDist) : Except Err (Plot × Option Curve) := do
  let p ← weibullPlot A.argsort (wf2 A) (wf3 A) (.array f) (.array rc) none { show_fit := false, downsample := factor }
  let ys ← D.cdf (curveGrid f)
  pure (p, some ⟨curveGrid f, ys⟩)

/-- A plot on its own. -/
def alone (p : Except Err Plot) : Except Err (Plot × Option Curve) := p.map fun p => (p, none)

/-- The call for one item of `plotting_order` (Fitters.py:1784-1911). -/
noncomputable def panelPlot (A : Answers) (f rc : List ℝ) (method optimizer : StrArg) (factor : Factor) (d : Dist) :
    Except Err (Plot × Option Curve) :=
  let x : Args := { failures := .array f, right_censored := .array rc, method := method, optimizer := optimizer }
  let y : SArgs := { right_censored := .array rc, optimizer := optimizer }
  let o : Opts := { downsample := factor }
  let F : DataArg ℝ := .array f
  let C : DataArg ℝ := .array rc
  match d with
  | .Exponential_1P => do
    let r ← fitExponential1P A.argsort A.J A.e1 x
    alone (exponentialPlot true A.argsort (fitExponential1P A.argsort A.J A.e1) (fitExponential2P A.argsort A.J A.e2) F C (some r.dist) o)
  | .Exponential_2P => do
    let r ← fitExponential2P A.argsort A.J A.e2 x
    alone (exponentialPlot true A.argsort (fitExponential1P A.argsort A.J A.e1) (fitExponential2P A.argsort A.J A.e2) F C (some r.dist) o)
  | .Lognormal_2P => do
    let r ← fitLognormal2P A.argsort A.J A.l2 x
    alone (lognormalPlot A.argsort (fitLognormal2P A.argsort A.J A.l2) (fitLognormal3P A.argsort A.J A.l3 A.l2) F C (some r.dist) o)
  | .Lognormal_3P => do
    let r ← fitLognormal3P A.argsort A.J A.l3 A.l2 x
    alone (lognormalPlot A.argsort (fitLognormal2P A.argsort A.J A.l2) (fitLognormal3P A.argsort A.J A.l3 A.l2) F C (some r.dist) o)
  | .Weibull_2P => do
    let r ← wf2 A x
    alone (weibullPlot A.argsort (wf2 A) (wf3 A) F C (some r.dist) o)
  | .Weibull_3P => do
    let r ← wf3 A x
    alone (weibullPlot A.argsort (wf2 A) (wf3 A) F C (some r.dist) o)
  | .Weibull_Mixture => do
    let r ← fitMixture A.argsort A.J A.kde A.wPart A.mix F y
    withCurve A f rc factor (.mixture r.dist.1 r.dist.2)
  | .Weibull_CR => do
    let r ← fitCR A.argsort A.J A.kde A.wPart A.cr F y
    withCurve A f rc factor (.competing r.dist)
  | .Weibull_DS => do
    let r ← fitDS A.argsort A.J A.wPart A.ds F y
    withCurve A f rc factor (.dszi r.dist)
  | .Loglogistic_2P => do
    let r ← fitLoglogistic2P A.argsort A.J A.lo2 x
    alone (loglogisticPlot A.argsort (fitLoglogistic2P A.argsort A.J A.lo2) (fitLoglogistic3P A.argsort A.J A.lo3 A.lo2) F C (some r.dist) o)
  | .Loglogistic_3P => do
    let r ← fitLoglogistic3P A.argsort A.J A.lo3 A.lo2 x
    alone (loglogisticPlot A.argsort (fitLoglogistic2P A.argsort A.J A.lo2) (fitLoglogistic3P A.argsort A.J A.lo3 A.lo2) F C (some r.dist) o)
  | .Gamma_2P => do
    let r ← fitGamma2P A.argsort A.J A.ga2 x
    alone (gammaPlot A.argsort (fitGamma2P A.argsort A.J A.ga2) (fitGamma3P A.argsort A.J A.ga3 A.ga2) F C (some r.dist) o)
  | .Gamma_3P => do
    let r ← fitGamma3P A.argsort A.J A.ga3 A.ga2 x
    alone (gammaPlot A.argsort (fitGamma2P A.argsort A.J A.ga2) (fitGamma3P A.argsort A.J A.ga3 A.ga2) F C (some r.dist) o)
  | .Normal_2P => do
    let r ← fitNormal2P A.argsort A.J A.n2 x
    alone (plainPlot .normal A.argsort (fitNormal2P A.argsort A.J A.n2) F C (some r.dist) o)
  | .Gumbel_2P => do
    let r ← fitGumbel2P A.argsort A.J A.gu2 x
    alone (plainPlot .gumbel A.argsort (fitGumbel2P A.argsort A.J A.gu2) F C (some r.dist) o)
  | .Beta_2P => do
    let r ← fitBeta2P A.argsort A.be2 x
    alone (betaPlot A.argsort (fitBeta2P A.argsort A.be2) F C (some (pointAt r.rows 0, pointAt r.rows 1)) o)

/-- One panel. -/
structure ProbPanel where
  rows : ℕ
  cols : ℕ
  place : ℕ
  title : Dist
  plot : Plot
  curve : Option Curve

/-- The loop with `best_only=False` (Fitters.py:1784-1924). -/
noncomputable def probPanels (A : Answers) (f rc : List ℝ) (method optimizer : StrArg) (factor : Factor) (rows cols : ℕ) :
    ℕ → List Dist → Except PlotErr (List ProbPanel)
  | _, [] => .ok []
  | place, d :: ds => do
    let p ← FitPlots.lift (panelPlot A f rc method optimizer factor d)
    let rest ← probPanels A f rc method optimizer factor rows cols (place + 1) ds
    pure (⟨rows, cols, place, d, p.1, p.2⟩ :: rest)

/-- `__probability_plot(self)`: `plotting_order` is the order of `results` (Fitters.py:1772-1777). -/
noncomputable def allPlots (A : Answers) (f rc : List ℝ) (method optimizer : StrArg) (factor : Factor) (res : FERes) :
    Except PlotErr (List ProbPanel) := do
  let g ← (match layout res.results.length with
    | none => .error .unbound
    | some g => .ok g : Except PlotErr (ℕ × ℕ))
  probPanels A f rc method optimizer factor g.2 g.1 1 (res.results.map FRow.dist)

/-- `__probability_plot(self, best_only=True)`: `[self.results["Distribution"].values[0]]` (Fitters.py:1778-1779). -/
noncomputable def bestPlot (A : Answers) (f rc : List ℝ) (method optimizer : StrArg) (factor : Factor) (res : FERes) :
    Except PlotErr (Plot × Option Curve) :=
  match res.results with
  | [] => .error (.py .indexError)
  | r :: _ => FitPlots.lift (panelPlot A f rc method optimizer factor r.dist)

/-- `Fit_Everything(..., show_probability_plot=True, show_best_distribution_probability_plot=True)` (Fitters.py:222-1350). -/
noncomputable def fitEverythingPlots (A : Answers) (x : FEArgs) (factor : Factor) :
    Except PlotErr (FERes × List ProbPanel × (Plot × Option Curve)) := do
  let res ← FitPlots.lift (fitEverything A x)
  let inp ← FitPlots.lift (fittersCheck "Everything" x.failures x.right_censored x.method x.optimizer (.float 0.95) .none none none .none)
  let m := optArg (feMethod inp.method)
  let o := optArg inp.optimizer
  let ps ← allPlots A inp.failures inp.right_censored m o factor res
  let b ← bestPlot A inp.failures inp.right_censored m o factor res
  pure (res, ps, b)

end Reliability.FitProbPlots
