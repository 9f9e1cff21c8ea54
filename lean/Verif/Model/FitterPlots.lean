import Verif.Model.FitProbPlots
import Verif.Model.FitGrouped

/-!
# Model of `show_probability_plot=True` in the classes of Fitters.py

The points, the line and the limits.  Labels, legends, titles and the confidence band are left out.  `failures` and `right_censored` are
those of the input check; the model makes the check again instead of keeping its result.
-/

namespace Reliability.FitterPlots

open Reliability Reliability.Utils Reliability.InputCheck Reliability.FitGlue Reliability.FitSpecial Reliability.ProbPaper
open Reliability.FitEverythingFull Reliability.FitProbPlots
open Reliability.FunctionCI (Two Expo)
open Reliability.Fitters (Dist)

/-- The arguments of the classes that take fewer of them. -/
def special (x : Args) : SArgs := { right_censored := x.right_censored, CI := x.CI, optimizer := x.optimizer }

/-- A call of the class of that name with all its arguments (as `FitEverythingFull.individual`, which leaves most of them at their
defaults). -/
noncomputable def fitWith (A : Answers) (d : Dist) (x : Args) : Except Err Outcome :=
  match d with
  | .Weibull_2P => (fitWeibull2P A.argsort A.J A.w2 x).map ofTwo
  | .Weibull_3P => (fitWeibull3P A.argsort A.J A.w3 A.w2 x).map ofTwo
  | .Gamma_2P => (fitGamma2P A.argsort A.J A.ga2 x).map ofTwo
  | .Gamma_3P => (fitGamma3P A.argsort A.J A.ga3 A.ga2 x).map ofTwo
  | .Lognormal_2P => (fitLognormal2P A.argsort A.J A.l2 x).map ofTwo
  | .Lognormal_3P => (fitLognormal3P A.argsort A.J A.l3 A.l2 x).map ofTwo
  | .Exponential_1P => (fitExponential1P A.argsort A.J A.e1 x).map ofExpo
  | .Exponential_2P => (fitExponential2P A.argsort A.J A.e2 x).map ofExpo
  | .Normal_2P => (fitNormal2P A.argsort A.J A.n2 x).map ofTwo
  | .Gumbel_2P => (fitGumbel2P A.argsort A.J A.gu2 x).map ofTwo
  | .Loglogistic_2P => (fitLoglogistic2P A.argsort A.J A.lo2 x).map ofTwo
  | .Loglogistic_3P => (fitLoglogistic3P A.argsort A.J A.lo3 A.lo2 x).map ofTwo
  | .Beta_2P => (fitBeta2P A.argsort A.be2 x).map ofBeta
  | .Weibull_Mixture => (fitMixture A.argsort A.J A.kde A.wPart A.mix x.failures (special x)).map (ofSpecial fun p => .mixture p.1 p.2)
  | .Weibull_CR => (fitCR A.argsort A.J A.kde A.wPart A.cr x.failures (special x)).map (ofSpecial .competing)
  | .Weibull_DS => (fitDS A.argsort A.J A.wPart A.ds x.failures (special x)).map (ofSpecial .dszi)

/-- `rc` (e.g. Fitters.py:2329-2332): `None` when there are no censored data. -/
def rcArg (rc : List ℝ) : DataArg ℝ := if rc.length = 0 then .none else .array rc

/-- The options handed on (e.g. Fitters.py:2333-2341). -/
noncomputable def opts (inp : Checked ℝ) (factor : Factor) : Opts :=
  { CI := inp.CI, CI_type := optArg inp.CI_type, downsample := factor }

/-- The input check of the class (e.g. Fitters.py:2067-2080) is made again. -/
noncomputable def checked (name : String) (x : Args) (force_beta force_sigma : Option ℝ) (CI_type : StrArg) : Except Err (Checked ℝ) :=
  fittersCheck name x.failures x.right_censored x.method x.optimizer x.CI x.quantiles force_beta force_sigma CI_type

/-- The same for Weibull_Mixture, Weibull_CR and Weibull_DS (e.g. Fitters.py:4933-4943). -/
noncomputable def checkedSpecial (name : String) (x : Args) : Except Err (Checked ℝ) :=
  fittersCheck name x.failures x.right_censored .none x.optimizer x.CI .none none none .none

/-- `Weibull_probability_plot` without its line, and the CDF of the fitted model over `xvals` (Fitters.py:3933-3981, 4381-4415,
5094-5129). -/
noncomputable def scatterAndCurve (A : Answers) (inp : Checked ℝ) (factor : Factor) (D : AnyDist) : Except Err (Plot × Option Curve) := do
  let p ← weibullPlot A.argsort (wf2 A) (wf3 A) (.array inp.failures) (rcArg inp.right_censored) none
    { show_fit := false, downsample := factor }
  let ys ← D.cdf (curveGrid inp.failures)
  pure (p, some ⟨curveGrid inp.failures, ys⟩)

/-- `Fit_Weibull_2P(..., show_probability_plot=True)` (Fitters.py:2326-2342). -/
noncomputable def plotWeibull_2P (A : Answers) (x : Args) (factor : Factor) : Except Err (Outcome × Plot × Option Curve) := do
  let r ← fitWeibull2P A.argsort A.J A.w2 x
  let inp ← checked "Weibull_2P" x x.force none x.CI_type
  let p ← alone (weibullPlot A.argsort (wf2 A) (wf3 A) (.array inp.failures)
    (rcArg inp.right_censored) (some r.dist) (opts inp factor))
  pure (ofTwo r, p)

/-- `Fit_Weibull_3P(..., show_probability_plot=True)` (Fitters.py:3432-3456). -/
noncomputable def plotWeibull_3P (A : Answers) (x : Args) (factor : Factor) : Except Err (Outcome × Plot × Option Curve) := do
  let r ← fitWeibull3P A.argsort A.J A.w3 A.w2 x
  let inp ← checked "Weibull_3P" x none none x.CI_type
  let p ← alone (weibullPlot A.argsort (wf2 A) (wf3 A) (.array inp.failures)
    (rcArg inp.right_censored) (some r.dist) (opts inp factor))
  pure (ofTwo r, p)

/-- `Fit_Exponential_1P(..., show_probability_plot=True)` (Fitters.py:5810-5827). -/
noncomputable def plotExponential_1P (A : Answers) (x : Args) (factor : Factor) : Except Err (Outcome × Plot × Option Curve) := do
  let r ← fitExponential1P A.argsort A.J A.e1 x
  let inp ← checked "Exponential_1P" x none none .none
  let p ← alone (exponentialPlot true A.argsort (fitExponential1P A.argsort A.J A.e1) (fitExponential2P A.argsort A.J A.e2) (.array inp.failures)
    (rcArg inp.right_censored) (some r.dist) (opts inp factor))
  pure (ofExpo r, p)

/-- `Fit_Exponential_2P(..., show_probability_plot=True)` (Fitters.py:6202-6219). -/
noncomputable def plotExponential_2P (A : Answers) (x : Args) (factor : Factor) : Except Err (Outcome × Plot × Option Curve) := do
  let r ← fitExponential2P A.argsort A.J A.e2 x
  let inp ← checked "Exponential_2P" x none none .none
  let p ← alone (exponentialPlot true A.argsort (fitExponential1P A.argsort A.J A.e1) (fitExponential2P A.argsort A.J A.e2) (.array inp.failures)
    (rcArg inp.right_censored) (some r.dist) (opts inp factor))
  pure (ofExpo r, p)

/-- `Fit_Normal_2P(..., show_probability_plot=True)` (Fitters.py:6637-6653). -/
noncomputable def plotNormal_2P (A : Answers) (x : Args) (factor : Factor) : Except Err (Outcome × Plot × Option Curve) := do
  let r ← fitNormal2P A.argsort A.J A.n2 x
  let inp ← checked "Normal_2P" x none x.force x.CI_type
  let p ← alone (plainPlot .normal A.argsort (fitNormal2P A.argsort A.J A.n2) (.array inp.failures)
    (rcArg inp.right_censored) (some r.dist) (opts inp factor))
  pure (ofTwo r, p)

/-- `Fit_Gumbel_2P(..., show_probability_plot=True)` (Fitters.py:7013-7029). -/
noncomputable def plotGumbel_2P (A : Answers) (x : Args) (factor : Factor) : Except Err (Outcome × Plot × Option Curve) := do
  let r ← fitGumbel2P A.argsort A.J A.gu2 x
  let inp ← checked "Gumbel_2P" x none none x.CI_type
  let p ← alone (plainPlot .gumbel A.argsort (fitGumbel2P A.argsort A.J A.gu2) (.array inp.failures)
    (rcArg inp.right_censored) (some r.dist) (opts inp factor))
  pure (ofTwo r, p)

/-- `Fit_Lognormal_2P(..., show_probability_plot=True)` (Fitters.py:7432-7448). -/
noncomputable def plotLognormal_2P (A : Answers) (x : Args) (factor : Factor) : Except Err (Outcome × Plot × Option Curve) := do
  let r ← fitLognormal2P A.argsort A.J A.l2 x
  let inp ← checked "Lognormal_2P" x none x.force x.CI_type
  let p ← alone (lognormalPlot A.argsort (fitLognormal2P A.argsort A.J A.l2) (fitLognormal3P A.argsort A.J A.l3 A.l2) (.array inp.failures)
    (rcArg inp.right_censored) (some r.dist) (opts inp factor))
  pure (ofTwo r, p)

/-- `Fit_Lognormal_3P(..., show_probability_plot=True)` (Fitters.py:7872-7896). -/
noncomputable def plotLognormal_3P (A : Answers) (x : Args) (factor : Factor) : Except Err (Outcome × Plot × Option Curve) := do
  let r ← fitLognormal3P A.argsort A.J A.l3 A.l2 x
  let inp ← checked "Lognormal_3P" x none none x.CI_type
  let p ← alone (lognormalPlot A.argsort (fitLognormal2P A.argsort A.J A.l2) (fitLognormal3P A.argsort A.J A.l3 A.l2) (.array inp.failures)
    (rcArg inp.right_censored) (some r.dist) (opts inp factor))
  pure (ofTwo r, p)

/-- `Fit_Gamma_2P(..., show_probability_plot=True)` (Fitters.py:8290-8306). -/
noncomputable def plotGamma_2P (A : Answers) (x : Args) (factor : Factor) : Except Err (Outcome × Plot × Option Curve) := do
  let r ← fitGamma2P A.argsort A.J A.ga2 x
  let inp ← checked "Gamma_2P" x none none x.CI_type
  let p ← alone (gammaPlot A.argsort (fitGamma2P A.argsort A.J A.ga2) (fitGamma3P A.argsort A.J A.ga3 A.ga2) (.array inp.failures)
    (rcArg inp.right_censored) (some r.dist) (opts inp factor))
  pure (ofTwo r, p)

/-- `Fit_Gamma_3P(..., show_probability_plot=True)` (Fitters.py:8786-8810). -/
noncomputable def plotGamma_3P (A : Answers) (x : Args) (factor : Factor) : Except Err (Outcome × Plot × Option Curve) := do
  let r ← fitGamma3P A.argsort A.J A.ga3 A.ga2 x
  let inp ← checked "Gamma_3P" x none none x.CI_type
  let p ← alone (gammaPlot A.argsort (fitGamma2P A.argsort A.J A.ga2) (fitGamma3P A.argsort A.J A.ga3 A.ga2) (.array inp.failures)
    (rcArg inp.right_censored) (some r.dist) (opts inp factor))
  pure (ofTwo r, p)

/-- `Fit_Beta_2P(..., show_probability_plot=True)` (Fitters.py:9159-9173). -/
noncomputable def plotBeta_2P (A : Answers) (x : Args) (factor : Factor) : Except Err (Outcome × Plot × Option Curve) := do
  let r ← fitBeta2P A.argsort A.be2 x
  let inp ← checked "Beta_2P" x none none .none
  let p ← alone (betaPlot A.argsort (fitBeta2P A.argsort A.be2) (.array inp.failures)
    (rcArg inp.right_censored) (some (pointAt r.rows 0, pointAt r.rows 1)) { downsample := factor })
  pure (ofBeta r, p)

/-- `Fit_Loglogistic_2P(..., show_probability_plot=True)` (Fitters.py:9519-9535). -/
noncomputable def plotLoglogistic_2P (A : Answers) (x : Args) (factor : Factor) : Except Err (Outcome × Plot × Option Curve) := do
  let r ← fitLoglogistic2P A.argsort A.J A.lo2 x
  let inp ← checked "Loglogistic_2P" x none none x.CI_type
  let p ← alone (loglogisticPlot A.argsort (fitLoglogistic2P A.argsort A.J A.lo2) (fitLoglogistic3P A.argsort A.J A.lo3 A.lo2) (.array inp.failures)
    (rcArg inp.right_censored) (some r.dist) (opts inp factor))
  pure (ofTwo r, p)

/-- `Fit_Loglogistic_3P(..., show_probability_plot=True)` (Fitters.py:9948-9972). -/
noncomputable def plotLoglogistic_3P (A : Answers) (x : Args) (factor : Factor) : Except Err (Outcome × Plot × Option Curve) := do
  let r ← fitLoglogistic3P A.argsort A.J A.lo3 A.lo2 x
  let inp ← checked "Loglogistic_3P" x none none x.CI_type
  let p ← alone (loglogisticPlot A.argsort (fitLoglogistic2P A.argsort A.J A.lo2) (fitLoglogistic3P A.argsort A.J A.lo3 A.lo2) (.array inp.failures)
    (rcArg inp.right_censored) (some r.dist) (opts inp factor))
  pure (ofTwo r, p)

/-- `Fit_Weibull_Mixture(..., show_probability_plot=True)` (Fitters.py:3933-3981). -/
noncomputable def plotWeibull_Mixture (A : Answers) (x : Args) (factor : Factor) : Except Err (Outcome × Plot × Option Curve) := do
  let r ← fitMixture A.argsort A.J A.kde A.wPart A.mix x.failures (special x)
  let inp ← checkedSpecial "Weibull_Mixture" x
  let p ← scatterAndCurve A inp factor (.mixture r.dist.1 r.dist.2)
  pure (ofSpecial (fun p => .mixture p.1 p.2) r, p)

/-- `Fit_Weibull_CR(..., show_probability_plot=True)` (Fitters.py:4381-4415). -/
noncomputable def plotWeibull_CR (A : Answers) (x : Args) (factor : Factor) : Except Err (Outcome × Plot × Option Curve) := do
  let r ← fitCR A.argsort A.J A.kde A.wPart A.cr x.failures (special x)
  let inp ← checkedSpecial "Weibull_CR" x
  let p ← scatterAndCurve A inp factor (.competing r.dist)
  pure (ofSpecial .competing r, p)

/-- `Fit_Weibull_DS(..., show_probability_plot=True)` (Fitters.py:5094-5129). -/
noncomputable def plotWeibull_DS (A : Answers) (x : Args) (factor : Factor) : Except Err (Outcome × Plot × Option Curve) := do
  let r ← fitDS A.argsort A.J A.wPart A.ds x.failures (special x)
  let inp ← checkedSpecial "Weibull_DS" x
  let p ← scatterAndCurve A inp factor (.dszi r.dist)
  pure (ofSpecial .dszi r, p)

/-- The class of that name with its plot. -/
noncomputable def fitterPlot (A : Answers) : Dist → Args → Factor → Except Err (Outcome × Plot × Option Curve)
  | .Weibull_2P => plotWeibull_2P A
  | .Weibull_3P => plotWeibull_3P A
  | .Exponential_1P => plotExponential_1P A
  | .Exponential_2P => plotExponential_2P A
  | .Normal_2P => plotNormal_2P A
  | .Gumbel_2P => plotGumbel_2P A
  | .Lognormal_2P => plotLognormal_2P A
  | .Lognormal_3P => plotLognormal_3P A
  | .Gamma_2P => plotGamma_2P A
  | .Gamma_3P => plotGamma_3P A
  | .Beta_2P => plotBeta_2P A
  | .Loglogistic_2P => plotLoglogistic_2P A
  | .Loglogistic_3P => plotLoglogistic_3P A
  | .Weibull_Mixture => plotWeibull_Mixture A
  | .Weibull_CR => plotWeibull_CR A
  | .Weibull_DS => plotWeibull_DS A

/-- `Fit_Weibull_2P_grouped(..., show_probability_plot=True)` (Fitters.py:2997-3013); `failures` and `right_censored` are the times of the
dataframe repeated by their quantities. -/
noncomputable def plotWeibull_2P_grouped (A : Answers) (df : FitGrouped.Frame) (x : FitGrouped.GArgs) (factor : Factor) :
    Except Err (FitRes Two × Plot) := do
  let r ← FitGrouped.fitWeibull2PGrouped A.argsort A.J A.w2 df x
  let d ← FitGrouped.groupedData df
  let f ← FitGrouped.npRepeat d.1
  let rc ← FitGrouped.npRepeat d.2
  let inp ← fittersCheck "Weibull_2P" (.array f) (.array rc) x.method x.optimizer x.CI x.quantiles x.force_beta none x.CI_type
  let p ← weibullPlot A.argsort (wf2 A) (wf3 A) (.array inp.failures) (rcArg inp.right_censored) (some r.dist) (opts inp factor)
  pure (r, p)

/-- The plot of `Fit_Weibull_ZI` and `Fit_Weibull_DSZI` (Fitters.py:4751-4804, 5421-5463): the axes are those of a Weibull plot of the failures
without the zeros, on which nothing is drawn; then all the failures are drawn by `plot_points` and the CDF of the fitted model over the
failures without the zeros.  The limits stay those of the Weibull plot: neither function sets them on these axes. -/
noncomputable def zeroPlot (A : Answers) (failures : List ℝ) (inp : Checked ℝ) (factor : Factor) (m : Combined.DSZI) :
    Except Err (Plot × Curve) := do
  let p ← weibullPlot A.argsort (wf2 A) (wf3 A) (.array inp.failures) (rcArg inp.right_censored) none
    { show_fit := false, show_scatter := false }
  let xy ← PP.plottingPositions A.argsort failures (some inp.right_censored) none false
  let sc ← xyDownsample xy.1 xy.2 factor 1000
  let ys ← (AnyDist.dszi m).cdf (curveGrid inp.failures)
  pure ({ p with scatter := some sc }, ⟨curveGrid inp.failures, ys⟩)

/-- `Fit_Weibull_ZI(..., show_probability_plot=True)` (Fitters.py:5236-5463). -/
noncomputable def plotWeibull_ZI (A : Answers) (minimize : Minimizer (Fin 3 → ℝ)) (failures : List ℝ) (x : SArgs) (factor : Factor) :
    Except Err (SRes Combined.DSZI × Plot × Curve) := do
  let r ← fitZI A.argsort A.J A.wPart minimize failures x
  let inp ← fittersCheck "Weibull_ZI" (.array (failures.filter fun t => decide (t ≠ 0))) x.right_censored .none x.optimizer x.CI .none none
    none .none
  let p ← zeroPlot A failures inp factor r.dist
  pure (r, p)

/-- `Fit_Weibull_DSZI(..., show_probability_plot=True)` (Fitters.py:4540-4804). -/
noncomputable def plotWeibull_DSZI (A : Answers) (minimize : Minimizer (Fin 4 → ℝ)) (failures : List ℝ) (x : SArgs) (factor : Factor) :
    Except Err (SRes Combined.DSZI × Plot × Curve) := do
  let r ← fitDSZI A.argsort A.J A.wPart minimize failures x
  let inp ← fittersCheck "Weibull_DSZI" (.array (failures.filter fun t => decide (t ≠ 0))) x.right_censored .none x.optimizer x.CI .none none
    none .none
  let p ← zeroPlot A failures inp factor r.dist
  pure (r, p)

end Reliability.FitterPlots
