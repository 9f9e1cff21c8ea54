import Verif.Model.FitterPlots
import Verif.Model.CIPlot
import Verif.Model.DistInputs

/-! # Model of the confidence bands on the probability plots of the fitter classes -/

namespace Reliability.ProbBand

open Reliability Reliability.InputCheck Reliability.FitGlue Reliability.FitEverythingFull Reliability.FitterPlots Reliability.CIPlot
open Reliability.FunctionCI (Jac Fitted Two Expo zOf)
open Reliability.Fitters (Dist)

/-- The distribution object a probability plot makes: the parameters, standard errors and covariance of the fit without its location, and
Z from `CI` (Probability_plotting.py:359-367 Weibull, 585-593 Loglogistic, 809 and 1957 Exponential, 969-977 Gumbel, 1132-1140 Normal,
1353-1361 Lognormal, 1746-1756 Gamma; `self.Z`: Distributions.py:177-181). -/
noncomputable def plotted (CI : ℝ) : Fitted → Fitted
  | .two d => .two { d with gamma := 0, Z := some (.fin (zOf CI)) }
  | .expo d => .expo { d with gamma := 0, Z := some (.fin (zOf CI)) }

/-- `self.name`. -/
def nameOf : Fitted → String
  | .expo _ => "Exponential"
  | .two d =>
    match d.fam with
    | .weibull => "Weibull"
    | .gamma => "Gamma"
    | .normal => "Normal"
    | .lognormal => "Lognormal"
    | .loglogistic => "Loglogistic"
    | .gumbel => "Gumbel"

/-- The band that `CDF(label=label, **kwargs)` of that object draws (Probability_plotting.py:386, 616, 829, 995, 1159, 1381, 1774, 1978;
the y scale is already the function scale). `CI` and `CI_type` are not given to CDF, so they come from the object (Utils.py:7165-7213). -/
noncomputable def plotBand (J : Jac) (d : Fitted) (CI : ℝ) (CI_type : Option String) : Except Err (Option Band) := do
  let self : FunctionCI.SelfAttr := ⟨nameOf d, some (zOf CI), CI_type⟩
  let level ← FunctionCI.ciLevel self none
  plotCI J true (plotted CI d) .CDF true (FunctionCI.ciType self none) level 0

/-- `self.distribution` of `Fit_Weibull_2P(...)` with the checked arguments (Fitters.py:2326-2342). -/
noncomputable def objectWeibull_2P (A : Answers) (x : Args) : Except Err (Fitted × Checked ℝ) := do
  let r ← fitWeibull2P A.argsort A.J A.w2 x
  let inp ← checked "Weibull_2P" x x.force none x.CI_type
  pure (.two r.dist, inp)

/-- `self.distribution` of `Fit_Weibull_3P(...)` with the checked arguments (Fitters.py:3432-3456). -/
noncomputable def objectWeibull_3P (A : Answers) (x : Args) : Except Err (Fitted × Checked ℝ) := do
  let r ← fitWeibull3P A.argsort A.J A.w3 A.w2 x
  let inp ← checked "Weibull_3P" x none none x.CI_type
  pure (.two r.dist, inp)

/-- `self.distribution` of `Fit_Gamma_2P(...)` with the checked arguments (Fitters.py:8290-8306). -/
noncomputable def objectGamma_2P (A : Answers) (x : Args) : Except Err (Fitted × Checked ℝ) := do
  let r ← fitGamma2P A.argsort A.J A.ga2 x
  let inp ← checked "Gamma_2P" x none none x.CI_type
  pure (.two r.dist, inp)

/-- `self.distribution` of `Fit_Gamma_3P(...)` with the checked arguments (Fitters.py:8786-8802). -/
noncomputable def objectGamma_3P (A : Answers) (x : Args) : Except Err (Fitted × Checked ℝ) := do
  let r ← fitGamma3P A.argsort A.J A.ga3 A.ga2 x
  let inp ← checked "Gamma_3P" x none none x.CI_type
  pure (.two r.dist, inp)

/-- `self.distribution` of `Fit_Lognormal_2P(...)` with the checked arguments (Fitters.py:7432-7448). -/
noncomputable def objectLognormal_2P (A : Answers) (x : Args) : Except Err (Fitted × Checked ℝ) := do
  let r ← fitLognormal2P A.argsort A.J A.l2 x
  let inp ← checked "Lognormal_2P" x none x.force x.CI_type
  pure (.two r.dist, inp)

/-- `self.distribution` of `Fit_Lognormal_3P(...)` with the checked arguments (Fitters.py:7872-7888). -/
noncomputable def objectLognormal_3P (A : Answers) (x : Args) : Except Err (Fitted × Checked ℝ) := do
  let r ← fitLognormal3P A.argsort A.J A.l3 A.l2 x
  let inp ← checked "Lognormal_3P" x none none x.CI_type
  pure (.two r.dist, inp)

/-- `self.distribution` of `Fit_Exponential_1P(...)` with the checked arguments (Fitters.py:5810-5827). -/
noncomputable def objectExponential_1P (A : Answers) (x : Args) : Except Err (Fitted × Checked ℝ) := do
  let r ← fitExponential1P A.argsort A.J A.e1 x
  let inp ← checked "Exponential_1P" x none none .none
  pure (.expo r.dist, inp)

/-- `self.distribution` of `Fit_Exponential_2P(...)` with the checked arguments (Fitters.py:6202-6219). -/
noncomputable def objectExponential_2P (A : Answers) (x : Args) : Except Err (Fitted × Checked ℝ) := do
  let r ← fitExponential2P A.argsort A.J A.e2 x
  let inp ← checked "Exponential_2P" x none none .none
  pure (.expo r.dist, inp)

/-- `self.distribution` of `Fit_Normal_2P(...)` with the checked arguments (Fitters.py:6637-6653). -/
noncomputable def objectNormal_2P (A : Answers) (x : Args) : Except Err (Fitted × Checked ℝ) := do
  let r ← fitNormal2P A.argsort A.J A.n2 x
  let inp ← checked "Normal_2P" x none x.force x.CI_type
  pure (.two r.dist, inp)

/-- `self.distribution` of `Fit_Gumbel_2P(...)` with the checked arguments (Fitters.py:7013-7029). -/
noncomputable def objectGumbel_2P (A : Answers) (x : Args) : Except Err (Fitted × Checked ℝ) := do
  let r ← fitGumbel2P A.argsort A.J A.gu2 x
  let inp ← checked "Gumbel_2P" x none none x.CI_type
  pure (.two r.dist, inp)

/-- `self.distribution` of `Fit_Loglogistic_2P(...)` with the checked arguments (Fitters.py:9519-9535). -/
noncomputable def objectLoglogistic_2P (A : Answers) (x : Args) : Except Err (Fitted × Checked ℝ) := do
  let r ← fitLoglogistic2P A.argsort A.J A.lo2 x
  let inp ← checked "Loglogistic_2P" x none none x.CI_type
  pure (.two r.dist, inp)

/-- `self.distribution` of `Fit_Loglogistic_3P(...)` with the checked arguments (Fitters.py:9948-9964). -/
noncomputable def objectLoglogistic_3P (A : Answers) (x : Args) : Except Err (Fitted × Checked ℝ) := do
  let r ← fitLoglogistic3P A.argsort A.J A.lo3 A.lo2 x
  let inp ← checked "Loglogistic_3P" x none none x.CI_type
  pure (.two r.dist, inp)

/-- The classes whose probability plot has a band: all but Beta (no bounds are implemented), Mixture, CR and DS. -/
noncomputable def objectOf (A : Answers) : Dist → Args → Except Err (Option (Fitted × Checked ℝ))
  | .Weibull_2P, x => some <$> objectWeibull_2P A x
  | .Weibull_3P, x => some <$> objectWeibull_3P A x
  | .Gamma_2P, x => some <$> objectGamma_2P A x
  | .Gamma_3P, x => some <$> objectGamma_3P A x
  | .Lognormal_2P, x => some <$> objectLognormal_2P A x
  | .Lognormal_3P, x => some <$> objectLognormal_3P A x
  | .Exponential_1P, x => some <$> objectExponential_1P A x
  | .Exponential_2P, x => some <$> objectExponential_2P A x
  | .Normal_2P, x => some <$> objectNormal_2P A x
  | .Gumbel_2P, x => some <$> objectGumbel_2P A x
  | .Loglogistic_2P, x => some <$> objectLoglogistic_2P A x
  | .Loglogistic_3P, x => some <$> objectLoglogistic_3P A x
  | d, x => (fitWith A d x).map fun _ => none

/-- The band on the probability plot of the class: CI and CI_type are those of the fit (e.g. Fitters.py:2333-2341). -/
noncomputable def fitterBand (A : Answers) (d : Dist) (x : Args) : Except Err (Option Band) := do
  match ← objectOf A d x with
  | none => pure none
  | some (D, inp) => plotBand A.J D inp.CI inp.CI_type

end Reliability.ProbBand
