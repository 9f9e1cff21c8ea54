import Mathlib.MeasureTheory.Integral.IntervalIntegral.Basic
import Verif.Model.LikelihoodPlot
import Verif.Spec.Likelihood

/-! # Specification of likelihood contour plots (documentation of `likelihood_plot`) -/

namespace Reliability.Spec.LikelihoodPlot

open Reliability Reliability.Distributions Reliability.InputCheck
open Reliability.Fitters (up)

/-- `s` names the two-parameter family `D`, whose parameters are called `p` and `q` and whose times are those satisfying
`T`. -/
def Names (s : String) (D : ℝ → ℝ → Dist) (p q : String) (T : ℝ → Prop) : Prop :=
  (up s ∈ ["WEIBULL", "WEIBULL_2P", "WEIBULL2P"] ∧ D = (fun a b => weibull a b 0) ∧ p = "Alpha" ∧ q = "Beta" ∧
    T = fun t => 0 < t) ∨
  (up s ∈ ["GAMMA", "GAMMA_2P", "GAMMA2P"] ∧ D = (fun a b => gammaDist a b 0) ∧ p = "Alpha" ∧ q = "Beta" ∧
    T = fun t => 0 < t) ∨
  (up s ∈ ["LOGLOGISTIC", "LOGLOGISTIC_2P", "LOGLOGISTIC2P"] ∧ D = (fun a b => loglogistic a b 0) ∧ p = "Alpha" ∧
    q = "Beta" ∧ T = fun t => 0 < t) ∨
  (up s ∈ ["BETA", "BETA_2P", "BETA2P"] ∧ D = betaDist ∧ p = "Alpha" ∧ q = "Beta" ∧ T = fun t => 0 < t ∧ t < 1) ∨
  (up s ∈ ["NORMAL", "NORMAL_2P", "NORMAL2P"] ∧ D = normal ∧ p = "Mu" ∧ q = "Sigma" ∧ T = fun _ => True) ∨
  (up s ∈ ["LOGNORMAL", "LOGNORMAL_2P", "LOGNORMAL2P"] ∧ D = (fun m σ => lognormal m σ 0) ∧ p = "Mu" ∧ q = "Sigma" ∧
    T = fun t => 0 < t) ∨
  (up s ∈ ["GUMBEL", "GUMBEL_2P", "GUMBEL2P"] ∧ D = gumbel ∧ p = "Mu" ∧ q = "Sigma" ∧ T = fun _ => True)

/-- Legal parameters: positive, except for a location Mu. -/
def Legal (p : String) (v : ℝ × ℝ) : Prop := (p = "Alpha" → 0 < v.1) ∧ 0 < v.2

/-- The likelihood of the data under a distribution. -/
noncomputable def lik (d : Dist) (F C : List ℝ) : ℝ := Spec.likelihood d.sp.pdf d.sp.sf F C

/-- `ppf` are quantiles of the chi-squared distribution with two degrees of freedom (density exp(-t/2)/2). -/
def Chi2Two (c : Testing.Chi2) : Prop :=
  ∀ p, 0 < p → p < 1 → 0 ≤ c.ppf p 2 ∧ ∫ t in (0 : ℝ)..c.ppf p 2, Real.exp (-t / 2) / 2 = p

/-- The data given are the failures `F` and the censored times `C`. -/
def Given (failures right_censored : DataArg ℝ) (F C : List ℝ) : Prop :=
  failures = .array F ∧ (right_censored = .none ∧ C = [] ∨ right_censored = .array C)

end Reliability.Spec.LikelihoodPlot
