import Verif.Spec.FunctionCI
import Verif.Model.LinReg

/-!
# Specification of rank regression (uses the model only for its data types, the distribution functions of C33–C35
and the plotting positions of C08–C11)
-/

namespace Reliability.Spec

open Reliability.Distributions Reliability.FunctionCI Reliability.LinReg

/-- The name under which `least_squares` fits each distribution with two parameters. -/
def fitterName : CFam → String
  | .weibull => "Weibull_2P"
  | .gamma => "Gamma_2P"
  | .normal => "Normal_2P"
  | .lognormal => "Lognormal_2P"
  | .loglogistic => "Loglogistic_2P"
  | .gumbel => "Gumbel_2P"

/-- The vertical scale of the probability paper of each distribution, as a function of the CDF. -/
noncomputable def paperScale (f : CFam) (p : ℝ) : ℝ :=
  match f with
  | .normal => normStd.ppf p
  | .lognormal => normStd.ppf p
  | .loglogistic => Real.log (p / (1 - p))
  | _ => Real.log (-Real.log (1 - p))

/-- The sum of squared residuals on probability paper of the points `(xs, ps)` about the distribution with parameters
`a`, `b`: in the vertical direction (RRY) between the plotted probability and the CDF at the plotted time, in the
horizontal direction (RRX) between the plotted time and the quantile at the plotted probability. -/
noncomputable def paperResidual (side : Side) (f : CFam) (a b : ℝ) (xs ps : List ℝ) : ℝ :=
  match side with
  | .RRY => (List.zipWith (fun x p => (paperScale f p - paperScale f ((distOf f a b 0).sp.cdf x)) ^ 2) xs ps).sum
  | _ => (List.zipWith (fun x p => (timeScale f 0 x - timeScale f 0 ((distOf f a b 0).sp.ppf p)) ^ 2) xs ps).sum

/-- The same for the Exponential distribution with rate `L`, whose paper has the cumulative hazard as vertical scale. -/
noncomputable def expoResidual (side : Side) (L : ℝ) (xs ps : List ℝ) : ℝ :=
  match side with
  | .RRY => (List.zipWith (fun x p => (-Real.log (1 - p) - -Real.log (1 - (exponential L 0).sp.cdf x)) ^ 2) xs ps).sum
  | _ => (List.zipWith (fun x p => (x - (exponential L 0).sp.ppf p) ^ 2) xs ps).sum

end Reliability.Spec

namespace Reliability.Spec

open Reliability.Distributions Reliability.FunctionCI

/-- The order in which a sort puts its keys depends only on comparisons between them: it is the same after an increasing
change of the keys. -/
def ComparisonSort (argsort : List ℝ → List Nat) : Prop :=
  ∀ (g : ℝ → ℝ), StrictMono g → ∀ keys, argsort (keys.map g) = argsort keys

/-- The parameters after the change of the time scale `t ↦ k t + s` (`s = 0` unless the support is the real line). -/
noncomputable def inUnits (f : CFam) (k s a b : ℝ) : ℝ × ℝ :=
  match f with
  | .weibull => (k * a, b)
  | .loglogistic => (k * a, b)
  | .gamma => (a + Real.log k, b)
  | .lognormal => (a + Real.log k, b)
  | .normal => (k * a + s, k * b)
  | .gumbel => (k * a + s, k * b)

end Reliability.Spec
