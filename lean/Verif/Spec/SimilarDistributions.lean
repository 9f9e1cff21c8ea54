import Verif.Model.SimilarDistributions

/-! # Specification for `similar_distributions` (C98) -/

namespace Reliability.Spec

open Reliability.Fitters Reliability.Fitters.Dist Reliability.Similar

/-- The samples the distributions are fitted to: 698 quantiles from 0.001 to 0.999, the positive ones. -/
noncomputable def samples (quantile : ℝ → ℝ) : List ℝ :=
  ((Np.linspace (1 / 1000) (999 / 1000) 698).map quantile).filter fun x => decide (0 < x)

/-- Which distribution (number of parameters included) an object is: its `name2`. -/
noncomputable def kindOf : DistObj → Dist
  | .weibull _ _ g => if g = 0 then Weibull_2P else Weibull_3P
  | .normal _ _ => Normal_2P
  | .lognormal _ _ g => if g = 0 then Lognormal_2P else Lognormal_3P
  | .exponential _ g => if g = 0 then Exponential_1P else Exponential_2P
  | .gamma _ _ g => if g = 0 then Gamma_2P else Gamma_3P
  | .beta _ _ => Beta_2P
  | .loglogistic _ _ g => if g = 0 then Loglogistic_2P else Loglogistic_3P
  | .gumbel _ _ => Gumbel_2P

/-- The parameters of an object. -/
noncomputable def paramsOf : DistObj → List ℝ
  | .weibull a b g => if g = 0 then [a, b] else [a, b, g]
  | .normal m s => [m, s]
  | .lognormal m s g => if g = 0 then [m, s] else [m, s, g]
  | .exponential l g => if g = 0 then [l] else [l, g]
  | .gamma a b g => if g = 0 then [a, b] else [a, b, g]
  | .beta a b => [a, b]
  | .loglogistic a b g => if g = 0 then [a, b] else [a, b, g]
  | .gumbel m s => [m, s]

/-- The parameters found by the fitter of a distribution. -/
def fittedParams (f : Fitted) : Dist → List ℝ
  | .Exponential_1P => [f.p1]
  | .Exponential_2P => [f.p1, f.g]
  | .Weibull_3P | .Gamma_3P | .Lognormal_3P | .Loglogistic_3P => [f.p1, f.p2, f.g]
  | _ => [f.p1, f.p2]

/-- The location-shifted distributions. -/
def shiftedKinds : List Dist := [Weibull_3P, Gamma_3P, Lognormal_3P, Exponential_2P, Loglogistic_3P]

end Reliability.Spec
