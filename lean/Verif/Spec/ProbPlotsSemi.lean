import Verif.Model.ProbPlots

/-!
# The survival estimates that the semiparametric plots use (independent of the plotting model)
-/

namespace Reliability.ProbPlots.Spec

open Reliability

/-- The estimates in the rows of the results table that belong to failures. -/
def atFailures (k : NP.Result ℝ) : List ℝ :=
  ((k.censor_codes.zip k.est).filter fun p => p.1).map fun p => p.2

/-- `S` lists, failure by failure in time order, the survival probabilities that `KaplanMeier`, `NelsonAalen` or
`RankAdjustment` (with the defaults CI = 0.95, plot_type = "SF") report for the data. -/
inductive SurvivalAtFailures (np : Numerics) (f : List ℝ) (rc : Option (List ℝ)) (a : Option ℝ) :
    String → List ℝ → Prop
  | KM (k : NP.Result ℝ)
      (h : NP.kaplanMeier np.argsort np.sqrt np.ppf (some f) rc (95 / 100) "SF" = .ok k) :
      SurvivalAtFailures np f rc a "KM" (atFailures k)
  | NA (k : NP.Result ℝ)
      (h : NP.nelsonAalen np.exp np.argsort np.sqrt np.ppf (some f) rc (95 / 100) "SF" = .ok k) :
      SurvivalAtFailures np f rc a "NA" (atFailures k)
  | RA (k : NP.Result ℝ)
      (h : NP.rankAdjustment np.argsort np.sqrt np.ppf (some f) rc a (95 / 100) "SF" = .ok k) :
      SurvivalAtFailures np f rc a "RA" (atFailures k)

/-- The QQ plot pairs failure `i` with the theoretical time at which the distribution has the failure probability
estimated for that failure: `F_Y(y_i) = 1 - S_i`. -/
def PairsCorrectly (Y : Distributions.Dist) (S y : List ℝ) : Prop :=
  ∀ (i : ℕ) (s v : ℝ), S[i]? = some s → y[i]? = some v → Y.sp.cdf v = 1 - s

end Reliability.ProbPlots.Spec
