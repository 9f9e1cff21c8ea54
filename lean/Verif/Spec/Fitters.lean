import Verif.Model.Fitters

/-! # Specification of `Fit_Everything` (documentation of the class, Fitters.py:100-200). -/

namespace Reliability.Spec

open Reliability.Fitters Reliability.Fitters.Dist

/-- The spellings (upper-cased) by which the user may name each distribution. -/
def aliases : Dist → List String
  | Weibull_2P => ["WEIBULL_2P", "WEIBULL2P", "WEIBULL2"]
  | Weibull_3P => ["WEIBULL_3P", "WEIBULL3P", "WEIBULL3"]
  | Gamma_2P => ["GAMMA_2P", "GAMMA2P", "GAMMA2"]
  | Gamma_3P => ["GAMMA_3P", "GAMMA3P", "GAMMA3"]
  | Lognormal_2P => ["LOGNORMAL_2P", "LOGNORMAL2P", "LOGNORMAL2"]
  | Lognormal_3P => ["LOGNORMAL_3P", "LOGNORMAL3P", "LOGNORMAL3"]
  | Exponential_1P => ["EXPONENTIAL_1P", "EXPONENTIAL1P", "EXPONENTIAL1", "EXPON_1P", "EXPON1P", "EXPON1"]
  | Exponential_2P => ["EXPONENTIAL_2P", "EXPONENTIAL2P", "EXPONENTIAL2", "EXPON_2P", "EXPON2P", "EXPON2"]
  | Normal_2P => ["NORMAL_2P", "NORMAL2P", "NORMAL2"]
  | Gumbel_2P => ["GUMBEL_2P", "GUMBEL2P", "GUMBEL2"]
  | Loglogistic_2P => ["LOGLOGISTIC_2P", "LOGLOGISTIC2P", "LOGLOGISTIC2"]
  | Loglogistic_3P => ["LOGLOGISTIC_3P", "LOGLOGISTIC3P", "LOGLOGISTIC3"]
  | Beta_2P => ["BETA_2P", "BETA2P", "BETA2"]
  | Weibull_Mixture => ["WEIBULL MIXTURE", "WEIBULLMIXTURE", "WEIBULL_MIXTURE", "MIXTURE", "WEIBULLMIX",
      "WEIBULL_MIX", "MIX"]
  | Weibull_CR => ["WEIBULL CR", "WEIBULLCR", "WEIBULL_CR", "WEIBULL_COMPETING_RISKS", "WEIBULL_COMPETINGRISKS",
      "WEIBULLCOMPETINGRISKS", "WEIBULL COMPETING RISKS", "WEIBULL COMPETINGRISKS", "COMPETINGRISKS",
      "COMPETING RISKS", "CR"]
  | Weibull_DS => ["WEIBULLDS", "WEIBULL_DS", "WEIBULL DS", "WEIBULL_DEFECTIVE_SUBPOPULATION",
      "WEIBULL_DEFECTIVESUBPOPULATION", "WEIBULLDEFECTIVESUBPOPULATION", "WEIBULL DEFECTIVE SUBPOPULATION",
      "DEFECTIVE SUBPOPULATION", "DEFECTIVESUBPOPULATION", "DS"]

/-- The items the user listed. -/
def listed : Exclude → List Item
  | .list l => l
  | .ndarray l => l
  | _ => []

/-- A distribution is to be left out when the user named it (upper/lower case ignored), when it needs at
least three failures and there are fewer, or when it is the Beta distribution and some datum is 1 or more. -/
def LeftOut (nf : Nat) (allData : List ℝ) (exclude : Exclude) (d : Dist) : Prop :=
  (∃ s, Item.str s ∈ listed exclude ∧ up s ∈ aliases d) ∨
  (nf < 3 ∧ d ∈ [Weibull_3P, Gamma_3P, Loglogistic_3P, Lognormal_3P, Weibull_Mixture, Weibull_CR]) ∨
  (d = Beta_2P ∧ ∃ x ∈ allData, 1 ≤ x)

/-- Which optimizers the `optimizer` argument asks for: all four for None and "best"/"all", else the one it names (in any
case, with or without the hyphens). -/
inductive Tries : Option String → List String → Prop
  | none : Tries .none ["TNC", "L-BFGS-B", "nelder-mead", "powell"]
  | best {s} (h : s ∈ ["best", "BEST", "all", "ALL"]) : Tries (some s) ["TNC", "L-BFGS-B", "nelder-mead", "powell"]
  | TNC {s} (h : up s = "TNC") : Tries (some s) ["TNC"]
  | LBFGSB {s} (h : up s = "L-BFGS-B" ∨ up s = "LBFGSB") : Tries (some s) ["L-BFGS-B"]
  | powell {s} (h : up s = "POWELL") : Tries (some s) ["powell"]
  | neldermead {s} (h : up s = "NELDER-MEAD" ∨ up s = "NELDERMEAD") : Tries (some s) ["nelder-mead"]

end Reliability.Spec
