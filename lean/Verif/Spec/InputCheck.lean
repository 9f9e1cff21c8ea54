import Mathlib.Data.Finset.Card
import Mathlib.Data.Finset.Dedup
import Mathlib.Data.List.Lattice
import Verif.Model.InputCheck

/-!
# Specification of the fitters' input checks (C51), written from the documentation of the fitters
-/

namespace Reliability.Spec.InputCheck

open Reliability.InputCheck

variable {K : Type _} [Field K] [LinearOrder K]

/-- The number of distinct failure times a model needs: its number of parameters (5 and 4 parameter Weibull
mixtures need 4), one fewer for the two-parameter models when one parameter is forced. -/
def required (dist : String) (forced : Bool) : Nat :=
  if dist = "Exponential_1P" then 1
  else if dist = "Weibull_Mixture" ∨ dist = "Weibull_CR" then 4
  else if dist = "Weibull_3P" ∨ dist = "Gamma_3P" ∨ dist = "Lognormal_3P" ∨ dist = "Loglogistic_3P" then 3
  else if forced then 1 else 2

/-- Distributions on the whole real line. -/
def RealLine (dist : String) : Prop := dist = "Normal_2P" ∨ dist = "Gumbel_2P"

instance (dist : String) : Decidable (RealLine dist) := by unfold RealLine; infer_instance

/-- Times that may be given. -/
def Allowed (dist : String) (x : K) : Prop := RealLine dist ∨ (0 ≤ x ∧ (dist = "Beta_2P" → x ≤ 1))

/-- Times the fit will use: inside the open support. -/
def Usable (dist : String) (x : K) : Prop := RealLine dist ∨ (0 < x ∧ (dist = "Beta_2P" → x < 1))

instance (dist : String) (x : K) : Decidable (Usable dist x) := by unfold Usable; infer_instance

/-- Accepted spellings (compared ignoring case) with the canonical name of each. -/
def optimizerNames : List (String × List String) :=
  [("TNC", ["TNC"]), ("powell", ["POWELL"]), ("L-BFGS-B", ["L-BFGS-B", "LBFGSB"]),
   ("nelder-mead", ["NELDER-MEAD", "NELDERMEAD", "NM"]), ("best", ["ALL", "BEST"])]

def methodNames : List (String × List String) :=
  [("RRX", ["RRX"]), ("RRY", ["RRY"]), ("LS", ["LS", "LEAST SQUARES", "LSQ", "NLRR", "NLLS"]),
   ("MLE", ["MLE", "ML", "MAXIMUM LIKELIHOOD ESTIMATION", "MAXIMUM LIKELIHOOD", "MAX LIKELIHOOD"])]

def ciTypeNames : List (String × List String) :=
  [("time", ["T", "TIME"]), ("reliability", ["R", "REL", "RELIABILITY"]), ("none", ["NONE", "OFF"])]

/-- `arg` stands for `out`: None for None, and a spelling for its canonical name. -/
def Means (names : List (String × List String)) (arg : StrArg) (out : Option String) : Prop :=
  (arg = .none ∧ out = none) ∨
  ∃ s canon sp, arg = .str s ∧ out = some canon ∧ (canon, sp) ∈ names ∧ Fitters.up s ∈ sp

/-- The documented default quantiles, in percent. -/
def standardPercents : List ℕ := [1, 5, 10, 20, 25, 50, 75, 80, 90, 95, 99]

/-- What the `quantiles` argument stands for. -/
def QMeans (arg out : QArg K) : Prop :=
  (arg = .none ∧ out = .none) ∨
  ((arg = .bool true ∨ arg = .str "auto" ∨ arg = .str "default" ∨ arg = .str "on") ∧
    out = .array (standardPercents.map fun k : ℕ => (k : K) / 100)) ∨
  (arg = .bool false ∧ out = .bool false) ∨
  (∃ s, s ≠ "auto" ∧ s ≠ "default" ∧ s ≠ "on" ∧ arg = .str s ∧ out = .str s) ∨
  (∃ l, l ≠ [] ∧ (∀ q ∈ l, 0 < q ∧ q < 1) ∧ arg = .array l ∧ out = .array l)

/-- The documented requirements, and what the checked input looks like. -/
structure Accepts (dist : String) (failures right_censored : DataArg K) (method optimizer : StrArg) (CI : CIArg K)
    (quantiles : QArg K) (force_beta force_sigma : Option K) (CI_type : StrArg) (r : Checked K) : Prop where
  dist_known : dist ∈ ["Everything", "Weibull_2P", "Weibull_3P", "Gamma_2P", "Gamma_3P", "Exponential_1P",
    "Exponential_2P", "Gumbel_2P", "Normal_2P", "Lognormal_2P", "Lognormal_3P", "Loglogistic_2P", "Loglogistic_3P",
    "Beta_2P", "Weibull_Mixture", "Weibull_CR", "Weibull_DSZI", "Weibull_DS", "Weibull_ZI"]
  data : ∃ F C, failures = .array F ∧ (right_censored = .none ∧ C = [] ∨ right_censored = .array C) ∧
    (∀ x ∈ F, Allowed dist x) ∧ (∀ x ∈ C, Allowed dist x) ∧
    r.failures = F.filter (fun x => decide (Usable dist x)) ∧
    r.right_censored = C.filter (fun x => decide (Usable dist x))
  ci : CI = .float r.CI ∧ 0 < r.CI ∧ r.CI < 1
  optimizer_ok : Means optimizerNames optimizer r.optimizer
  method_ok : Means methodNames method r.method
  quantiles_ok : QMeans quantiles r.quantiles
  beta_ok : r.force_beta = force_beta ∧ ∀ b, force_beta = some b → 0 < b
  sigma_ok : r.force_sigma = force_sigma ∧ ∀ b, force_sigma = some b → 0 < b
  enough : required dist (force_beta.isSome || force_sigma.isSome) ≤ r.failures.toFinset.card
  ci_type : Means ciTypeNames CI_type r.CI_type

end Reliability.Spec.InputCheck
