import Verif.Model.Fitters
import Verif.Model.NumPy

/-!
# `similar_distributions` (Other_functions.py:383-820)
-/

namespace Reliability.Similar

open Reliability Reliability.Fitters Reliability.Fitters.Dist

/-- A distribution object: the class and its parameters. -/
inductive DistObj where
  | weibull (alpha beta gamma : ℝ)
  | normal (mu sigma : ℝ)
  | lognormal (mu sigma gamma : ℝ)
  | exponential (lambda gamma : ℝ)
  | gamma (alpha beta gamma : ℝ)
  | beta (alpha beta : ℝ)
  | loglogistic (alpha beta gamma : ℝ)
  | gumbel (mu sigma : ℝ)

/-- The parameters found by one of the fitters: (alpha, mu or lambda; beta or sigma; gamma), as far as they exist. -/
structure Fitted where
  p1 : ℝ
  p2 : ℝ
  g : ℝ

/-- The `number_of_distributions_to_show` argument: an int or anything else. -/
inductive NumArg where
  | int (n : Int)
  | other

/-- What is set on the object. -/
structure SimilarOut where
  results : List DistObj
  most_similar : DistObj

/-- Other_functions.py:518-756 — the object made for one row of the table of Fit_Everything; `none`: nothing is appended.
(The 3P rows do not occur if location-shifted distributions are excluded, and Mixture, CR, DS rows match no branch.) -/
noncomputable def objectOf (fitted : Dist → Fitted) (shifted : Bool) : Dist → Option DistObj
  | .Weibull_2P => some (.weibull (fitted .Weibull_2P).p1 (fitted .Weibull_2P).p2 0)
  | .Gamma_2P => some (.gamma (fitted .Gamma_2P).p1 (fitted .Gamma_2P).p2 0)
  | .Normal_2P => some (.normal (fitted .Normal_2P).p1 (fitted .Normal_2P).p2)
  | .Lognormal_2P => some (.lognormal (fitted .Lognormal_2P).p1 (fitted .Lognormal_2P).p2 0)
  | .Exponential_1P => some (.exponential (fitted .Exponential_1P).p1 0)
  | .Beta_2P => some (.beta (fitted .Beta_2P).p1 (fitted .Beta_2P).p2)
  | .Loglogistic_2P => some (.loglogistic (fitted .Loglogistic_2P).p1 (fitted .Loglogistic_2P).p2 0)
  | .Gumbel_2P => some (.gumbel (fitted .Gumbel_2P).p1 (fitted .Gumbel_2P).p2)
  | .Weibull_3P => if shifted = true ∧ (fitted .Weibull_3P).g ≠ 0 then
      some (.weibull (fitted .Weibull_3P).p1 (fitted .Weibull_3P).p2 (fitted .Weibull_3P).g) else none
  | .Gamma_3P => if shifted = true ∧ (fitted .Gamma_3P).g ≠ 0 then
      some (.gamma (fitted .Gamma_3P).p1 (fitted .Gamma_3P).p2 (fitted .Gamma_3P).g) else none
  | .Lognormal_3P => if shifted = true ∧ (fitted .Lognormal_3P).g ≠ 0 then
      some (.lognormal (fitted .Lognormal_3P).p1 (fitted .Lognormal_3P).p2 (fitted .Lognormal_3P).g) else none
  | .Exponential_2P => if shifted = true ∧ (fitted .Exponential_2P).g ≠ 0 then
      some (.exponential (fitted .Exponential_1P).p1 (fitted .Exponential_2P).g) else none
  | .Loglogistic_3P => if shifted = true ∧ (fitted .Loglogistic_3P).g ≠ 0 then
      some (.loglogistic (fitted .Loglogistic_3P).p1 (fitted .Loglogistic_3P).p2 (fitted .Loglogistic_3P).g) else none
  | .Weibull_Mixture => none
  | .Weibull_CR => none
  | .Weibull_DS => none

/-- Other_functions.py:485-494 — the names excluded. -/
def shiftedNames : List Item :=
  ["Weibull_3P", "Lognormal_3P", "Exponential_2P", "Gamma_3P", "Loglogistic_3P"].map Item.str

/-- Other_functions.py:439-760 — `similar_distributions(distribution, include_location_shifted, ...)`.  The input is described
by its `name2` (`none`: not one of the eight distribution classes) and its quantile function; `fit` is what the individual
fitters report for the samples, `fitted` their parameters.  Plots and printing are not modelled. -/
noncomputable def similarDistributions (argsort : List ℝ → List Nat) (fit : List ℝ → Dist → Row)
    (fitted : List ℝ → Dist → Fitted) (name2 : Option Dist) (quantile : ℝ → ℝ) (shifted : Bool) (number : NumArg) :
    Except Err SimilarOut :=
  match name2 with
  | none => valueErr
  | some name2 =>
    match number with
    | .other => valueErr
    | .int n =>
      if n < 2 then valueErr
      else
        let RVS := (Np.linspace (1 / 1000) (999 / 1000) 698).map quantile
        let RVS_filtered := RVS.filter fun x => decide (0 < x)
        if RVS_filtered.length < 175 then valueErr
        else
          match fitEverything argsort (fit RVS_filtered) RVS_filtered.length RVS_filtered
              (if shifted = false then .list shiftedNames else .none) (some "BIC") with
          | .error e => .error e
          | .ok res =>
            let ranked := (res.results.map Row.dist).erase name2
            match ranked.filterMap (objectOf (fitted RVS_filtered) shifted) with
            | [] => .error .indexError
            | o :: os => .ok ⟨o :: os, o⟩

end Reliability.Similar
