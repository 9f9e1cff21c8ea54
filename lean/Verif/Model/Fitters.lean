import Mathlib.Algebra.Order.Field.Basic
import Mathlib.Algebra.Order.AbsoluteValue.Basic
import Mathlib.Data.Real.Basic
import Verif.Model.Basic
import Verif.Model.Sorting
import Verif.Model.NumPy

/-!
# Model of the fitting machinery: `Fit_Everything`, `MLE_optimization`, `LS_optimization`

/repo/reliability/Fitters.py and /repo/reliability/Utils.py.  The individual fits, scipy's
`minimize` and numpy's argsort are oracles (arbitrary functions); everything the repository itself
decides from their answers is modelled.
-/

namespace Reliability.Fitters

open List

/-! ## Fit_Everything -/

/-- The sixteen distributions of `Fit_Everything` (Fitters.py:420-1143). -/
inductive Dist where
  | Weibull_2P | Weibull_3P | Gamma_2P | Gamma_3P | Lognormal_2P | Lognormal_3P | Exponential_1P
  | Exponential_2P | Normal_2P | Gumbel_2P | Loglogistic_2P | Loglogistic_3P | Beta_2P
  | Weibull_Mixture | Weibull_CR | Weibull_DS
  deriving DecidableEq, Repr

open Dist

/-- `str.upper()`.  Simplification: only a-z are changed (Python also maps non-ASCII letters). -/
def up (s : String) : String := String.ofList (s.toList.map Char.toUpper)

/-- The if/elif chain of accepted spellings, in order (Fitters.py:295-370). -/
def aliasTable : List (Dist × List String) :=
  [ (Weibull_2P, ["WEIBULL_2P", "WEIBULL2P", "WEIBULL2"]),
    (Weibull_3P, ["WEIBULL_3P", "WEIBULL3P", "WEIBULL3"]),
    (Gamma_2P, ["GAMMA_2P", "GAMMA2P", "GAMMA2"]),
    (Gamma_3P, ["GAMMA_3P", "GAMMA3P", "GAMMA3"]),
    (Lognormal_2P, ["LOGNORMAL_2P", "LOGNORMAL2P", "LOGNORMAL2"]),
    (Lognormal_3P, ["LOGNORMAL_3P", "LOGNORMAL3P", "LOGNORMAL3"]),
    (Exponential_1P, ["EXPONENTIAL_1P", "EXPONENTIAL1P", "EXPONENTIAL1", "EXPON_1P", "EXPON1P", "EXPON1"]),
    (Exponential_2P, ["EXPONENTIAL_2P", "EXPONENTIAL2P", "EXPONENTIAL2", "EXPON_2P", "EXPON2P", "EXPON2"]),
    (Normal_2P, ["NORMAL_2P", "NORMAL2P", "NORMAL2"]),
    (Gumbel_2P, ["GUMBEL_2P", "GUMBEL2P", "GUMBEL2"]),
    (Loglogistic_2P, ["LOGLOGISTIC_2P", "LOGLOGISTIC2P", "LOGLOGISTIC2"]),
    (Loglogistic_3P, ["LOGLOGISTIC_3P", "LOGLOGISTIC3P", "LOGLOGISTIC3"]),
    (Beta_2P, ["BETA_2P", "BETA2P", "BETA2"]),
    (Weibull_Mixture, ["WEIBULL MIXTURE", "WEIBULLMIXTURE", "WEIBULL_MIXTURE", "MIXTURE", "WEIBULLMIX",
      "WEIBULL_MIX", "MIX"]),
    (Weibull_CR, ["WEIBULL CR", "WEIBULLCR", "WEIBULL_CR", "WEIBULL_COMPETING_RISKS", "WEIBULL_COMPETINGRISKS",
      "WEIBULLCOMPETINGRISKS", "WEIBULL COMPETING RISKS", "WEIBULL COMPETINGRISKS", "COMPETINGRISKS",
      "COMPETING RISKS", "CR"]),
    (Weibull_DS, ["WEIBULLDS", "WEIBULL_DS", "WEIBULL DS", "WEIBULL_DEFECTIVE_SUBPOPULATION",
      "WEIBULL_DEFECTIVESUBPOPULATION", "WEIBULLDEFECTIVESUBPOPULATION", "WEIBULL DEFECTIVE SUBPOPULATION",
      "DEFECTIVE SUBPOPULATION", "DEFECTIVESUBPOPULATION", "DS"]) ]

/-- The first branch of the chain that matches; `none` is the `unknown_exclusions` branch
(Fitters.py:295-371). -/
def resolve (s : String) : Option Dist :=
  (aliasTable.find? fun e => decide (up s ∈ e.2)).map Prod.fst

/-- An entry of the `exclude` argument: a string, or something else. -/
inductive Item where
  | str (s : String)
  | other
  deriving DecidableEq, Repr

/-- The `exclude` argument. -/
inductive Exclude where
  | none
  | list (l : List Item)
  | ndarray (l : List Item)
  | other
  deriving DecidableEq, Repr

/-- The names appended when there are fewer than three failures (Fitters.py:274-284). -/
def threeP : List Item :=
  ["Weibull_3P", "Gamma_3P", "Loglogistic_3P", "Lognormal_3P", "Weibull_Mixture", "Weibull_CR"].map Item.str

/-- The working list `exclude` (Fitters.py:264-284). -/
def workingExclude (nf : Nat) : Exclude → Except Err (List Item)
  | .none => .ok (if nf < 3 then [] ++ threeP else [])
  | .list l => .ok (if nf < 3 then l ++ threeP else l)
  | .ndarray l => .ok (if nf < 3 then l ++ threeP else l)
  | .other => valueErr

/-- The caller's own object after the call: a list is extended in place (Fitters.py:275), an array was
copied by `list(...)` (Fitters.py:267). -/
def callerExclude (nf : Nat) : Exclude → Exclude
  | .list l => .list (if nf < 3 then l ++ threeP else l)
  | e => e

/-- The loop over `exclude` (Fitters.py:286-371). -/
def resolveAll : List Item → Except Err (List Dist)
  | [] => .ok []
  | .other :: _ => valueErr
  | .str s :: rest =>
    match resolveAll rest with
    | .error e => .error e
    | .ok ds => .ok (match resolve s with | some d => d :: ds | Option.none => ds)

/-- `excluded_distributions` including the automatic exclusion of Beta (Fitters.py:286-391). -/
noncomputable def excludedDists (nf : Nat) (allData : List ℝ) (e : Exclude) : Except Err (List Dist) :=
  match workingExclude nf e with
  | .error e => .error e
  | .ok l =>
    match resolveAll l with
    | .error e => .error e
    | .ok ds =>
      if Beta_2P ∉ ds then
        match allData.max? with
        | Option.none => valueErr
        | some m => .ok (if 1 ≤ m then ds ++ [Beta_2P] else ds)
      else .ok ds

/-- The order in which the distributions are fitted and appended to the frame (Fitters.py:420-1190). -/
def fitOrder : List Dist :=
  [Weibull_3P, Gamma_3P, Exponential_2P, Lognormal_3P, Normal_2P, Lognormal_2P, Gumbel_2P, Weibull_2P,
   Weibull_Mixture, Weibull_CR, Weibull_DS, Gamma_2P, Exponential_1P, Loglogistic_2P, Loglogistic_3P, Beta_2P]

/-- The criteria of one row of the frame; `AICc = none` is the string "Insufficient data".
Simplification: the parameter columns and the optimizer column are not represented, and the numbers are
real (no nan). -/
structure Row where
  dist : Dist
  loglik : ℝ
  AICc : Option ℝ
  BIC : ℝ
  AD : ℝ

/-- The frame before sorting (Fitters.py:419-1190); `fit` is the outcome of the individual fitters. -/
def frame (fit : Dist → Row) (excluded : List Dist) : List Row :=
  (fitOrder.filter fun d => d ∉ excluded).map fun d => { fit d with dist := d }

/-- The switch to BIC (Fitters.py:1192-1197).  `sort_by = none` stands for a value that is not a string. -/
def effectiveSort (sort_by : Option String) (rows : List Row) : Option String :=
  if (sort_by = some "AIC" ∨ sort_by = some "aic" ∨ sort_by = some "aicc" ∨ sort_by = some "AICc") ∧
      rows.any (fun r => r.AICc.isNone) = true then some "BIC" else sort_by

/-- The sort (Fitters.py:1198-1231).  Sorting the AICc column when it holds both numbers and strings is a
TypeError. -/
noncomputable def sortRows (argsort : List ℝ → List Nat) (sort_by : Option String) (rows : List Row) :
    Except Err (List Row) :=
  match effectiveSort sort_by rows with
  | Option.none => valueErr
  | some s =>
    if up s = "BIC" then .ok (sortValues argsort Row.BIC rows)
    else if up s ∈ ["AICC", "AIC"] then
      if rows.all (fun r => r.AICc.isSome) = true ∨ rows.all (fun r => r.AICc.isNone) = true then
        .ok (sortValues argsort (fun r => r.AICc.getD 0) rows)
      else .error .typeError
    else if up s = "AD" then .ok (sortValues argsort Row.AD rows)
    else if up s ∈ ["LOGLIK", "LOG LIK", "LOG-LIKELIHOOD", "LL", "LOGLIKELIHOOD", "LOG LIKELIHOOD"] then
      .ok (sortValues argsort (fun r => |r.loglik|) rows)
    else valueErr

/-- What `Fit_Everything` exposes. -/
structure FEResult where
  results : List Row
  best : Dist
  excluded : List Dist

/-- `Fit_Everything` (Fitters.py:257-1240) after `fitters_input_checking`. -/
noncomputable def fitEverything (argsort : List ℝ → List Nat) (fit : Dist → Row) (nf : Nat)
    (allData : List ℝ) (exclude : Exclude) (sort_by : Option String) : Except Err FEResult :=
  match excludedDists nf allData exclude with
  | .error e => .error e
  | .ok ex =>
    match sortRows argsort sort_by (frame fit ex) with
    | .error e => .error e
    | .ok rows =>
      match rows with
      | [] => valueErr
      | r :: rs => .ok ⟨r :: rs, r.dist, ex⟩

/-! ## MLE_optimization and ALT_MLE_optimization -/

section MLE

variable {K : Type _} [Field K] [LinearOrder K] {P : Type _}

/-- What `scipy.optimize.minimize` returns, as far as it is used. -/
structure OptResult (P : Type _) where
  success : Bool
  x : P

/-- State at the exit of the refinement loop. -/
structure LoopOut (K P : Type _) where
  runs : Nat
  LL : K
  result : Option (OptResult P)

/-- `while delta_LL > 0.001 and runs < 5` (Utils.py:5544-5587; Utils.py:5972-6024 for ALT).
`obj x` is the value appended to `LL_array`: `abs(2 * LL_func(x))`, for ALT `abs(-LL_func(x))`;
`prev` is `LL_array[-1]`.  `minimize` is the scipy call with everything but the guess fixed. -/
def mleLoop (minimize : P → OptResult P) (obj : P → K) (runs : Nat) (delta prev : K) (guess : P)
    (result : Option (OptResult P)) : LoopOut K P :=
  if (1 / 1000 : K) < delta ∧ runs < 5 then
    let r := minimize guess
    mleLoop minimize obj (runs + 1) |obj r.x - prev| (obj r.x) r.x (some r)
  else ⟨runs, prev, result⟩
termination_by 5 - runs
decreasing_by omega

/-- `loglik_optimizer` (Utils.py:5530-5588, 5968-6025): the loop started with `delta_LL = 1`,
`LL_array = [1000000]`, `runs = 0`. -/
def loglikOptimizer (minimize : P → OptResult P) (obj : P → K) (guess : P) : LoopOut K P :=
  mleLoop minimize obj 0 1 1000000 guess Option.none

/-- The `optimizer` argument: `none` or a string (Utils.py:5628-5661, 6078-6111). -/
def optimizersToTry : Option String → Except Err (List String × Bool)
  | Option.none => .ok (["TNC", "L-BFGS-B", "nelder-mead", "powell"], true)
  | some o =>
    if o ∈ ["best", "BEST", "all", "ALL"] then .ok (["TNC", "L-BFGS-B", "nelder-mead", "powell"], false)
    else if up o = "TNC" then .ok (["TNC"], false)
    else if up o ∈ ["L-BFGS-B", "LBFGSB"] then .ok (["L-BFGS-B"], false)
    else if up o = "POWELL" then .ok (["powell"], false)
    else if up o ∈ ["NELDER-MEAD", "NELDERMEAD"] then .ok (["nelder-mead"], false)
    else valueErr

/-- One optimizer that was tried. -/
structure Tried (K P : Type _) where
  name : String
  success : Bool
  LL : K
  x : P

/-- The loop over `optimizers_to_try` (Utils.py:5664-5688, 6114-6138).  `minimize opt` is scipy's minimize
with that method. -/
def tryAll (minimize : String → P → OptResult P) (obj : P → K) (guess : P) (stop : Bool) :
    List String → List (Tried K P)
  | [] => []
  | opt :: rest =>
    let out := loglikOptimizer (minimize opt) obj guess
    match out.result with
    | Option.none => []  -- unreachable: the loop body runs at least once
    | some r =>
      let t : Tried K P := ⟨opt, r.success, out.LL, r.x⟩
      if r.success = true ∧ stop = true then [t] else t :: tryAll minimize obj guess stop rest

/-- Python's `l.index(min(l))` over the successful entries (Utils.py:5766-5778, 6186-6197): the first entry
with the least value. -/
def firstMin : List (Tried K P) → Option (Tried K P)
  | [] => Option.none
  | t :: ts =>
    match firstMin ts with
    | Option.none => some t
    | some b => if b.LL < t.LL then some b else some t

/-- What the MLE classes report: `success`, `optimizer` and the parameter vector. -/
structure MLEOut (P : Type _) where
  success : Bool
  optimizer : Option String
  params : P

/-- `MLE_optimization` (Utils.py:5628-5827) and `ALT_MLE_optimization` (Utils.py:6078-6240), once the bounds
are chosen.  The parameter vector is returned whole; its components are stored under the names of
`paramNames`. -/
def mleOptimization (minimize : String → P → OptResult P) (obj : P → K) (guess : P)
    (optimizer : Option String) : Except Err (MLEOut P) :=
  match optimizersToTry optimizer with
  | .error e => .error e
  | .ok (opts, stop) =>
    match firstMin ((tryAll minimize obj guess stop opts).filter fun t => t.success) with
    | Option.none => .ok ⟨false, Option.none, guess⟩
    | some t => .ok ⟨true, some t.name, t.x⟩

/-- `force_shape` set (Utils.py:5566-5568, 5762-5764, 5823-5825): only the scale is optimised. -/
def mleForced (minimize : String → K → OptResult K) (obj : K → K) (guess : K × K) (force : K)
    (optimizer : Option String) : Except Err (MLEOut (K × K)) :=
  match mleOptimization minimize obj guess.1 optimizer with
  | .error e => .error e
  | .ok o => .ok ⟨o.success, o.optimizer, (o.params, force)⟩

/-- A bound pair `(lower, upper)`; `none` is unbounded. -/
abbrev Bound (K : Type _) := Option K × Option K

/-- `gamma0 = max(0, min(hstack([failures, right_censored])) - 0.0001)` (Utils.py:5591). -/
def gamma0 (failures rc : List K) : Except Err K :=
  match (failures ++ rc).min? with
  | Option.none => valueErr
  | some m => .ok (max 0 (m - 1 / 10000))

/-- The bounds table (Utils.py:5592-5625). -/
def mleBounds (func_name : String) (failures rc : List K) : Except Err (List (Bound K)) :=
  match gamma0 failures rc with
  | .error e => .error e
  | .ok g =>
    let pos : Bound K := (some 0, Option.none)
    let real : Bound K := (Option.none, Option.none)
    let loc : Bound K := (some 0, some g)
    let eps : Bound K := (some (1 / 10000), Option.none)
    if func_name ∈ ["Weibull_2P", "Gamma_2P", "Beta_2P", "Loglogistic_2P"] then .ok [pos, pos]
    else if func_name ∈ ["Weibull_3P", "Gamma_3P", "Loglogistic_3P"] then .ok [pos, pos, loc]
    else if func_name ∈ ["Normal_2P", "Gumbel_2P", "Lognormal_2P"] then .ok [real, pos]
    else if func_name = "Lognormal_3P" then .ok [real, pos, loc]
    else if func_name = "Exponential_1P" then .ok [pos]
    else if func_name = "Exponential_2P" then .ok [pos, loc]
    else if func_name = "Weibull_mixture" then .ok [eps, eps, eps, eps, (some (1 / 10000), some (9999 / 10000))]
    else if func_name = "Weibull_CR" then .ok [eps, eps, eps, eps]
    else if func_name = "Weibull_DSZI" then
      .ok [eps, eps, (some (1 / 100000), some 1), (some 0, some (99999 / 100000))]
    else if func_name = "Weibull_DS" then .ok [eps, eps, (some (1 / 100000), some 1)]
    else if func_name = "Weibull_ZI" then .ok [eps, eps, (some 0, some (99999 / 100000))]
    else valueErr

end MLE

/-! ## LS_optimization -/

/-- `LS_optimization` (Utils.py:5318-5379).  `ls m` is `least_squares(..., method=m)`, `nlls` the same call
without a method; `LL` is `LL_func` (or `LL_func_force`), a negative log-likelihood. -/
noncomputable def lsOptimization {P : Type _} (func_name : String) (LL : P → ℝ) (ls : String → P) (nlls : P)
    (method : String) : Except Err (P × String) :=
  if method ∉ ["RRX", "RRY", "LS", "NLLS"] then valueErr
  else if func_name ∈ ["Weibull_3P", "Gamma_2P", "Gamma_3P", "Beta_2P", "Lognormal_3P", "Loglogistic_3P",
      "Exponential_2P"] then .ok (nlls, "NLLS")
  else if method ∈ ["RRX", "RRY"] then .ok (ls method, method)
  else
    let loglik_RRX := -LL (ls "RRX")
    let loglik_RRY := -LL (ls "RRY")
    if |loglik_RRX| < |loglik_RRY| then .ok (ls "RRX", "RRX") else .ok (ls "RRY", "RRY")

end Reliability.Fitters
